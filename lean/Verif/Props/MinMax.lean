import Verif.Model.MinMax
import Verif.Lemmas.FlList
import Mathlib.Data.Rat.Floor
import Mathlib.Order.Bounds.Basic
import Mathlib.Algebra.Order.Ring.Rat
import Mathlib.Tactic.IntervalCases

/-!
# Property C27: `_calc_A_min_max`
-/

namespace Verif.Props
open Verif Verif.MinMax

section generic
variable {F : Type} [PyFloat F] [PyRint F]

omit [PyRint F] in
theorem minMax_loop (acMax acMin : List F) (window : Nat)
    (hl : acMax.length = acMin.length) :
    ∃ ar, forRangeM window acMax.length (acMax.map fun _ => (PyFloat.ofInt 0 : F))
        (minMaxBody acMax acMin window) = .ok ar ∧ ar.length = acMax.length ∧
      ∀ i, window ≤ i → i < acMax.length → ∃ m,
        npMin (slice acMin (i - window) (i + 1)) = .ok m ∧ rd ar i = rd acMax i -ᶠ m := by
  rcases Nat.le_total acMax.length window with hle | hle
  · rw [forRangeM_empty _ _ hle]
    exact ⟨_, rfl, by simp, fun i h1 h2 => by omega⟩
  have hmin : ∀ i, window ≤ i → i < acMax.length →
      ∃ m, npMin (slice acMin (i - window) (i + 1)) = .ok m := by
    intro i h1 h2
    cases hs : slice acMin (i - window) (i + 1) with
    | nil =>
      have := congrArg List.length hs
      simp [slice] at this
      omega
    | cons x xs => exact ⟨_, rfl⟩
  have key : ∀ n, window ≤ n → n ≤ acMax.length →
      ∃ ar, forRangeM window n (acMax.map fun _ => (PyFloat.ofInt 0 : F))
        (minMaxBody acMax acMin window) = .ok ar ∧ ar.length = acMax.length ∧
      ∀ i, window ≤ i → i < n → ∃ m,
        npMin (slice acMin (i - window) (i + 1)) = .ok m ∧ rd ar i = rd acMax i -ᶠ m := by
    intro n hn
    induction n, hn using Nat.le_induction with
    | base =>
      intro _
      rw [forRangeM_empty _ _ (Nat.le_refl _)]
      exact ⟨_, rfl, by simp, fun i h1 h2 => by omega⟩
    | succ n hn ih =>
      intro hn2
      obtain ⟨ar, h1, h2, h3⟩ := ih (by omega)
      obtain ⟨m, hm⟩ := hmin n hn (by omega)
      rw [forRangeM_succ _ _ hn, h1]
      refine ⟨ar.set n (rd acMax n -ᶠ m), ?_, by simpa using h2, ?_⟩
      · show minMaxBody acMax acMin window n ar = _
        unfold minMaxBody
        rw [hm]; rfl
      · intro i hi1 hi2
        rcases Nat.lt_or_ge i n with h | h
        · rw [rd_set_ne _ (by omega)]
          exact h3 i hi1 h
        · obtain rfl : i = n := by omega
          exact ⟨m, hm, rd_set_self _ (by omega)⟩
  exact key acMax.length hle le_rfl

/-- Everything the function does after the two level series are computed. -/
theorem minMax_out (txMin txMax rxMin rxMax : List F) (gT gR : F) (window : Nat)
    (h1 : txMax.length = rxMin.length) (h2 : txMin.length = rxMax.length)
    (h3 : txMax.length = txMin.length) :
    ∃ out, calcAMinMax txMin txMax rxMin rxMax gT gR window = .ok out ∧
      out.length = txMax.length ∧
      (∀ i, i < window → i < txMax.length → out[i]? = some PyFloat.nan) ∧
      ∀ i, window ≤ i → i < txMax.length → ∃ m,
        npMin (slice (fillNan (List.zipWith
          (fun a b => a -ᶠ b +ᶠ (gT +ᶠ gR) /ᶠ PyFloat.ofInt 2) txMin rxMax)) (i - window) (i + 1))
          = .ok m ∧
        out[i]? = some (
          let x := rd (fillNan (List.zipWith
            (fun a b => a -ᶠ b -ᶠ (gT +ᶠ gR) /ᶠ PyFloat.ofInt 2) txMax rxMin)) i -ᶠ m
          if x <ᶠ PyFloat.ofInt 0 then PyFloat.ofInt 0 else x) := by
  unfold calcAMinMax
  rw [if_neg (by omega)]
  dsimp only
  set acMax := fillNan (List.zipWith
    (fun a b => a -ᶠ b -ᶠ (gT +ᶠ gR) /ᶠ PyFloat.ofInt 2) txMax rxMin) with hmax
  set acMin := fillNan (List.zipWith
    (fun a b => a -ᶠ b +ᶠ (gT +ᶠ gR) /ᶠ PyFloat.ofInt 2) txMin rxMax) with hmin
  have hlm : acMax.length = txMax.length := by simp [hmax, fillNan]; omega
  have hln : acMin.length = txMax.length := by simp [hmin, fillNan]; omega
  obtain ⟨ar, e1, e2, e3⟩ := minMax_loop acMax acMin window (by omega)
  rw [e1]
  dsimp only [Except.map]
  refine ⟨_, rfl, ?_, ?_, ?_⟩
  · rw [fillSlice, length_setSlice (by simp)]
    simp; omega
  · intro i hi hi2
    rw [fillSlice, getElem?_setSlice (by simp), if_pos (by simp; omega), List.getElem?_replicate,
      if_pos (by simp; omega)]
  · intro i hi hi2
    obtain ⟨m, hm, hv⟩ := e3 i hi (by omega)
    refine ⟨m, hm, ?_⟩
    rw [fillSlice, getElem?_setSlice (by simp), if_neg (by simp; omega), List.getElem?_map,
      getElem?_eq_rd (by omega), hv]
    rfl

end generic

variable {K : Type} [Field K] [LinearOrder K] [IsStrictOrderedRing K] [FloorRing K]

omit [IsStrictOrderedRing K] in
/-- **C27** (all inputs, NaN and infinities included) The result has the length of the
input, the first `window` values are NaN, and no value is ever negative. -/
theorem C27_minmax_nonneg (txMin txMax rxMin rxMax : List (Fl K)) (gT gR : Fl K) (window : Nat)
    (h1 : txMax.length = rxMin.length) (h2 : txMin.length = rxMax.length)
    (h3 : txMax.length = txMin.length) :
    ∃ out, calcAMinMax txMin txMax rxMin rxMax gT gR window = .ok out ∧
      out.length = txMax.length ∧
      (∀ i, i < window → i < txMax.length → out[i]? = some .nan) ∧
      (∀ x ∈ out, (x <ᶠ Fl.fin 0) = false) := by
  obtain ⟨out, e1, e2, e3, e4⟩ := minMax_out txMin txMax rxMin rxMax gT gR window h1 h2 h3
  refine ⟨out, e1, e2, e3, ?_⟩
  intro x hx
  obtain ⟨i, hi, rfl⟩ := List.mem_iff_getElem.mp hx
  have hi2 : i < txMax.length := by omega
  have hget : out[i]? = some out[i] := List.getElem?_eq_getElem hi
  rcases Nat.lt_or_ge i window with h | h
  · rw [e3 i h hi2] at hget
    rw [← Option.some.inj hget]
    simp
  · obtain ⟨m, _, hv⟩ := e4 i h hi2
    rw [hv] at hget
    rw [← Option.some.inj hget]
    dsimp only
    split_ifs with hc
    · simp
    · simpa using hc

/-- **C27** `np.rint`, used for the fill value, is the nearest integer; in a tie it is even. -/
theorem C27_rint_nearest (x : K) :
    |x - (rintK x : K)| ≤ 1/2 ∧ (|x - (rintK x : K)| = 1/2 → rintK x % 2 = 0) := by
  have h0 : (⌊x⌋ : K) ≤ x := Int.floor_le x
  have h1 : x < (⌊x⌋ : K) + 1 := Int.lt_floor_add_one x
  unfold rintK
  dsimp only
  split_ifs with a b c
  · rw [abs_of_nonneg (by linarith)]
    exact ⟨by linarith, fun h => by linarith⟩
  · push_cast
    rw [abs_of_nonpos (by linarith)]
    exact ⟨by linarith, fun h => by linarith⟩
  · rw [abs_of_nonneg (by linarith)]
    exact ⟨by linarith, fun _ => c⟩
  · push_cast
    rw [abs_of_nonpos (by linarith)]
    exact ⟨by linarith, fun _ => by omega⟩

/-- Differences of the pairs without missing value, shifted by `bias`. -/
def validLevels (bias : K) : List (Fl K) → List (Fl K) → List K
  | .fin a :: t, .fin b :: r => (a - b + bias) :: validLevels bias t r
  | _ :: t, _ :: r => validLevels bias t r
  | _, _ => []

/-- The level series the zero-level correction works on: `a - b + bias` for complete pairs, the rounded
mean of those for the others. -/
def filledLevels (bias : K) (t r : List (Fl K)) : List K :=
  List.zipWith (fun a b => match a, b with
    | Fl.fin x, Fl.fin y => x - y + bias
    | _, _ => (rintK ((validLevels bias t r).sum / ((validLevels bias t r).length : K)) : K)) t r

/-- A series of numbers and missing values (no infinities). -/
def NumOrNan (xs : List (Fl K)) : Prop := ∀ x ∈ xs, x = .nan ∨ ∃ y, x = .fin y

omit [IsStrictOrderedRing K] [FloorRing K] in
theorem validLevels_eq (bias : K) (f : Fl K → Fl K → Fl K)
    (hf : ∀ x y, f (.fin x) (.fin y) = .fin (x - y + bias)) (hn1 : ∀ b, f .nan b = .nan)
    (hn2 : ∀ a, f a .nan = .nan) :
    ∀ (t r : List (Fl K)), NumOrNan t → NumOrNan r →
    (List.zipWith f t r).filter (fun x => !(isNaN x)) = (validLevels bias t r).map Fl.fin := by
  intro t
  induction t with
  | nil => intro r _ _; cases r <;> simp [validLevels]
  | cons a t ih =>
    intro r ht hr
    cases r with
    | nil => cases a <;> simp [validLevels]
    | cons b r =>
      have ih' := ih r (fun x hx => ht x (List.mem_cons_of_mem _ hx))
        (fun x hx => hr x (List.mem_cons_of_mem _ hx))
      rcases ht a List.mem_cons_self with rfl | ⟨x, rfl⟩
      · simp [hn1, ih', validLevels]
      · rcases hr b List.mem_cons_self with rfl | ⟨y, rfl⟩
        · simp [hn2, ih', validLevels]
        · simp [hf, ih', validLevels]

omit [IsStrictOrderedRing K] in
theorem pyRint_fl (x : Fl K) : PyRint.rint x = rint x := rfl

theorem fillNan_eq (bias : K) (f : Fl K → Fl K → Fl K)
    (hf : ∀ x y, f (.fin x) (.fin y) = .fin (x - y + bias)) (hn1 : ∀ b, f .nan b = .nan)
    (hn2 : ∀ a, f a .nan = .nan) (t r : List (Fl K)) (ht : NumOrNan t) (hr : NumOrNan r)
    (hv : validLevels bias t r ≠ []) :
    fillNan (List.zipWith f t r) = (filledLevels bias t r).map Fl.fin := by
  unfold fillNan filledLevels
  have hne : (validLevels bias t r).length ≠ 0 := fun h => hv (List.length_eq_zero_iff.mp h)
  rw [npNanmean, validLevels_eq bias f hf hn1 hn2 t r ht hr, npMean_map_fin hne]
  generalize (validLevels bias t r).sum / ((validLevels bias t r).length : K) = q
  clear hv hne
  induction t generalizing r with
  | nil => cases r <;> simp
  | cons a t ih =>
    cases r with
    | nil => simp
    | cons b r =>
      have ih' := ih r (fun x hx => ht x (List.mem_cons_of_mem _ hx))
        (fun x hx => hr x (List.mem_cons_of_mem _ hx))
      rcases ht a List.mem_cons_self with rfl | ⟨x, rfl⟩
      · simpa [hn1, pyRint_fl, rint] using ih'
      · rcases hr b List.mem_cons_self with rfl | ⟨y, rfl⟩
        · simpa [hn2, pyRint_fl, rint] using ih'
        · simpa [hf] using ih'

omit [IsStrictOrderedRing K] [FloorRing K] in
theorem npMin_map_fin (y : K) (ys : List K) :
    ∃ m, npMin ((y :: ys).map Fl.fin) = .ok (.fin m) ∧ IsLeast {z | z ∈ y :: ys} m := by
  have key : ∀ (ys : List K) (y : K), ∃ m,
      (ys.map Fl.fin).foldl npMinimum (Fl.fin y) = Fl.fin m ∧ IsLeast {z | z ∈ y :: ys} m := by
    intro ys
    induction ys with
    | nil => intro y; exact ⟨y, rfl, by simp, fun z hz => by simp_all⟩
    | cons z ys ih =>
      intro y
      obtain ⟨m, h1, h2, h3⟩ := ih (min y z)
      refine ⟨m, ?_, ?_, ?_⟩
      · rw [List.map_cons, List.foldl_cons]
        have : npMinimum (Fl.fin y) (Fl.fin z) = Fl.fin (min y z) := by
          simp [npMinimum, pyMin_fin]
        rw [this, h1]
      · simp only [List.mem_cons, Set.mem_ofPred_eq] at h2 ⊢
        rcases h2 with h2 | h2
        · rcases le_total y z with h | h
          · left; rw [h2, min_eq_left h]
          · right; left; rw [h2, min_eq_right h]
        · exact Or.inr (Or.inr h2)
      · intro w hw
        simp only [List.mem_cons, Set.mem_ofPred_eq] at hw
        have hmin : m ≤ min y z := h3 (by simp)
        rcases hw with rfl | rfl | hw
        · exact hmin.trans (min_le_left _ _)
        · exact hmin.trans (min_le_right _ _)
        · exact h3 (by simp [hw])
  obtain ⟨m, h1, h2⟩ := key ys y
  exact ⟨m, by rw [List.map_cons]; exact congrArg _ h1, h2⟩

/-- **C27** For series of numbers and missing values with at least one complete pair each: from
step `window` on the result is the upper level minus the smallest lower level of the last
`window + 1` steps, or 0 if that is negative. -/
theorem C27_minmax_value (txMin txMax rxMin rxMax : List (Fl K)) (gT gR : K) (window : Nat)
    (h1 : txMax.length = rxMin.length) (h2 : txMin.length = rxMax.length)
    (h3 : txMax.length = txMin.length)
    (n1 : NumOrNan txMin) (n2 : NumOrNan txMax) (n3 : NumOrNan rxMin) (n4 : NumOrNan rxMax)
    (v1 : validLevels (-((gT + gR) / 2)) txMax rxMin ≠ [])
    (v2 : validLevels ((gT + gR) / 2) txMin rxMax ≠ []) :
    ∃ out, calcAMinMax txMin txMax rxMin rxMax (.fin gT) (.fin gR) window = .ok out ∧
      ∀ i a, window ≤ i → (filledLevels (-((gT + gR) / 2)) txMax rxMin)[i]? = some a →
        ∃ m, IsLeast {z | ∃ k, i - window ≤ k ∧ k ≤ i ∧
            (filledLevels ((gT + gR) / 2) txMin rxMax)[k]? = some z} m ∧
          out[i]? = some (.fin (max 0 (a - m))) := by
  obtain ⟨out, e1, e2, e3, e4⟩ :=
    minMax_out txMin txMax rxMin rxMax (.fin gT) (.fin gR) window h1 h2 h3
  have hb : (Fl.fin gT +ᶠ Fl.fin gR) /ᶠ PyFloat.ofInt 2 = Fl.fin ((gT + gR) / 2) := by
    rw [Fl.pf_add_fin, Fl.pf_ofInt, Fl.pf_div_fin_ne _ _ (by simp)]
    simp
  rw [hb] at e4
  rw [fillNan_eq (-((gT + gR) / 2)) _ (fun x y => by simp; ring) (fun b => by simp)
      (fun a => by simp) txMax rxMin n2 n3 v1,
    fillNan_eq ((gT + gR) / 2) _ (fun x y => by simp) (fun b => by simp)
      (fun a => by simp) txMin rxMax n1 n4 v2] at e4
  set um := filledLevels (-((gT + gR) / 2)) txMax rxMin with hum
  set lm := filledLevels ((gT + gR) / 2) txMin rxMax with hlm
  have lu : um.length = txMax.length := by simp [hum, filledLevels]; omega
  have ll : lm.length = txMax.length := by simp [hlm, filledLevels]; omega
  refine ⟨out, e1, ?_⟩
  intro i a hi ha
  have hiu : i < um.length := by
    by_contra hc
    rw [List.getElem?_eq_none (by omega)] at ha; cases ha
  obtain ⟨m, hm, hv⟩ := e4 i hi (by omega)
  have hslice : slice (lm.map Fl.fin) (i - window) (i + 1)
      = (slice lm (i - window) (i + 1)).map Fl.fin := by
    simp [slice, List.map_take, List.map_drop]
  rw [hslice] at hm
  have hmem : ∀ z, z ∈ slice lm (i - window) (i + 1) ↔
      ∃ k, i - window ≤ k ∧ k ≤ i ∧ lm[k]? = some z := by
    intro z
    rw [List.mem_iff_getElem?]
    constructor
    · rintro ⟨j, hj⟩
      rw [slice, List.getElem?_drop, List.getElem?_take] at hj
      split_ifs at hj with hc
      exact ⟨i - window + j, by omega, by omega, hj⟩
    · rintro ⟨k, k1, k2, k3⟩
      refine ⟨k - (i - window), ?_⟩
      rw [slice, List.getElem?_drop, List.getElem?_take, if_pos (by omega)]
      rw [(by omega : i - window + (k - (i - window)) = k)]
      exact k3
  cases hs : slice lm (i - window) (i + 1) with
  | nil =>
    rw [hs] at hm
    cases hm
  | cons y ys =>
    obtain ⟨m', hm', hl⟩ := npMin_map_fin y ys
    rw [hs, hm'] at hm
    obtain rfl : Fl.fin m' = m := by injection hm
    refine ⟨m', ?_, ?_⟩
    · convert hl using 1
      ext z
      rw [Set.mem_ofPred_eq, Set.mem_ofPred_eq, ← hs, hmem z]
    · rw [hv]
      have : um[i] = a := by
        rw [List.getElem?_eq_getElem hiu] at ha; simpa using ha
      rw [rd_map_fin hiu, this]
      simp only [Fl.pf_sub_fin, Fl.pf_ofInt, Fl.pf_lt_fin, Int.cast_zero, decide_eq_true_eq]
      congr 1
      split_ifs with hc
      · rw [max_eq_left hc.le]
      · rw [max_eq_right (not_lt.mp hc)]

example : calcAMinMax [Fl.fin (0:ℚ), .fin 0, .fin 0, .fin 0] [.fin 1, .fin 1, .nan, .fin 1]
    [.fin (-50), .fin (-50), .fin (-60), .fin (-70)] [.fin (-50), .fin (-49), .fin (-55), .fin (-60)]
    (.fin 1) (.fin 1) 1
    = .ok [.nan, .fin 0, .fin 7, .fin 14] := by decide +kernel

example : NumOrNan [Fl.fin (1:ℚ), .nan] ∧
    validLevels (-1) [Fl.fin (1:ℚ), .nan] [.fin (-50), .fin (-60)] ≠ [] := by
  constructor
  · intro x hx
    simp at hx
    rcases hx with rfl | rfl
    · exact Or.inr ⟨_, rfl⟩
    · exact Or.inl rfl
  · simp [validLevels]

end Verif.Props
