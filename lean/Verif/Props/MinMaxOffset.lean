import Verif.Props.MinMax

/-!
# Property C122: `_calc_A_min_max` and level offsets, window length and bias
-/

namespace Verif.Props
open Verif Verif.MinMax

variable {K : Type} [Field K] [LinearOrder K] [IsStrictOrderedRing K] [FloorRing K]

theorem rintK_sub_even (x : K) (j : ℤ) : rintK (x - ((2 * j : ℤ) : K)) = rintK x - 2 * j := by
  unfold rintK
  dsimp only
  rw [Int.floor_sub_intCast]
  have e : x - ((2 * j : ℤ) : K) - ((⌊x⌋ - 2 * j : ℤ) : K) = x - (⌊x⌋ : K) := by push_cast; ring
  rw [e]
  have p : (⌊x⌋ - 2 * j) % 2 = 0 ↔ ⌊x⌋ % 2 = 0 := by omega
  simp only [p]
  split_ifs <;> omega

omit [IsStrictOrderedRing K] in
theorem fl_isNaN_sub_fin (x : Fl K) (c : K) : PyFloat.isNaN (x -ᶠ Fl.fin c) = PyFloat.isNaN x := by cases x <;> rfl

theorem npNanmean_sub {xs : List (Fl K)} (h : NumOrNan xs) (c : K) :
    npNanmean (xs.map (· -ᶠ Fl.fin c)) = npNanmean xs -ᶠ .fin c := by
  obtain ⟨ys, hys⟩ : ∃ ys : List K, xs.filter (fun x => !(isNaN x)) = ys.map Fl.fin := by
    induction xs with
    | nil => exact ⟨[], rfl⟩
    | cons x xs ih =>
      obtain ⟨ys, hys⟩ := ih (fun z hz => h z (List.mem_cons_of_mem _ hz))
      rcases h x List.mem_cons_self with rfl | ⟨y, rfl⟩
      · exact ⟨ys, by simpa using hys⟩
      · exact ⟨y :: ys, by simpa using hys⟩
  have e : (xs.map (· -ᶠ Fl.fin c)).filter (fun x => !(isNaN x)) = (ys.map fun y => y - c).map Fl.fin := by
    rw [List.filter_map]
    have : ((fun x : Fl K => !(isNaN x)) ∘ fun x => x -ᶠ Fl.fin c) = fun x => !(isNaN x) := by
      funext x
      show (!(PyFloat.isNaN (x -ᶠ Fl.fin c))) = _
      rw [fl_isNaN_sub_fin]
    rw [this, hys, List.map_map, List.map_map]
    apply List.map_congr_left
    intro y _
    exact Fl.pf_sub_fin _ _
  unfold npNanmean
  rw [e, hys]
  cases ys with
  | nil =>
    have h0 : npMean ([] : List (Fl K)) = .nan := by
      show (PyFloat.ofInt 0 : Fl K) /ᶠ PyFloat.ofInt ((0 : ℕ) : ℤ) = .nan
      rw [Fl.pf_ofInt, Fl.pf_ofInt, Fl.pf_div_fin, if_pos (by simp)]
      simp [Fl.infSign]
    show npMean ([] : List (Fl K)) = npMean ([] : List (Fl K)) -ᶠ .fin c
    rw [h0]
    rfl
  | cons y ys =>
    rw [npMean_map_fin (by simp), npMean_map_fin (by simp)]
    rw [Fl.pf_sub_fin]
    congr 1
    have hs : ∀ l : List K, (l.map fun y => y - c).sum = l.sum - l.length * c := by
      intro l
      induction l with
      | nil => simp
      | cons a l ih => simp only [List.map_cons, List.sum_cons, List.length_cons, ih]; push_cast; ring
    rw [hs, List.length_map]
    have : (((y :: ys).length : ℕ) : K) ≠ 0 := by
      rw [List.length_cons]; exact Nat.cast_ne_zero.mpr (Nat.succ_ne_zero _)
    rw [sub_div, mul_div_cancel_left₀ _ this]

/-- A shift by `c` commutes with filling the gaps if there are none or if `c` is an even whole number. -/
theorem fillNan_sub {xs : List (Fl K)} (h : NumOrNan xs) (c : K)
    (hc : (∀ x ∈ xs, isNaN x = false) ∨ ∃ j : ℤ, c = ((2 * j : ℤ) : K)) :
    fillNan (xs.map (· -ᶠ Fl.fin c)) = (fillNan xs).map (· -ᶠ Fl.fin c) := by
  unfold fillNan
  rw [List.map_map, List.map_map]
  apply List.map_congr_left
  intro x hx
  simp only [Function.comp]
  have e : isNaN (x -ᶠ Fl.fin c) = isNaN x := fl_isNaN_sub_fin x c
  rw [e]
  by_cases hn : isNaN x = true
  · rw [if_pos hn, if_pos hn]
    rcases hc with hc | ⟨j, rfl⟩
    · rw [hc x hx] at hn; cases hn
    · rw [npNanmean_sub h]
      simp only [pyRint_fl]
      cases npNanmean xs with
      | fin q =>
        rw [Fl.pf_sub_fin]
        simp only [rint, rintK_sub_even, Fl.pf_sub_fin]
        push_cast; rfl
      | nan => rfl
      | pinf => rfl
      | ninf => rfl
  · rw [if_neg hn, if_neg hn]

omit [FloorRing K] in
theorem npMinimum_sub (a b : Fl K) (c : K) :
    npMinimum (a -ᶠ .fin c) (b -ᶠ .fin c) = npMinimum a b -ᶠ .fin c := by
  cases a <;> cases b <;> try rfl
  rename_i x y
  simp only [npMinimum, pyMin, Fl.pf_sub_fin, Fl.pf_lt_fin, sub_lt_sub_iff_right]
  by_cases h : y < x <;> simp [h]

omit [FloorRing K] in
theorem npMin_sub (l : List (Fl K)) (c : K) :
    npMin (l.map (· -ᶠ Fl.fin c)) = (npMin l).map (· -ᶠ Fl.fin c) := by
  cases l with
  | nil => rfl
  | cons x xs =>
    show Except.ok _ = Except.ok _
    congr 1
    induction xs generalizing x with
    | nil => rfl
    | cons y ys ih => simp only [List.map_cons, List.foldl_cons]; rw [npMinimum_sub]; exact ih _

omit [IsStrictOrderedRing K] [FloorRing K] in
theorem fl_sub_sub_sub (x m : Fl K) (c : K) : (x -ᶠ .fin c) -ᶠ (m -ᶠ .fin c) = x -ᶠ m := by
  cases x <;> cases m <;> try rfl
  simp only [Fl.pf_sub_fin]
  congr 1
  ring

omit [IsStrictOrderedRing K] [FloorRing K] in
theorem rd_map_sub (l : List (Fl K)) (c : K) (i : Nat) : rd (l.map (· -ᶠ Fl.fin c)) i = rd l i -ᶠ .fin c := by
  unfold rd
  rw [List.getD_eq_getElem?_getD, List.getD_eq_getElem?_getD, List.getElem?_map]
  cases l[i]? <;> rfl

omit [FloorRing K] in
theorem minMaxBody_sub (U L : List (Fl K)) (c : K) (window : Nat) :
    minMaxBody (U.map (· -ᶠ Fl.fin c)) (L.map (· -ᶠ Fl.fin c)) window = minMaxBody U L window := by
  funext i ar
  unfold minMaxBody
  have e : slice (L.map (· -ᶠ Fl.fin c)) (i - window) (i + 1) = (slice L (i - window) (i + 1)).map (· -ᶠ Fl.fin c) := by
    simp only [slice, List.map_drop, List.map_take]
  rw [e, npMin_sub, rd_map_sub]
  cases npMin (slice L (i - window) (i + 1)) with
  | error _ => rfl
  | ok m => simp only [Except.map, fl_sub_sub_sub]

/-- No missing value in the differences of two series. -/
def NoGaps (t r : List (Fl K)) : Prop := ∀ x ∈ List.zipWith (fun a b => a -ᶠ b) t r, isNaN x = false

/-- **C122** A level offset. All series are numbers or missing. If a constant is added to both received levels (a change
of the receiver gain), the attenuation stays the same, provided there are no gaps or the constant is an even whole number. -/
theorem C122_offset (txMin txMax rxMin rxMax : List (Fl K)) (gT gR c : K) (window : Nat)
    (n1 : NumOrNan txMin) (n2 : NumOrNan txMax) (n3 : NumOrNan rxMin) (n4 : NumOrNan rxMax)
    (hc : (NoGaps txMax rxMin ∧ NoGaps txMin rxMax) ∨ ∃ j : ℤ, c = ((2 * j : ℤ) : K)) :
    calcAMinMax txMin txMax (rxMin.map (· +ᶠ Fl.fin c)) (rxMax.map (· +ᶠ Fl.fin c)) (.fin gT) (.fin gR) window
      = calcAMinMax txMin txMax rxMin rxMax (.fin gT) (.fin gR) window := by
  have hb : (Fl.fin gT +ᶠ Fl.fin gR) /ᶠ PyFloat.ofInt 2 = Fl.fin ((gT + gR) / 2) := by
    rw [Fl.pf_add_fin, Fl.pf_ofInt, Fl.pf_div_fin_ne _ _ (by simp)]
    simp
  unfold calcAMinMax
  simp only [List.length_map]
  by_cases hl : txMax.length ≠ rxMin.length ∨ txMin.length ≠ rxMax.length ∨ txMax.length ≠ txMin.length
  · rw [if_pos hl, if_pos hl]
  rw [if_neg hl, if_neg hl]
  rw [hb]
  have shift : ∀ (f : Fl K → Fl K → Fl K) (t r : List (Fl K)), (∀ a b, f a (b +ᶠ Fl.fin c) = f a b -ᶠ .fin c) →
      List.zipWith f t (r.map (· +ᶠ Fl.fin c)) = (List.zipWith f t r).map (· -ᶠ Fl.fin c) := by
    intro f t
    induction t with
    | nil => intro r _; cases r <;> rfl
    | cons a t ih =>
      intro r hf
      cases r with
      | nil => rfl
      | cons b r => simp only [List.map_cons, List.zipWith_cons_cons, hf, ih r hf]
  have num : ∀ (f : Fl K → Fl K → Fl K) (t r : List (Fl K)), NumOrNan t → NumOrNan r →
      (∀ x y, ∃ z, f (.fin x) (.fin y) = .fin z) → (∀ b, f .nan b = .nan) → (∀ a, f a .nan = .nan) →
      NumOrNan (List.zipWith f t r) := by
    intro f t r ht hr h1 h2 h3 x hx
    obtain ⟨k, hk, rfl⟩ := List.mem_iff_getElem.mp hx
    rw [List.length_zipWith] at hk
    rw [List.getElem_zipWith]
    rcases ht _ (List.getElem_mem (by omega : k < t.length)) with h | ⟨y, h⟩
    · left; rw [h, h2]
    · rcases hr _ (List.getElem_mem (by omega : k < r.length)) with h' | ⟨y', h'⟩
      · left; rw [h', h3]
      · right; rw [h, h']; exact h1 _ _
  have comp : ∀ (f : Fl K → Fl K → Fl K) (t r : List (Fl K)),
      (∀ a b, isNaN (f a b) = isNaN (a -ᶠ b)) → NoGaps t r → ∀ x ∈ List.zipWith f t r, isNaN x = false := by
    intro f t r hf hcc x hx
    obtain ⟨k, hk, rfl⟩ := List.mem_iff_getElem.mp hx
    rw [List.length_zipWith] at hk
    rw [List.getElem_zipWith, hf]
    have := hcc ((List.zipWith (fun a b => a -ᶠ b) t r)[k]'(by rw [List.length_zipWith]; exact hk)) (List.getElem_mem _)
    rwa [List.getElem_zipWith] at this
  have s1 := shift (fun a b => a -ᶠ b -ᶠ Fl.fin ((gT + gR) / 2)) txMax rxMin (by
    intro a b
    cases a <;> cases b <;> try rfl
    simp only [Fl.pf_sub_fin, Fl.pf_add_fin]; congr 1; ring)
  have s2 := shift (fun a b => a -ᶠ b +ᶠ Fl.fin ((gT + gR) / 2)) txMin rxMax (by
    intro a b
    cases a <;> cases b <;> try rfl
    simp only [Fl.pf_sub_fin, Fl.pf_add_fin]; congr 1; ring)
  have m1 := num (fun a b => a -ᶠ b -ᶠ Fl.fin ((gT + gR) / 2)) txMax rxMin n2 n3 (fun x y => ⟨_, rfl⟩)
    (fun b => by simp) (fun a => by simp)
  have m2 := num (fun a b => a -ᶠ b +ᶠ Fl.fin ((gT + gR) / 2)) txMin rxMax n1 n4 (fun x y => ⟨_, rfl⟩)
    (fun b => by simp) (fun a => by simp)
  have k1 : (∀ x ∈ List.zipWith (fun a b => a -ᶠ b -ᶠ Fl.fin ((gT + gR) / 2)) txMax rxMin, isNaN x = false) ∨
      ∃ j : ℤ, c = ((2 * j : ℤ) : K) :=
    hc.imp_left fun h => comp _ txMax rxMin (fun a b => by cases a <;> cases b <;> rfl) h.1
  have k2 : (∀ x ∈ List.zipWith (fun a b => a -ᶠ b +ᶠ Fl.fin ((gT + gR) / 2)) txMin rxMax, isNaN x = false) ∨
      ∃ j : ℤ, c = ((2 * j : ℤ) : K) :=
    hc.imp_left fun h => comp _ txMin rxMax (fun a b => by cases a <;> cases b <;> rfl) h.2
  rw [s1, s2, fillNan_sub m1 c k1, fillNan_sub m2 c k2, minMaxBody_sub]
  simp only [List.map_map, List.length_map]
  rfl

omit [IsStrictOrderedRing K] in
/-- **C122** A constant added to all four levels changes nothing, whatever is missing or infinite. -/
theorem C122_common (txMin txMax rxMin rxMax : List (Fl K)) (gT gR : Fl K) (c : K) (window : Nat) :
    calcAMinMax (txMin.map (· +ᶠ Fl.fin c)) (txMax.map (· +ᶠ Fl.fin c)) (rxMin.map (· +ᶠ Fl.fin c))
      (rxMax.map (· +ᶠ Fl.fin c)) gT gR window = calcAMinMax txMin txMax rxMin rxMax gT gR window := by
  unfold calcAMinMax
  simp only [List.length_map]
  have e : ∀ (a b : Fl K), (a +ᶠ Fl.fin c) -ᶠ (b +ᶠ Fl.fin c) = a -ᶠ b := by
    intro a b
    cases a <;> cases b <;> try rfl
    simp only [Fl.pf_sub_fin, Fl.pf_add_fin]; congr 1; ring
  simp only [List.zipWith_map, e]

/-- **C122** With gaps an odd offset matters: the gaps are filled with a mean rounded to the nearest even number in ties.
Here all received levels (in dBm) rise by 1 dB and the attenuation at the last step drops from 1 dB to 0. -/
theorem C122_odd_offset_matters :
    ∃ (txMin txMax rxMin rxMax : List (Fl ℚ)),
      calcAMinMax txMin txMax rxMin rxMax (.fin 0) (.fin 0) 1 = .ok [.nan, .fin 0, .fin 1] ∧
      calcAMinMax txMin txMax (rxMin.map (· +ᶠ Fl.fin 1)) (rxMax.map (· +ᶠ Fl.fin 1)) (.fin 0) (.fin 0) 1
        = .ok [.nan, .fin 0, .fin 0] := by
  refine ⟨[.fin 0, .fin 0, .nan], [.fin 0, .fin 0, .nan], [.fin 0, .fin 1, .fin 0], [.fin 0, .fin 1, .fin 0], ?_, ?_⟩
  · decide +kernel
  · decide +kernel

/-- **C122** A longer window never lowers the attenuation (where both have left their first steps behind). -/
theorem C122_window_mono (txMin txMax rxMin rxMax : List (Fl K)) (gT gR : K) (w w' : Nat) (hw : w ≤ w')
    (h1 : txMax.length = rxMin.length) (h2 : txMin.length = rxMax.length)
    (h3 : txMax.length = txMin.length)
    (n1 : NumOrNan txMin) (n2 : NumOrNan txMax) (n3 : NumOrNan rxMin) (n4 : NumOrNan rxMax)
    (v1 : ∃ i, ∃ (ha : i < txMax.length) (hb : i < rxMin.length), ∃ x y, txMax[i] = .fin x ∧ rxMin[i] = .fin y)
    (v2 : ∃ i, ∃ (ha : i < txMin.length) (hb : i < rxMax.length), ∃ x y, txMin[i] = .fin x ∧ rxMax[i] = .fin y) :
    ∃ out out', calcAMinMax txMin txMax rxMin rxMax (.fin gT) (.fin gR) w = .ok out ∧
      calcAMinMax txMin txMax rxMin rxMax (.fin gT) (.fin gR) w' = .ok out' ∧
      ∀ i, w' ≤ i → i < txMax.length → ∃ p q, out[i]? = some (.fin p) ∧ out'[i]? = some (.fin q) ∧ p ≤ q := by
  have ne : ∀ (b : K) (t r : List (Fl K)), (∃ i, ∃ (ha : i < t.length) (hb : i < r.length), ∃ x y, t[i] = .fin x ∧ r[i] = .fin y) →
      validLevels b t r ≠ [] := by
    intro b t
    induction t with
    | nil => rintro r ⟨i, ha, _⟩; simp at ha
    | cons a t ih =>
      rintro r ⟨i, ha, hb, x, y, hx, hy⟩
      cases r with
      | nil => simp at hb
      | cons c r =>
        cases i with
        | zero =>
          simp only [List.getElem_cons_zero] at hx hy
          subst hx hy
          simp [validLevels]
        | succ i =>
          have := ih r ⟨i, by simpa using ha, by simpa using hb, x, y, by simpa using hx, by simpa using hy⟩
          cases a <;> cases c <;> first | exact this | exact List.cons_ne_nil _ _
  obtain ⟨out, o1, o2⟩ := C27_minmax_value txMin txMax rxMin rxMax gT gR w h1 h2 h3 n1 n2 n3 n4 (ne _ _ _ v1) (ne _ _ _ v2)
  obtain ⟨out', o1', o2'⟩ := C27_minmax_value txMin txMax rxMin rxMax gT gR w' h1 h2 h3 n1 n2 n3 n4 (ne _ _ _ v1) (ne _ _ _ v2)
  refine ⟨out, out', o1, o1', fun i hi hi2 => ?_⟩
  have hlen : (filledLevels (-((gT + gR) / 2)) txMax rxMin).length = txMax.length := by simp [filledLevels]; omega
  have ha : (filledLevels (-((gT + gR) / 2)) txMax rxMin)[i]? = some ((filledLevels (-((gT + gR) / 2)) txMax rxMin)[i]'(by omega)) :=
    List.getElem?_eq_getElem _
  obtain ⟨m, hm, e⟩ := o2 i _ (by omega) ha
  obtain ⟨m', hm', e'⟩ := o2' i _ hi ha
  refine ⟨_, _, e, e', ?_⟩
  obtain ⟨k, k1, k2, k3⟩ := hm.1
  have : m' ≤ m := hm'.2 ⟨k, by omega, k2, k3⟩
  exact max_le_max le_rfl (by linarith)

/-- Hypotheses of `C122_offset` without gaps and with them. -/
example : calcAMinMax [Fl.fin (0 : ℚ), .fin 0] [.fin 0, .fin 0] ([.fin (-50), .fin (-61)].map (· +ᶠ Fl.fin (1/3)))
    ([.fin (-50), .fin (-60)].map (· +ᶠ Fl.fin (1/3))) (.fin 1) (.fin (3/5)) 1 = .ok [.nan, .fin (47/5)] := by
  rw [C122_offset _ _ _ _ _ _ _ _ (by simp [NumOrNan]) (by simp [NumOrNan]) (by simp [NumOrNan]) (by simp [NumOrNan])
    (.inl ⟨by simp [NoGaps], by simp [NoGaps]⟩)]
  decide +kernel

example : calcAMinMax [Fl.fin (0 : ℚ), .nan] [.fin 0, .nan] ([.fin (-50), .fin (-61)].map (· +ᶠ Fl.fin ((2 * 3 : ℤ) : ℚ)))
    ([.fin (-50), .fin (-60)].map (· +ᶠ Fl.fin ((2 * 3 : ℤ) : ℚ))) (.fin 1) (.fin (3/5)) 1 =
    calcAMinMax [Fl.fin (0 : ℚ), .nan] [.fin 0, .nan] [.fin (-50), .fin (-61)] [.fin (-50), .fin (-60)] (.fin 1) (.fin (3/5)) 1 :=
  C122_offset _ _ _ _ _ _ _ _ (by simp [NumOrNan]) (by simp [NumOrNan]) (by simp [NumOrNan]) (by simp [NumOrNan])
    (.inr ⟨3, rfl⟩)

/-- Attenuation 0 with a window of one step, 9.4 with two. -/
example : calcAMinMax [Fl.fin (0 : ℚ), .fin 0, .fin 0] [.fin 0, .fin 0, .fin 0] [.fin (-50), .fin (-61), .fin (-61)]
      [.fin (-50), .fin (-61), .fin (-61)] (.fin 1) (.fin (3/5)) 1 = .ok [.nan, .fin (47/5), .fin 0] ∧
    calcAMinMax [Fl.fin (0 : ℚ), .fin 0, .fin 0] [.fin 0, .fin 0, .fin 0] [.fin (-50), .fin (-61), .fin (-61)]
      [.fin (-50), .fin (-61), .fin (-61)] (.fin 1) (.fin (3/5)) 2 = .ok [.nan, .nan, .fin (47/5)] := by
  constructor <;> decide +kernel

end Verif.Props
