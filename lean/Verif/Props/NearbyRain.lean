import Verif.Props.NearbyDelta
import Verif.Lemmas.KR
import Mathlib.Analysis.SpecialFunctions.Pow.Real

/-!
# Properties C22 (nearby part), C36-C39: reference level, signal correction and rain rate of the
nearby approach
-/

namespace Verif.Props
open Verif Verif.Nearby

theorem getElem?_zip3 {α β γ δ : Type} (f : α → β → γ → δ) {xs : List α} {ys : List β}
    {zs : List γ} {t : Nat} {x : α} {y : β} {z : γ} (hx : xs[t]? = some x) (hy : ys[t]? = some y)
    (hz : zs[t]? = some z) : (zip3 f xs ys zs)[t]? = some (f x y z) := by
  unfold zip3
  have : (xs.zip ys)[t]? = some (x, y) := by
    rw [List.getElem?_zip_eq_some]; exact ⟨hx, hy⟩
  rw [List.getElem?_zipWith, this, hz]

theorem length_zip3 {α β γ δ : Type} (f : α → β → γ → δ) (xs : List α) (ys : List β)
    (zs : List γ) (h1 : ys.length = xs.length) (h2 : zs.length = xs.length) :
    (zip3 f xs ys zs).length = xs.length := by
  simp [zip3, h1, h2]

/-! ### C36 -/

section
variable {K : Type} [Field K] [LinearOrder K] [IsStrictOrderedRing K]

/-- mean of minimum and maximum level at step `s` -/
def level (pmin pmax : List (Fl K)) (s : Nat) : Fl K :=
  (rd pmin s +ᶠ rd pmax s) /ᶠ PyFloat.ofInt 2

/-- The steps that count for the reference level at `t`: among the last `n` steps, flagged dry
and with data. -/
def drySteps (pmin pmax wet : List (Fl K)) (n t : Nat) : List Nat :=
  (List.range (t + 1)).filter fun s => decide (t < s + n) && (decide (rd wet s = .fin 0) &&
    !(isNaN (level pmin pmax s)))

theorem dryLevel_eq (x y w : Fl K) :
    dryLevel x y w = if w = .fin 0 then (x +ᶠ y) /ᶠ PyFloat.ofInt 2 else .nan := by
  unfold dryLevel
  cases w with
  | nan => simp
  | ninf =>
    have : ((.ninf : Fl K) ==ᶠ (.fin 0)) = false := rfl
    simp [this]
  | pinf =>
    have : ((.pinf : Fl K) ==ᶠ (.fin 0)) = false := rfl
    simp [this]
  | fin r =>
    by_cases h : r = 0
    · subst h; simp
    · simp [h]

theorem dryWindow (pmin pmax wet : List (Fl K)) (h1 : pmax.length = pmin.length)
    (h2 : wet.length = pmin.length) (n t : Nat) (ht : t < pmin.length) :
    valid (window (zip3 dryLevel pmin pmax wet) n t) =
      (drySteps pmin pmax wet n t).map (level pmin pmax) := by
  have hrd : ∀ s ≤ t, rd (zip3 dryLevel pmin pmax wet) s =
      if rd wet s = .fin 0 then level pmin pmax s else .nan := by
    intro s hs
    apply rd_of_getElem?
    rw [getElem?_zip3 _ (getElem?_eq_rd (by omega)) (getElem?_eq_rd (by omega))
      (getElem?_eq_rd (by omega)), dryLevel_eq]
    rfl
  rw [window_eq_map_rd _ _ _ (by rw [length_zip3 _ _ _ _ h1 h2]; exact ht)]
  unfold valid drySteps
  rw [List.filter_map, List.filter_filter]
  have hf : (List.range (t + 1)).filter (fun a =>
      ((fun x => !PyFloat.isNaN x) ∘ rd (zip3 dryLevel pmin pmax wet)) a && decide (t < a + n)) =
      (List.range (t + 1)).filter fun s => decide (t < s + n) && (decide (rd wet s = .fin 0) &&
        !(PyFloat.isNaN (level pmin pmax s))) := by
    apply List.filter_congr
    intro s hs
    rw [List.mem_range] at hs
    rw [Bool.and_comm]
    congr 1
    show (!PyFloat.isNaN (rd (zip3 dryLevel pmin pmax wet) s)) = _
    rw [hrd s (by omega)]
    split_ifs with hw <;> simp [hw]
  rw [hf]
  apply List.map_congr_left
  intro s hs
  obtain ⟨a, b⟩ := List.mem_filter.mp hs
  rw [List.mem_range] at a
  simp only [Bool.and_eq_true, decide_eq_true_eq] at b
  rw [hrd s (by omega), if_pos b.2.1]

/-- **C36** The reference level at `t` is the median of `(pmin + pmax) / 2` over those of the
last `n` steps that are flagged dry and have data, NaN if there are fewer than `mp` of them. -/
theorem C36_median (pmin pmax wet : List (Fl K)) (h1 : pmax.length = pmin.length)
    (h2 : wet.length = pmin.length) (n mp : Nat) (hmp : 0 < mp) :
    (determine_reference_level pmin pmax wet n mp).length = pmin.length ∧
    ∀ t < pmin.length,
      ((drySteps pmin pmax wet n t).length < mp →
        (determine_reference_level pmin pmax wet n mp)[t]? = some .nan) ∧
      (mp ≤ (drySteps pmin pmax wet n t).length → ∃ m,
        (determine_reference_level pmin pmax wet n mp)[t]? = some m ∧
        IsMedian ((drySteps pmin pmax wet n t).map (level pmin pmax)) m) := by
  have hlen := length_zip3 (dryLevel (F := Fl K)) pmin pmax wet h1 h2
  refine ⟨by unfold determine_reference_level; rw [length_rolling, hlen], ?_⟩
  intro t ht
  unfold determine_reference_level
  rw [getElem?_rolling _ _ _ _ _ (by omega), dryWindow pmin pmax wet h1 h2 n t ht, List.length_map]
  refine ⟨fun h => by rw [if_pos h]; rfl, fun h => ?_⟩
  rw [if_neg (by omega)]
  refine ⟨_, rfl, median_spec ?_ ?_⟩
  · intro e
    rw [List.map_eq_nil_iff] at e
    rw [e] at h
    simp at h
    omega
  · intro x hx
    obtain ⟨s, hs, rfl⟩ := List.mem_map.mp hx
    obtain ⟨_, b⟩ := List.mem_filter.mp hs
    simp only [Bool.and_eq_true, decide_eq_true_eq] at b
    simpa using b.2.2

/-- **C36** Levels at steps not flagged dry (wet, NaN flag, or any other value) do not
influence the reference level. -/
theorem C36_wet_ignored (pmin pmax pmin' pmax' wet : List (Fl K)) (h1 : pmax.length = pmin.length)
    (h2 : wet.length = pmin.length) (h1' : pmax'.length = pmin.length)
    (h2' : pmin'.length = pmin.length) (n mp : Nat)
    (hsame : ∀ s, rd wet s = .fin 0 → rd pmin' s = rd pmin s ∧ rd pmax' s = rd pmax s) :
    determine_reference_level pmin' pmax' wet n mp = determine_reference_level pmin pmax wet n mp := by
  unfold determine_reference_level
  congr 1
  apply List.ext_getElem?
  intro t
  by_cases ht : t < pmin.length
  · rw [getElem?_zip3 _ (getElem?_eq_rd (by omega)) (getElem?_eq_rd (by omega))
      (getElem?_eq_rd (by omega)), getElem?_zip3 _ (getElem?_eq_rd (by omega))
      (getElem?_eq_rd (by omega)) (getElem?_eq_rd (by omega)), dryLevel_eq, dryLevel_eq]
    split_ifs with h
    · rw [(hsame t h).1, (hsame t h).2]
    · rfl
  · rw [List.getElem?_eq_none (by rw [length_zip3 _ _ _ _ (by omega) (by omega)]; omega),
      List.getElem?_eq_none (by rw [length_zip3 _ _ _ _ (by omega) (by omega)]; omega)]

/-- **C36** The reference level lies between the smallest and the largest contributing level. -/
theorem C36_bounds (pmin pmax wet : List (Fl K)) (h1 : pmax.length = pmin.length)
    (h2 : wet.length = pmin.length) (n mp : Nat) (hmp : 0 < mp) (t : Nat) (ht : t < pmin.length)
    (lo hi : K) (hb : ∀ s ∈ drySteps pmin pmax wet n t,
      ∃ r, level pmin pmax s = .fin r ∧ lo ≤ r ∧ r ≤ hi)
    (hmany : mp ≤ (drySteps pmin pmax wet n t).length) :
    ∃ r, (determine_reference_level pmin pmax wet n mp)[t]? = some (.fin r) ∧ lo ≤ r ∧ r ≤ hi := by
  obtain ⟨m, hm, hmed⟩ := ((C36_median pmin pmax wet h1 h2 n mp hmp).2 t ht).2 hmany
  obtain ⟨r, rfl, hr⟩ := hmed.between (lo := lo) (hi := hi) (by
    intro x hx
    obtain ⟨s, hs, rfl⟩ := List.mem_map.mp hx
    exact hb s hs)
  exact ⟨r, hm, hr⟩

end

example : determine_reference_level
    ([.fin (-50), .fin (-52), .fin (-60), .nan, .fin (-50)] : List (Fl ℚ))
    [.fin (-48), .fin (-50), .fin (-58), .fin 0, .fin (-50)]
    [.fin 0, .fin 0, .fin 1, .fin 0, .nan] 3 1 =
    [.fin (-49), .fin (-50), .fin (-50), .fin (-51), .nan] := by decide +kernel

/-! ### C37 -/

section
variable {F : Type} [PyFloat F]

theorem corrMin_cases (x w r : F) :
    (corrMin x w r = x ∧ (x <ᶠ r) = true ∧ (w ==ᶠ PyFloat.ofInt 1) = true) ∨
    (corrMin x w r = r ∧ ¬ ((x <ᶠ r) = true ∧ (w ==ᶠ PyFloat.ofInt 1) = true)) := by
  unfold corrMin
  by_cases h : ((x <ᶠ r) && (w ==ᶠ PyFloat.ofInt 1)) = true
  · left
    rw [if_pos h]
    rw [Bool.and_eq_true] at h
    exact ⟨rfl, h.1, h.2⟩
  · right
    rw [if_neg h]
    rw [Bool.and_eq_true] at h
    exact ⟨rfl, h⟩

theorem corrMax_cases (c y r : F) :
    (corrMax c y r = y ∧ (c <ᶠ r) = true ∧ (y <ᶠ r) = true) ∨
    (corrMax c y r = r ∧ ¬ ((c <ᶠ r) = true ∧ (y <ᶠ r) = true)) := by
  unfold corrMax
  by_cases h : ((c <ᶠ r) && (y <ᶠ r)) = true
  · left
    rw [if_pos h]
    rw [Bool.and_eq_true] at h
    exact ⟨rfl, h.1, h.2⟩
  · right
    rw [if_neg h]
    rw [Bool.and_eq_true] at h
    exact ⟨rfl, h⟩

variable [LawfulPyFloat F]

/-- **C37** Corrected levels of one step, for every float interpretation: at most the reference
level where that is a number; exactly the reference level where the step is not flagged wet or has
no `pmin`; ordered like `pmin <= pmax`; NaN reference gives NaN. -/
theorem C37_levels (pmin pmax wet pref : List F) (t : Nat) (x y w r : F)
    (hx : pmin[t]? = some x) (hy : pmax[t]? = some y) (hw : wet[t]? = some w)
    (hr : pref[t]? = some r) :
    ∃ c C, (correct_received_signals pmin pmax wet pref).1[t]? = some c ∧
      (correct_received_signals pmin pmax wet pref).2[t]? = some C ∧
      (isNaN r = false → (c ≤ᶠ r) = true ∧ (C ≤ᶠ r) = true) ∧
      ((w ==ᶠ PyFloat.ofInt 1) = false ∨ isNaN x = true ∨ isNaN r = true → c = r ∧ C = r) ∧
      ((x ≤ᶠ y) = true → isNaN r = false → (c ≤ᶠ C) = true) ∧
      ((x <ᶠ r) = true → (w ==ᶠ PyFloat.ofInt 1) = true → c = x ∧ ((y <ᶠ r) = true → C = y)) := by
  refine ⟨corrMin x w r, corrMax (corrMin x w r) y r, ?_, ?_, ?_, ?_, ?_, ?_⟩
  · exact getElem?_zip3 _ hx hw hr
  · exact getElem?_zip3 _ (getElem?_zip3 _ hx hw hr) hy hr
  · intro hn
    refine ⟨?_, ?_⟩
    · rcases corrMin_cases x w r with ⟨e, h1, _⟩ | ⟨e, _⟩ <;> rw [e]
      · exact LawfulPyFloat.le_of_lt h1
      · exact LawfulPyFloat.le_refl hn
    · rcases corrMax_cases (corrMin x w r) y r with ⟨e, _, h1⟩ | ⟨e, _⟩ <;> rw [e]
      · exact LawfulPyFloat.le_of_lt h1
      · exact LawfulPyFloat.le_refl hn
  · intro h
    have e1 : corrMin x w r = r := by
      rcases corrMin_cases x w r with ⟨_, h1, h2⟩ | ⟨e, _⟩
      · exfalso
        have hnn := LawfulPyFloat.lt_not_nan _ _ h1
        rcases h with h | h | h
        · rw [h2] at h; cases h
        · rw [hnn.1] at h; cases h
        · rw [hnn.2] at h; cases h
      · exact e
    refine ⟨e1, ?_⟩
    rw [e1]
    rcases corrMax_cases r y r with ⟨_, h1, _⟩ | ⟨e, _⟩
    · rw [LawfulPyFloat.lt_irrefl] at h1; cases h1
    · exact e
  · intro hxy hn
    rcases corrMax_cases (corrMin x w r) y r with ⟨e, h1, h2⟩ | ⟨e, h1⟩
    · rw [e]
      rcases corrMin_cases x w r with ⟨e', _, _⟩ | ⟨e', _⟩
      · rw [e']; exact hxy
      · rw [e', LawfulPyFloat.lt_irrefl] at h1; cases h1
    · rw [e]
      rcases corrMin_cases x w r with ⟨e', h3, _⟩ | ⟨e', _⟩ <;> rw [e']
      · exact LawfulPyFloat.le_of_lt h3
      · exact LawfulPyFloat.le_refl hn
  · intro h1 h2
    have e : corrMin x w r = x := by unfold corrMin; rw [h1, h2]; rfl
    refine ⟨e, fun h3 => ?_⟩
    rw [e]
    unfold corrMax
    rw [h1, h3]; rfl

/-- **C37** Correcting corrected signals again changes nothing. -/
theorem C37_idempotent (pmin pmax wet pref : List F) (h1 : pmax.length = pmin.length)
    (h2 : wet.length = pmin.length) (h3 : pref.length = pmin.length) :
    correct_received_signals (correct_received_signals pmin pmax wet pref).1
      (correct_received_signals pmin pmax wet pref).2 wet pref =
    correct_received_signals pmin pmax wet pref := by
  have m1 : ∀ x w r : F, corrMin (corrMin x w r) w r = corrMin x w r := by
    intro x w r
    rcases corrMin_cases x w r with ⟨e, h, h'⟩ | ⟨e, _⟩ <;> rw [e]
    · exact e
    · rcases corrMin_cases r w r with ⟨e', h', _⟩ | ⟨e', _⟩ <;> exact e'
  have m2 : ∀ c y r : F, corrMax c (corrMax c y r) r = corrMax c y r := by
    intro c y r
    rcases corrMax_cases c y r with ⟨e, h, h'⟩ | ⟨e, _⟩ <;> rw [e]
    · exact e
    · rcases corrMax_cases c r r with ⟨e', _⟩ | ⟨e', _⟩ <;> exact e'
  have l1 : (zip3 corrMin pmin wet pref).length = pmin.length := length_zip3 _ _ _ _ h2 h3
  have l2 : (zip3 corrMax (zip3 corrMin pmin wet pref) pmax pref).length = pmin.length := by
    rw [length_zip3 _ _ _ _ (by omega) (by omega), l1]
  have e1 : zip3 corrMin (zip3 corrMin pmin wet pref) wet pref = zip3 corrMin pmin wet pref := by
    apply List.ext_getElem?
    intro t
    by_cases ht : t < pmin.length
    · have a := getElem?_zip3 corrMin (getElem?_eq_rd ht)
        (getElem?_eq_rd (by omega : t < wet.length)) (getElem?_eq_rd (by omega : t < pref.length))
      rw [getElem?_zip3 corrMin a (getElem?_eq_rd (by omega : t < wet.length))
        (getElem?_eq_rd (by omega : t < pref.length)), a, m1]
    · rw [List.getElem?_eq_none (by rw [length_zip3 _ _ _ _ (by omega) (by omega)]; omega),
        List.getElem?_eq_none (by omega)]
  unfold correct_received_signals
  dsimp only
  rw [e1]
  congr 1
  apply List.ext_getElem?
  intro t
  by_cases ht : t < pmin.length
  · have a := getElem?_zip3 corrMax (getElem?_eq_rd (by omega : t < (zip3 corrMin pmin wet pref).length))
      (getElem?_eq_rd (by omega : t < pmax.length)) (getElem?_eq_rd (by omega : t < pref.length))
    rw [getElem?_zip3 corrMax (getElem?_eq_rd (by omega : t < (zip3 corrMin pmin wet pref).length)) a
      (getElem?_eq_rd (by omega : t < pref.length)), a, m2]
  · rw [List.getElem?_eq_none (by rw [length_zip3 _ _ _ _ (by omega) (by omega)]; omega),
      List.getElem?_eq_none (by omega)]

end

example : correct_received_signals ([.fin (-60), .fin (-60), .nan, .fin (-40)] : List (Fl ℚ))
    [.fin (-52), .fin (-45), .fin (-50), .fin (-39)] [.fin 1, .fin 0, .fin 1, .fin 1]
    [.fin (-50), .fin (-50), .fin (-50), .fin (-50)] =
    ([.fin (-60), .fin (-50), .fin (-50), .fin (-50)],
     [.fin (-52), .fin (-50), .fin (-50), .fin (-50)]) := by decide +kernel

/-! ### C22, nearby part -/

/-- C22: `nearby_rainfall_retrival` accepts only the two documented argument combinations; each of
the other 14 raises `ValueError`. -/
theorem C22_nearby_arguments (sp : KR.Spline) (pref pcmin pcmax F : List (Fl ℝ)) (L : Fl ℝ)
    (f : Option (List (Fl ℝ))) (pol : Option (List String)) (a b : Option (List (Fl ℝ)))
    (approx : String) (waa alpha : Fl ℝ) (thr : Option (Fl ℝ))
    (h : ¬ (f.isSome ∧ pol.isSome ∧ a.isNone ∧ b.isNone) ∧
      ¬ (f.isNone ∧ pol.isNone ∧ a.isSome ∧ b.isSome)) :
    rainfall_retrival sp pref pcmin pcmax F L f pol a b approx waa alpha thr =
      .error .valueError := by
  unfold rainfall_retrival retrieval
  cases f <;> cases pol <;> cases a <;> cases b <;> first | rfl | (simp at h)

/-- C22: the first accepted combination computes `a`, `b` from frequency and polarization. -/
theorem C22_nearby_from_frequency (sp : KR.Spline) (pref pcmin pcmax F : List (Fl ℝ)) (L : Fl ℝ)
    (f : List (Fl ℝ)) (pol : List String) (a b : List (Fl ℝ))
    (approx : String) (waa alpha : Fl ℝ) (thr : Option (Fl ℝ))
    (h : KR.a_b sp f pol approx = .ok (a, b)) :
    rainfall_retrival sp pref pcmin pcmax F L (some f) (some pol) none none approx waa alpha thr =
      rainfall_retrival sp pref pcmin pcmax F L none none (some a) (some b) approx waa alpha thr := by
  unfold rainfall_retrival retrieval
  simp only [h]

example (sp : KR.Spline) : rainfall_retrival sp [.fin (-50)] [.fin (-60)] [.fin (-55)] [.fin 0]
    (.fin 1) (some [.fin 20]) none (some [.fin 1]) none "ITU_2005" (.fin 2.3) (.fin 0.33) none =
    .error .valueError :=
  C22_nearby_arguments sp _ _ _ _ _ _ _ _ _ _ _ _ _ (by simp)

/-! ### C38 -/

/-- rain rate from one corrected level -/
noncomputable def oneRate (a b L waa r x : Fl ℝ) : Fl ℝ :=
  Fl.pow (netAtten waa r x /ᶠ (a *ᶠ L)) (PyFloat.ofInt 1 /ᶠ b)

/-- the mixture -/
noncomputable def mixRate (a b L waa alpha r x y : Fl ℝ) : Fl ℝ :=
  (alpha *ᶠ oneRate a b L waa r x) +ᶠ ((PyFloat.ofInt 1 -ᶠ alpha) *ᶠ oneRate a b L waa r y)

theorem eq_range_map {V : Type} [PyFloat V] (xs : List V) : xs = (List.range xs.length).map (rd xs) := by
  apply List.ext_getElem?
  intro t
  rw [List.getElem?_map]
  by_cases ht : t < xs.length
  · rw [List.getElem?_range ht, getElem?_eq_rd ht]; rfl
  · rw [List.getElem?_eq_none (by omega), List.getElem?_eq_none (by simp; omega)]; rfl

theorem bcast_range {V : Type} {f : V → V → V} (n : Nat) (g h : Nat → V) :
    KR.bcast f ((List.range n).map g) ((List.range n).map h) =
      .ok ((List.range n).map fun t => f (g t) (h t)) := by
  unfold KR.bcast
  rw [if_pos (by simp), List.zipWith_map, List.zipWith_self]

section
variable {V : Type} [PyFloat V] [PyPow V]

/-- rain rate from one corrected level, every number type -/
def oneRateF (a b L waa r x : V) : V :=
  PyPow.pow (netAtten waa r x /ᶠ (a *ᶠ L)) (PyFloat.ofInt 1 /ᶠ b)

/-- the mixture -/
def mixRateF (a b L waa alpha r x y : V) : V :=
  (alpha *ᶠ oneRateF a b L waa r x) +ᶠ ((PyFloat.ofInt 1 -ᶠ alpha) *ᶠ oneRateF a b L waa r y)

/-- removed by the outlier filter -/
def outlierF (thr : Option V) (f : V) : Bool :=
  match thr with | none => false | some q => f ≤ᶠ q

/-- With scalar `a`, `b` every step is treated separately. -/
theorem retrieval_scalar (ab : List V → List String → String → Except Err (List V × List V))
    (pref pcmin pcmax F : List V) (L a b : V)
    (approx : String) (waa alpha : V) (thr : Option V) (h1 : pcmin.length = pref.length)
    (h2 : pcmax.length = pref.length) (h3 : thr ≠ none → F.length = pref.length) :
    retrieval ab pref pcmin pcmax F L none none (some [a]) (some [b]) approx waa alpha thr =
      .ok ((List.range pref.length).map fun t =>
        if outlierF thr (rd F t) then PyFloat.nan
        else mixRateF a b L waa alpha (rd pref t) (rd pcmin t) (rd pcmax t)) := by
  set n := pref.length with hn
  have e1 : pref = (List.range n).map (rd pref) := eq_range_map pref
  have e2 : pcmin = (List.range n).map (rd pcmin) := by rw [← h1]; exact eq_range_map pcmin
  have e3 : pcmax = (List.range n).map (rd pcmax) := by rw [← h2]; exact eq_range_map pcmax
  unfold retrieval powerLaw
  have b1 := bcast_range (f := netAtten waa) n (rd pref) (rd pcmin)
  have b2 := bcast_range (f := netAtten waa) n (rd pref) (rd pcmax)
  rw [← e1, ← e2] at b1
  rw [← e1, ← e3] at b2
  simp only [bind, Except.bind, b1, b2, List.map_cons, List.map_nil, KR.bcast_singleton,
    List.map_map]
  simp only [Function.comp_def]
  rw [bcast_range]
  simp only
  cases thr with
  | none =>
    simp only
    congr 1
  | some q =>
    have hF := h3 (by simp)
    have e4 : F = (List.range n).map (rd F) := by rw [← hF]; exact eq_range_map F
    simp only
    rw [if_pos (by simp [hF])]
    have : F.map (fun x => x ≤ᶠ q) = (List.range n).map fun t => rd F t ≤ᶠ q := by
      conv_lhs => rw [e4]
      rw [List.map_map]; rfl
    rw [this, KR.assignMask_const]
    rfl

end

/-- With scalar `a`, `b` every step is treated separately. -/
theorem retrival_scalar (sp : KR.Spline) (pref pcmin pcmax F : List (Fl ℝ)) (L a b : Fl ℝ)
    (approx : String) (waa alpha : Fl ℝ) (thr : Option (Fl ℝ)) (h1 : pcmin.length = pref.length)
    (h2 : pcmax.length = pref.length) (h3 : thr ≠ none → F.length = pref.length) :
    rainfall_retrival sp pref pcmin pcmax F L none none (some [a]) (some [b]) approx waa alpha thr =
      .ok ((List.range pref.length).map fun t =>
        if (match thr with | none => false | some q => rd F t ≤ᶠ q) then .nan
        else mixRate a b L waa alpha (rd pref t) (rd pcmin t) (rd pcmax t)) := by
  unfold rainfall_retrival
  rw [retrieval_scalar (KR.a_b sp) pref pcmin pcmax F L a b approx waa alpha thr h1 h2 h3]
  cases thr <;> rfl

/-- rain rate of a non-negative attenuation -/
noncomputable def pw (a b L A : ℝ) : ℝ := (max A 0 / (a * L)) ^ (1 / b)

theorem oneRate_fin {a b L : ℝ} (ha : 0 < a) (hb : 0 < b) (hL : 0 < L) (waa r x : ℝ) :
    oneRate (.fin a) (.fin b) (.fin L) (.fin waa) (.fin r) (.fin x) =
      .fin (pw a b L (r - x - waa)) := by
  have haL : a * L ≠ 0 := (mul_pos ha hL).ne'
  have hA : netAtten (Fl.fin waa) (.fin r) (.fin x) = .fin (max (r - x - waa) 0) := by
    unfold netAtten
    simp only [Fl.pf_sub_fin, Fl.pf_ofInt, Fl.pf_lt_fin, Int.cast_zero, decide_eq_true_eq]
    split_ifs with h
    · rw [max_eq_right h.le]
    · rw [max_eq_left (not_lt.mp h)]
  unfold oneRate
  rw [hA, Fl.pf_mul_fin, Fl.pf_div_fin_ne _ _ haL, Fl.pf_ofInt, Fl.pf_div_fin_ne _ _ hb.ne',
    Fl.pow_fin (div_nonneg (le_max_right _ _) (mul_pos ha hL).le) (by push_cast; positivity)]
  unfold pw
  push_cast
  rfl

theorem oneRate_nan {a b L : ℝ} (hb : 0 < b) (waa r x : Fl ℝ)
    (h : r = .nan ∨ x = .nan ∨ waa = .nan) :
    oneRate (.fin a) (.fin b) (.fin L) waa r x = .nan := by
  have hA : netAtten waa r x = .nan := by
    unfold netAtten
    rcases h with rfl | rfl | rfl <;> simp
  unfold oneRate
  rw [hA, Fl.pf_ofInt, Fl.pf_div_fin_ne _ _ hb.ne']
  have : ((1 : Int) : ℝ) / b ≠ 0 := by push_cast; positivity
  simp [Fl.pow, hb.ne']

theorem pw_nonneg {a b L : ℝ} (ha : 0 < a) (hL : 0 < L) (A : ℝ) : 0 ≤ pw a b L A :=
  Real.rpow_nonneg (div_nonneg (le_max_right _ _) (mul_pos ha hL).le) _

theorem pw_mono {a b L : ℝ} (ha : 0 < a) (hb : 0 < b) (hL : 0 < L) {A B : ℝ} (h : A ≤ B) :
    pw a b L A ≤ pw a b L B := by
  have haL := mul_pos ha hL
  apply Real.rpow_le_rpow (div_nonneg (le_max_right _ _) haL.le)
  · exact (div_le_div_iff_of_pos_right haL).mpr (max_le_max_right 0 h)
  · positivity

theorem pw_zero {a b L : ℝ} (hb : 0 < b) {A : ℝ} (h : A ≤ 0) : pw a b L A = 0 := by
  unfold pw
  rw [max_eq_right h, zero_div, Real.zero_rpow (by positivity)]

/-- **C38** Rain rate of one step with numbers as input: the mixture `alpha * r_max +
(1 - alpha) * r_min` of the rates of the power law applied to the attenuations reduced by the wet
antenna attenuation and clipped at 0; non-negative, between the two rates, 0 if neither
attenuation exceeds `waa`, NaN exactly where `F <= threshold` (a NaN `F` keeps the value). -/
theorem C38_mixture (sp : KR.Spline) (pref pcmin pcmax F : List (Fl ℝ)) (L a b : ℝ) (ha : 0 < a)
    (hb : 0 < b) (hL : 0 < L) (approx : String) (waa alpha : ℝ) (h0 : 0 ≤ alpha) (h1 : alpha ≤ 1)
    (thr : Fl ℝ) (hl1 : pcmin.length = pref.length) (hl2 : pcmax.length = pref.length)
    (hl3 : F.length = pref.length) :
    ∃ R, rainfall_retrival sp pref pcmin pcmax F (.fin L) none none (some [.fin a])
        (some [.fin b]) approx (.fin waa) (.fin alpha) (some thr) = .ok R ∧
      R.length = pref.length ∧
      ∀ t : Nat, ∀ (r x y : ℝ) (f : Fl ℝ), pref[t]? = some (.fin r) → pcmin[t]? = some (.fin x) →
        pcmax[t]? = some (.fin y) → F[t]? = some f →
        ((f ≤ᶠ thr) = true → R[t]? = some .nan) ∧
        ((f ≤ᶠ thr) = false → ∃ v, R[t]? = some (.fin v) ∧
          v = alpha * (max (r - x - waa) 0 / (a * L)) ^ (1 / b) +
            (1 - alpha) * (max (r - y - waa) 0 / (a * L)) ^ (1 / b) ∧
          0 ≤ v ∧
          (r - x ≤ waa → r - y ≤ waa → v = 0) ∧
          (x ≤ y → (max (r - y - waa) 0 / (a * L)) ^ (1 / b) ≤ v ∧
            v ≤ (max (r - x - waa) 0 / (a * L)) ^ (1 / b))) := by
  refine ⟨_, retrival_scalar sp pref pcmin pcmax F _ _ _ approx _ _ _ hl1 hl2 (fun _ => hl3),
    by simp, ?_⟩
  intro t r x y f hr hx hy hf
  have ht : t < pref.length := (List.getElem?_eq_some_iff.mp hr).1
  rw [List.getElem?_map, List.getElem?_range ht, Option.map_some]
  simp only [rd_of_getElem? hr, rd_of_getElem? hx, rd_of_getElem? hy, rd_of_getElem? hf]
  refine ⟨fun h => by rw [if_pos h], fun h => ?_⟩
  rw [if_neg (by rw [h]; simp)]
  unfold mixRate
  rw [oneRate_fin ha hb hL, oneRate_fin ha hb hL]
  simp only [Fl.pf_ofInt, Fl.pf_sub_fin, Fl.pf_mul_fin, Fl.pf_add_fin, Int.cast_one]
  refine ⟨_, rfl, rfl, ?_, ?_, ?_⟩
  · have p1 := pw_nonneg (b := b) ha hL (r - x - waa)
    have p2 := pw_nonneg (b := b) ha hL (r - y - waa)
    have : 0 ≤ 1 - alpha := by linarith
    positivity
  · intro e1 e2
    rw [pw_zero hb (by linarith), pw_zero hb (by linarith)]
    ring
  · intro hxy
    have hm := pw_mono ha hb hL (A := r - y - waa) (B := r - x - waa) (by linarith)
    have e1 : (max (r - y - waa) 0 / (a * L)) ^ (1 / b) = pw a b L (r - y - waa) := rfl
    have e2 : (max (r - x - waa) 0 / (a * L)) ^ (1 / b) = pw a b L (r - x - waa) := rfl
    rw [e1, e2]
    constructor <;> nlinarith

/-- **C38** Without a threshold, `F` is ignored (whatever its values and length) and every step
with numbers gets the mixture. -/
theorem C38_no_threshold (sp : KR.Spline) (pref pcmin pcmax : List (Fl ℝ)) (L a b : ℝ)
    (ha : 0 < a) (hb : 0 < b) (hL : 0 < L) (approx : String) (waa alpha : ℝ)
    (hl1 : pcmin.length = pref.length) (hl2 : pcmax.length = pref.length) :
    ∃ R, (∀ F, rainfall_retrival sp pref pcmin pcmax F (.fin L) none none (some [.fin a])
        (some [.fin b]) approx (.fin waa) (.fin alpha) none = .ok R) ∧
      R.length = pref.length ∧
      ∀ t : Nat, ∀ (r x y : ℝ), pref[t]? = some (.fin r) → pcmin[t]? = some (.fin x) →
        pcmax[t]? = some (.fin y) →
        R[t]? = some (.fin (alpha * (max (r - x - waa) 0 / (a * L)) ^ (1 / b) +
            (1 - alpha) * (max (r - y - waa) 0 / (a * L)) ^ (1 / b))) := by
  refine ⟨(List.range pref.length).map fun t => mixRate (.fin a) (.fin b) (.fin L) (.fin waa)
    (.fin alpha) (rd pref t) (rd pcmin t) (rd pcmax t), fun F => ?_, by simp, ?_⟩
  · rw [retrival_scalar sp pref pcmin pcmax F _ _ _ approx _ _ _ hl1 hl2 (fun h => absurd rfl h)]
    simp
  intro t r x y hr hx hy
  have ht : t < pref.length := (List.getElem?_eq_some_iff.mp hr).1
  rw [List.getElem?_map, List.getElem?_range ht, Option.map_some]
  simp only [rd_of_getElem? hr, rd_of_getElem? hx, rd_of_getElem? hy]
  unfold mixRate
  rw [oneRate_fin ha hb hL, oneRate_fin ha hb hL]
  simp only [Fl.pf_ofInt, Fl.pf_sub_fin, Fl.pf_mul_fin, Fl.pf_add_fin, Int.cast_one]
  rfl

example (sp : KR.Spline) : ∃ R, rainfall_retrival sp [.fin (-50), .fin (-50)]
    [.fin (-54), .fin (-54)] [.fin (-52), .fin (-52)] [.nan, .fin (-40)] (.fin 1) none none
    (some [.fin 1]) (some [.fin 1]) "ITU_2005" (.fin 1) (.fin (1/2)) (some (.fin (-32.5))) = .ok R ∧
    R[0]? = some (.fin 2) ∧ R[1]? = some .nan := by
  obtain ⟨R, h, _, hR⟩ := C38_mixture sp [.fin (-50), .fin (-50)]
    [.fin (-54), .fin (-54)] [.fin (-52), .fin (-52)] [.nan, .fin (-40)] 1 1 1 (by norm_num)
    (by norm_num) (by norm_num) "ITU_2005" 1 (1/2) (by norm_num) (by norm_num) (.fin (-32.5)) rfl rfl rfl
  refine ⟨R, h, ?_, ?_⟩
  · obtain ⟨v, hv, e, _⟩ := (hR 0 _ _ _ _ rfl rfl rfl rfl).2 (by simp)
    rw [hv, e]
    norm_num
  · exact (hR 1 _ _ _ _ rfl rfl rfl rfl).1 (by simp; norm_num)

/-! ### C39 -/

/-- **C39** Correction followed by retrieval with `waa_max >= 0`: a step not flagged wet with a
number as reference level gets 0, or NaN from the outlier filter; a step without reference
level gets NaN. -/
theorem C39_no_rain_when_dry (sp : KR.Spline) (pmin pmax wet pref F : List (Fl ℝ)) (L a b : ℝ)
    (ha : 0 < a) (hb : 0 < b) (hL : 0 < L) (approx : String) (waa : ℝ) (hwaa : 0 ≤ waa)
    (alpha : ℝ) (thr : Option (Fl ℝ))
    (hl1 : pmin.length = pref.length) (hl2 : pmax.length = pref.length)
    (hl3 : F.length = pref.length) (hl4 : wet.length = pref.length) :
    ∃ R, rainfall_retrival sp pref (correct_received_signals pmin pmax wet pref).1
        (correct_received_signals pmin pmax wet pref).2 F (.fin L) none none (some [.fin a])
        (some [.fin b]) approx (.fin waa) (.fin alpha) thr = .ok R ∧
      R.length = pref.length ∧
      ∀ t : Nat, t < pref.length →
        (pref[t]? = some .nan → R[t]? = some .nan) ∧
        (∀ r : ℝ, pref[t]? = some (.fin r) → wet[t]? ≠ some (.fin 1) →
          R[t]? = some (.fin 0) ∨
          (R[t]? = some .nan ∧ ∃ q f, thr = some q ∧ F[t]? = some f ∧ (f ≤ᶠ q) = true)) := by
  have l1 : (correct_received_signals pmin pmax wet pref).1.length = pref.length := by
    show (zip3 corrMin pmin wet pref).length = _
    rw [length_zip3 _ _ _ _ (by omega) (by omega), hl1]
  have l2 : (correct_received_signals pmin pmax wet pref).2.length = pref.length := by
    show (zip3 corrMax (zip3 corrMin pmin wet pref) pmax pref).length = _
    have : (zip3 corrMin pmin wet pref).length = pmin.length :=
      length_zip3 _ _ _ _ (by omega) (by omega)
    rw [length_zip3 _ _ _ _ (by omega) (by omega), this, hl1]
  refine ⟨_, retrival_scalar sp pref _ _ F _ _ _ approx _ _ _ l1 l2 (fun _ => hl3), by simp, ?_⟩
  intro t ht
  obtain ⟨c, C, hc, hC, _, hdry, _⟩ := C37_levels pmin pmax wet pref t _ _ _ _
    (getElem?_eq_rd (by omega)) (getElem?_eq_rd (by omega)) (getElem?_eq_rd (by omega))
    (getElem?_eq_rd ht)
  rw [List.getElem?_map, List.getElem?_range ht, Option.map_some]
  simp only [rd_of_getElem? hc, rd_of_getElem? hC]
  refine ⟨fun h => ?_, fun r hr hw => ?_⟩
  · rw [rd_of_getElem? h]
    unfold mixRate
    rw [oneRate_nan hb _ _ _ (Or.inl rfl), oneRate_nan hb _ _ _ (Or.inl rfl)]
    simp
  · have hw1 : (rd wet t ==ᶠ (PyFloat.ofInt 1 : Fl ℝ)) = false := by
      rw [getElem?_eq_rd (by omega)] at hw
      generalize rd wet t = w at hw
      cases w with
      | nan => rfl
      | ninf => rfl
      | pinf => rfl
      | fin z =>
        simp only [Fl.pf_ofInt, Fl.pf_eq_fin, decide_eq_false_iff_not]
        intro e
        apply hw
        rw [e]
        norm_num
    obtain ⟨e1, e2⟩ := hdry (Or.inl hw1)
    rw [e1, e2, rd_of_getElem? hr]
    by_cases hq : (match thr with | none => false | some q => rd F t ≤ᶠ q) = true
    · right
      rw [if_pos hq]
      refine ⟨rfl, ?_⟩
      cases thr with
      | none => cases hq
      | some q => exact ⟨q, rd F t, rfl, getElem?_eq_rd (by omega), hq⟩
    · left
      rw [if_neg hq]
      unfold mixRate
      rw [oneRate_fin ha hb hL, pw_zero hb (by linarith)]
      simp

example (sp : KR.Spline) : ∃ R, rainfall_retrival sp [.fin (-50)]
    (correct_received_signals [.fin (-70)] [.fin (-60)] [.nan] [.fin (-50)]).1
    (correct_received_signals [.fin (-70)] [.fin (-60)] [.nan] [.fin (-50)]).2 [.nan] (.fin 1)
    none none (some [.fin 1]) (some [.fin 1]) "ITU_2005" (.fin 1) (.fin (1/2)) none = .ok R ∧
    R[0]? = some (.fin 0) := by
  obtain ⟨R, h, _, hR⟩ := C39_no_rain_when_dry sp [.fin (-70)] [.fin (-60)] [.nan] [.fin (-50)]
    [.nan] 1 1 1 (by norm_num) (by norm_num) (by norm_num) "ITU_2005" 1 (by norm_num) (1/2) none
    rfl rfl rfl rfl
  refine ⟨R, h, ?_⟩
  rcases (hR 0 (by decide)).2 _ rfl (by simp) with h | ⟨_, _, _, h, _⟩
  · exact h
  · cases h

end Verif.Props
