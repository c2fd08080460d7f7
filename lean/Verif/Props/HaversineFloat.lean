import Verif.Props.Haversine
import Verif.Props.RoundedIdw
import Verif.Props.RoundedRain

/-!
# Property C143: distances between end points in floating point

`haversine` and the distance matrix computed operation by operation with an arbitrary rounding that treats both signs
alike. The laws of the trigonometric functions are listed in `TrigLaws`; correctly rounded functions satisfy them.
-/

namespace Verif.Props
open Verif Verif.Haversine Verif.Bin

section laws
variable {R : Rounding ℝ}

/-- The rounding treats positive and negative numbers alike (every IEEE mode but those towards one infinity). -/
def SignSymmetric (R : Rounding ℝ) : Prop := ∀ v : Fl ℝ, R.round (Fl.neg v) = Fl.neg (R.round v)

/-- What is used of numpy's functions. Nothing is said about their accuracy. -/
structure TrigLaws (R : Rounding ℝ) [PyTrig (RFl R)] : Prop where
  radians_fin : ∀ (x : RFl R) (a : ℝ), x.val = .fin a → ∃ r, (PyTrig.radians x).val = .fin r
  /-- the sine is odd -/
  sin_neg : ∀ x y : RFl R, y.val = Fl.neg x.val → (PyTrig.sin y).val = Fl.neg (PyTrig.sin x).val
  sin_zero : PyTrig.sin (PyFloat.ofInt 0 : RFl R) = PyFloat.ofInt 0
  cos_range : ∀ (x : RFl R) (a : ℝ), x.val = .fin a → ∃ c, (PyTrig.cos x).val = .fin c ∧ |c| ≤ 1
  /-- the square is even -/
  sq_neg : ∀ x y : RFl R, y.val = Fl.neg x.val → PyTrig.sq y = PyTrig.sq x
  sq_zero : PyTrig.sq (PyFloat.ofInt 0 : RFl R) = PyFloat.ofInt 0
  half_zero : PyTrig.half (PyFloat.ofInt 0 : RFl R) = PyFloat.ofInt 0
  half_one : PyTrig.half (PyFloat.ofInt 1 : RFl R) = PyFloat.ofInt 1
  half_nonneg : ∀ x : RFl R, isNaN (PyTrig.half x) = false → PyFloat.ofInt 0 ≤ᶠ PyTrig.half x
  arctan2_zero : PyTrig.arctan2 (PyFloat.ofInt 0 : RFl R) (PyFloat.ofInt 1) = PyFloat.ofInt 0
  /-- in the first quadrant `arctan2` lies between 0 and its value on the second axis -/
  arctan2_range : ∀ y x : RFl R, PyFloat.ofInt 0 ≤ᶠ y → PyFloat.ofInt 0 ≤ᶠ x →
    PyFloat.ofInt 0 ≤ᶠ PyTrig.arctan2 y x ∧
      PyTrig.arctan2 y x ≤ᶠ PyTrig.arctan2 (PyFloat.ofInt 1) (PyFloat.ofInt 0)
  arctan2_nan : ∀ y x : RFl R, isNaN y || isNaN x → isNaN (PyTrig.arctan2 y x)

theorem fl_mul_comm (v w : Fl ℝ) : (v *ᶠ w) = (w *ᶠ v) := by
  cases v <;> cases w <;> first | rfl | skip
  rw [Fl.pf_mul_fin, Fl.pf_mul_fin, mul_comm]

theorem rfl_mul_swap (x y : RFl R) : (x *ᶠ y) = (y *ᶠ x) := by
  apply RFl.ext
  rw [RFl.val_mul, RFl.val_mul, fl_mul_comm]

theorem fl_sub_swap (v w : Fl ℝ) : (w -ᶠ v) = Fl.neg (v -ᶠ w) := by
  cases v <;> cases w <;> first | rfl | skip
  rw [Fl.pf_sub_fin, Fl.pf_sub_fin]
  simp [Fl.neg]

theorem rfl_sub_swap (hR : SignSymmetric R) (x y : RFl R) : (y -ᶠ x).val = Fl.neg (x -ᶠ y).val := by
  rw [RFl.val_sub, RFl.val_sub, fl_sub_swap, hR]

theorem fl_neg_div (v : Fl ℝ) {d : ℝ} (hd : 0 < d) : (Fl.neg v /ᶠ .fin d) = Fl.neg (v /ᶠ .fin d) := by
  cases v
  · rfl
  · show (if d < 0 then (.ninf : Fl ℝ) else .pinf) = Fl.neg (if d < 0 then .pinf else .ninf)
    rw [if_neg (not_lt.mpr hd.le), if_neg (not_lt.mpr hd.le)]
    rfl
  · rename_i x
    show (Fl.fin (-x) /ᶠ .fin d : Fl ℝ) = _
    rw [Fl.pf_div_fin_ne _ _ hd.ne', Fl.pf_div_fin_ne _ _ hd.ne']
    simp [Fl.neg, neg_div]
  · show (if d < 0 then (.pinf : Fl ℝ) else .ninf) = Fl.neg (if d < 0 then .ninf else .pinf)
    rw [if_neg (not_lt.mpr hd.le), if_neg (not_lt.mpr hd.le)]
    rfl

/-- the two sine terms do not depend on the order of the points -/
theorem sin_term_swap [PyTrig (RFl R)] (hR : SignSymmetric R) (T : TrigLaws R) {two : ℝ} (h2 : R.rnd 2 = .fin two)
    (h2p : 0 < two) (x y : RFl R) :
    PyTrig.sq (PyTrig.sin ((y -ᶠ x) /ᶠ PyFloat.ofInt 2)) = PyTrig.sq (PyTrig.sin ((x -ᶠ y) /ᶠ PyFloat.ofInt 2)) := by
  apply T.sq_neg
  apply T.sin_neg
  have e : (PyFloat.ofInt 2 : RFl R).val = .fin two := by
    rw [RFl.val_ofInt]; exact_mod_cast h2
  rw [RFl.val_div, RFl.val_div, rfl_sub_swap hR, e, fl_neg_div _ h2p, hR]

theorem rnd_two_pos {two : ℝ} (h2 : R.rnd 2 = .fin two) : 0 < two := by
  have h := R.mono 1 2 (by norm_num)
  rw [R.one, h2, Fl.pf_le_fin, decide_eq_true_eq] at h
  linarith

/-- **C143** The computed distance does not depend on the order of the two points: the results are identical floats. -/
theorem C143_symmetric [PyTrig (RFl R)] (hR : SignSymmetric R) (T : TrigLaws R) {two : ℝ} (h2 : R.rnd 2 = .fin two)
    (lon1 lat1 lon2 lat2 : RFl R) :
    haversineF lon2 lat2 lon1 lat1 = haversineF lon1 lat1 lon2 lat2 := by
  have h2p := rnd_two_pos h2
  unfold haversineF
  dsimp only
  rw [sin_term_swap hR T h2 h2p (PyTrig.radians lat2) (PyTrig.radians lat1),
    sin_term_swap hR T h2 h2p (PyTrig.radians lon2) (PyTrig.radians lon1),
    rfl_mul_swap (PyTrig.cos (PyTrig.radians lat2)) (PyTrig.cos (PyTrig.radians lat1))]

theorem fl_fin_mul_zero {x : RFl R} {a : ℝ} (h : x.val = .fin a) : (x *ᶠ PyFloat.ofInt 0) = PyFloat.ofInt 0 := by
  apply RFl.ext
  rw [RFl.val_mul, RFl.val_zero, h, Fl.pf_mul_fin, mul_zero]
  exact R.zero

theorem zero_div_two {two : ℝ} (h2 : R.rnd 2 = .fin two) : ((PyFloat.ofInt 0 : RFl R) /ᶠ PyFloat.ofInt 2) = PyFloat.ofInt 0 := by
  apply RFl.ext
  have e : (PyFloat.ofInt 2 : RFl R).val = .fin two := by
    rw [RFl.val_ofInt]; exact_mod_cast h2
  rw [RFl.val_div, RFl.val_zero, e, Fl.pf_div_fin_ne _ _ (rnd_two_pos h2).ne', zero_div]
  exact R.zero

/-- a product of two numbers of absolute value at most 1 does not overflow -/
theorem mul_unit_fin (hR : SignSymmetric R) {x y : RFl R} {a b : ℝ} (hx : x.val = .fin a) (hy : y.val = .fin b) (ha : |a| ≤ 1)
    (hb : |b| ≤ 1) : ∃ c, (x *ᶠ y).val = .fin c := by
  rw [RFl.val_mul, hx, hy, Fl.pf_mul_fin]
  have hab : |a * b| ≤ 1 := by
    rw [abs_mul]
    exact mul_le_one₀ ha (abs_nonneg _) hb
  have h1 := R.mono (a * b) 1 (abs_le.mp hab).2
  have h2 := R.mono (-1) (a * b) (abs_le.mp hab).1
  have h3 : R.rnd (-1) = .fin (-1) := by
    have := hR (.fin 1)
    show R.round (.fin (-1)) = _
    rw [show (Fl.fin (-1) : Fl ℝ) = Fl.neg (.fin 1) from rfl, this]
    show Fl.neg (R.rnd 1) = Fl.neg (.fin 1)
    rw [R.one]
  rw [R.one] at h1
  rw [h3] at h2
  show ∃ c, R.rnd (a * b) = .fin c
  cases e : R.rnd (a * b) with
  | nan => have := R.not_nan (a * b); rw [e] at this; cases this
  | ninf => rw [e] at h2; cases h2
  | pinf => rw [e] at h1; cases h1
  | fin c => exact ⟨c, rfl⟩

theorem rfl_sub_self {x : RFl R} {a : ℝ} (h : x.val = .fin a) : (x -ᶠ x) = PyFloat.ofInt 0 := by
  apply RFl.ext
  rw [RFl.val_sub, RFl.val_zero, h, Fl.pf_sub_fin, sub_self]
  exact R.zero

/-- **C143** The computed distance of a point from itself is exactly 0. -/
theorem C143_same_point [PyTrig (RFl R)] (hR : SignSymmetric R) (T : TrigLaws R) {two radius : ℝ} (h2 : R.rnd 2 = .fin two)
    (hr : R.rnd 6367 = .fin radius) {lon lat : RFl R} {x y : ℝ} (hx : lon.val = .fin x) (hy : lat.val = .fin y) :
    haversineF lon lat lon lat = PyFloat.ofInt 0 := by
  obtain ⟨rx, hrx⟩ := T.radians_fin lon x hx
  obtain ⟨ry, hry⟩ := T.radians_fin lat y hy
  obtain ⟨c, hc, hc1⟩ := T.cos_range (PyTrig.radians lat) ry hry
  obtain ⟨cc, hcc⟩ := mul_unit_fin hR hc hc hc1 hc1
  have e2 : (PyFloat.ofInt 2 : RFl R).val = .fin two := by rw [RFl.val_ofInt]; exact_mod_cast h2
  have er : (PyFloat.ofInt 6367 : RFl R).val = .fin radius := by rw [RFl.val_ofInt]; exact_mod_cast hr
  have e1 : ((PyFloat.ofInt 1 : RFl R) -ᶠ PyFloat.ofInt 0) = PyFloat.ofInt 1 := by
    apply RFl.ext
    rw [RFl.val_sub, RFl.val_one, RFl.val_zero, Fl.pf_sub_fin, sub_zero]
    exact R.one
  unfold haversineF
  dsimp only
  rw [rfl_sub_self hrx, rfl_sub_self hry, zero_div_two h2, T.sin_zero, T.sq_zero, fl_fin_mul_zero hcc,
    OrderedPyFloat.add_zero, T.half_zero, e1, T.half_one, T.arctan2_zero, fl_fin_mul_zero e2, fl_fin_mul_zero er]

/-- **C143** The computed distance is NaN or between 0 and the computed half circumference. -/
theorem C143_range [PyTrig (RFl R)] (T : TrigLaws R) (lon1 lat1 lon2 lat2 : RFl R)
    (hn : isNaN (haversineF lon1 lat1 lon2 lat2) = false) :
    PyFloat.ofInt 0 ≤ᶠ haversineF lon1 lat1 lon2 lat2 ∧
    (isNaN (PyTrig.arctan2 (PyFloat.ofInt 1 : RFl R) (PyFloat.ofInt 0)) = false →
      isNaN (PyFloat.ofInt 2 *ᶠ PyTrig.arctan2 (PyFloat.ofInt 1 : RFl R) (PyFloat.ofInt 0)) = false →
      isNaN (PyFloat.ofInt 6367 *ᶠ (PyFloat.ofInt 2 *ᶠ PyTrig.arctan2 (PyFloat.ofInt 1 : RFl R) (PyFloat.ofInt 0))) = false →
      haversineF lon1 lat1 lon2 lat2 ≤ᶠ
        PyFloat.ofInt 6367 *ᶠ (PyFloat.ofInt 2 *ᶠ PyTrig.arctan2 (PyFloat.ofInt 1) (PyFloat.ofInt 0))) := by
  unfold haversineF at hn ⊢
  dsimp only at hn ⊢
  set a := PyTrig.sq (PyTrig.sin ((PyTrig.radians lat2 -ᶠ PyTrig.radians lat1) /ᶠ PyFloat.ofInt 2)) +ᶠ
    (PyTrig.cos (PyTrig.radians lat1) *ᶠ PyTrig.cos (PyTrig.radians lat2)) *ᶠ
      PyTrig.sq (PyTrig.sin ((PyTrig.radians lon2 -ᶠ PyTrig.radians lon1) /ᶠ PyFloat.ofInt 2)) with ha
  have n1 : isNaN (PyFloat.ofInt 2 *ᶠ PyTrig.arctan2 (PyTrig.half a) (PyTrig.half (PyFloat.ofInt 1 -ᶠ a))) = false := by
    by_contra h
    rw [Bool.not_eq_false] at h
    have := OrderedPyFloat.mul_nan (PyFloat.ofInt 6367 : RFl R) _ (by rw [h, Bool.or_true])
    rw [this] at hn; cases hn
  have n2 : isNaN (PyTrig.arctan2 (PyTrig.half a) (PyTrig.half (PyFloat.ofInt 1 -ᶠ a))) = false := by
    by_contra h
    rw [Bool.not_eq_false] at h
    have := OrderedPyFloat.mul_nan (PyFloat.ofInt 2 : RFl R) _ (by rw [h, Bool.or_true])
    rw [this] at n1; cases n1
  have n3 : isNaN (PyTrig.half a) = false ∧ isNaN (PyTrig.half (PyFloat.ofInt 1 -ᶠ a)) = false := by
    by_contra h
    have := T.arctan2_nan (PyTrig.half a) (PyTrig.half (PyFloat.ofInt 1 -ᶠ a)) (by
      cases h1 : isNaN (PyTrig.half a) <;> cases h2 : isNaN (PyTrig.half (PyFloat.ofInt 1 -ᶠ a)) <;> simp_all)
    rw [this] at n2; cases n2
  obtain ⟨l, u⟩ := T.arctan2_range _ _ (T.half_nonneg _ n3.1) (T.half_nonneg _ n3.2)
  have p2 : (PyFloat.ofInt 0 : RFl R) ≤ᶠ PyFloat.ofInt 2 := OrderedPyFloat.ofInt_mono 0 2 (by norm_num)
  have pr : (PyFloat.ofInt 0 : RFl R) ≤ᶠ PyFloat.ofInt 6367 := OrderedPyFloat.ofInt_mono 0 6367 (by norm_num)
  refine ⟨OrderedPyFloat.mul_nonneg _ _ pr (OrderedPyFloat.mul_nonneg _ _ p2 l n1) hn, fun _ m1 m2 => ?_⟩
  have q1 := OrderedPyFloat.mul_le_of_nonneg _ _ (PyFloat.ofInt 2) u p2 (by rw [rfl_mul_swap]; exact n1)
    (by rw [rfl_mul_swap]; exact m1)
  rw [rfl_mul_swap, rfl_mul_swap (PyTrig.arctan2 (PyFloat.ofInt 1) (PyFloat.ofInt 0))] at q1
  have q2 := OrderedPyFloat.mul_le_of_nonneg _ _ (PyFloat.ofInt 6367) q1 pr (by rw [rfl_mul_swap]; exact hn)
    (by rw [rfl_mul_swap]; exact m2)
  rwa [rfl_mul_swap, rfl_mul_swap (PyFloat.ofInt 2 *ᶠ PyTrig.arctan2 (PyFloat.ofInt 1) (PyFloat.ofInt 0))] at q2

/-- **C143** The distance matrices in floating point: `a_to_all_a` and `b_to_all_b` are exactly symmetric, `b_to_all_a` is
the transpose of `a_to_all_b`, the diagonal is 0, every other entry is NaN or not negative, and the entry of two CMLs
sharing the end point in question is exactly 0. -/
theorem C143_matrices [PyTrig (RFl R)] (hR : SignSymmetric R) (T : TrigLaws R) {two radius : ℝ} (h2 : R.rnd 2 = .fin two)
    (hr : R.rnd 6367 = .fin radius) {Id : Type} [DecidableEq Id] (ids : List Id) (hn : ids.Nodup)
    (siteA siteB : List (SiteF (RFl R))) (ha : siteA.length = ids.length) (hb : siteB.length = ids.length) (i j : Nat)
    (hi : i < ids.length) (hj : j < ids.length) :
    let d := calcDistancesF ids siteA siteB
    entry' d.a_to_all_a i j = entry' d.a_to_all_a j i ∧ entry' d.b_to_all_b i j = entry' d.b_to_all_b j i ∧
    entry' d.b_to_all_a i j = entry' d.a_to_all_b j i ∧
    (∀ m ∈ [d.a_to_all_a, d.a_to_all_b, d.b_to_all_a, d.b_to_all_b],
      entry' m i i = some (PyFloat.ofInt 0) ∧
      ∃ v, entry' m i j = some v ∧ (isNaN v = true ∨ PyFloat.ofInt 0 ≤ᶠ v)) ∧
    ∀ src dst m, (src, dst, m) ∈ [(siteA, siteA, d.a_to_all_a), (siteA, siteB, d.a_to_all_b), (siteB, siteA, d.b_to_all_a),
        (siteB, siteB, d.b_to_all_b)] → ∀ p, src[i]? = some p → dst[j]? = some p → (∃ x, p.lon.val = .fin x) →
      (∃ y, p.lat.val = .fin y) → entry' m i j = some (PyFloat.ofInt 0) := by
  have hent : ∀ (src dst : List (SiteF (RFl R))), src.length = ids.length → dst.length = ids.length → ∀ i j,
      i < ids.length → j < ids.length → ∃ p q, src[i]? = some p ∧ dst[j]? = some q ∧
      entry' (distMatrixOf PyFloat.nan (PyFloat.ofInt 0) distF ids src dst) i j =
        some (if i = j then PyFloat.ofInt 0 else distF p q) := by
    intro src dst hs hd i j hi hj
    have e1 := List.getElem?_eq_getElem (l := src) (i := i) (by omega)
    have e2 := List.getElem?_eq_getElem (l := dst) (i := j) (by omega)
    exact ⟨_, _, e1, e2, (distMatrixOf_entries _ _ _ ids hn src dst hs hd).2.2 i j _ _ e1 e2⟩
  have hsym : ∀ (src dst : List (SiteF (RFl R))), src.length = ids.length → dst.length = ids.length →
      entry' (distMatrixOf PyFloat.nan (PyFloat.ofInt 0) distF ids src dst) i j =
        entry' (distMatrixOf PyFloat.nan (PyFloat.ofInt 0) distF ids dst src) j i := by
    intro src dst hs hd
    obtain ⟨p, q, hp, hq, e⟩ := hent src dst hs hd i j hi hj
    obtain ⟨p', q', hp', hq', e'⟩ := hent dst src hd hs j i hj hi
    rw [hq] at hp'
    rw [hp] at hq'
    cases hp'; cases hq'
    rw [e, e']
    by_cases h : i = j
    · rw [if_pos h, if_pos h.symm]
    · rw [if_neg h, if_neg (Ne.symm h)]
      unfold distF
      rw [C143_symmetric hR T h2]
  have hval : ∀ (src dst : List (SiteF (RFl R))), src.length = ids.length → dst.length = ids.length →
      entry' (distMatrixOf PyFloat.nan (PyFloat.ofInt 0) distF ids src dst) i i = some (PyFloat.ofInt 0) ∧
      ∃ v, entry' (distMatrixOf PyFloat.nan (PyFloat.ofInt 0) distF ids src dst) i j = some v ∧
        (isNaN v = true ∨ PyFloat.ofInt 0 ≤ᶠ v) := by
    intro src dst hs hd
    obtain ⟨p, q, hp, hq, e⟩ := hent src dst hs hd i i hi hi
    obtain ⟨p', q', hp', hq', e'⟩ := hent src dst hs hd i j hi hj
    refine ⟨by rw [e, if_pos rfl], _, e', ?_⟩
    split_ifs
    · exact Or.inr (OrderedPyFloat.ofInt_mono 0 0 le_rfl)
    · cases h : isNaN (distF p' q')
      · exact Or.inr (C143_range T _ _ _ _ h).1
      · exact Or.inl rfl
  have hzero : ∀ (src dst : List (SiteF (RFl R))), src.length = ids.length → dst.length = ids.length →
      ∀ p, src[i]? = some p → dst[j]? = some p → (∃ x, p.lon.val = .fin x) → (∃ y, p.lat.val = .fin y) →
      entry' (distMatrixOf PyFloat.nan (PyFloat.ofInt 0) distF ids src dst) i j = some (PyFloat.ofInt 0) := by
    intro src dst hs hd p h1 h3 ⟨x, hx⟩ ⟨y, hy⟩
    obtain ⟨p', q', hp', hq', e'⟩ := hent src dst hs hd i j hi hj
    rw [h1] at hp'; rw [h3] at hq'
    cases hp'; cases hq'
    rw [e']
    split_ifs
    · rfl
    · unfold distF
      rw [C143_same_point hR T h2 hr hx hy]
  refine ⟨hsym _ _ ha ha, hsym _ _ hb hb, hsym _ _ hb ha, ?_, ?_⟩
  · intro m hm
    simp only [calcDistancesF, List.mem_cons, List.not_mem_nil, or_false] at hm
    rcases hm with rfl | rfl | rfl | rfl
    · exact hval _ _ ha ha
    · exact hval _ _ ha hb
    · exact hval _ _ hb ha
    · exact hval _ _ hb hb
  · intro src dst m hm
    simp only [calcDistancesF, List.mem_cons, List.not_mem_nil, or_false, Prod.mk.injEq] at hm
    rcases hm with ⟨rfl, rfl, rfl⟩ | ⟨rfl, rfl, rfl⟩ | ⟨rfl, rfl, rfl⟩ | ⟨rfl, rfl, rfl⟩
    · exact hzero _ _ ha ha
    · exact hzero _ _ ha hb
    · exact hzero _ _ hb ha
    · exact hzero _ _ hb hb

/-! ### Correctly rounded functions satisfy the laws -/

/-- `arctan2` of exact numbers and infinities -/
noncomputable def flArctan2 : Fl ℝ → Fl ℝ → Fl ℝ
  | .nan, _ => .nan
  | _, .nan => .nan
  | .fin y, .fin x => .fin (arctan2 y x)
  | .fin _, .pinf => .fin 0
  | .fin y, .ninf => .fin (if y < 0 then -Real.pi else Real.pi)
  | .pinf, .fin _ => .fin (Real.pi / 2)
  | .pinf, .pinf => .fin (Real.pi / 4)
  | .pinf, .ninf => .fin (3 * Real.pi / 4)
  | .ninf, .fin _ => .fin (-(Real.pi / 2))
  | .ninf, .pinf => .fin (-(Real.pi / 4))
  | .ninf, .ninf => .fin (-(3 * Real.pi / 4))

/-- a function of exact numbers that is NaN for infinite arguments -/
def flFun (f : ℝ → ℝ) : Fl ℝ → Fl ℝ
  | .fin x => .fin (f x)
  | _ => .nan

/-- the exact functions followed by the rounding -/
@[reducible] noncomputable def correctTrig (R : Rounding ℝ) : PyTrig (RFl R) where
  radians x := RFl.mk' R (x.val *ᶠ .fin (Real.pi / 180))
  sin x := RFl.mk' R (flFun Real.sin x.val)
  cos x := RFl.mk' R (flFun Real.cos x.val)
  sq x := RFl.mk' R (x.val *ᶠ x.val)
  half x := RFl.mk' R (Fl.sqrt x.val)
  arctan2 y x := RFl.mk' R (flArctan2 y.val x.val)

theorem rnd_within {x lo hi : ℝ} (h1 : R.rnd lo = .fin lo) (h2 : R.rnd hi = .fin hi) (hl : lo ≤ x) (hh : x ≤ hi) :
    ∃ z, R.rnd x = .fin z ∧ lo ≤ z ∧ z ≤ hi := by
  have a1 := R.mono lo x hl
  have a2 := R.mono x hi hh
  rw [h1] at a1
  rw [h2] at a2
  cases e : R.rnd x with
  | nan => have := R.not_nan x; rw [e] at this; cases this
  | ninf => rw [e] at a1; cases a1
  | pinf => rw [e] at a2; cases a2
  | fin c =>
    rw [e] at a1 a2
    exact ⟨c, rfl, by simpa using a1, by simpa using a2⟩

theorem rnd_neg_of (hR : SignSymmetric R) {x : ℝ} (h : R.rnd x = .fin x) : R.rnd (-x) = .fin (-x) := by
  have := hR (.fin x)
  rw [show Fl.neg (.fin x : Fl ℝ) = .fin (-x) from rfl, show R.round (.fin x) = R.rnd x from rfl, h] at this
  exact this

theorem arg_quadrant {y x : ℝ} (hy : 0 ≤ y) (hx : 0 ≤ x) : 0 ≤ arctan2 y x ∧ arctan2 y x ≤ Real.pi / 2 := by
  refine ⟨Complex.arg_nonneg_iff.mpr hy, ?_⟩
  have h := (Complex.abs_arg_le_pi_div_two_iff (z := ⟨x, y⟩)).mpr hx
  exact (abs_le.mp h).2

theorem correctTrig_laws (hR : SignSymmetric R) : @TrigLaws R (correctTrig R) := by
  letI := correctTrig R
  refine
    { radians_fin := ?_, sin_neg := ?_, sin_zero := ?_, cos_range := ?_, sq_neg := ?_, sq_zero := ?_, half_zero := ?_,
      half_one := ?_, half_nonneg := ?_, arctan2_zero := ?_, arctan2_range := ?_, arctan2_nan := ?_ }
  · intro x a ha
    have hrep := RFl.rnd_of_val ha
    have hpi : 0 < Real.pi / 180 ∧ Real.pi / 180 ≤ 1 := by
      constructor
      · have := Real.pi_pos; positivity
      · have := Real.pi_le_four; linarith
    have hb : |a * (Real.pi / 180)| ≤ |a| := by
      rw [abs_mul, abs_of_pos hpi.1]
      exact mul_le_of_le_one_right (abs_nonneg _) hpi.2
    have habs : R.rnd |a| = .fin |a| := by
      rcases abs_choice a with h | h <;> rw [h]
      · exact hrep
      · exact rnd_neg_of hR hrep
    obtain ⟨z, hz, _, _⟩ := rnd_within (R := R) (rnd_neg_of hR habs) habs (abs_le.mp hb).1 (abs_le.mp hb).2
    refine ⟨z, ?_⟩
    show R.round (x.val *ᶠ .fin (Real.pi / 180)) = _
    rw [ha, Fl.pf_mul_fin]
    exact hz
  · intro x y h
    show R.round (flFun Real.sin y.val) = Fl.neg (R.round (flFun Real.sin x.val))
    rw [← hR, h]
    congr 1
    cases x.val <;> try rfl
    show Fl.fin (Real.sin (-_)) = Fl.fin (-Real.sin _)
    rw [Real.sin_neg]
  · apply RFl.ext
    show R.round (flFun Real.sin (PyFloat.ofInt 0 : RFl R).val) = _
    rw [RFl.val_zero]
    show R.rnd (Real.sin 0) = _
    rw [Real.sin_zero, R.zero]
  · intro x a ha
    obtain ⟨z, hz, h1, h2⟩ := rnd_within (R := R) (rnd_neg_of hR R.one) R.one (Real.neg_one_le_cos a) (Real.cos_le_one a)
    refine ⟨z, ?_, abs_le.mpr ⟨h1, h2⟩⟩
    show R.round (flFun Real.cos x.val) = _
    rw [ha]
    exact hz
  · intro x y h
    apply RFl.ext
    show R.round (y.val *ᶠ y.val) = R.round (x.val *ᶠ x.val)
    rw [h]
    congr 1
    cases x.val <;> try rfl
    show (Fl.fin (-_) *ᶠ Fl.fin (-_) : Fl ℝ) = _
    rw [Fl.pf_mul_fin, Fl.pf_mul_fin, neg_mul_neg]
  · apply RFl.ext
    show R.round ((PyFloat.ofInt 0 : RFl R).val *ᶠ (PyFloat.ofInt 0 : RFl R).val) = _
    rw [RFl.val_zero, Fl.pf_mul_fin, mul_zero]
    exact R.zero
  · apply RFl.ext
    show R.round (Fl.sqrt (PyFloat.ofInt 0 : RFl R).val) = _
    rw [RFl.val_zero]
    simp only [Fl.sqrt, lt_irrefl, if_false, Real.sqrt_zero]
    exact R.zero
  · apply RFl.ext
    show R.round (Fl.sqrt (PyFloat.ofInt 1 : RFl R).val) = _
    rw [RFl.val_one]
    simp only [Fl.sqrt, if_neg (not_lt.mpr (zero_le_one (α := ℝ))), Real.sqrt_one]
    exact R.one
  · intro x hx
    have hx' : isNaN (R.round (Fl.sqrt x.val)) = false := hx
    rw [RFl.le_def, RFl.val_zero]
    show Fl.fin 0 ≤ᶠ R.round (Fl.sqrt x.val)
    have h0 : R.round (.fin 0) = .fin 0 := R.zero
    rw [R.isNaN_round] at hx'
    rw [← h0]
    apply R.round_mono
    cases h : x.val with
    | nan => rw [h] at hx'; cases hx'
    | ninf => rw [h] at hx'; cases hx'
    | pinf => rfl
    | fin a =>
      rw [h] at hx'
      simp only [Fl.sqrt] at hx' ⊢
      split_ifs at hx' ⊢ with h3
      · cases hx'
      · rw [Fl.pf_le_fin, decide_eq_true_eq]; exact Real.sqrt_nonneg a
  · apply RFl.ext
    show R.round (flArctan2 (PyFloat.ofInt 0 : RFl R).val (PyFloat.ofInt 1 : RFl R).val) = _
    rw [RFl.val_zero, RFl.val_one]
    simp only [flArctan2]
    have : arctan2 0 1 = 0 := by
      unfold arctan2
      rw [Complex.arg_eq_zero_iff]
      simp
    rw [this]
    exact R.zero
  · intro y x hy hx
    rw [RFl.le_def, RFl.val_zero] at hy hx
    have hmain : ∃ t, flArctan2 y.val x.val = .fin t ∧ 0 ≤ t ∧ t ≤ Real.pi / 2 := by
      have hpi := Real.pi_pos
      cases ey : y.val <;> cases ex : x.val <;> rw [ey] at hy <;> rw [ex] at hx <;>
        first
        | (exfalso; revert hy; exact Bool.false_ne_true)
        | (exfalso; revert hx; exact Bool.false_ne_true)
        | skip
      · rw [Fl.pf_le_fin, decide_eq_true_eq] at hy hx
        exact ⟨_, rfl, arg_quadrant hy hx⟩
      · exact ⟨0, rfl, le_rfl, by linarith⟩
      · exact ⟨_, rfl, by linarith, le_rfl⟩
      · exact ⟨_, rfl, by linarith, by linarith⟩
    obtain ⟨t, ht, h0, h1⟩ := hmain
    constructor
    · rw [RFl.le_def, RFl.val_zero]
      show Fl.fin 0 ≤ᶠ R.round (flArctan2 y.val x.val)
      rw [ht, ← show R.round (.fin 0) = .fin 0 from R.zero]
      apply R.round_mono
      rw [Fl.pf_le_fin, decide_eq_true_eq]; exact h0
    · rw [RFl.le_def]
      show R.round (flArctan2 y.val x.val) ≤ᶠ
        R.round (flArctan2 (PyFloat.ofInt 1 : RFl R).val (PyFloat.ofInt 0 : RFl R).val)
      rw [ht, RFl.val_one, RFl.val_zero]
      apply R.round_mono
      show Fl.fin t ≤ᶠ Fl.fin (arctan2 1 0)
      have : arctan2 1 0 = Real.pi / 2 := by
        unfold arctan2
        exact Complex.arg_I
      rw [Fl.pf_le_fin, decide_eq_true_eq, this]
      exact h1
  · intro y x h
    show isNaN (R.round (flArctan2 y.val x.val)) = true
    rw [R.isNaN_round]
    have h' : (isNaN y.val || isNaN x.val) = true := h
    cases ey : y.val <;> cases ex : x.val <;> rw [ey, ex] at h' <;> first | rfl | (cases h')

end laws

theorem binary64_symmetric : SignSymmetric (binary64 (K := ℝ)) := by
  intro v
  cases v with
  | fin x =>
    by_cases hx : x = 0
    · subst hx
      have e : (binary64 (K := ℝ)).round (.fin 0) = .fin 0 := (binary64 (K := ℝ)).zero
      have e2 : Fl.neg (.fin (0 : ℝ)) = .fin 0 := by simp [Fl.neg]
      rw [e2, e, e2]
    · exact rndFmt_neg _ hx
  | _ => rfl

/-- IEEE doubles with correctly rounded functions: the matrices of three CMLs in a row -/
example : letI := correctTrig (binary64 (K := ℝ))
    let N : Nat → DblR := fun n => PyFloat.ofInt n
    let d := calcDistancesF ["x", "y", "z"] [⟨N 11, N 48⟩, ⟨N 12, N 48⟩, ⟨N 13, N 48⟩] [⟨N 12, N 48⟩, ⟨N 13, N 48⟩, ⟨N 14, N 48⟩]
    entry' d.a_to_all_b 1 0 = some (PyFloat.ofInt 0) ∧ entry' d.b_to_all_a 0 2 = entry' d.a_to_all_b 2 0 := by
  letI := correctTrig (binary64 (K := ℝ))
  intro N d
  have h := C143_matrices binary64_symmetric (correctTrig_laws binary64_symmetric)
    ((binary64_precision (K := ℝ)).int_exact 2 (by norm_num)) ((binary64_precision (K := ℝ)).int_exact 6367 (by norm_num))
    ["x", "y", "z"] (by decide) [⟨N 11, N 48⟩, ⟨N 12, N 48⟩, ⟨N 13, N 48⟩] [⟨N 12, N 48⟩, ⟨N 13, N 48⟩, ⟨N 14, N 48⟩] rfl rfl
  exact ⟨(h 1 0 (by decide) (by decide)).2.2.2.2 _ _ d.a_to_all_b (.tail _ (.head _)) ⟨N 12, N 48⟩ rfl rfl
      ⟨12, val_ofNat_b64 12 (by norm_num)⟩ ⟨48, val_ofNat_b64 48 (by norm_num)⟩,
    (h 0 2 (by decide) (by decide)).2.2.1⟩

end Verif.Props
