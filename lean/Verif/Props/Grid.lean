import Verif.Model.Idw
import Mathlib.Data.Rat.Floor
import Mathlib.Algebra.Order.Ring.Rat

/-!
# Properties C49, C50: generated grids and climatological variogram parameters
-/

namespace Verif.Props
open Verif Verif.Idw

section
variable {K : Type} [Field K] [LinearOrder K] [IsStrictOrderedRing K] [FloorRing K]

omit [FloorRing K] [IsStrictOrderedRing K] in
theorem listMinK_spec {xs : List K} (h : xs ≠ []) :
    ∃ lo, listMinK xs = .ok lo ∧ lo ∈ xs ∧ ∀ x ∈ xs, lo ≤ x := by
  cases xs with
  | nil => exact absurd rfl h
  | cons a l =>
    refine ⟨l.foldl min a, rfl, ?_⟩
    induction l generalizing a with
    | nil => simp
    | cons b l ih =>
      obtain ⟨h1, h2⟩ := ih (min a b) (by simp)
      rw [List.foldl_cons]
      refine ⟨?_, ?_⟩
      · rcases List.mem_cons.mp h1 with h | h
        · rw [h]
          rcases min_choice a b with h | h <;> simp [h]
        · simp [h]
      · intro x hx
        have hm := h2 (min a b) (by simp)
        rcases List.mem_cons.mp hx with rfl | hx
        · exact hm.trans (min_le_left _ _)
        · rcases List.mem_cons.mp hx with rfl | hx
          · exact hm.trans (min_le_right _ _)
          · exact h2 x (by simp [hx])

omit [FloorRing K] [IsStrictOrderedRing K] in
theorem listMaxK_spec {xs : List K} (h : xs ≠ []) :
    ∃ hi, listMaxK xs = .ok hi ∧ hi ∈ xs ∧ ∀ x ∈ xs, x ≤ hi := by
  cases xs with
  | nil => exact absurd rfl h
  | cons a l =>
    refine ⟨l.foldl max a, rfl, ?_⟩
    induction l generalizing a with
    | nil => simp
    | cons b l ih =>
      obtain ⟨h1, h2⟩ := ih (max a b) (by simp)
      rw [List.foldl_cons]
      refine ⟨?_, ?_⟩
      · rcases List.mem_cons.mp h1 with h | h
        · rw [h]
          rcases max_choice a b with h | h <;> simp [h]
        · simp [h]
      · intro x hx
        have hm := h2 (max a b) (by simp)
        rcases List.mem_cons.mp hx with rfl | hx
        · exact (le_max_left _ _).trans hm
        · rcases List.mem_cons.mp hx with rfl | hx
          · exact (le_max_right _ _).trans hm
          · exact h2 x (by simp [hx])

/-- `cs` are the coordinates `lo - r, lo, lo + r, ...`, at least up to `hi` and less than one step
beyond, where `lo`, `hi` are the extreme values of `xs`. -/
structure CoversAxis (xs : List K) (r : K) (cs : List K) : Prop where
  bounds : ∃ lo hi, lo ∈ xs ∧ hi ∈ xs ∧ (∀ x ∈ xs, lo ≤ x ∧ x ≤ hi) ∧
    (∀ i : Nat, i < cs.length → cs[i]? = some (lo - r + i * r)) ∧
    ∃ last, cs.getLast? = some last ∧ hi ≤ last ∧ last < hi + r

theorem gridCoords_covers {xs : List K} (h : xs ≠ []) {r : K} (hr : 0 < r) :
    ∃ cs, gridCoords xs r = .ok cs ∧ CoversAxis xs r cs := by
  obtain ⟨lo, hlo, hlom, hlo2⟩ := listMinK_spec h
  obtain ⟨hi, hhi, hhim, hhi2⟩ := listMaxK_spec h
  have hle : lo ≤ hi := hlo2 hi hhim
  refine ⟨arange (lo - r) (hi + r) r, ?_, ⟨lo, hi, hlom, hhim,
    fun x hx => ⟨hlo2 x hx, hhi2 x hx⟩, ?_, ?_⟩⟩
  · unfold gridCoords
    rw [if_neg hr.ne', hlo, hhi]
    rfl
  · intro i hi'
    unfold arange at hi' ⊢
    rw [List.length_map, List.length_range] at hi'
    rw [List.getElem?_map, List.getElem?_range hi']
    rfl
  · set n := ⌈(hi + r - (lo - r)) / r⌉ with hn
    have hq : (hi + r - (lo - r)) / r = (hi - lo) / r + 2 := by field_simp; ring
    have h1 : (hi - lo) / r + 2 ≤ (n : K) := by rw [← hq]; exact Int.le_ceil _
    have h2 : (n : K) < (hi - lo) / r + 3 := by
      have := Int.ceil_lt_add_one ((hi + r - (lo - r)) / r)
      rw [hq] at this
      rw [hn, hq]
      linarith
    have h0 : 0 ≤ (hi - lo) / r := div_nonneg (by linarith) hr.le
    have hn2 : 2 ≤ n := by
      have : ((2 : Int) : K) ≤ (n : K) := by push_cast; linarith
      exact_mod_cast this
    obtain ⟨m, hm⟩ : ∃ m : Nat, n = (m : Int) + 1 := ⟨(n - 1).toNat, by omega⟩
    have hmK : (n : K) = (m : K) + 1 := by rw [hm]; push_cast; ring
    refine ⟨lo - r + (m : K) * r, ?_, ?_, ?_⟩
    · unfold arange
      rw [← hn, List.getLast?_eq_getElem?, List.length_map, List.length_range, List.getElem?_map,
        List.getElem?_range (by omega)]
      have : n.toNat - 1 = m := by omega
      rw [this]
      rfl
    · have := mul_le_mul_of_nonneg_right h1 hr.le
      rw [hmK, add_mul, div_mul_cancel₀ _ hr.ne'] at this
      linarith
    · have := mul_lt_mul_of_pos_right h2 hr
      rw [hmK, add_mul ((hi - lo) / r), div_mul_cancel₀ _ hr.ne'] at this
      linarith

/-- **C49** If a grid is missing and a positive resolution given, both grids are generated: every
row of `xgrid` is the x axis, every column of `ygrid` the y axis, and both axes have spacing
`resolution`, start one resolution below the smallest coordinate and end in
`[max, max + resolution)`. A given single grid is ignored. -/
theorem C49_generated (x y : List K) (hx : x ≠ []) (hy : y ≠ []) (xg yg : Option (Grid K))
    (hmiss : xg = none ∨ yg = none) (r : K) (hr : 0 < r) :
    ∃ xc yc, parseGrid x y xg yg (some r) =
        .ok (yc.map fun _ => xc, yc.map fun c => xc.map fun _ => c) ∧
      CoversAxis x r xc ∧ CoversAxis y r yc := by
  obtain ⟨xc, h1, h2⟩ := gridCoords_covers hx hr
  obtain ⟨yc, h3, h4⟩ := gridCoords_covers hy hr
  refine ⟨xc, yc, ?_, h2, h4⟩
  unfold parseGrid
  rcases hmiss with rfl | rfl
  · simp only [h1, h3]; rfl
  · cases xg <;> simp only [h1, h3] <;> rfl

omit [IsStrictOrderedRing K] in
/-- **C49** Given grids are used unchanged, whatever the resolution; without a resolution a missing
grid raises `ValueError`, and so does an empty point list. -/
theorem C49_given_or_error (x y : List K) (r : Option K) :
    (∀ xg yg, parseGrid x y (some xg) (some yg) r = .ok (xg, yg)) ∧
    (∀ xg yg, xg = none ∨ yg = none → parseGrid x y xg yg none = .error .valueError) ∧
    (∀ xg yg (q : K), xg = none ∨ yg = none → q ≠ 0 →
      parseGrid [] y xg yg (some q) = .error .valueError) := by
  refine ⟨fun _ _ => rfl, ?_, ?_⟩
  · rintro xg yg (rfl | rfl)
    · rfl
    · cases xg <;> rfl
  · rintro xg yg q (rfl | rfl) hq
    · unfold parseGrid gridCoords
      simp only [if_neg hq]
      rfl
    · unfold parseGrid gridCoords
      cases xg <;> simp only [if_neg hq] <;> rfl

/-- **C49** Every data point lies in the bounding box of the generated grid. -/
theorem C49_points_inside {xs : List K} {r : K} {cs : List K} (h : CoversAxis xs r cs) (hr : 0 < r)
    (x : K) (hx : x ∈ xs) :
    ∃ first last, cs.head? = some first ∧ cs.getLast? = some last ∧ first < x ∧ x ≤ last := by
  obtain ⟨lo, hi, _, _, h1, h2, last, h3, h4, _⟩ := h.bounds
  have hne : 0 < cs.length := by
    rw [List.length_pos_iff]
    rintro rfl
    cases h3
  refine ⟨lo - r, last, ?_, h3, ?_, (h1 x hx).2.trans h4⟩
  · rw [List.head?_eq_getElem?, h2 0 hne]
    simp
  · linarith [(h1 x hx).1]

end

example : parseGrid ([0, 1] : List ℚ) [5] none (some [[0]]) (some (1/2)) =
    .ok ([[-1/2, 0, 1/2, 1], [-1/2, 0, 1/2, 1]], [[9/2, 9/2, 9/2, 9/2], [5, 5, 5, 5]]) := by
  decide +kernel

/-! ### C50 -/

theorem rpow_gt_of_pow {h c : ℝ} {a : ℝ} {n m : Nat} (hn : n ≠ 0) (ha : a * n = m) (hh : 0 < h)
    (hlt : c ^ n < h ^ m) : c < h ^ a := by
  have h1 : (h ^ a) ^ n = h ^ m := by
    rw [← Real.rpow_natCast, ← Real.rpow_mul hh.le, ha, Real.rpow_natCast]
  exact lt_of_pow_lt_pow_left₀ n (Real.rpow_nonneg hh.le a) (by rw [h1]; exact hlt)

theorem base_pos {h : ℝ} (hh : 0 < h) (a b A B c : ℝ) (hB : 0 < B) (hc : |c| ≤ 1)
    (hab : B / A < h ^ (a - b)) (hA : 0 < A) : 0 < A * h ^ a + B * h ^ b * c := by
  have hb : 0 < h ^ b := Real.rpow_pos_of_pos hh b
  have e : h ^ a = h ^ (a - b) * h ^ b := by rw [← Real.rpow_add hh]; congr 1; ring
  have h1 : B < A * h ^ (a - b) := by rw [div_lt_iff₀ hA] at hab; linarith
  have h2 : B * h ^ b < A * h ^ a := by
    rw [e, ← mul_assoc]; exact mul_lt_mul_of_pos_right h1 hb
  have h3 : -(B * h ^ b) ≤ B * h ^ b * c := by
    have := (abs_le.mp hc).1
    nlinarith [mul_pos hB hb]
  linarith

/-- **C50** For every day and every time scale of at least one second (no upper limit), sill and range
are positive and the nugget is a tenth of the sill. -/
theorem C50_positive (day h : ℝ) (hh : 1 / 3600 ≤ h) :
    0 < (climVarParam day h).1 ∧ 0 < (climVarParam day h).2.1 ∧
      (climVarParam day h).2.2 = (climVarParam day h).1 / 10 ∧ 0 < (climVarParam day h).2.2 := by
  have hpos : 0 < h := lt_of_lt_of_le (by norm_num) hh
  have hr : 0 < 15.51 * h ^ (0.09 : ℝ) + 2.06 * h ^ (-0.12 : ℝ) *
      Real.cos (2 * Real.pi * (1 / 365) * (day - 7.37 * h ^ (0.22 : ℝ))) := by
    apply base_pos hpos _ _ _ _ _ (by norm_num) (Real.abs_cos_le_one _) _ (by norm_num)
    apply rpow_gt_of_pow (n := 100) (m := 21) (by norm_num) (by norm_num) hpos
    calc (2.06 / 15.51 : ℝ) ^ 100 < (1 / 3600) ^ 21 := by norm_num
      _ ≤ h ^ 21 := pow_le_pow_left₀ (by norm_num) hh 21
  have hs : 0 < 0.84 * h ^ (-0.25 : ℝ) + 0.20 * h ^ (-0.37 : ℝ) *
      Real.cos (2 * Real.pi * (1 / 365) * (day - 162 * h ^ (-0.03 : ℝ))) := by
    apply base_pos hpos _ _ _ _ _ (by norm_num) (Real.abs_cos_le_one _) _ (by norm_num)
    apply rpow_gt_of_pow (n := 100) (m := 12) (by norm_num) (by norm_num) hpos
    calc (0.20 / 0.84 : ℝ) ^ 100 < (1 / 3600) ^ 12 := by norm_num
      _ ≤ h ^ 12 := pow_le_pow_left₀ (by norm_num) hh 12
  have h1 : 0 < (climVarParam day h).1 := pow_pos hs 4
  have h2 : 0 < (climVarParam day h).2.1 := div_pos (pow_pos hr 4) (by norm_num)
  have h3 : (climVarParam day h).2.2 = (climVarParam day h).1 / 10 := by
    show (0.1 : ℝ) * (climVarParam day h).1 = _
    ring
  exact ⟨h1, h2, h3, by rw [h3]; positivity⟩

/-- **C50** Annual bounds at one hour: the fourth roots of sill and of the range in metres lie
between mean minus and mean plus the amplitude of the annual cycle. -/
theorem C50_bounds_one_hour (day : ℝ) :
    (0.64 : ℝ) ^ 4 ≤ (climVarParam day 1).1 ∧ (climVarParam day 1).1 ≤ (1.04 : ℝ) ^ 4 ∧
    (13.45 : ℝ) ^ 4 / 1000 ≤ (climVarParam day 1).2.1 ∧
      (climVarParam day 1).2.1 ≤ (17.57 : ℝ) ^ 4 / 1000 := by
  simp only [climVarParam, Real.one_rpow]
  have c1 := abs_le.mp (Real.abs_cos_le_one (2 * Real.pi * (1 / 365) * (day - 7.37 * 1)))
  have c2 := abs_le.mp (Real.abs_cos_le_one (2 * Real.pi * (1 / 365) * (day - 162 * 1)))
  refine ⟨pow_le_pow_left₀ (by norm_num) (by linarith) 4,
    pow_le_pow_left₀ (by linarith) (by linarith) 4, ?_, ?_⟩
  · exact (div_le_div_iff_of_pos_right (by norm_num)).mpr
      (pow_le_pow_left₀ (by norm_num) (by linarith) 4)
  · exact (div_le_div_iff_of_pos_right (by norm_num)).mpr
      (pow_le_pow_left₀ (by linarith) (by linarith) 4)

theorem base_le_max {h : ℝ} (hh : 0 < h) (a b A B c : ℝ) (hB : 0 < B) (hc : |c| ≤ 1)
    (hpos : 0 < A * h ^ a + B * h ^ b * c) :
    (A * h ^ a + B * h ^ b * c) ^ 4 ≤ (A * h ^ a + B * h ^ b) ^ 4 := by
  have hb : 0 < B * h ^ b := mul_pos hB (Real.rpow_pos_of_pos hh b)
  apply pow_le_pow_left₀ hpos.le
  have := (abs_le.mp hc).2
  nlinarith

/-- **C50** Season: period 365 days; the sill is largest at day `162 h^-0.03`, the range at day
`7.37 h^0.22`, with the amplitudes of the published fit. -/
theorem C50_season (day h : ℝ) (hh : 1 / 3600 ≤ h) :
    climVarParam (day + 365) h = climVarParam day h ∧
    (climVarParam day h).1 ≤ (climVarParam (162 * h ^ (-0.03 : ℝ)) h).1 ∧
    (climVarParam day h).2.1 ≤ (climVarParam (7.37 * h ^ (0.22 : ℝ)) h).2.1 ∧
    (climVarParam (162 * h ^ (-0.03 : ℝ)) h).1 =
      (0.84 * h ^ (-0.25 : ℝ) + 0.20 * h ^ (-0.37 : ℝ)) ^ 4 ∧
    (climVarParam (7.37 * h ^ (0.22 : ℝ)) h).2.1 =
      (15.51 * h ^ (0.09 : ℝ) + 2.06 * h ^ (-0.12 : ℝ)) ^ 4 / 1000 := by
  have hpos : 0 < h := lt_of_lt_of_le (by norm_num) hh
  have hr : 0 < 15.51 * h ^ (0.09 : ℝ) + 2.06 * h ^ (-0.12 : ℝ) *
      Real.cos (2 * Real.pi * (1 / 365) * (day - 7.37 * h ^ (0.22 : ℝ))) := by
    apply base_pos hpos _ _ _ _ _ (by norm_num) (Real.abs_cos_le_one _) _ (by norm_num)
    apply rpow_gt_of_pow (n := 100) (m := 21) (by norm_num) (by norm_num) hpos
    calc (2.06 / 15.51 : ℝ) ^ 100 < (1 / 3600) ^ 21 := by norm_num
      _ ≤ h ^ 21 := pow_le_pow_left₀ (by norm_num) hh 21
  have hs : 0 < 0.84 * h ^ (-0.25 : ℝ) + 0.20 * h ^ (-0.37 : ℝ) *
      Real.cos (2 * Real.pi * (1 / 365) * (day - 162 * h ^ (-0.03 : ℝ))) := by
    apply base_pos hpos _ _ _ _ _ (by norm_num) (Real.abs_cos_le_one _) _ (by norm_num)
    apply rpow_gt_of_pow (n := 100) (m := 12) (by norm_num) (by norm_num) hpos
    calc (0.20 / 0.84 : ℝ) ^ 100 < (1 / 3600) ^ 12 := by norm_num
      _ ≤ h ^ 12 := pow_le_pow_left₀ (by norm_num) hh 12
  have e1 : (climVarParam (162 * h ^ (-0.03 : ℝ)) h).1 =
      (0.84 * h ^ (-0.25 : ℝ) + 0.20 * h ^ (-0.37 : ℝ)) ^ 4 := by
    simp only [climVarParam, sub_self, mul_zero, Real.cos_zero, mul_one]
  have e2 : (climVarParam (7.37 * h ^ (0.22 : ℝ)) h).2.1 =
      (15.51 * h ^ (0.09 : ℝ) + 2.06 * h ^ (-0.12 : ℝ)) ^ 4 / 1000 := by
    simp only [climVarParam, sub_self, mul_zero, Real.cos_zero, mul_one]
  refine ⟨?_, ?_, ?_, e1, e2⟩
  · have per : ∀ c : ℝ, Real.cos (2 * Real.pi * (1 / 365) * (day + 365 - c)) =
        Real.cos (2 * Real.pi * (1 / 365) * (day - c)) := by
      intro c
      rw [show 2 * Real.pi * (1 / 365) * (day + 365 - c) =
        2 * Real.pi * (1 / 365) * (day - c) + 2 * Real.pi by ring, Real.cos_add_two_pi]
    simp only [climVarParam, per]
  · rw [e1]
    exact base_le_max hpos _ _ _ _ _ (by norm_num) (Real.abs_cos_le_one _) hs
  · rw [e2]
    exact (div_le_div_iff_of_pos_right (by norm_num)).mpr
      (base_le_max hpos _ _ _ _ _ (by norm_num) (Real.abs_cos_le_one _) hr)

example : 0 < (climVarParam 94 0.25).2.1 := (C50_positive 94 0.25 (by norm_num)).2.1

end Verif.Props
