import Verif.Lemmas.BernsteinSpline
import Verif.Lemmas.ItuSplineData
import Mathlib.Analysis.Calculus.Deriv.Polynomial
import Mathlib.Analysis.Calculus.Deriv.MeanValue
import Mathlib.Analysis.SpecialFunctions.Log.Deriv
import Mathlib.Order.Monotone.Union

/-!
# The cubic splines through the ITU tables: pieces, bounds, monotonicity
-/

namespace Verif.KR
open Polynomial

namespace SplineCert

def x (c : SplineCert) (i : Nat) : Int := (c.X.getD i 0 : Nat)
def y (c : SplineCert) (i : Nat) : Int := (c.Y.getD i 0 : Nat)

/-- Bernstein coefficient `k` of interval `i`, times `D`, in units of 1e-7 -/
def coef (c : SplineCert) (i : Nat) : Nat → Int
  | 0 => c.y i * c.D
  | 1 => (c.B.getD i (0, 0)).1
  | 2 => (c.B.getD i (0, 0)).2
  | _ => c.y (i + 1) * c.D

/-- the derivatives match at knot `i + 1` -/
def joins (c : SplineCert) (i : Nat) : Bool :=
  (c.coef i 3 - c.coef i 2) * (c.x (i + 2) - c.x (i + 1)) ==
      (c.coef (i + 1) 1 - c.coef i 3) * (c.x (i + 1) - c.x i) &&
  (c.coef i 3 - 2 * c.coef i 2 + c.coef i 1) * (c.x (i + 2) - c.x (i + 1)) ^ 2 ==
      (c.coef (i + 1) 2 - 2 * c.coef (i + 1) 1 + c.coef i 3) * (c.x (i + 1) - c.x i) ^ 2

/-- the third derivatives match at knot `i + 1` -/
def joins3 (c : SplineCert) (i : Nat) : Bool :=
  (c.coef i 3 - 3 * c.coef i 2 + 3 * c.coef i 1 - c.coef i 0) * (c.x (i + 2) - c.x (i + 1)) ^ 3 ==
      (c.coef (i + 1) 3 - 3 * c.coef (i + 1) 2 + 3 * c.coef (i + 1) 1 - c.coef i 3) * (c.x (i + 1) - c.x i) ^ 3

def ok (c : SplineCert) (N : Nat) : Bool :=
  decide (0 < c.D) && decide (3 ≤ N) && decide (c.X.length = N + 1) && decide (c.X.IsChain (· < ·)) &&
  (List.range (N - 1)).all c.joins && c.joins3 0 && c.joins3 (N - 2)

def scaled (l : List Nat) : List ℚ := l.map fun n : Nat => (n : ℚ) / 10000000

/-- the spline -/
noncomputable def s (c : SplineCert) : ℝ → ℝ := cubicSpline (scaled c.X) (scaled c.Y)

/-- Bernstein coefficient `k` of interval `i` -/
noncomputable def beta (c : SplineCert) (i k : Nat) : ℝ := (c.coef i k : ℝ) / (c.D * 10000000)

/-- knot `i` in GHz -/
noncomputable def f (c : SplineCert) (i : Nat) : ℝ := (c.x i : ℝ) / 10000000

theorem knot_scaled (l : List Nat) (i : Nat) : knot (scaled l) i = ((l.getD i 0 : Nat) : ℝ) / 10000000 := by
  unfold knot scaled
  rw [List.getD_eq_getElem?_getD, List.getD_eq_getElem?_getD, List.getElem?_map]
  cases l[i]? <;> simp

theorem knot_X (c : SplineCert) (i : Nat) : knot (scaled c.X) i = c.f i := by
  rw [knot_scaled]; simp [f, x]

/-- the piece on interval `i` -/
noncomputable def piece (c : SplineCert) (i : Nat) : Polynomial ℝ :=
  bpoly (c.f i) (c.f (i + 1) - c.f i) (c.beta i 0) (c.beta i 1) (c.beta i 2) (c.beta i 3)

section
variable {c : SplineCert} {N : Nat} (hc : c.ok N = true)
include hc

theorem ok_D : (0 : ℝ) < c.D := by
  simp only [ok, Bool.and_eq_true, decide_eq_true_eq] at hc
  exact_mod_cast hc.1.1.1.1.1.1

theorem ok_N : 3 ≤ N := by
  simp only [ok, Bool.and_eq_true, decide_eq_true_eq] at hc
  exact hc.1.1.1.1.1.2

theorem ok_len : (scaled c.X).length = N + 1 := by
  simp only [ok, Bool.and_eq_true, decide_eq_true_eq] at hc
  simp only [scaled, List.length_map]
  exact hc.1.1.1.1.2

theorem ok_sorted : (scaled c.X).Pairwise (· < ·) := by
  simp only [ok, Bool.and_eq_true, decide_eq_true_eq] at hc
  rw [scaled, List.pairwise_map]
  refine (List.isChain_iff_pairwise.mp hc.1.1.1.2).imp ?_
  intro a b hab
  have : (a : ℚ) < b := by exact_mod_cast hab
  linarith

theorem f_lt {i j : Nat} (h : i < j) (hj : j ≤ N) : c.f i < c.f j := by
  rw [← knot_X, ← knot_X]
  exact knot_lt (ok_sorted hc) h (by rw [ok_len hc]; omega)

theorem f_le {i j : Nat} (h : i ≤ j) (hj : j ≤ N) : c.f i ≤ c.f j := by
  rcases h.lt_or_eq with h | rfl
  · exact (f_lt hc h hj).le
  · exact le_rfl

theorem beta0 (i : Nat) : c.beta i 0 = knot (scaled c.Y) i := by
  have := ok_D hc
  rw [knot_scaled, beta, coef, y]
  push_cast
  field_simp

theorem beta3 (i : Nat) : c.beta i 3 = knot (scaled c.Y) (i + 1) := by
  have := ok_D hc
  rw [knot_scaled, beta, coef, y]
  · push_cast
    field_simp
  all_goals simp

/-- The spline on interval `i` is the piece given by the certificate. -/
theorem s_eq {i : Nat} (hi : i < N) {t : ℝ} (h1 : c.f i ≤ t) (h2 : t ≤ c.f (i + 1)) :
    c.s t = (c.piece i).eval t := by
  have hD := ok_D hc
  have hN := ok_N hc
  have hjoin : ∀ i, i + 1 < N → c.joins i = true := by
    intro i hi
    simp only [ok, Bool.and_eq_true, decide_eq_true_eq, List.all_eq_true, List.mem_range] at hc
    exact hc.1.1.2 i (by omega)
  have h3 : ∀ i, i = 0 ∨ i = N - 2 → c.joins3 i = true := by
    intro i hi
    simp only [ok, Bool.and_eq_true, decide_eq_true_eq] at hc
    rcases hi with rfl | rfl
    · exact hc.1.2
    · exact hc.2
  have hb : ∀ i k, (c.coef i k : ℝ) = c.beta i k * (c.D * 10000000) := fun i k => by
    rw [beta]; field_simp
  have hf : ∀ i, (c.x i : ℝ) = c.f i * 10000000 := fun i => by rw [f]; field_simp
  have hk : (c.D : ℝ) * 10000000 ≠ 0 := by positivity
  have e := cubicSpline_bern (xs := scaled c.X) (ys := scaled c.Y) (ok_sorted hc) hN (ok_len hc)
    (fun i => c.beta i 1) (fun i => c.beta i 2)
    (fun i hi => by
      have h := hjoin i hi
      simp only [joins, Bool.and_eq_true, beq_iff_eq] at h
      have h := congrArg (Int.cast : Int → ℝ) h.1
      push_cast at h
      simp only [hb, hf] at h
      simp only [knot_X]
      rw [← beta3 hc]
      apply mul_left_cancel₀ hk
      linear_combination (1 / 10000000 : ℝ) * h)
    (fun i hi => by
      have h := hjoin i hi
      simp only [joins, Bool.and_eq_true, beq_iff_eq] at h
      have h := congrArg (Int.cast : Int → ℝ) h.2
      push_cast at h
      simp only [hb, hf] at h
      simp only [knot_X]
      rw [← beta3 hc]
      apply mul_left_cancel₀ hk
      linear_combination (1 / 10000000 ^ 2 : ℝ) * h)
    (fun i hi => by
      have h := h3 i hi
      simp only [joins3, beq_iff_eq] at h
      have h := congrArg (Int.cast : Int → ℝ) h
      push_cast at h
      simp only [hb, hf] at h
      simp only [knot_X]
      rw [← beta3 hc, ← beta0 hc, show i + 2 = i + 1 + 1 from rfl, ← beta3 hc]
      apply mul_left_cancel₀ hk
      linear_combination (1 / 10000000 ^ 3 : ℝ) * h)
    hi (t := t) (by rw [knot_X]; exact h1) (by rw [knot_X]; exact h2)
  rw [knot_X, knot_X, ← beta0 hc, ← beta3 hc] at e
  exact e

omit hc in
theorem exists_interval (x : Nat → ℝ) {k N : Nat} (hk : k < N) {t : ℝ} (h1 : x k ≤ t) (h2 : t ≤ x N) :
    ∃ i, k ≤ i ∧ i < N ∧ x i ≤ t ∧ t ≤ x (i + 1) := by
  induction N with
  | zero => omega
  | succ n ih =>
    by_cases h : x n ≤ t
    · exact ⟨n, by omega, by omega, h, h2⟩
    · rcases Nat.lt_or_ge k n with hkn | hkn
      · obtain ⟨i, a, b, d, e⟩ := ih hkn (le_of_lt (not_le.mp h))
        exact ⟨i, a, by omega, d, e⟩
      · obtain rfl : k = n := by omega
        exact absurd h1 h

/-! ### Bounds -/

omit hc in
/-- all coefficients between `lo` and `hi` (units of 1e-7) -/
def range (c : SplineCert) (N : Nat) (lo hi : Int) : Bool :=
  (List.range N).all fun i => (List.range 4).all fun k =>
    decide (lo * c.D ≤ c.coef i k) && decide (c.coef i k ≤ hi * c.D)

omit hc in
theorem bern_nonneg {u b0 b1 b2 b3 : ℝ} (h0 : 0 ≤ u) (h1 : u ≤ 1) (g0 : 0 ≤ b0) (g1 : 0 ≤ b1) (g2 : 0 ≤ b2)
    (g3 : 0 ≤ b3) :
    0 ≤ b0 * (1 - u) ^ 3 + 3 * b1 * (1 - u) ^ 2 * u + 3 * b2 * (1 - u) * u ^ 2 + b3 * u ^ 3 := by
  have : 0 ≤ 1 - u := by linarith
  positivity

omit hc in
theorem unit_of {x x' t : ℝ} (h : x < x') (h1 : x ≤ t) (h2 : t ≤ x') :
    0 ≤ (t - x) / (x' - x) ∧ (t - x) / (x' - x) ≤ 1 :=
  ⟨div_nonneg (by linarith) (by linarith), (div_le_one (by linarith)).mpr (by linarith)⟩

theorem s_range {lo hi : Int} (hr : c.range N lo hi = true) {t : ℝ} (h1 : c.f 0 ≤ t) (h2 : t ≤ c.f N) :
    (lo : ℝ) / 10000000 ≤ c.s t ∧ c.s t ≤ (hi : ℝ) / 10000000 := by
  have hD := ok_D hc
  obtain ⟨i, -, hi', a1, a2⟩ := exists_interval c.f (by have := ok_N hc; omega) h1 h2
  have hb : ∀ k, k < 4 → (lo : ℝ) / 10000000 ≤ c.beta i k ∧ c.beta i k ≤ (hi : ℝ) / 10000000 := by
    intro k hk
    simp only [range, List.all_eq_true, List.mem_range, Bool.and_eq_true, decide_eq_true_eq] at hr
    have := hr i hi' k hk
    have g1 : (lo : ℝ) * c.D ≤ c.coef i k := by exact_mod_cast this.1
    have g2 : (c.coef i k : ℝ) ≤ hi * c.D := by exact_mod_cast this.2
    rw [beta]
    constructor
    · rw [div_le_div_iff₀ (by norm_num) (by positivity)]; nlinarith
    · rw [div_le_div_iff₀ (by positivity) (by norm_num)]; nlinarith
  have hlt := f_lt hc (Nat.lt_succ_self i) (show i + 1 ≤ N by omega)
  obtain ⟨u0, u1⟩ := unit_of hlt a1 a2
  rw [s_eq hc hi' a1 a2, piece, bpoly_eval (sub_pos.mpr hlt).ne']
  obtain ⟨p0, q0⟩ := hb 0 (by omega)
  obtain ⟨p1, q1⟩ := hb 1 (by omega)
  obtain ⟨p2, q2⟩ := hb 2 (by omega)
  obtain ⟨p3, q3⟩ := hb 3 (by omega)
  generalize (t - c.f i) / (c.f (i + 1) - c.f i) = u at *
  have l := bern_nonneg u0 u1 (sub_nonneg.mpr p0) (sub_nonneg.mpr p1) (sub_nonneg.mpr p2) (sub_nonneg.mpr p3)
  have r := bern_nonneg u0 u1 (sub_nonneg.mpr q0) (sub_nonneg.mpr q1) (sub_nonneg.mpr q2) (sub_nonneg.mpr q3)
  constructor <;> nlinarith

/-! ### Monotonicity -/

omit hc in
/-- Increasing on consecutive intervals. -/
theorem strictMonoOn_glue {g : ℝ → ℝ} {x : Nat → ℝ} {k N : Nat} (hx : ∀ i, k ≤ i → i < N → x i < x (i + 1)) (hk : k ≤ N)
    (h : ∀ i, k ≤ i → i < N → StrictMonoOn g (Set.Icc (x i) (x (i + 1)))) : StrictMonoOn g (Set.Icc (x k) (x N)) := by
  induction N, hk using Nat.le_induction with
  | base => rw [Set.Icc_self]; exact Set.strictMonoOn_singleton g
  | succ n hkn ih =>
    have h1 := ih (fun i a b => hx i a (by omega)) (fun i a b => h i a (by omega))
    have h2 := h n hkn (by omega)
    have hle : x k ≤ x n := by
      clear ih h1 h2 h
      induction n, hkn using Nat.le_induction with
      | base => exact le_rfl
      | succ m hm ih => exact (ih fun i a b => hx i a (by omega)).trans (hx m hm (by omega)).le
    have hle2 := (hx n hkn (by omega)).le
    have := StrictMonoOn.union h1 h2 ⟨Set.right_mem_Icc.mpr hle, fun y hy => hy.2⟩ ⟨Set.left_mem_Icc.mpr hle2, fun y hy => hy.1⟩
    rwa [Set.Icc_union_Icc_eq_Icc hle hle2] at this

/-- A function given piecewise by differentiable functions with positive derivative increases. -/
theorem strictMonoOn_pieces {g : ℝ → ℝ} {p p' : Nat → ℝ → ℝ} {k : Nat} (hk : k ≤ N)
    (he : ∀ i, k ≤ i → i < N → ∀ t, c.f i ≤ t → t ≤ c.f (i + 1) → g t = p i t)
    (hd : ∀ i, k ≤ i → i < N → ∀ t, c.f i ≤ t → t ≤ c.f (i + 1) → HasDerivAt (p i) (p' i t) t)
    (hp : ∀ i, k ≤ i → i < N → ∀ t, c.f i ≤ t → t ≤ c.f (i + 1) → 0 < p' i t) :
    StrictMonoOn g (Set.Icc (c.f k) (c.f N)) := by
  refine strictMonoOn_glue (fun i _ hi => f_lt hc (Nat.lt_succ_self i) hi) hk fun i h1 h2 => ?_
  have : StrictMonoOn (p i) (Set.Icc (c.f i) (c.f (i + 1))) := by
    refine strictMonoOn_of_deriv_pos (convex_Icc _ _) (fun t ht => (hd i h1 h2 t ht.1 ht.2).continuousAt.continuousWithinAt) ?_
    intro t ht
    rw [interior_Icc] at ht
    rw [(hd i h1 h2 t ht.1.le ht.2.le).deriv]
    exact hp i h1 h2 t ht.1.le ht.2.le
  exact this.congr fun t ht => (he i h1 h2 t ht.1 ht.2).symm

omit hc in
/-- the derivative of the piece on interval `i` -/
noncomputable def slope (c : SplineCert) (i : Nat) (t : ℝ) : ℝ := (c.piece i).derivative.eval t

omit hc in
theorem hasDerivAt_piece (c : SplineCert) (i : Nat) (t : ℝ) : HasDerivAt (fun t => (c.piece i).eval t) (c.slope i t) t :=
  (c.piece i).hasDerivAt t

omit hc in
/-- Bernstein coefficients increasing from knot `k` on -/
def inc (c : SplineCert) (k N : Nat) : Bool :=
  (List.range N).all fun i => decide (i < k) ||
    (decide (c.coef i 0 < c.coef i 1) && decide (c.coef i 1 < c.coef i 2) && decide (c.coef i 2 < c.coef i 3))

omit hc in
/-- Bernstein coefficients decreasing from knot `k` on -/
def dec (c : SplineCert) (k N : Nat) : Bool :=
  (List.range N).all fun i => decide (i < k) ||
    (decide (c.coef i 1 < c.coef i 0) && decide (c.coef i 2 < c.coef i 1) && decide (c.coef i 3 < c.coef i 2))

omit hc in
theorem quad_pos {u d0 d1 d2 : ℝ} (h0 : 0 ≤ u) (h1 : u ≤ 1) (g0 : 0 < d0) (g1 : 0 < d1) (g2 : 0 < d2) :
    0 < d0 * (1 - u) ^ 2 + 2 * d1 * (1 - u) * u + d2 * u ^ 2 := by
  have hw : 0 ≤ 1 - u := by linarith
  rcases h0.eq_or_lt with rfl | hu
  · simpa using g0
  · have : 0 < d2 * u ^ 2 := by positivity
    have : 0 ≤ d0 * (1 - u) ^ 2 + 2 * d1 * (1 - u) * u := by positivity
    linarith

theorem beta_lt {i k i' k' : Nat} : c.beta i k < c.beta i' k' ↔ c.coef i k < c.coef i' k' := by
  have hD := ok_D hc
  rw [beta, beta, div_lt_div_iff_of_pos_right (by positivity)]
  exact Int.cast_lt

theorem slope_eq {i : Nat} (hi : i < N) (t : ℝ) :
    c.slope i t = 3 / (c.f (i + 1) - c.f i) *
      ((c.beta i 1 - c.beta i 0) * (1 - (t - c.f i) / (c.f (i + 1) - c.f i)) ^ 2 +
        2 * (c.beta i 2 - c.beta i 1) * (1 - (t - c.f i) / (c.f (i + 1) - c.f i)) * ((t - c.f i) / (c.f (i + 1) - c.f i)) +
        (c.beta i 3 - c.beta i 2) * ((t - c.f i) / (c.f (i + 1) - c.f i)) ^ 2) :=
  bpoly_deriv (sub_pos.mpr (f_lt hc (Nat.lt_succ_self i) hi)).ne' _ _ _ _ _

theorem slope_pos {k : Nat} (h : c.inc k N = true) {i : Nat} (hk : k ≤ i) (hi : i < N) {t : ℝ}
    (h1 : c.f i ≤ t) (h2 : t ≤ c.f (i + 1)) : 0 < c.slope i t := by
  simp only [inc, List.all_eq_true, List.mem_range, Bool.or_eq_true, Bool.and_eq_true, decide_eq_true_eq] at h
  have hlt := f_lt hc (Nat.lt_succ_self i) hi
  obtain ⟨u0, u1⟩ := unit_of hlt h1 h2
  rcases h i hi with h | ⟨⟨a, b⟩, d⟩
  · omega
  · rw [slope_eq hc hi]
    exact mul_pos (div_pos (by norm_num) (sub_pos.mpr hlt)) (quad_pos u0 u1 (sub_pos.mpr ((beta_lt hc).mpr a))
      (sub_pos.mpr ((beta_lt hc).mpr b)) (sub_pos.mpr ((beta_lt hc).mpr d)))

theorem slope_neg {k : Nat} (h : c.dec k N = true) {i : Nat} (hk : k ≤ i) (hi : i < N) {t : ℝ}
    (h1 : c.f i ≤ t) (h2 : t ≤ c.f (i + 1)) : c.slope i t < 0 := by
  simp only [dec, List.all_eq_true, List.mem_range, Bool.or_eq_true, Bool.and_eq_true, decide_eq_true_eq] at h
  have hlt := f_lt hc (Nat.lt_succ_self i) hi
  obtain ⟨u0, u1⟩ := unit_of hlt h1 h2
  rcases h i hi with h | ⟨⟨a, b⟩, d⟩
  · omega
  · rw [slope_eq hc hi]
    have := mul_pos (div_pos (show (0 : ℝ) < 3 by norm_num) (sub_pos.mpr hlt)) (quad_pos u0 u1 (sub_pos.mpr ((beta_lt hc).mpr a))
      (sub_pos.mpr ((beta_lt hc).mpr b)) (sub_pos.mpr ((beta_lt hc).mpr d)))
    rw [← neg_pos]
    refine lt_of_lt_of_eq this ?_
    ring

theorem s_strictMono {k : Nat} (h : c.inc k N = true) (hk : k ≤ N) : StrictMonoOn c.s (Set.Icc (c.f k) (c.f N)) :=
  strictMonoOn_pieces hc hk (fun _ _ h2 _ => s_eq hc h2) (fun i _ _ t _ _ => hasDerivAt_piece c i t)
    (fun _ h1 h2 _ => slope_pos hc h h1 h2)

theorem s_strictAnti {k : Nat} (h : c.dec k N = true) (hk : k ≤ N) : StrictAntiOn c.s (Set.Icc (c.f k) (c.f N)) := by
  have : StrictMonoOn (fun t => -c.s t) (Set.Icc (c.f k) (c.f N)) :=
    strictMonoOn_pieces hc hk (fun _ _ h2 _ a b => congrArg Neg.neg (s_eq hc h2 a b))
      (fun i _ _ t _ _ => (hasDerivAt_piece c i t).neg)
      (fun _ h1 h2 _ a b => neg_pos.mpr (slope_neg hc h h1 h2 a b))
  exact fun a ha b hb hab => neg_lt_neg_iff.mp (this ha hb hab)

/-! ### Lipschitz bound -/

omit hc in
/-- slopes of absolute value below `K` (units of 1e-4) -/
def flat (c : SplineCert) (N : Nat) (K : Int) : Bool :=
  (List.range N).all fun i => (List.range 3).all fun k =>
    decide (30000 * (c.coef i (k + 1) - c.coef i k) < K * c.D * (c.x (i + 1) - c.x i)) &&
    decide (-(K * c.D * (c.x (i + 1) - c.x i)) < 30000 * (c.coef i (k + 1) - c.coef i k))

theorem slope_abs {K : Int} (h : c.flat N K = true) {i : Nat} (hi : i < N) {t : ℝ}
    (h1 : c.f i ≤ t) (h2 : t ≤ c.f (i + 1)) : |c.slope i t| < K / 10000 := by
  have hD := ok_D hc
  simp only [flat, List.all_eq_true, List.mem_range, Bool.and_eq_true, decide_eq_true_eq] at h
  have hlt := f_lt hc (Nat.lt_succ_self i) hi
  have hpos := sub_pos.mpr hlt
  obtain ⟨u0, u1⟩ := unit_of hlt h1 h2
  have hx : ((c.x (i + 1) : ℝ) - c.x i) = (c.f (i + 1) - c.f i) * 10000000 := by rw [f, f]; ring
  have hb : ∀ k, k < 3 → c.beta i (k + 1) - c.beta i k < K / 10000 * ((c.f (i + 1) - c.f i) / 3) ∧
      -(K / 10000 * ((c.f (i + 1) - c.f i) / 3)) < c.beta i (k + 1) - c.beta i k := by
    intro k hk
    obtain ⟨g1, g2⟩ := h i hi k hk
    have g1' : (30000 : ℝ) * (c.coef i (k + 1) - c.coef i k) < K * c.D * (c.x (i + 1) - c.x i) := by exact_mod_cast g1
    have g2' : -((K : ℝ) * c.D * (c.x (i + 1) - c.x i)) < 30000 * (c.coef i (k + 1) - c.coef i k) := by exact_mod_cast g2
    rw [hx] at g1' g2'
    have e : c.beta i (k + 1) - c.beta i k = ((c.coef i (k + 1) : ℝ) - c.coef i k) / (c.D * 10000000) := by
      rw [beta, beta]; ring
    rw [e]
    constructor
    · rw [div_lt_iff₀ (by positivity)]; linarith
    · rw [lt_div_iff₀ (by positivity)]; linarith
  obtain ⟨p0, q0⟩ := hb 0 (by omega)
  obtain ⟨p1, q1⟩ := hb 1 (by omega)
  obtain ⟨p2, q2⟩ := hb 2 (by omega)
  rw [slope_eq hc hi]
  generalize (t - c.f i) / (c.f (i + 1) - c.f i) = u at *
  generalize c.f (i + 1) - c.f i = δ at *
  have l := quad_pos u0 u1 (sub_pos.mpr p0) (sub_pos.mpr p1) (sub_pos.mpr p2)
  have r := quad_pos u0 u1 (neg_lt_iff_pos_add.mp q0) (neg_lt_iff_pos_add.mp q1) (neg_lt_iff_pos_add.mp q2)
  simp only [Nat.zero_add, Nat.reduceAdd] at *
  rw [abs_lt]
  have e : (K : ℝ) / 10000 = 3 / δ * (K / 10000 * (δ / 3)) := by field_simp
  have h3 : 0 < 3 / δ := by positivity
  constructor
  · rw [e, ← mul_neg]
    refine mul_lt_mul_of_pos_left ?_ h3
    nlinarith
  · rw [e]
    refine mul_lt_mul_of_pos_left ?_ h3
    nlinarith

theorem s_lipschitz {K : Int} (h : c.flat N K = true) {t t' : ℝ} (h1 : c.f 0 ≤ t) (h2 : t < t') (h3 : t' ≤ c.f N) :
    |c.s t' - c.s t| < K / 10000 * (t' - t) := by
  have m1 : StrictMonoOn (fun t => K / 10000 * t - c.s t) (Set.Icc (c.f 0) (c.f N)) :=
    strictMonoOn_pieces hc (p := fun i t => K / 10000 * t - (c.piece i).eval t)
      (p' := fun i t => K / 10000 * 1 - c.slope i t) (Nat.zero_le N)
      (fun _ _ h2 _ a b => by rw [s_eq hc h2 a b])
      (fun i _ _ t _ _ => ((hasDerivAt_id t).const_mul (K / 10000 : ℝ)).sub (hasDerivAt_piece c i t))
      (fun _ _ h2 _ a b => by have := (abs_lt.mp (slope_abs hc h h2 a b)).2; linarith)
  have m2 : StrictMonoOn (fun t => K / 10000 * t + c.s t) (Set.Icc (c.f 0) (c.f N)) :=
    strictMonoOn_pieces hc (p := fun i t => K / 10000 * t + (c.piece i).eval t)
      (p' := fun i t => K / 10000 * 1 + c.slope i t) (Nat.zero_le N)
      (fun _ _ h2 _ a b => by rw [s_eq hc h2 a b])
      (fun i _ _ t _ _ => ((hasDerivAt_id t).const_mul (K / 10000 : ℝ)).add (hasDerivAt_piece c i t))
      (fun _ _ h2 _ a b => by have := (abs_lt.mp (slope_abs hc h h2 a b)).1; linarith)
  have i1 : t ∈ Set.Icc (c.f 0) (c.f N) := ⟨h1, by linarith⟩
  have i2 : t' ∈ Set.Icc (c.f 0) (c.f N) := ⟨by linarith, h3⟩
  have g1 := m1 i1 i2 h2
  have g2 := m2 i1 i2 h2
  simp only at g1 g2
  rw [abs_lt]
  constructor <;> linarith

end

/-! ### Two splines together -/

/-- Bernstein coefficients of `a' + C a b'` positive from knot `k` on (`C` in units of 1e-4) -/
def logInc (a b : SplineCert) (k N : Nat) (C : Int) : Bool :=
  (List.range N).all fun i => decide (i < k) ||
    let a0 := a.coef i 0; let a1 := a.coef i 1; let a2 := a.coef i 2; let a3 := a.coef i 3
    let d0 := a1 - a0; let d1 := a2 - a1; let d2 := a3 - a2
    let e0 := b.coef i 1 - b.coef i 0; let e1 := b.coef i 2 - b.coef i 1; let e2 := b.coef i 3 - b.coef i 2
    let M := b.D * 100000000000
    decide (0 < d0 * M + C * (a0 * e0)) &&
    decide (0 < (3 * d0 + 2 * d1) * M + C * (2 * a0 * e1 + 3 * a1 * e0)) &&
    decide (0 < (3 * d0 + 6 * d1 + d2) * M + C * (a0 * e2 + 6 * a1 * e1 + 3 * a2 * e0)) &&
    decide (0 < (d0 + 6 * d1 + 3 * d2) * M + C * (3 * a1 * e2 + 6 * a2 * e1 + a3 * e0)) &&
    decide (0 < (2 * d1 + 3 * d2) * M + C * (3 * a2 * e2 + 2 * a3 * e1)) &&
    decide (0 < d2 * M + C * (a3 * e2))

theorem quint_pos {u p0 p1 p2 p3 p4 p5 : ℝ} (h0 : 0 ≤ u) (h1 : u ≤ 1) (g0 : 0 < p0) (g1 : 0 < p1) (g2 : 0 < p2)
    (g3 : 0 < p3) (g4 : 0 < p4) (g5 : 0 < p5) :
    0 < p0 * (1 - u) ^ 5 + p1 * (1 - u) ^ 4 * u + p2 * (1 - u) ^ 3 * u ^ 2 + p3 * (1 - u) ^ 2 * u ^ 3 +
      p4 * (1 - u) * u ^ 4 + p5 * u ^ 5 := by
  have hw : 0 ≤ 1 - u := by linarith
  rcases h0.eq_or_lt with rfl | hu
  · simpa using g0
  · have : 0 < p5 * u ^ 5 := by positivity
    have : 0 ≤ p0 * (1 - u) ^ 5 + p1 * (1 - u) ^ 4 * u + p2 * (1 - u) ^ 3 * u ^ 2 + p3 * (1 - u) ^ 2 * u ^ 3 +
      p4 * (1 - u) * u ^ 4 := by positivity
    linarith

theorem logInc_pos {a b : SplineCert} {k N : Nat} {C : Int} (ha : a.ok N = true) (hb : b.ok N = true) (hX : a.X = b.X)
    (h : logInc a b k N C = true) {i : Nat} (hk : k ≤ i) (hi : i < N) {t : ℝ}
    (h1 : a.f i ≤ t) (h2 : t ≤ a.f (i + 1)) :
    0 < a.slope i t + C / 10000 * ((a.piece i).eval t * b.slope i t) := by
  have hDa := ok_D ha
  have hDb := ok_D hb
  have hf : ∀ i, b.f i = a.f i := fun i => by simp only [f, x, hX]
  have hlt := f_lt ha (Nat.lt_succ_self i) hi
  have hpos := sub_pos.mpr hlt
  obtain ⟨u0, u1⟩ := unit_of hlt h1 h2
  rw [slope_eq ha hi, slope_eq hb hi, piece, bpoly_eval hpos.ne', hf, hf]
  simp only [logInc, List.all_eq_true, List.mem_range, Bool.or_eq_true, Bool.and_eq_true, decide_eq_true_eq] at h
  rcases h i hi with h | ⟨⟨⟨⟨⟨g0, g1⟩, g2⟩, g3⟩, g4⟩, g5⟩
  · omega
  have ca : ∀ k, (a.coef i k : ℝ) = a.beta i k * (a.D * 10000000) := fun k => by rw [beta]; field_simp
  have cb : ∀ k, (b.coef i k : ℝ) = b.beta i k * (b.D * 10000000) := fun k => by rw [beta]; field_simp
  have hM : (0 : ℝ) < (a.D * 10000000) * (b.D * 10000000) * 10000 := by positivity
  have lift : ∀ {z : ℤ} {r : ℝ}, 0 < z → (z : ℝ) = r * ((a.D * 10000000) * (b.D * 10000000) * 10000) → 0 < r := by
    intro z r hz he
    have : (0 : ℝ) < z := by exact_mod_cast hz
    rw [he] at this
    exact (mul_pos_iff_of_pos_right hM).mp this
  generalize (t - a.f i) / (a.f (i + 1) - a.f i) = u at *
  generalize a.f (i + 1) - a.f i = δ at *
  have key := quint_pos (u := u) (p0 := (a.beta i 1 - a.beta i 0) + C / 10000 * (a.beta i 0 * (b.beta i 1 - b.beta i 0)))
    (p1 := (3 * (a.beta i 1 - a.beta i 0) + 2 * (a.beta i 2 - a.beta i 1)) +
      C / 10000 * (2 * a.beta i 0 * (b.beta i 2 - b.beta i 1) + 3 * a.beta i 1 * (b.beta i 1 - b.beta i 0)))
    (p2 := (3 * (a.beta i 1 - a.beta i 0) + 6 * (a.beta i 2 - a.beta i 1) + (a.beta i 3 - a.beta i 2)) +
      C / 10000 * (a.beta i 0 * (b.beta i 3 - b.beta i 2) + 6 * a.beta i 1 * (b.beta i 2 - b.beta i 1) +
        3 * a.beta i 2 * (b.beta i 1 - b.beta i 0)))
    (p3 := ((a.beta i 1 - a.beta i 0) + 6 * (a.beta i 2 - a.beta i 1) + 3 * (a.beta i 3 - a.beta i 2)) +
      C / 10000 * (3 * a.beta i 1 * (b.beta i 3 - b.beta i 2) + 6 * a.beta i 2 * (b.beta i 2 - b.beta i 1) +
        a.beta i 3 * (b.beta i 1 - b.beta i 0)))
    (p4 := (2 * (a.beta i 2 - a.beta i 1) + 3 * (a.beta i 3 - a.beta i 2)) +
      C / 10000 * (3 * a.beta i 2 * (b.beta i 3 - b.beta i 2) + 2 * a.beta i 3 * (b.beta i 2 - b.beta i 1)))
    (p5 := (a.beta i 3 - a.beta i 2) + C / 10000 * (a.beta i 3 * (b.beta i 3 - b.beta i 2))) u0 u1
    (lift g0 (by push_cast; simp only [ca, cb]; ring)) (lift g1 (by push_cast; simp only [ca, cb]; ring))
    (lift g2 (by push_cast; simp only [ca, cb]; ring)) (lift g3 (by push_cast; simp only [ca, cb]; ring))
    (lift g4 (by push_cast; simp only [ca, cb]; ring)) (lift g5 (by push_cast; simp only [ca, cb]; ring))
  have e3 : 0 < 3 / δ := by positivity
  refine lt_of_lt_of_eq (mul_pos e3 key) ?_
  ring

/-- `log a + c b` increases with the frequency for `c` up to `C`. -/
theorem log_strictMono {a b : SplineCert} {k N : Nat} {C : Int} (ha : a.ok N = true) (hb : b.ok N = true)
    (hX : a.X = b.X) (hk : k ≤ N) (h : logInc a b k N C = true) (hd : b.dec k N = true)
    {lo hi' : Int} (hlo : 0 < lo) (hr : a.range N lo hi' = true) {c : ℝ} (hc : c ≤ C / 10000) :
    StrictMonoOn (fun t => Real.log (a.s t) + c * b.s t) (Set.Icc (a.f k) (a.f N)) := by
  have hf : ∀ i, b.f i = a.f i := fun i => by simp only [f, x, hX]
  have pos : ∀ i, i < N → ∀ t, a.f i ≤ t → t ≤ a.f (i + 1) → 0 < (a.piece i).eval t := by
    intro i hiN t h1 h2
    rw [← s_eq ha hiN h1 h2]
    refine lt_of_lt_of_le ?_ (s_range ha hr ((f_le ha (Nat.zero_le i) hiN.le).trans h1)
      (h2.trans (f_le ha hiN le_rfl))).1
    have : (0 : ℝ) < lo := by exact_mod_cast hlo
    positivity
  refine strictMonoOn_pieces ha (p := fun i t => Real.log ((a.piece i).eval t) + c * (b.piece i).eval t)
    (p' := fun i t => a.slope i t / (a.piece i).eval t + c * b.slope i t) hk ?_ ?_ ?_
  · intro i h1 h2 t a1 a2
    rw [s_eq ha h2 a1 a2, s_eq hb h2 (by rw [hf]; exact a1) (by rw [hf]; exact a2)]
  · intro i h1 h2 t a1 a2
    exact ((hasDerivAt_piece a i t).log (pos i h2 t a1 a2).ne').add ((hasDerivAt_piece b i t).const_mul c)
  · intro i h1 h2 t a1 a2
    have hp := pos i h2 t a1 a2
    have hn := slope_neg hb hd h1 h2 (t := t) (by rw [hf]; exact a1) (by rw [hf]; exact a2)
    have hl := logInc_pos ha hb hX h h1 h2 a1 a2
    have : 0 < a.slope i t + c * ((a.piece i).eval t * b.slope i t) := by
      have : (C : ℝ) / 10000 * ((a.piece i).eval t * b.slope i t) ≤ c * ((a.piece i).eval t * b.slope i t) :=
        mul_le_mul_of_nonpos_right hc (mul_neg_of_pos_of_neg hp hn).le
      linarith
    have e : a.slope i t / (a.piece i).eval t + c * b.slope i t =
        (a.slope i t + c * ((a.piece i).eval t * b.slope i t)) / (a.piece i).eval t := by
      field_simp
    rw [e]
    exact div_pos this hp

/-! ### Four splines: horizontal against vertical polarization -/

/-- Bernstein coefficients of `C aH (bH - bV) + aH - aV` not negative from knot `k` on (`C` in units of 1e-4) -/
def polGe (aH aV bH bV : SplineCert) (k N : Nat) (C : Int) : Bool :=
  (List.range N).all fun i => decide (i < k) ||
    let a := aH.coef i
    let d := fun j => aH.coef i j * aV.D - aV.coef i j * aH.D
    let g := fun j => bH.coef i j * bV.D - bV.coef i j * bH.D
    let M := bH.D * bV.D * 100000000000
    let K := C * aV.D
    decide (0 ≤ d 0 * M + K * (a 0 * g 0)) &&
    decide (0 ≤ (3 * d 0 + 3 * d 1) * M + K * (3 * a 0 * g 1 + 3 * a 1 * g 0)) &&
    decide (0 ≤ (3 * d 0 + 9 * d 1 + 3 * d 2) * M + K * (3 * a 0 * g 2 + 9 * a 1 * g 1 + 3 * a 2 * g 0)) &&
    decide (0 ≤ (d 0 + 9 * d 1 + 9 * d 2 + d 3) * M +
      K * (a 0 * g 3 + 9 * a 1 * g 2 + 9 * a 2 * g 1 + a 3 * g 0)) &&
    decide (0 ≤ (3 * d 1 + 9 * d 2 + 3 * d 3) * M + K * (3 * a 1 * g 3 + 9 * a 2 * g 2 + 3 * a 3 * g 1)) &&
    decide (0 ≤ (3 * d 2 + 3 * d 3) * M + K * (3 * a 2 * g 3 + 3 * a 3 * g 2)) &&
    decide (0 ≤ d 3 * M + K * (a 3 * g 3))

theorem sext_nonneg {u p0 p1 p2 p3 p4 p5 p6 : ℝ} (h0 : 0 ≤ u) (h1 : u ≤ 1) (g0 : 0 ≤ p0) (g1 : 0 ≤ p1) (g2 : 0 ≤ p2)
    (g3 : 0 ≤ p3) (g4 : 0 ≤ p4) (g5 : 0 ≤ p5) (g6 : 0 ≤ p6) :
    0 ≤ p0 * (1 - u) ^ 6 + p1 * (1 - u) ^ 5 * u + p2 * (1 - u) ^ 4 * u ^ 2 + p3 * (1 - u) ^ 3 * u ^ 3 +
      p4 * (1 - u) ^ 2 * u ^ 4 + p5 * (1 - u) * u ^ 5 + p6 * u ^ 6 := by
  have hw : 0 ≤ 1 - u := by linarith
  positivity

theorem polGe_nonneg {aH aV bH bV : SplineCert} {k N : Nat} {C : Int} (h1 : aH.ok N = true) (h2 : aV.ok N = true)
    (h3 : bH.ok N = true) (h4 : bV.ok N = true) (e2 : aV.X = aH.X) (e3 : bH.X = aH.X) (e4 : bV.X = aH.X)
    (h : polGe aH aV bH bV k N C = true) (hk : k < N) {t : ℝ} (t1 : aH.f k ≤ t) (t2 : t ≤ aH.f N) :
    0 ≤ C / 10000 * (aH.s t * (bH.s t - bV.s t)) + (aH.s t - aV.s t) := by
  have f2 : ∀ i, aV.f i = aH.f i := fun i => by simp only [f, x, e2]
  have f3 : ∀ i, bH.f i = aH.f i := fun i => by simp only [f, x, e3]
  have f4 : ∀ i, bV.f i = aH.f i := fun i => by simp only [f, x, e4]
  have D1 := ok_D h1
  have D2 := ok_D h2
  have D3 := ok_D h3
  have D4 := ok_D h4
  obtain ⟨i, hki, hi, a1, a2⟩ := exists_interval aH.f hk t1 t2
  have hlt := f_lt h1 (Nat.lt_succ_self i) hi
  have hpos := sub_pos.mpr hlt
  obtain ⟨u0, u1⟩ := unit_of hlt a1 a2
  rw [s_eq h1 hi a1 a2, s_eq h2 hi (by rw [f2]; exact a1) (by rw [f2]; exact a2),
    s_eq h3 hi (by rw [f3]; exact a1) (by rw [f3]; exact a2), s_eq h4 hi (by rw [f4]; exact a1) (by rw [f4]; exact a2)]
  simp only [piece, f2, f3, f4]
  simp only [bpoly_eval hpos.ne']
  simp only [polGe, List.all_eq_true, List.mem_range, Bool.or_eq_true, Bool.and_eq_true, decide_eq_true_eq] at h
  rcases h i hi with h | ⟨⟨⟨⟨⟨⟨g0, g1⟩, g2⟩, g3⟩, g4⟩, g5⟩, g6⟩
  · omega
  have c1 : ∀ k, (aH.coef i k : ℝ) = aH.beta i k * (aH.D * 10000000) := fun k => by rw [beta]; field_simp
  have c2 : ∀ k, (aV.coef i k : ℝ) = aV.beta i k * (aV.D * 10000000) := fun k => by rw [beta]; field_simp
  have c3 : ∀ k, (bH.coef i k : ℝ) = bH.beta i k * (bH.D * 10000000) := fun k => by rw [beta]; field_simp
  have c4 : ∀ k, (bV.coef i k : ℝ) = bV.beta i k * (bV.D * 10000000) := fun k => by rw [beta]; field_simp
  have hM : (0 : ℝ) < (aH.D * 10000000) * aV.D * bH.D * (bV.D * 10000000) * 10000 := by positivity
  have lift : ∀ {z : ℤ} {r : ℝ}, 0 ≤ z →
      (z : ℝ) = r * ((aH.D * 10000000) * aV.D * bH.D * (bV.D * 10000000) * 10000) → 0 ≤ r := by
    intro z r hz he
    have : (0 : ℝ) ≤ z := by exact_mod_cast hz
    rw [he] at this
    exact nonneg_of_mul_nonneg_left this hM
  generalize (t - aH.f i) / (aH.f (i + 1) - aH.f i) = u at *
  have key := sext_nonneg (u := u)
    (p0 := (aH.beta i 0 - aV.beta i 0) + C / 10000 * (aH.beta i 0 * (bH.beta i 0 - bV.beta i 0)))
    (p1 := (3 * (aH.beta i 0 - aV.beta i 0) + 3 * (aH.beta i 1 - aV.beta i 1)) +
      C / 10000 * (3 * aH.beta i 0 * (bH.beta i 1 - bV.beta i 1) + 3 * aH.beta i 1 * (bH.beta i 0 - bV.beta i 0)))
    (p2 := (3 * (aH.beta i 0 - aV.beta i 0) + 9 * (aH.beta i 1 - aV.beta i 1) + 3 * (aH.beta i 2 - aV.beta i 2)) +
      C / 10000 * (3 * aH.beta i 0 * (bH.beta i 2 - bV.beta i 2) + 9 * aH.beta i 1 * (bH.beta i 1 - bV.beta i 1) +
        3 * aH.beta i 2 * (bH.beta i 0 - bV.beta i 0)))
    (p3 := ((aH.beta i 0 - aV.beta i 0) + 9 * (aH.beta i 1 - aV.beta i 1) + 9 * (aH.beta i 2 - aV.beta i 2) +
        (aH.beta i 3 - aV.beta i 3)) +
      C / 10000 * (aH.beta i 0 * (bH.beta i 3 - bV.beta i 3) + 9 * aH.beta i 1 * (bH.beta i 2 - bV.beta i 2) +
        9 * aH.beta i 2 * (bH.beta i 1 - bV.beta i 1) + aH.beta i 3 * (bH.beta i 0 - bV.beta i 0)))
    (p4 := (3 * (aH.beta i 1 - aV.beta i 1) + 9 * (aH.beta i 2 - aV.beta i 2) + 3 * (aH.beta i 3 - aV.beta i 3)) +
      C / 10000 * (3 * aH.beta i 1 * (bH.beta i 3 - bV.beta i 3) + 9 * aH.beta i 2 * (bH.beta i 2 - bV.beta i 2) +
        3 * aH.beta i 3 * (bH.beta i 1 - bV.beta i 1)))
    (p5 := (3 * (aH.beta i 2 - aV.beta i 2) + 3 * (aH.beta i 3 - aV.beta i 3)) +
      C / 10000 * (3 * aH.beta i 2 * (bH.beta i 3 - bV.beta i 3) + 3 * aH.beta i 3 * (bH.beta i 2 - bV.beta i 2)))
    (p6 := (aH.beta i 3 - aV.beta i 3) + C / 10000 * (aH.beta i 3 * (bH.beta i 3 - bV.beta i 3))) u0 u1
    (lift g0 (by push_cast; simp only [c1, c2, c3, c4]; ring))
    (lift g1 (by push_cast; simp only [c1, c2, c3, c4]; ring))
    (lift g2 (by push_cast; simp only [c1, c2, c3, c4]; ring))
    (lift g3 (by push_cast; simp only [c1, c2, c3, c4]; ring))
    (lift g4 (by push_cast; simp only [c1, c2, c3, c4]; ring))
    (lift g5 (by push_cast; simp only [c1, c2, c3, c4]; ring))
    (lift g6 (by push_cast; simp only [c1, c2, c3, c4]; ring))
  refine le_of_le_of_eq key ?_
  ring

end SplineCert

/-! ### The kernel checks the eight splines -/

theorem ok2003_1 : cert2003_1.ok 20 = true := by decide +kernel
theorem ok2003_2 : cert2003_2.ok 20 = true := by decide +kernel
theorem ok2003_3 : cert2003_3.ok 20 = true := by decide +kernel
theorem ok2003_4 : cert2003_4.ok 20 = true := by decide +kernel
theorem ok2005_1 : cert2005_1.ok 104 = true := by decide +kernel
theorem ok2005_2 : cert2005_2.ok 104 = true := by decide +kernel
theorem ok2005_3 : cert2005_3.ok 104 = true := by decide +kernel
theorem ok2005_4 : cert2005_4.ok 104 = true := by decide +kernel

theorem range2003_1 : cert2003_1.range 20 280 13700000 = true := by decide +kernel
theorem range2003_2 : cert2003_2.range 20 280 13700000 = true := by decide +kernel
theorem range2003_3 : cert2003_3.range 20 6700000 17100000 = true := by decide +kernel
theorem range2003_4 : cert2003_4.range 20 6700000 17100000 = true := by decide +kernel
theorem range2005_1 : cert2005_1.range 104 250 13700000 = true := by decide +kernel
theorem range2005_2 : cert2005_2.range 104 250 13700000 = true := by decide +kernel
theorem range2005_3 : cert2005_3.range 104 6700000 17100000 = true := by decide +kernel
theorem range2005_4 : cert2005_4.range 104 6700000 17100000 = true := by decide +kernel

theorem inc2003_1 : cert2003_1.inc 1 20 = true := by decide +kernel
theorem inc2003_2 : cert2003_2.inc 1 20 = true := by decide +kernel
theorem inc2005_1 : cert2005_1.inc 8 104 = true := by decide +kernel
theorem inc2005_2 : cert2005_2.inc 8 104 = true := by decide +kernel
theorem dec2003_3 : cert2003_3.dec 5 20 = true := by decide +kernel
theorem dec2003_4 : cert2003_4.dec 5 20 = true := by decide +kernel
theorem dec2005_3 : cert2005_3.dec 10 104 = true := by decide +kernel
theorem dec2005_4 : cert2005_4.dec 10 104 = true := by decide +kernel

theorem flat2003_1 : cert2003_1.flat 20 223 = true := by decide +kernel
theorem flat2003_2 : cert2003_2.flat 20 223 = true := by decide +kernel
theorem flat2003_3 : cert2003_3.flat 20 4100 = true := by decide +kernel
theorem flat2003_4 : cert2003_4.flat 20 4100 = true := by decide +kernel
theorem flat2005_1 : cert2005_1.flat 104 223 = true := by decide +kernel
theorem flat2005_2 : cert2005_2.flat 104 223 = true := by decide +kernel
theorem flat2005_3 : cert2005_3.flat 104 4100 = true := by decide +kernel
theorem flat2005_4 : cert2005_4.flat 104 4100 = true := by decide +kernel

theorem logInc2003_H : cert2003_1.logInc cert2003_3 5 20 40000 = true := by decide +kernel
theorem logInc2003_V : cert2003_2.logInc cert2003_4 5 20 40000 = true := by decide +kernel
theorem logInc2005_H : cert2005_1.logInc cert2005_3 10 104 46300 = true := by decide +kernel
theorem logInc2005_V : cert2005_2.logInc cert2005_4 10 104 46300 = true := by decide +kernel

theorem polGe2003_lo : SplineCert.polGe cert2003_1 cert2003_2 cert2003_3 cert2003_4 0 20 15000 = true := by decide +kernel
theorem polGe2003_hi : SplineCert.polGe cert2003_1 cert2003_2 cert2003_3 cert2003_4 0 20 70000 = true := by decide +kernel
theorem polGe2005_lo : SplineCert.polGe cert2005_1 cert2005_2 cert2005_3 cert2005_4 8 104 15000 = true := by decide +kernel
theorem polGe2005_hi : SplineCert.polGe cert2005_1 cert2005_2 cert2005_3 cert2005_4 8 104 70000 = true := by decide +kernel

end Verif.KR
