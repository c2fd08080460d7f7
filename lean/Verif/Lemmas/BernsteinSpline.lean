import Verif.Lemmas.CubicSpline
import Mathlib.LinearAlgebra.FiniteDimensional.Lemmas
import Mathlib.Algebra.Polynomial.Roots

/-!
# Cubic splines given by Bernstein coefficients, and existence of the cubic spline
-/

namespace Verif.KR
open Polynomial

/-- the cubic on `[x, x+h]` with Bernstein coefficients `b0 … b3` -/
noncomputable def bpoly (x h b0 b1 b2 b3 : ℝ) : Polynomial ℝ :=
  C b0 + C (3 * (b1 - b0) / h) * (X - C x) + C (3 * (b2 - 2 * b1 + b0) / h ^ 2) * (X - C x) ^ 2 +
    C ((b3 - 3 * b2 + 3 * b1 - b0) / h ^ 3) * (X - C x) ^ 3

theorem bpoly_natDegree (x h b0 b1 b2 b3 : ℝ) : (bpoly x h b0 b1 b2 b3).natDegree ≤ 3 := by
  unfold bpoly; compute_degree

theorem bpoly_eval {x h : ℝ} (hh : h ≠ 0) (b0 b1 b2 b3 t : ℝ) :
    (bpoly x h b0 b1 b2 b3).eval t =
      b0 * (1 - (t - x) / h) ^ 3 + 3 * b1 * (1 - (t - x) / h) ^ 2 * ((t - x) / h) +
        3 * b2 * (1 - (t - x) / h) * ((t - x) / h) ^ 2 + b3 * ((t - x) / h) ^ 3 := by
  simp only [bpoly, eval_add, eval_mul, eval_C, eval_sub, eval_X, eval_pow]
  field_simp
  ring

theorem bpoly_deriv {x h : ℝ} (hh : h ≠ 0) (b0 b1 b2 b3 t : ℝ) :
    (bpoly x h b0 b1 b2 b3).derivative.eval t =
      3 / h * ((b1 - b0) * (1 - (t - x) / h) ^ 2 + 2 * (b2 - b1) * (1 - (t - x) / h) * ((t - x) / h) +
        (b3 - b2) * ((t - x) / h) ^ 2) := by
  simp only [bpoly, derivative_add, derivative_mul, derivative_C, derivative_sub, derivative_X, derivative_pow,
    eval_add, eval_mul, eval_C, eval_sub, eval_X, eval_pow, eval_zero, eval_one]
  simp
  field_simp
  ring

theorem bpoly_deriv2 {x h : ℝ} (hh : h ≠ 0) (b0 b1 b2 b3 t : ℝ) :
    (bpoly x h b0 b1 b2 b3).derivative.derivative.eval t =
      6 / h ^ 2 * ((b2 - 2 * b1 + b0) * (1 - (t - x) / h) + (b3 - 2 * b2 + b1) * ((t - x) / h)) := by
  rw [cubic_deriv2 (bpoly_natDegree _ _ _ _ _ _)]
  have e2 : (bpoly x h b0 b1 b2 b3).coeff 2 =
      3 * (b2 - 2 * b1 + b0) / h ^ 2 - 3 * x * ((b3 - 3 * b2 + 3 * b1 - b0) / h ^ 3) := by
    have hd := cubic_deriv (bpoly_natDegree x h b0 b1 b2 b3)
    have v0 := hd 0
    have v1 := hd 1
    have v2 := hd (-1)
    rw [bpoly_deriv hh] at v0 v1 v2
    have : 4 * (bpoly x h b0 b1 b2 b3).coeff 2 = 3 / h * ((b1 - b0) * (1 - (1 - x) / h) ^ 2 + 2 * (b2 - b1) * (1 - (1 - x) / h) * ((1 - x) / h) +
        (b3 - b2) * ((1 - x) / h) ^ 2) - 3 / h * ((b1 - b0) * (1 - (-1 - x) / h) ^ 2 + 2 * (b2 - b1) * (1 - (-1 - x) / h) * ((-1 - x) / h) +
        (b3 - b2) * ((-1 - x) / h) ^ 2) := by linarith
    apply mul_left_cancel₀ (four_ne_zero (α := ℝ))
    rw [this]
    field_simp
    ring
  have e3 : (bpoly x h b0 b1 b2 b3).coeff 3 = (b3 - 3 * b2 + 3 * b1 - b0) / h ^ 3 := by
    have hd := cubic_deriv (bpoly_natDegree x h b0 b1 b2 b3)
    have v0 := hd 0
    have v1 := hd 1
    have v2 := hd (-1)
    rw [bpoly_deriv hh] at v0 v1 v2
    apply mul_left_cancel₀ (show (6 : ℝ) ≠ 0 by norm_num)
    have : 6 * (bpoly x h b0 b1 b2 b3).coeff 3 = 3 / h * ((b1 - b0) * (1 - (1 - x) / h) ^ 2 + 2 * (b2 - b1) * (1 - (1 - x) / h) * ((1 - x) / h) +
        (b3 - b2) * ((1 - x) / h) ^ 2) + 3 / h * ((b1 - b0) * (1 - (-1 - x) / h) ^ 2 + 2 * (b2 - b1) * (1 - (-1 - x) / h) * ((-1 - x) / h) +
        (b3 - b2) * ((-1 - x) / h) ^ 2) - 2 * (3 / h * ((b1 - b0) * (1 - (0 - x) / h) ^ 2 + 2 * (b2 - b1) * (1 - (0 - x) / h) * ((0 - x) / h) +
        (b3 - b2) * ((0 - x) / h) ^ 2)) := by linarith
    rw [this]
    field_simp
    ring
  rw [e2, e3]
  field_simp
  ring

/-- Two cubics with the same value and derivatives where they meet are the same polynomial. -/
theorem bpoly_join {x h h' b0 b1 b2 b3 c1 c2 c3 : ℝ} (hh : h ≠ 0) (hh' : h' ≠ 0)
    (e1 : (b3 - b2) * h' = (c1 - b3) * h) (e2 : (b3 - 2 * b2 + b1) * h' ^ 2 = (c2 - 2 * c1 + b3) * h ^ 2)
    (e3 : (b3 - 3 * b2 + 3 * b1 - b0) * h' ^ 3 = (c3 - 3 * c2 + 3 * c1 - b3) * h ^ 3) :
    bpoly x h b0 b1 b2 b3 = bpoly (x + h) h' b3 c1 c2 c3 := by
  have f1 : (c1 - b3) / h' = (b3 - b2) / h := by field_simp; linarith
  have f2 : (c2 - 2 * c1 + b3) / h' ^ 2 = (b3 - 2 * b2 + b1) / h ^ 2 := by
    field_simp; linarith
  have f3 : (c3 - 3 * c2 + 3 * c1 - b3) / h' ^ 3 = (b3 - 3 * b2 + 3 * b1 - b0) / h ^ 3 := by
    field_simp; linarith
  refine Polynomial.funext fun t => ?_
  simp only [bpoly, eval_add, eval_mul, eval_C, eval_sub, eval_X, eval_pow]
  rw [mul_div_assoc 3 (c1 - b3), mul_div_assoc 3 (c2 - _ + _), f1, f2, f3]
  field_simp
  ring

/-! ### The function given by its pieces -/

open Classical in
/-- the function that is `p i` between `x i` and `x (i+1)` -/
noncomputable def piecewise (N : Nat) (x : Nat → ℝ) (p : Nat → Polynomial ℝ) (t : ℝ) : ℝ :=
  if h : ∃ i, i < N ∧ x i ≤ t ∧ t ≤ x (i + 1) then (p (Nat.find h)).eval t else 0

theorem piecewise_eq {N : Nat} {x : Nat → ℝ} {p : Nat → Polynomial ℝ} (hx : ∀ i j, i < j → j ≤ N → x i < x j)
    (hp : ∀ i, i + 1 < N → (p i).eval (x (i + 1)) = (p (i + 1)).eval (x (i + 1)))
    {i : Nat} (hi : i < N) {t : ℝ} (h1 : x i ≤ t) (h2 : t ≤ x (i + 1)) :
    piecewise N x p t = (p i).eval t := by
  classical
  have h : ∃ i, i < N ∧ x i ≤ t ∧ t ≤ x (i + 1) := ⟨i, hi, h1, h2⟩
  unfold piecewise
  rw [dif_pos h]
  have hk := Nat.find_spec h
  have hle : Nat.find h ≤ i := Nat.find_min' h ⟨hi, h1, h2⟩
  generalize Nat.find h = k at hk hle
  rcases hle.lt_or_eq with hlt | rfl
  · have : ¬ k + 1 < i := fun hc => by
      have := hx (k + 1) i hc hi.le
      linarith [hk.2.2]
    obtain rfl : i = k + 1 := by omega
    obtain rfl : t = x (k + 1) := le_antisymm hk.2.2 h1
    exact hp k hi
  · rfl

/-- Bernstein coefficients with matching derivatives at the knots give the cubic spline. -/
theorem isCubicSpline_bern {xs ys : List ℚ} (hs : xs.Pairwise (· < ·)) {N : Nat} (hN : 3 ≤ N)
    (hx : xs.length = N + 1) (b1 b2 : Nat → ℝ)
    (e1 : ∀ i, i + 1 < N → (knot ys (i + 1) - b2 i) * (knot xs (i + 2) - knot xs (i + 1)) =
      (b1 (i + 1) - knot ys (i + 1)) * (knot xs (i + 1) - knot xs i))
    (e2 : ∀ i, i + 1 < N →
      (knot ys (i + 1) - 2 * b2 i + b1 i) * (knot xs (i + 2) - knot xs (i + 1)) ^ 2 =
      (b2 (i + 1) - 2 * b1 (i + 1) + knot ys (i + 1)) * (knot xs (i + 1) - knot xs i) ^ 2)
    (e3 : ∀ i, i = 0 ∨ i = N - 2 →
      (knot ys (i + 1) - 3 * b2 i + 3 * b1 i - knot ys i) * (knot xs (i + 2) - knot xs (i + 1)) ^ 3 =
      (knot ys (i + 2) - 3 * b2 (i + 1) + 3 * b1 (i + 1) - knot ys (i + 1)) * (knot xs (i + 1) - knot xs i) ^ 3) :
    IsCubicSpline xs ys (piecewise N (knot xs) fun i =>
      bpoly (knot xs i) (knot xs (i + 1) - knot xs i) (knot ys i) (b1 i) (b2 i) (knot ys (i + 1))) := by
  have hlt : ∀ i j, i < j → j ≤ N → knot xs i < knot xs j := fun i j h1 h2 => knot_lt hs h1 (by omega)
  have hne : ∀ i, i < N → knot xs (i + 1) - knot xs i ≠ 0 := fun i hi =>
    (sub_pos.mpr (hlt i (i + 1) (by omega) (by omega))).ne'
  set p : Nat → Polynomial ℝ := fun i =>
      bpoly (knot xs i) (knot xs (i + 1) - knot xs i) (knot ys i) (b1 i) (b2 i) (knot ys (i + 1)) with hp
  have pl : ∀ i, i < N → (p i).eval (knot xs i) = knot ys i := fun i hi => by
    simp only [hp, bpoly_eval (hne i hi), sub_self, zero_div]; ring
  have pr : ∀ i, i < N → (p i).eval (knot xs (i + 1)) = knot ys (i + 1) := fun i hi => by
    simp only [hp, bpoly_eval (hne i hi), div_self (hne i hi)]; ring
  have pw : ∀ {i : Nat}, i < N → ∀ {t : ℝ}, knot xs i ≤ t → t ≤ knot xs (i + 1) →
      piecewise N (knot xs) p t = (p i).eval t := fun {i} hi {t} h1 h2 =>
    piecewise_eq hlt (fun j hj => by rw [pr j (by omega), pl (j + 1) hj]) hi h1 h2
  have join : ∀ i, i = 0 ∨ i = N - 2 → p i = p (i + 1) := fun i hi => by
    have := bpoly_join (x := knot xs i) (hne i (by omega)) (hne (i + 1) (by omega)) (e1 i (by omega)) (e2 i (by omega))
      (e3 i hi)
    simp only [hp]
    rw [this]; congr 1; ring
  refine ⟨p, fun i => bpoly_natDegree _ _ _ _ _ _, fun i hi t h1 h2 => pw (by omega) h1 h2, ?_, ?_, join 0 (.inl rfl), ?_⟩
  · intro i hi
    rcases Nat.lt_or_ge i N with h | h
    · rw [pw h le_rfl (hlt i (i + 1) (by omega) (by omega)).le, pl i h]
    · obtain ⟨j, rfl⟩ : ∃ j, i = j + 1 := ⟨i - 1, by omega⟩
      rw [pw (i := j) (by omega) (hlt j (j + 1) (by omega) (by omega)).le le_rfl, pr j (by omega)]
  · intro i hi
    have n1 := hne i (by omega)
    have n2 := hne (i + 1) (by omega)
    have f1 := e1 i (by omega)
    have f2 := e2 i (by omega)
    have a2 : i + 1 + 1 = i + 2 := rfl
    rw [a2] at n2
    constructor
    · simp only [hp, bpoly_deriv n1, bpoly_deriv n2, sub_self, zero_div, div_self n1]
      generalize knot xs (i + 1) - knot xs i = h at *
      generalize knot xs (i + 2) - knot xs (i + 1) = h' at *
      field_simp
      linear_combination f1
    · simp only [hp, bpoly_deriv2 n1, bpoly_deriv2 n2, sub_self, zero_div, div_self n1]
      generalize knot xs (i + 1) - knot xs i = h at *
      generalize knot xs (i + 2) - knot xs (i + 1) = h' at *
      field_simp
      linear_combination f2
  · have a1 : xs.length - 3 = N - 2 := by omega
    have a2 : xs.length - 2 = N - 2 + 1 := by omega
    rw [a1, a2]
    exact join (N - 2) (.inr rfl)

/-! ### Existence -/

/-- the left side of the system for the second derivatives -/
noncomputable def momentRow (N : Nat) (h m : Nat → ℝ) (i : Nat) : ℝ :=
  if i = 0 then (m 1 - m 0) * h 1 - (m 2 - m 1) * h 0
  else if i = N then (m (N - 1) - m (N - 2)) * h (N - 1) - (m N - m (N - 1)) * h (N - 2)
  else h (i - 1) * m (i - 1) + 2 * (h (i - 1) + h i) * m i + h i * m (i + 1)

/-- The system has a solution for every right side. -/
theorem moments_exist {N : Nat} (hN : 3 ≤ N) (h : Nat → ℝ) (hpos : ∀ i, i < N → 0 < h i) (r : Nat → ℝ) :
    ∃ m : Nat → ℝ, ∀ i, i ≤ N → momentRow N h m i = r i := by
  let ext (v : Fin (N + 1) → ℝ) (k : Nat) : ℝ := if hk : k < N + 1 then v ⟨k, hk⟩ else 0
  have ext_add : ∀ v w k, ext (v + w) k = ext v k + ext w k := by
    intro v w k; simp only [ext]; split_ifs <;> simp
  have ext_smul : ∀ (c : ℝ) v k, ext (c • v) k = c * ext v k := by
    intro c v k; simp only [ext]; split_ifs <;> simp
  let T : (Fin (N + 1) → ℝ) →ₗ[ℝ] (Fin (N + 1) → ℝ) :=
    { toFun := fun v i => momentRow N h (ext v) i
      map_add' := fun v w => by
        funext i
        simp only [momentRow, ext_add, Pi.add_apply]
        split_ifs <;> ring
      map_smul' := fun c v => by
        funext i
        simp only [momentRow, ext_smul, Pi.smul_apply, smul_eq_mul, RingHom.id_apply]
        split_ifs <;> ring }
  have hinj : Function.Injective T := by
    rw [← LinearMap.ker_eq_bot, LinearMap.ker_eq_bot']
    intro v hv
    have hrow : ∀ i, i ≤ N → momentRow N h (ext v) i = 0 := fun i hi =>
      congrFun hv ⟨i, Nat.lt_succ_of_le hi⟩
    have z := moments_zero hN h (ext v) hpos
      (fun i hi => by
        have := hrow (i + 1) (by omega)
        simp only [momentRow, Nat.succ_ne_zero, if_false, if_neg (show i + 1 ≠ N by omega), Nat.add_sub_cancel] at this
        exact this)
      (by have := hrow 0 (by omega); simp only [momentRow, if_true] at this; linarith)
      (by
        have := hrow N le_rfl
        simp only [momentRow, if_neg (show N ≠ 0 by omega), if_true] at this; linarith)
    funext i
    have := z i (by omega)
    simp only [ext, dif_pos i.2] at this
    exact this
  have hsurj : Function.Surjective T := LinearMap.injective_iff_surjective.mp hinj
  obtain ⟨v, hv⟩ := hsurj fun i => r i
  exact ⟨ext v, fun i hi => congrFun hv ⟨i, Nat.lt_succ_of_le hi⟩⟩

/-- There is a cubic spline through any four or more points with increasing abscissae. -/
theorem isCubicSpline_exists {xs : List ℚ} (ys : List ℚ) (hs : xs.Pairwise (· < ·)) (hn : 4 ≤ xs.length) :
    ∃ s, IsCubicSpline xs ys s := by
  obtain ⟨N, hN⟩ : ∃ N, xs.length = N + 1 := ⟨xs.length - 1, by omega⟩
  set x := knot xs with hx
  set y := knot ys with hy
  set h : Nat → ℝ := fun i => x (i + 1) - x i with hh
  have hpos : ∀ i, i < N → 0 < h i := fun i hi => sub_pos.mpr (knot_lt hs (by omega) (by omega))
  obtain ⟨m, hm⟩ := moments_exist (N := N) (by omega) h hpos fun i =>
    if i = 0 ∨ i = N then 0 else 6 * ((y (i + 1) - y i) / h i - (y i - y (i - 1)) / h (i - 1))
  have hrow : ∀ i, i + 1 < N → h i * m i + 2 * (h i + h (i + 1)) * m (i + 1) + h (i + 1) * m (i + 2) =
      6 * ((y (i + 2) - y (i + 1)) / h (i + 1) - (y (i + 1) - y i) / h i) := fun i hi => by
    have := hm (i + 1) (by omega)
    simp only [momentRow, Nat.succ_ne_zero, if_false, if_neg (show i + 1 ≠ N by omega), Nat.add_sub_cancel,
      false_or] at this
    exact this
  have hfirst : (m 1 - m 0) * h 1 = (m 2 - m 1) * h 0 := by
    have := hm 0 (by omega)
    simp only [momentRow, if_true, true_or] at this; linarith
  have hlast : (m (N - 1) - m (N - 2)) * h (N - 1) = (m N - m (N - 1)) * h (N - 2) := by
    have := hm N le_rfl
    simp only [momentRow, if_neg (show N ≠ 0 by omega), if_true, or_true] at this; linarith
  refine ⟨_, isCubicSpline_bern hs (N := N) (by omega) hN
    (fun i => (2 * y i + y (i + 1)) / 3 - h i ^ 2 / 18 * (2 * m i + m (i + 1)))
    (fun i => (y i + 2 * y (i + 1)) / 3 - h i ^ 2 / 18 * (m i + 2 * m (i + 1))) ?_ ?_ ?_⟩
  · intro i hi
    have e := hrow i hi
    have n1 := (hpos i (by omega)).ne'
    have n2 := (hpos (i + 1) (by omega)).ne'
    rw [← hx, ← hy]
    show _ * h (i + 1) = _ * h i
    have a2 : i + 1 + 1 = i + 2 := rfl
    simp only [a2]
    field_simp at e
    linear_combination (1 / 18 : ℝ) * e
  · intro i hi
    rw [← hx, ← hy]
    show _ * h (i + 1) ^ 2 = _ * h i ^ 2
    have a2 : i + 1 + 1 = i + 2 := rfl
    simp only [a2]
    ring
  · intro i hi
    rw [← hx, ← hy]
    show _ * h (i + 1) ^ 3 = _ * h i ^ 3
    have a2 : i + 1 + 1 = i + 2 := rfl
    simp only [a2]
    have key : (m (i + 1) - m i) * h (i + 1) = (m (i + 2) - m (i + 1)) * h i := by
      rcases hi with rfl | rfl
      · exact hfirst
      · have a1 : N - 2 + 1 = N - 1 := by omega
        have a2 : N - 2 + 2 = N := by omega
        rw [a1, a2]; exact hlast
    linear_combination (1 / 6 : ℝ) * h i ^ 2 * h (i + 1) ^ 2 * key

theorem cubicSpline_spec {xs : List ℚ} (ys : List ℚ) (hs : xs.Pairwise (· < ·)) (hn : 4 ≤ xs.length) :
    IsCubicSpline xs ys (cubicSpline xs ys) := by
  unfold cubicSpline
  rw [dif_pos (isCubicSpline_exists ys hs hn)]
  exact Classical.choose_spec (isCubicSpline_exists ys hs hn)

/-- The cubic spline on one interval, from Bernstein coefficients with matching derivatives. -/
theorem cubicSpline_bern {xs ys : List ℚ} (hs : xs.Pairwise (· < ·)) {N : Nat} (hN : 3 ≤ N)
    (hx : xs.length = N + 1) (b1 b2 : Nat → ℝ)
    (e1 : ∀ i, i + 1 < N → (knot ys (i + 1) - b2 i) * (knot xs (i + 2) - knot xs (i + 1)) =
      (b1 (i + 1) - knot ys (i + 1)) * (knot xs (i + 1) - knot xs i))
    (e2 : ∀ i, i + 1 < N →
      (knot ys (i + 1) - 2 * b2 i + b1 i) * (knot xs (i + 2) - knot xs (i + 1)) ^ 2 =
      (b2 (i + 1) - 2 * b1 (i + 1) + knot ys (i + 1)) * (knot xs (i + 1) - knot xs i) ^ 2)
    (e3 : ∀ i, i = 0 ∨ i = N - 2 →
      (knot ys (i + 1) - 3 * b2 i + 3 * b1 i - knot ys i) * (knot xs (i + 2) - knot xs (i + 1)) ^ 3 =
      (knot ys (i + 2) - 3 * b2 (i + 1) + 3 * b1 (i + 1) - knot ys (i + 1)) * (knot xs (i + 1) - knot xs i) ^ 3)
    {i : Nat} (hi : i < N) {t : ℝ} (h1 : knot xs i ≤ t) (h2 : t ≤ knot xs (i + 1)) :
    cubicSpline xs ys t =
      (bpoly (knot xs i) (knot xs (i + 1) - knot xs i) (knot ys i) (b1 i) (b2 i) (knot ys (i + 1))).eval t := by
  have h := isCubicSpline_bern hs hN hx b1 b2 e1 e2 e3
  rw [isCubicSpline_unique hs (by omega) (cubicSpline_spec ys hs (by omega)) h i (by omega) t h1 h2]
  have hlt : ∀ i j, i < j → j ≤ N → knot xs i < knot xs j := fun i j h1 h2 => knot_lt hs h1 (by omega)
  refine piecewise_eq hlt (fun j hj => ?_) hi h1 h2
  have n1 : knot xs (j + 1) - knot xs j ≠ 0 := (sub_pos.mpr (hlt j (j + 1) (by omega) (by omega))).ne'
  have n2 : knot xs (j + 2) - knot xs (j + 1) ≠ 0 := (sub_pos.mpr (hlt (j + 1) (j + 2) (by omega) (by omega))).ne'
  rw [bpoly_eval n1, bpoly_eval n2, div_self n1, sub_self, sub_self, zero_div]; ring

end Verif.KR
