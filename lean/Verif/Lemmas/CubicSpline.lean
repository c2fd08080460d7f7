import Verif.Model.CubicSpline
import Mathlib.Algebra.Polynomial.Eval.Degree
import Mathlib.Tactic.LinearCombination
import Mathlib.Tactic.Linarith
import Mathlib.Tactic.FieldSimp
import Mathlib.Tactic.ComputeDegree

/-!
# Uniqueness of the cubic spline and its pieces in Bernstein form
-/

namespace Verif.KR
open Polynomial

/-! ### Cubic polynomials -/

theorem cubic_eval {p : Polynomial ℝ} (h : p.natDegree ≤ 3) (t : ℝ) :
    p.eval t = p.coeff 0 + p.coeff 1 * t + p.coeff 2 * t ^ 2 + p.coeff 3 * t ^ 3 := by
  rw [eval_eq_sum_range' (Nat.lt_succ_of_le h)]
  simp [Finset.sum_range_succ]

theorem cubic_deriv {p : Polynomial ℝ} (h : p.natDegree ≤ 3) (t : ℝ) :
    p.derivative.eval t = p.coeff 1 + 2 * p.coeff 2 * t + 3 * p.coeff 3 * t ^ 2 := by
  have hd : p.derivative.natDegree < 3 := by
    have := natDegree_derivative_le p; omega
  rw [eval_eq_sum_range' hd]
  simp [Finset.sum_range_succ, coeff_derivative]
  ring

theorem cubic_deriv2 {p : Polynomial ℝ} (h : p.natDegree ≤ 3) (t : ℝ) :
    p.derivative.derivative.eval t = 2 * p.coeff 2 + 6 * p.coeff 3 * t := by
  have hd : p.derivative.derivative.natDegree < 2 := by
    have := natDegree_derivative_le p
    have := natDegree_derivative_le p.derivative; omega
  rw [eval_eq_sum_range' hd]
  simp [Finset.sum_range_succ, coeff_derivative]
  ring

/-! ### The three-term system has only the zero solution -/

/-- Diagonal dominance: a sequence with the relations of the second derivatives of a spline with zero values vanishes. -/
theorem moments_zero {N : Nat} (hN : 3 ≤ N) (h m : Nat → ℝ) (hpos : ∀ i, i < N → 0 < h i)
    (hrow : ∀ i, i + 1 < N → h i * m i + 2 * (h i + h (i + 1)) * m (i + 1) + h (i + 1) * m (i + 2) = 0)
    (h0 : (m 1 - m 0) * h 1 = (m 2 - m 1) * h 0)
    (hl : (m (N - 1) - m (N - 2)) * h (N - 1) = (m N - m (N - 1)) * h (N - 2)) :
    ∀ i, i ≤ N → m i = 0 := by
  -- an interior index with the greatest absolute value
  obtain ⟨k, hk, hmax⟩ := Finset.exists_max_image (Finset.Icc 1 (N - 1)) (fun i => |m i|)
    ⟨1, by simp; omega⟩
  rw [Finset.mem_Icc] at hk
  have hle : ∀ i, 1 ≤ i → i ≤ N - 1 → |m i| ≤ |m k| := fun i h1 h2 =>
    hmax i (Finset.mem_Icc.mpr ⟨h1, h2⟩)
  have key : |m k| = 0 := by
    obtain ⟨j, rfl⟩ : ∃ j, k = j + 1 := ⟨k - 1, by omega⟩
    have hr := hrow j (by omega)
    have pj := hpos j (by omega)
    have pj1 := hpos (j + 1) (by omega)
    by_contra hne
    have hp : 0 < |m (j + 1)| := lt_of_le_of_ne (abs_nonneg _) (Ne.symm hne)
    -- replaces `m` by `-m` if necessary
    have bound : ∀ a b c : ℝ, |b| ≤ |m (j + 1)| → |c| ≤ a → 0 < a →
        ∀ d, a < d → d * m (j + 1) + c * b = 0 → False := by
      intro a b c hb hc ha d hd he
      have e : d * |m (j + 1)| = |c| * |b| := by
        rw [← abs_mul c b, show c * b = -(d * m (j + 1)) by linarith, abs_neg, abs_mul,
          abs_of_pos (lt_trans ha hd)]
      have : |c| * |b| ≤ a * |m (j + 1)| := mul_le_mul hc hb (abs_nonneg _) ha.le
      nlinarith
    rcases Nat.eq_zero_or_pos j with rfl | hj
    · -- first interior row
      have p0 := hpos 0 (by omega)
      have p1 := hpos 1 (by omega)
      have e : (2 * (h 0 + h 1) * h 1 + h 0 * (h 0 + h 1)) * m (0 + 1) + (h 1 ^ 2 - h 0 ^ 2) * m 2 = 0 := by
        simp only [Nat.zero_add] at hr ⊢
        linear_combination h 1 * hr + h 0 * h0
      refine bound (h 0 ^ 2 + h 1 ^ 2) (m 2) _ (hle 2 (by omega) (by omega)) ?_ (by positivity) _ ?_ e
      · rw [abs_le]; constructor <;> nlinarith
      · nlinarith
    · by_cases hlast : j + 2 = N
      · -- last interior row
        have e2 : N - 1 = j + 1 := by omega
        have e3 : N - 2 = j := by omega
        rw [e2, e3, ← hlast] at hl
        have e : (2 * (h j + h (j + 1)) * h j + h (j + 1) * (h j + h (j + 1))) * m (j + 1) +
            (h j ^ 2 - h (j + 1) ^ 2) * m j = 0 := by
          linear_combination h j * hr + h (j + 1) * hl
        refine bound (h j ^ 2 + h (j + 1) ^ 2) (m j) _ (hle j (by omega) (by omega)) ?_ (by positivity) _ ?_ e
        · rw [abs_le]; constructor <;> nlinarith
        · nlinarith
      · have b1 := hle j (by omega) (by omega)
        have b2 := hle (j + 2) (by omega) (by omega)
        have e : 2 * (h j + h (j + 1)) * |m (j + 1)| = |h j * m j + h (j + 1) * m (j + 2)| := by
          rw [show h j * m j + h (j + 1) * m (j + 2) = -(2 * (h j + h (j + 1)) * m (j + 1)) by linarith,
            abs_neg, abs_mul, abs_of_pos (show 0 < 2 * (h j + h (j + 1)) by positivity)]
        have : |h j * m j + h (j + 1) * m (j + 2)| ≤ h j * |m (j + 1)| + h (j + 1) * |m (j + 1)| := by
          refine (abs_add_le _ _).trans (add_le_add ?_ ?_)
          · rw [abs_mul, abs_of_pos pj]; exact mul_le_mul_of_nonneg_left b1 pj.le
          · rw [abs_mul, abs_of_pos pj1]; exact mul_le_mul_of_nonneg_left b2 pj1.le
        nlinarith
  have hz : ∀ i, 1 ≤ i → i ≤ N - 1 → m i = 0 := fun i h1 h2 =>
    abs_eq_zero.mp (le_antisymm (key ▸ hle i h1 h2) (abs_nonneg _))
  intro i hi
  rcases Nat.eq_zero_or_pos i with rfl | hi0
  · rw [hz 1 (by omega) (by omega), hz 2 (by omega) (by omega)] at h0
    have := hpos 1 (by omega)
    have : m 0 * h 1 = 0 := by linarith
    rcases mul_eq_zero.mp this with h | h
    · exact h
    · linarith
  · rcases Nat.lt_or_ge i N with hlt | hge
    · exact hz i hi0 (by omega)
    · obtain rfl : i = N := by omega
      rw [hz (i - 1) (by omega) (by omega), hz (i - 2) (by omega) (by omega)] at hl
      have := hpos (i - 2) (by omega)
      have : m i * h (i - 2) = 0 := by linarith
      rcases mul_eq_zero.mp this with h | h
      · exact h
      · linarith

/-! ### Uniqueness -/

theorem knot_lt {xs : List ℚ} (hs : xs.Pairwise (· < ·)) {i j : Nat} (h : i < j) (hj : j < xs.length) :
    knot xs i < knot xs j := by
  unfold knot
  rw [List.getD_eq_getElem?_getD, List.getD_eq_getElem?_getD, List.getElem?_eq_getElem hj,
    List.getElem?_eq_getElem (show i < xs.length by omega)]
  simp only [Option.getD_some]
  exact_mod_cast List.pairwise_iff_getElem.mp hs i j (by omega) hj h

/-- Two cubic splines through the same points agree in the range of the points. -/
theorem isCubicSpline_unique {xs ys : List ℚ} (hs : xs.Pairwise (· < ·)) (hn : 4 ≤ xs.length) {s s' : ℝ → ℝ}
    (h : IsCubicSpline xs ys s) (h' : IsCubicSpline xs ys s') (i : Nat) (hi : i + 1 < xs.length) (t : ℝ)
    (h1 : knot xs i ≤ t) (h2 : t ≤ knot xs (i + 1)) : s t = s' t := by
  obtain ⟨p, pd, pe, py, pj, pa, pb⟩ := h
  obtain ⟨q, qd, qe, qy, qj, qa, qb⟩ := h'
  obtain ⟨N, hN⟩ : ∃ N, xs.length = N + 1 := ⟨xs.length - 1, by omega⟩
  set x := knot xs with hx
  have hlt : ∀ i, i < N → x i < x (i + 1) := fun i hi => knot_lt hs (by omega) (by omega)
  -- the difference of the pieces
  set d : Nat → Polynomial ℝ := fun i => p i - q i with hd
  have dd : ∀ i, (d i).natDegree ≤ 3 := fun i => (natDegree_sub_le _ _).trans (max_le (pd i) (qd i))
  have dl : ∀ i, i < N → (d i).eval (x i) = 0 := fun i hi => by
    rw [hd]; simp only [eval_sub]
    rw [← pe i (by omega) _ le_rfl (hlt i hi).le, ← qe i (by omega) _ le_rfl (hlt i hi).le,
      py i (by omega), qy i (by omega), sub_self]
  have dr : ∀ i, i < N → (d i).eval (x (i + 1)) = 0 := fun i hi => by
    rw [hd]; simp only [eval_sub]
    rw [← pe i (by omega) _ (hlt i hi).le le_rfl, ← qe i (by omega) _ (hlt i hi).le le_rfl,
      py (i + 1) (by omega), qy (i + 1) (by omega), sub_self]
  have dj1 : ∀ i, i + 1 < N → (d i).derivative.eval (x (i + 1)) = (d (i + 1)).derivative.eval (x (i + 1)) :=
    fun i hi => by
      simp only [hd, derivative_sub, eval_sub]
      rw [(pj i (by omega)).1, (qj i (by omega)).1]
  have dj2 : ∀ i, i + 1 < N → (d i).derivative.derivative.eval (x (i + 1)) =
      (d (i + 1)).derivative.derivative.eval (x (i + 1)) :=
    fun i hi => by
      simp only [hd, derivative_sub, eval_sub]
      rw [(pj i (by omega)).2, (qj i (by omega)).2]
  have da : d 0 = d 1 := by simp only [hd]; rw [pa, qa]
  have db : d (N - 2) = d (N - 1) := by
    rw [hN] at pb qb
    have e1 : N + 1 - 3 = N - 2 := by omega
    have e2 : N + 1 - 2 = N - 1 := by omega
    rw [e1, e2] at pb qb
    simp only [hd]; rw [pb, qb]
  -- second derivatives at the knots
  set m : Nat → ℝ := fun i => if i < N then (d i).derivative.derivative.eval (x i)
    else (d (N - 1)).derivative.derivative.eval (x N) with hm
  have ml : ∀ i, i < N → (d i).derivative.derivative.eval (x i) = m i := fun i hi => by
    simp only [hm, if_pos hi]
  have mr : ∀ i, i < N → (d i).derivative.derivative.eval (x (i + 1)) = m (i + 1) := fun i hi => by
    simp only [hm]
    by_cases h : i + 1 < N
    · rw [if_pos h, dj2 i h]
    · obtain rfl : N = i + 1 := by omega
      rw [if_neg h]; rfl
  set hh : Nat → ℝ := fun i => x (i + 1) - x i with hhh
  have hpos : ∀ i, i < N → 0 < hh i := fun i hi => sub_pos.mpr (hlt i hi)
  -- first derivatives in terms of the second ones
  have dl' : ∀ i, i < N → 6 * (d i).derivative.eval (x i) = -(hh i * (2 * m i + m (i + 1))) := fun i hi => by
    have e1 := dl i hi; have e2 := dr i hi; have e3 := ml i hi; have e4 := mr i hi
    rw [cubic_eval (dd i)] at e1 e2
    rw [cubic_deriv2 (dd i)] at e3 e4
    rw [cubic_deriv (dd i)]
    have hp := (hpos i hi).ne'
    apply mul_left_cancel₀ hp
    simp only [hhh] at *
    linear_combination 6 * e2 - 6 * e1 - (x (i + 1) - x i) ^ 2 * (2 * e3 + e4)
  have dr' : ∀ i, i < N → 6 * (d i).derivative.eval (x (i + 1)) = hh i * (m i + 2 * m (i + 1)) := fun i hi => by
    have e1 := dl i hi; have e2 := dr i hi; have e3 := ml i hi; have e4 := mr i hi
    rw [cubic_eval (dd i)] at e1 e2
    rw [cubic_deriv2 (dd i)] at e3 e4
    rw [cubic_deriv (dd i)]
    have hp := (hpos i hi).ne'
    apply mul_left_cancel₀ hp
    simp only [hhh] at *
    linear_combination 6 * e2 - 6 * e1 + (x (i + 1) - x i) ^ 2 * (e3 + 2 * e4)
  have third : ∀ i, i < N → 6 * (d i).coeff 3 * hh i = m (i + 1) - m i := fun i hi => by
    rw [← mr i hi, ← ml i hi, cubic_deriv2 (dd i), cubic_deriv2 (dd i)]
    simp only [hhh]; ring
  have mz := moments_zero (N := N) (by omega) hh m hpos (fun i hi => by
      have e := dj1 i hi
      have e1 := dr' i (by omega)
      have e2 := dl' (i + 1) hi
      rw [e] at e1
      linear_combination e2 - e1)
    (by
      have e0 := third 0 (by omega)
      have e1 := third 1 (by omega)
      rw [da] at e0
      linear_combination hh 0 * e1 - hh 1 * e0)
    (by
      have e0 := third (N - 2) (by omega)
      have e1 := third (N - 1) (by omega)
      rw [db] at e0
      have a1 : N - 2 + 1 = N - 1 := by omega
      have a2 : N - 1 + 1 = N := by omega
      rw [a1] at e0; rw [a2] at e1
      linear_combination hh (N - 2) * e1 - hh (N - 1) * e0)
  have hiN : i < N := by omega
  have c3 : (d i).coeff 3 = 0 := by
    have e := third i hiN
    rw [mz i (by omega), mz (i + 1) (by omega)] at e
    have hp := (hpos i hiN).ne'
    have : (d i).coeff 3 * (6 * hh i) = 0 := by linarith
    rcases mul_eq_zero.mp this with h | h
    · exact h
    · exact absurd (by linarith) hp
  have c2 : (d i).coeff 2 = 0 := by
    have e := ml i hiN
    rw [mz i (by omega), cubic_deriv2 (dd i), c3] at e
    linarith
  have e1 := dl i hiN
  have e2 := dr i hiN
  rw [cubic_eval (dd i), c3, c2] at e1 e2
  have c1 : (d i).coeff 1 = 0 := by
    have : (d i).coeff 1 * hh i = 0 := by simp only [hhh]; linarith
    rcases mul_eq_zero.mp this with h | h
    · exact h
    · exact absurd h (hpos i hiN).ne'
  have c0 : (d i).coeff 0 = 0 := by rw [c1] at e1; linarith
  rw [pe i hi t h1 h2, qe i hi t h1 h2, ← sub_eq_zero, ← eval_sub]
  show (d i).eval t = 0
  rw [cubic_eval (dd i), c0, c1, c2, c3]; ring

end Verif.KR
