import Verif.Props.HaversineFloat
import Verif.Model.Nearby
import Mathlib.Analysis.SpecialFunctions.Trigonometric.ArctanDeriv
import Mathlib.Analysis.Calculus.MeanValue
import Mathlib.Analysis.Real.Pi.Bounds

/-!
# Property C144: accuracy of the computed distances

`haversine` in double arithmetic against the exact great circle distance.
-/

namespace Verif.Props
open Verif Verif.Haversine Verif.Bin

/-! ### Real analysis -/

theorem arctan_lipschitz (x y : ℝ) : |Real.arctan x - Real.arctan y| ≤ |x - y| := by
  have h := Convex.norm_image_sub_le_of_norm_deriv_le (f := Real.arctan) (C := 1) (s := Set.univ)
    (fun z _ => Real.differentiable_arctan z) (fun z _ => by
      rw [Real.deriv_arctan, Real.norm_eq_abs, abs_of_nonneg (by positivity), div_le_one (by positivity)]
      nlinarith [sq_nonneg z]) convex_univ (Set.mem_univ y) (Set.mem_univ x)
  simpa [Real.norm_eq_abs] using h

theorem arctan2_eq_arctan {y x : ℝ} (hx : 0 < x) : arctan2 y x = Real.arctan (y / x) := by
  unfold arctan2
  have h := (Complex.abs_arg_lt_pi_div_two_iff (z := ⟨x, y⟩)).mpr (Or.inl hx)
  have ht := Complex.tan_arg ⟨x, y⟩
  rw [abs_lt] at h
  rw [← Real.arctan_tan h.1 h.2, ht]

/-- the norm is a Lipschitz function -/
theorem sqrt_sum_lipschitz (a b a' b' : ℝ) : |√(a ^ 2 + b ^ 2) - √(a' ^ 2 + b' ^ 2)| ≤ |a - a'| + |b - b'| := by
  have e : ∀ p q : ℝ, √(p ^ 2 + q ^ 2) = ‖(⟨p, q⟩ : ℂ)‖ := by
    intro p q
    rw [Complex.norm_def, Complex.normSq_mk]
    congr 1
    ring
  rw [e, e]
  refine (abs_norm_sub_norm_le _ _).trans ?_
  exact Complex.norm_le_abs_re_add_abs_im _

theorem root_diff_le {a b l : ℝ} (ha : 0 ≤ a) (hl : 0 < l) (hb : l ^ 2 ≤ b) : |√a - √b| ≤ |a - b| / l := by
  have hb0 : 0 ≤ b := (sq_nonneg l).trans hb
  have h1 : l ≤ √b := Real.le_sqrt_of_sq_le hb
  have h2 := Real.sqrt_nonneg a
  have e : a - b = (√a - √b) * (√a + √b) := by
    have := Real.mul_self_sqrt ha
    have := Real.mul_self_sqrt hb0
    nlinarith
  rw [le_div_iff₀ hl, e, abs_mul, abs_of_nonneg (by linarith : 0 ≤ √a + √b)]
  exact mul_le_mul_of_nonneg_left (by linarith) (abs_nonneg _)

/-- the rounding errors in `a` -/
theorem hav_terms {u t S P Q q1 q2 p m A : ℝ} (hu0 : 0 ≤ u) (hu : u ≤ 1 / 100) (ht0 : 0 ≤ t) (ht : t ≤ 1 / 10000)
    (hS0 : 0 ≤ S) (hP0 : 1 / 9000 ≤ P) (hP : P ≤ 2) (hQ0 : 0 ≤ Q) (hQ : Q ≤ 2)
    (hq1 : |q1 - S| ≤ u * S + t) (hq2 : |q2 - Q| ≤ u * Q + t) (hq20 : 0 ≤ q2)
    (hp : |p - P| ≤ u * P + t) (hm : |m - p * q2| ≤ u * |p * q2| + t) (hA : |A - (q1 + m)| ≤ u * |q1 + m| + t)
    (hq10 : 0 ≤ q1) (hm0 : 0 ≤ m) (hPt : t ≤ (1 - u) * P) :
    A ≤ (1 + u) ^ 4 * (S + P * Q) + 30 * t ∧ (1 - u) ^ 4 * (S + P * Q) ≤ A + 30 * t := by
  rw [abs_le] at hq1 hq2 hp
  have hp1 : p ≤ (1 + u) * P + t := by linarith
  have hp2 : (1 - u) * P - t ≤ p := by linarith
  have hp0 : 0 ≤ p := by linarith
  have hq21 : q2 ≤ (1 + u) * Q + t := by linarith
  have hq22 : (1 - u) * Q - t ≤ q2 := by linarith
  have hpq : 0 ≤ p * q2 := mul_nonneg hp0 hq20
  rw [abs_of_nonneg hpq, abs_le] at hm
  rw [abs_of_nonneg (add_nonneg hq10 hm0), abs_le] at hA
  have hPQ : 0 ≤ P * Q := mul_nonneg (by linarith) hQ0
  constructor
  · have h1 : p * q2 ≤ (1 + u) ^ 2 * (P * Q) + 6 * t := by
      have := mul_le_mul hp1 hq21 hq20 (by nlinarith)
      have e : ((1 + u) * P + t) * ((1 + u) * Q + t) = (1 + u) ^ 2 * (P * Q) + t * ((1 + u) * P + (1 + u) * Q + t) := by ring
      rw [e] at this
      have h2 : t * ((1 + u) * P + (1 + u) * Q + t) ≤ t * 6 := by
        apply mul_le_mul_of_nonneg_left _ ht0
        nlinarith
      linarith
    have h2 : m ≤ (1 + u) ^ 3 * (P * Q) + 8 * t := by
      have := mul_le_mul_of_nonneg_left h1 (show 0 ≤ 1 + u by linarith)
      have e : (1 + u) * ((1 + u) ^ 2 * (P * Q) + 6 * t) = (1 + u) ^ 3 * (P * Q) + 6 * t + 6 * (u * t) := by ring
      have : u * t ≤ 1 / 100 * t := mul_le_mul_of_nonneg_right hu ht0
      linarith
    have h3 : q1 ≤ (1 + u) ^ 3 * S + t := by
      have : (1 + u) * S ≤ (1 + u) ^ 3 * S := by
        apply mul_le_mul_of_nonneg_right _ hS0
        nlinarith [mul_nonneg hu0 hu0, mul_nonneg (mul_nonneg hu0 hu0) hu0]
      linarith
    have h4 := mul_le_mul_of_nonneg_left (add_le_add h3 h2) (show 0 ≤ 1 + u by linarith)
    have e : (1 + u) * ((1 + u) ^ 3 * S + t + ((1 + u) ^ 3 * (P * Q) + 8 * t)) =
        (1 + u) ^ 4 * (S + P * Q) + 9 * t + 9 * (u * t) := by ring
    have : u * t ≤ 1 / 100 * t := mul_le_mul_of_nonneg_right hu ht0
    linarith
  · have h1 : (1 - u) ^ 2 * (P * Q) - 5 * t ≤ p * q2 := by
      have h2 : ((1 - u) * P - t) * ((1 - u) * Q - t) ≤ p * q2 := by
        have k1 := mul_le_mul_of_nonneg_left hq22 (show 0 ≤ (1 - u) * P - t by linarith)
        have k2 := mul_le_mul_of_nonneg_right hp2 hq20
        linarith
      have e : ((1 - u) * P - t) * ((1 - u) * Q - t) = (1 - u) ^ 2 * (P * Q) - t * ((1 - u) * P + (1 - u) * Q - t) := by ring
      rw [e] at h2
      have h3 : t * ((1 - u) * P + (1 - u) * Q - t) ≤ t * 5 := by
        apply mul_le_mul_of_nonneg_left _ ht0
        nlinarith
      linarith
    have h2 : (1 - u) ^ 3 * (P * Q) - 6 * t ≤ m := by
      have := mul_le_mul_of_nonneg_left h1 (show 0 ≤ 1 - u by linarith)
      have e : (1 - u) * ((1 - u) ^ 2 * (P * Q) - 5 * t) = (1 - u) ^ 3 * (P * Q) - 5 * t + 5 * (u * t) := by ring
      have : 0 ≤ u * t := mul_nonneg hu0 ht0
      linarith
    have h3 : (1 - u) ^ 3 * S - t ≤ q1 := by
      have : (1 - u) ^ 3 * S ≤ (1 - u) * S := by
        apply mul_le_mul_of_nonneg_right _ hS0
        have k : (1 - u) ^ 2 ≤ 1 := by nlinarith
        calc (1 - u) ^ 3 = (1 - u) ^ 2 * (1 - u) := by ring
          _ ≤ 1 * (1 - u) := mul_le_mul_of_nonneg_right k (by linarith)
          _ = _ := one_mul _
      linarith
    have h4 := mul_le_mul_of_nonneg_left (add_le_add h3 h2) (show 0 ≤ 1 - u by linarith)
    have e : (1 - u) * ((1 - u) ^ 3 * S - t + ((1 - u) ^ 3 * (P * Q) - 6 * t)) =
        (1 - u) ^ 4 * (S + P * Q) - 7 * t + 7 * (u * t) := by ring
    have : 0 ≤ u * t := mul_nonneg hu0 ht0
    linarith

theorem sqrt_add_le_add {x y : ℝ} (hx : 0 ≤ x) (hy : 0 ≤ y) : √(x + y) ≤ √x + √y := by
  have h1 := Real.sqrt_nonneg x
  have h2 := Real.sqrt_nonneg y
  have h3 := Real.sq_sqrt hx
  have h4 := Real.sq_sqrt hy
  rw [Real.sqrt_le_iff]
  exact ⟨by linarith, by nlinarith [mul_nonneg h1 h2]⟩

/-- from `a` to its square root -/
theorem sqrt_rel {u t τ B A : ℝ} (hu0 : 0 ≤ u) (hu : u ≤ 1 / 100) (hB : 0 ≤ B) (hA0 : 0 ≤ A) (hτ0 : 0 ≤ τ) (hτ : 30 * t ≤ τ ^ 2)
    (ht0 : 0 ≤ t) (h1 : A ≤ (1 + u) ^ 4 * B + 30 * t) (h2 : (1 - u) ^ 4 * B ≤ A + 30 * t) :
    |√A - √B| ≤ 3 * u * √B + τ := by
  have hsB := Real.sqrt_nonneg B
  have hst : √(30 * t) ≤ τ := Real.sqrt_le_iff.mpr ⟨hτ0, hτ⟩
  have k1 : √A ≤ (1 + u) ^ 2 * √B + τ := by
    calc √A ≤ √((1 + u) ^ 4 * B + 30 * t) := Real.sqrt_le_sqrt h1
      _ ≤ √((1 + u) ^ 4 * B) + √(30 * t) := sqrt_add_le_add (by positivity) (by positivity)
      _ = (1 + u) ^ 2 * √B + √(30 * t) := by
        rw [show (1 + u) ^ 4 * B = ((1 + u) ^ 2) ^ 2 * B by ring, Real.sqrt_mul (by positivity), Real.sqrt_sq (by positivity)]
      _ ≤ _ := by linarith
  have k2 : (1 - u) ^ 2 * √B ≤ √A + τ := by
    calc (1 - u) ^ 2 * √B = √((1 - u) ^ 4 * B) := by
          rw [show (1 - u) ^ 4 * B = ((1 - u) ^ 2) ^ 2 * B by ring, Real.sqrt_mul (by positivity), Real.sqrt_sq (by positivity)]
      _ ≤ √(A + 30 * t) := Real.sqrt_le_sqrt h2
      _ ≤ √A + √(30 * t) := sqrt_add_le_add hA0 (by positivity)
      _ ≤ _ := by linarith
  have m1 : (1 + u) ^ 2 * √B ≤ (1 + 3 * u) * √B := mul_le_mul_of_nonneg_right (by nlinarith) hsB
  have m2 : (1 - 3 * u) * √B ≤ (1 - u) ^ 2 * √B := mul_le_mul_of_nonneg_right (by nlinarith) hsB
  rw [abs_le]
  constructor <;> linarith

/-- errors of sines and cosines in the root of `a` -/
theorem root_close {u s1 s2 c1 c2 S1 S2 C1 C2 : ℝ} (hu0 : 0 ≤ u) (hu : u ≤ 1 / 100) (hs2 : |s2| ≤ 1)
    (hc1 : 1 / 90 ≤ c1) (hc1' : c1 ≤ 1) (hc2 : 1 / 90 ≤ c2) (hc2' : c2 ≤ 1)
    (h1 : |S1 - s1| ≤ 8 * u) (h2 : |S2 - s2| ≤ 8 * u) (h3 : |C1 - c1| ≤ 2 * u) (h4 : |C2 - c2| ≤ 2 * u) (hC1 : 0 ≤ C1) (hC2 : 0 ≤ C2) :
    |√(S1 ^ 2 + C1 * C2 * S2 ^ 2) - √(s1 ^ 2 + c1 * c2 * s2 ^ 2)| ≤ 470 * u := by
  have hc : (1 / 90) ^ 2 ≤ c1 * c2 := by
    have := mul_le_mul hc1 hc2 (by norm_num) (by linarith)
    nlinarith
  have hcc1 : c1 * c2 ≤ 1 := mul_le_one₀ hc1' (by linarith) hc2'
  have hC : 0 ≤ C1 * C2 := mul_nonneg hC1 hC2
  have hd : |C1 * C2 - c1 * c2| ≤ 5 * u := by
    have e : C1 * C2 - c1 * c2 = C1 * (C2 - c2) + c2 * (C1 - c1) := by ring
    have hC1' : C1 ≤ 102 / 100 := by
      have := (abs_le.mp h3).2
      linarith
    rw [e]
    refine (abs_add_le _ _).trans ?_
    rw [abs_mul, abs_mul, abs_of_nonneg hC1, abs_of_nonneg (by linarith : 0 ≤ c2)]
    have k1 := mul_le_mul hC1' h4 (abs_nonneg _) (by norm_num)
    have k2 := mul_le_mul hc2' h3 (abs_nonneg _) (by norm_num)
    linarith
  have hsq := root_diff_le hC (by norm_num : (0 : ℝ) < 1 / 90) hc
  have hsq' : |√(C1 * C2) - √(c1 * c2)| ≤ 450 * u := by
    refine hsq.trans ?_
    rw [div_le_iff₀ (by norm_num)]
    linarith
  have hsC : √(C1 * C2) ≤ 103 / 100 := by
    rw [Real.sqrt_le_iff]
    refine ⟨by norm_num, ?_⟩
    have := (abs_le.mp hd).2
    norm_num
    linarith
  have e : ∀ a b c : ℝ, 0 ≤ b → √(a ^ 2 + b * c ^ 2) = √(a ^ 2 + (√b * c) ^ 2) := by
    intro a b c hb
    rw [mul_pow, Real.sq_sqrt hb]
  rw [e _ _ _ hC, e _ _ _ (by nlinarith : 0 ≤ c1 * c2)]
  refine (sqrt_sum_lipschitz _ _ _ _).trans ?_
  have e2 : √(C1 * C2) * S2 - √(c1 * c2) * s2 = √(C1 * C2) * (S2 - s2) + (√(C1 * C2) - √(c1 * c2)) * s2 := by ring
  have k : |√(C1 * C2) * S2 - √(c1 * c2) * s2| ≤ 103 / 100 * (8 * u) + 450 * u * 1 := by
    rw [e2]
    refine (abs_add_le _ _).trans (add_le_add ?_ ?_)
    · rw [abs_mul, abs_of_nonneg (Real.sqrt_nonneg _)]
      exact mul_le_mul hsC h2 (abs_nonneg _) (by norm_num)
    · rw [abs_mul]
      exact mul_le_mul hsq' hs2 (abs_nonneg _) (by positivity)
  linarith

/-- from the two roots to the angle -/
theorem angle_close {u a A Y w X T : ℝ} (hu0 : 0 ≤ u) (hu : u ≤ 1 / 1000000) (ha0 : 0 ≤ a) (ha : a ≤ 1 / 2) (hA0 : 0 ≤ A)
    (hA : |√A - √a| ≤ 477 * u) (hY : |Y - √A| ≤ 2 * u) (hw : |w - (1 - A)| ≤ 2 * u) (hX : |X - √w| ≤ 2 * u)
    (hT : |T - arctan2 Y X| ≤ u) : |T - arctan2 (√a) (√(1 - a))| ≤ 2600 * u ∧ 4 / 10 ≤ w ∧ w ≤ 11 / 10 ∧ 1 / 2 ≤ X := by
  have hsa : √a ≤ 71 / 100 := by
    rw [Real.sqrt_le_iff]
    exact ⟨by norm_num, by norm_num; linarith⟩
  have hsa0 := Real.sqrt_nonneg a
  have hsA0 := Real.sqrt_nonneg A
  have hA' := abs_le.mp hA
  have hdA : |A - a| ≤ 700 * u := by
    have e : A - a = (√A - √a) * (√A + √a) := by
      have := Real.mul_self_sqrt hA0
      have := Real.mul_self_sqrt ha0
      nlinarith
    rw [e, abs_mul, abs_of_nonneg (by linarith : 0 ≤ √A + √a)]
    have : √A + √a ≤ 143 / 100 := by linarith
    have := mul_le_mul hA this (by linarith) (by positivity)
    linarith
  have hdw : |w - (1 - a)| ≤ 702 * u := by
    rw [abs_le] at *
    constructor <;> linarith
  have hw' := abs_le.mp hdw
  have hw0 : 4 / 10 ≤ w := by linarith
  have hw1 : w ≤ 11 / 10 := by linarith
  have hs := root_diff_le (a := w) (b := 1 - a) (l := 7 / 10) (by linarith) (by norm_num) (by norm_num; linarith)
  have hs' : |√w - √(1 - a)| ≤ 1003 * u := by
    refine hs.trans ?_
    rw [div_le_iff₀ (by norm_num)]
    linarith
  have hx0 : 7 / 10 ≤ √(1 - a) := Real.le_sqrt_of_sq_le (by norm_num; linarith)
  have hx1 : √(1 - a) ≤ 1 := by
    rw [Real.sqrt_le_iff]
    exact ⟨by norm_num, by norm_num; linarith⟩
  have hdX : |X - √(1 - a)| ≤ 1005 * u := by
    have := abs_sub_le X (√w) (√(1 - a))
    linarith
  have hdY : |Y - √a| ≤ 479 * u := by
    have := abs_sub_le Y (√A) (√a)
    linarith
  have hX' := abs_le.mp hdX
  have hX0 : 69 / 100 ≤ X := by linarith
  refine ⟨?_, hw0, hw1, by linarith⟩
  rw [arctan2_eq_arctan (by linarith)] at hT ⊢
  have hq : |Y / X - √a / √(1 - a)| ≤ 2500 * u := by
    have hXp : 0 < X := by linarith
    have hxp : 0 < √(1 - a) := by linarith
    have e : Y / X - √a / √(1 - a) = ((Y - √a) * √(1 - a) - √a * (X - √(1 - a))) / (X * √(1 - a)) := by
      field_simp
      ring
    rw [e, abs_div, abs_of_pos (mul_pos hXp hxp), div_le_iff₀ (mul_pos hXp hxp)]
    have k1 : |(Y - √a) * √(1 - a) - √a * (X - √(1 - a))| ≤ 479 * u * 1 + 71 / 100 * (1005 * u) := by
      refine (abs_sub _ _).trans (add_le_add ?_ ?_)
      · rw [abs_mul, abs_of_pos hxp]
        exact mul_le_mul hdY hx1 hxp.le (by positivity)
      · rw [abs_mul, abs_of_nonneg hsa0]
        exact mul_le_mul hsa hdX (abs_nonneg _) (by norm_num)
    have k2 : 48 / 100 ≤ X * √(1 - a) := by nlinarith
    have k3 := mul_le_mul_of_nonneg_left k2 (show 0 ≤ 2500 * u by positivity)
    linarith
  have hl := arctan_lipschitz (Y / X) (√a / √(1 - a))
  have := abs_sub_le T (Real.arctan (Y / X)) (Real.arctan (√a / √(1 - a)))
  linarith

/-! ### Doubles -/

/-- Accuracy of numpy's functions in double precision: a relative error of `2^-51` (two units in the last place) for
`radians`, `** 2` and `** 0.5`, an absolute error of `2^-50` for `sin`, `cos` and `arctan2`, for arguments of the size that
occurs. -/
structure TrigClose [PyTrig DblR] : Prop where
  radians : ∀ (x : DblR) (a : ℝ), x.val = .fin a → |a| ≤ 400 →
    ∃ r, (PyTrig.radians x).val = .fin r ∧ |r - radians a| ≤ 2 ^ (-51 : ℤ) * |radians a| + 2 ^ (-1000 : ℤ)
  sin : ∀ (x : DblR) (a : ℝ), x.val = .fin a → |a| ≤ 10 → ∃ s, (PyTrig.sin x).val = .fin s ∧ |s - Real.sin a| ≤ 2 ^ (-50 : ℤ)
  cos : ∀ (x : DblR) (a : ℝ), x.val = .fin a → |a| ≤ 10 → ∃ c, (PyTrig.cos x).val = .fin c ∧ |c - Real.cos a| ≤ 2 ^ (-50 : ℤ)
  sq : ∀ (x : DblR) (a : ℝ), x.val = .fin a → |a| ≤ 2 →
    ∃ q, (PyTrig.sq x).val = .fin q ∧ 0 ≤ q ∧ |q - a ^ 2| ≤ 2 ^ (-51 : ℤ) * a ^ 2 + 2 ^ (-1000 : ℤ)
  half : ∀ (x : DblR) (a : ℝ), x.val = .fin a → 0 ≤ a → a ≤ 2 →
    ∃ h, (PyTrig.half x).val = .fin h ∧ 0 ≤ h ∧ |h - √a| ≤ 2 ^ (-51 : ℤ) * √a + 2 ^ (-500 : ℤ)
  arctan2 : ∀ (y x : DblR) (b a : ℝ), y.val = .fin b → x.val = .fin a → 0 ≤ b → b ≤ 2 → 1 / 2 ≤ a → a ≤ 2 →
    ∃ t, (PyTrig.arctan2 y x).val = .fin t ∧ |t - arctan2 b a| ≤ 2 ^ (-50 : ℤ)

private theorem dbl_round {x : ℝ} (h : |x| ≤ 100000) :
    ∃ z, (binary64 (K := ℝ)).rnd x = .fin z ∧ |z - x| ≤ 2 ^ (-53 : ℤ) * |x| + 2 ^ (-1075 : ℤ) :=
  (binary64_precision (K := ℝ)).err x (h.trans (by
    calc (100000 : ℝ) ≤ 2 ^ (17 : ℤ) := by norm_num
      _ ≤ _ := zpow_le_zpow_right₀ (by norm_num) (by norm_num)))

private theorem dbl_nonneg {x z : ℝ} (h : (binary64 (K := ℝ)).rnd x = .fin z) (hx : 0 ≤ x) : 0 ≤ z := by
  have := (binary64 (K := ℝ)).mono 0 x hx
  rw [(binary64 (K := ℝ)).zero, h] at this
  simpa using this

theorem dbl_sub {x y : DblR} {a b : ℝ} (hx : x.val = .fin a) (hy : y.val = .fin b) (h : |a - b| ≤ 100000) :
    ∃ z, (x -ᶠ y).val = .fin z ∧ |z - (a - b)| ≤ 2 ^ (-53 : ℤ) * |a - b| + 2 ^ (-1075 : ℤ) := by
  obtain ⟨z, hz, he⟩ := dbl_round h
  exact ⟨z, by rw [RFl.val_sub, hx, hy, Fl.pf_sub_fin]; exact hz, he⟩

theorem dbl_add {x y : DblR} {a b : ℝ} (hx : x.val = .fin a) (hy : y.val = .fin b) (h : |a + b| ≤ 100000) (h0 : 0 ≤ a + b) :
    ∃ z, (x +ᶠ y).val = .fin z ∧ 0 ≤ z ∧ |z - (a + b)| ≤ 2 ^ (-53 : ℤ) * |a + b| + 2 ^ (-1075 : ℤ) := by
  obtain ⟨z, hz, he⟩ := dbl_round h
  exact ⟨z, by rw [RFl.val_add, hx, hy, Fl.pf_add_fin]; exact hz, dbl_nonneg hz h0, he⟩

theorem dbl_mul {x y : DblR} {a b : ℝ} (hx : x.val = .fin a) (hy : y.val = .fin b) (h : |a * b| ≤ 100000) :
    ∃ z, (x *ᶠ y).val = .fin z ∧ (0 ≤ a * b → 0 ≤ z) ∧ |z - a * b| ≤ 2 ^ (-53 : ℤ) * |a * b| + 2 ^ (-1075 : ℤ) := by
  obtain ⟨z, hz, he⟩ := dbl_round h
  exact ⟨z, by rw [RFl.val_mul, hx, hy, Fl.pf_mul_fin]; exact hz, dbl_nonneg hz, he⟩

theorem dbl_halve {x : DblR} {a : ℝ} (hx : x.val = .fin a) (h : |a| ≤ 100000) :
    ∃ z, (x /ᶠ PyFloat.ofInt 2).val = .fin z ∧ |z - a / 2| ≤ 2 ^ (-53 : ℤ) * |a / 2| + 2 ^ (-1075 : ℤ) := by
  obtain ⟨z, hz, he⟩ := dbl_round (x := a / 2) (by rw [abs_div, abs_two]; linarith [abs_nonneg a])
  refine ⟨z, ?_, he⟩
  have e : (PyFloat.ofInt 2 : DblR).val = .fin 2 := val_ofNat_b64 2 (by norm_num)
  rw [RFl.val_div, hx, e, Fl.pf_div_fin_ne _ _ (by norm_num)]
  exact hz

theorem cos_lat_lower {lat : ℝ} (h : |lat| ≤ 89) : 1 / 90 ≤ Real.cos (radians lat) := by
  have hpi := Real.pi_pos
  have hr : |radians lat| ≤ 89 * (Real.pi / 180) := by
    unfold radians
    rw [abs_mul, abs_of_pos (by positivity : 0 < Real.pi / 180)]
    exact mul_le_mul_of_nonneg_right h (by positivity)
  rw [← Real.cos_abs, ← Real.sin_pi_div_two_sub]
  have hm := Real.mul_le_sin (x := Real.pi / 2 - |radians lat|) (by linarith) (by linarith [abs_nonneg (radians lat)])
  refine le_trans ?_ hm
  calc (1 : ℝ) / 90 = 2 / Real.pi * (Real.pi / 180) := by field_simp; norm_num
    _ ≤ _ := mul_le_mul_of_nonneg_left (by linarith) (by positivity)

/-- half the difference of two coordinates -/
theorem half_diff_close [PyTrig DblR] (H : TrigClose) {x y : DblR} {a b : ℝ} (hx : x.val = .fin a) (hy : y.val = .fin b)
    (ha : |a| ≤ 360) (hb : |b| ≤ 360) :
    ∃ s, (PyTrig.sin ((PyTrig.radians y -ᶠ PyTrig.radians x) /ᶠ PyFloat.ofInt 2)).val = .fin s ∧
      |s - Real.sin ((radians b - radians a) / 2)| ≤ 8 * 2 ^ (-50 : ℤ) := by
  have hpi := Real.pi_pos
  have hpi2 := Real.pi_lt_d2
  have hr : ∀ c, |c| ≤ 360 → |radians c| ≤ 63 / 10 := by
    intro c hc
    unfold radians
    rw [abs_mul, abs_of_pos (by positivity : 0 < Real.pi / 180)]
    nlinarith [abs_nonneg c]
  obtain ⟨ra, hra, ea⟩ := H.radians x a hx (by linarith)
  obtain ⟨rb, hrb, eb⟩ := H.radians y b hy (by linarith)
  have na := hr a ha
  have nb := hr b hb
  have t0 : (2 : ℝ) ^ (-1000 : ℤ) ≤ 1 / 100 * 2 ^ (-50 : ℤ) := by
    calc (2 : ℝ) ^ (-1000 : ℤ) ≤ 2 ^ (-60 : ℤ) := zpow_le_zpow_right₀ (by norm_num) (by norm_num)
      _ ≤ _ := by norm_num
  have t1 : (2 : ℝ) ^ (-1075 : ℤ) ≤ 1 / 100 * 2 ^ (-50 : ℤ) :=
    (zpow_le_zpow_right₀ (by norm_num) (by norm_num)).trans t0
  have e1 : (2 : ℝ) ^ (-51 : ℤ) = 2 ^ (-50 : ℤ) / 2 := by norm_num
  have e3 : (2 : ℝ) ^ (-53 : ℤ) = 2 ^ (-50 : ℤ) / 8 := by norm_num
  have u0 : (0 : ℝ) < 2 ^ (-50 : ℤ) := by positivity
  have u1 : (2 : ℝ) ^ (-50 : ℤ) ≤ 1 / 10 ^ 15 := by norm_num
  rw [e1] at ea eb
  have hda : |ra - radians a| ≤ 32 / 10 * 2 ^ (-50 : ℤ) := by nlinarith
  have hdb : |rb - radians b| ≤ 32 / 10 * 2 ^ (-50 : ℤ) := by nlinarith
  have n1 : |rb - ra| ≤ 128 / 10 := by
    rw [abs_le] at *
    constructor <;> linarith
  obtain ⟨d, hd, ed⟩ := dbl_sub hrb hra (n1.trans (by norm_num))
  rw [e3] at ed
  have hdd : |d - (radians b - radians a)| ≤ 81 / 10 * 2 ^ (-50 : ℤ) := by
    have k : |d - (rb - ra)| ≤ 161 / 100 * 2 ^ (-50 : ℤ) := by nlinarith
    rw [abs_le] at *
    constructor <;> linarith
  have n2 : |d| ≤ 13 := by
    rw [abs_le] at *
    constructor <;> linarith
  obtain ⟨h, hh, eh⟩ := dbl_halve hd (n2.trans (by norm_num))
  rw [e3] at eh
  have n3 : |d / 2| ≤ 65 / 10 := by
    rw [abs_div, abs_two]; linarith
  have hhd : |h - (radians b - radians a) / 2| ≤ 5 * 2 ^ (-50 : ℤ) := by
    have k : |h - d / 2| ≤ 83 / 100 * 2 ^ (-50 : ℤ) := by nlinarith
    rw [abs_le] at *
    constructor <;> linarith
  have n4 : |h| ≤ 10 := by
    rw [abs_le] at *
    constructor <;> linarith
  obtain ⟨s, hs, es⟩ := H.sin _ h hh n4
  refine ⟨s, hs, ?_⟩
  have k := Real.abs_sin_sub_sin_le h ((radians b - radians a) / 2)
  have := abs_sub_le s (Real.sin h) (Real.sin ((radians b - radians a) / 2))
  generalize (2 : ℝ) ^ (-50 : ℤ) = u at *
  linarith

/-- the cosine of a latitude -/
theorem cos_close [PyTrig DblR] (H : TrigClose) {x : DblR} {a : ℝ} (hx : x.val = .fin a) (ha : |a| ≤ 89) :
    ∃ c, (PyTrig.cos (PyTrig.radians x)).val = .fin c ∧ |c - Real.cos (radians a)| ≤ 2 * 2 ^ (-50 : ℤ) := by
  have hpi := Real.pi_pos
  have hpi2 := Real.pi_lt_d2
  have na : |radians a| ≤ 16 / 10 := by
    unfold radians
    rw [abs_mul, abs_of_pos (by positivity : 0 < Real.pi / 180)]
    nlinarith [abs_nonneg a]
  obtain ⟨r, hr, er⟩ := H.radians x a hx (by linarith)
  have t0 : (2 : ℝ) ^ (-1000 : ℤ) ≤ 1 / 100 * 2 ^ (-50 : ℤ) := by
    calc (2 : ℝ) ^ (-1000 : ℤ) ≤ 2 ^ (-60 : ℤ) := zpow_le_zpow_right₀ (by norm_num) (by norm_num)
      _ ≤ _ := by norm_num
  have e1 : (2 : ℝ) ^ (-51 : ℤ) = 2 ^ (-50 : ℤ) / 2 := by norm_num
  have u0 : (0 : ℝ) < 2 ^ (-50 : ℤ) := by positivity
  have u1 : (2 : ℝ) ^ (-50 : ℤ) ≤ 1 / 10 ^ 15 := by norm_num
  rw [e1] at er
  have hd : |r - radians a| ≤ 9 / 10 * 2 ^ (-50 : ℤ) := by nlinarith
  obtain ⟨c, hc, ec⟩ := H.cos _ r hr (by
    rw [abs_le] at *
    constructor <;> linarith)
  refine ⟨c, hc, ?_⟩
  have k := Real.abs_cos_sub_cos_le r (radians a)
  have := abs_sub_le c (Real.cos r) (Real.cos (radians a))
  generalize (2 : ℝ) ^ (-50 : ℤ) = u at *
  linarith

theorem scaled_le {k X B : ℝ} (hk : 0 ≤ k) (h : X ≤ B) : k * X ≤ k * B := mul_le_mul_of_nonneg_left h hk

/-- what is used of the small constants: unit `u`, underflow errors `t`, `τ` -/
structure SmallConsts (u t τ : ℝ) : Prop where
  u0 : 0 < u
  u1 : u ≤ 9 / 10 ^ 16
  t0 : 0 < t
  τ0 : 0 < τ
  tτ : 30 * t ≤ τ ^ 2
  τ1 : τ ≤ u / 10 ^ 10
  t1 : t ≤ u / 10 ^ 10

/-- the steps up to `a` -/
theorem a_close {u t τ s1 s2 c1 c2 S1 S2 C1 C2 Q1 Q2 P M A : ℝ} (k : SmallConsts u t τ) (us1 : |s1| ≤ 1) (us2 : |s2| ≤ 1)
    (lc1 : 1 / 90 ≤ c1) (uc1 : c1 ≤ 1) (lc2 : 1 / 90 ≤ c2) (uc2 : c2 ≤ 1)
    (eS1 : |S1 - s1| ≤ 8 * u) (eS2 : |S2 - s2| ≤ 8 * u) (eC1 : |C1 - c1| ≤ 2 * u) (eC2 : |C2 - c2| ≤ 2 * u)
    (nQ1 : 0 ≤ Q1) (eQ1 : |Q1 - S1 ^ 2| ≤ u / 2 * S1 ^ 2 + t) (nQ2 : 0 ≤ Q2) (eQ2 : |Q2 - S2 ^ 2| ≤ u / 2 * S2 ^ 2 + t)
    (eP : |P - C1 * C2| ≤ u / 8 * |C1 * C2| + t) (nM : 0 ≤ M) (eM : |M - P * Q2| ≤ u / 8 * |P * Q2| + t) (nA : 0 ≤ A)
    (eA : |A - (Q1 + M)| ≤ u / 8 * |Q1 + M| + t) (ha : s1 ^ 2 + c1 * c2 * s2 ^ 2 ≤ 1 / 2) :
    |√A - √(s1 ^ 2 + c1 * c2 * s2 ^ 2)| ≤ 477 * u := by
  obtain ⟨u0, u1, t0, τ0, tτ, τ1, t1⟩ := k
  have lC1 := abs_le.mp eC1
  have lC2 := abs_le.mp eC2
  have lS1 := abs_le.mp eS1
  have lS2 := abs_le.mp eS2
  have ls1 := abs_le.mp us1
  have ls2 := abs_le.mp us2
  have sq2 : S2 ^ 2 ≤ 2 := by
    have h1 : S2 ≤ 101 / 100 := by linarith
    have h2 : -(101 / 100) ≤ S2 := by linarith
    clear * - h1 h2
    nlinarith
  have hC10 : 1 / 91 ≤ C1 := by linarith
  have hC20 : 1 / 91 ≤ C2 := by linarith
  have hC11 : C1 ≤ 101 / 100 := by linarith
  have hC21 : C2 ≤ 101 / 100 := by linarith
  have hP1 : C1 * C2 ≤ 2 := by clear * - hC10 hC20 hC11 hC21; nlinarith
  have hP0 : 1 / 9000 ≤ C1 * C2 := by clear * - hC10 hC20 hC11 hC21; nlinarith
  have hu8 : ∀ X : ℝ, 0 ≤ X → u / 8 * X ≤ u * X := fun X hX => mul_le_mul_of_nonneg_right (by linarith) hX
  have hu2 : ∀ X : ℝ, 0 ≤ X → u / 2 * X ≤ u * X := fun X hX => mul_le_mul_of_nonneg_right (by linarith) hX
  rw [abs_of_nonneg (by linarith : 0 ≤ C1 * C2)] at eP
  obtain ⟨b1, b2⟩ := hav_terms (u := u) (t := t) (S := S1 ^ 2) (P := C1 * C2) (Q := S2 ^ 2) (q1 := Q1) (q2 := Q2) (p := P) (m := M)
    (A := A) u0.le (by linarith) t0.le (by linarith) (sq_nonneg _) hP0 hP1 (sq_nonneg _) sq2
    (eQ1.trans (by linarith [hu2 _ (sq_nonneg S1)])) (eQ2.trans (by linarith [hu2 _ (sq_nonneg S2)])) nQ2
    (eP.trans (by linarith [hu8 (C1 * C2) (by linarith)])) (eM.trans (by linarith [hu8 _ (abs_nonneg (P * Q2))]))
    (eA.trans (by linarith [hu8 _ (abs_nonneg (Q1 + M))])) nQ1 nM
    (by
      have := mul_le_mul_of_nonneg_left hP0 (by linarith : 0 ≤ 1 - u)
      linarith)
  have hB0 : 0 ≤ S1 ^ 2 + C1 * C2 * S2 ^ 2 := by
    have : 0 ≤ C1 * C2 := by linarith
    positivity
  have r1 := sqrt_rel u0.le (by linarith) hB0 nA τ0.le tτ t0.le b1 b2
  have r2 := root_close u0.le (by linarith) us2 lc1 uc1 lc2 uc2 eS1 eS2 eC1 eC2 (by linarith) (by linarith) (s1 := s1)
  have hsa : √(s1 ^ 2 + c1 * c2 * s2 ^ 2) ≤ 1 := by
    rw [Real.sqrt_le_iff]
    exact ⟨by norm_num, by norm_num; linarith⟩
  have hsB : √(S1 ^ 2 + C1 * C2 * S2 ^ 2) ≤ 2 := by
    have := (abs_le.mp r2).2
    linarith
  have := abs_sub_le (√A) (√(S1 ^ 2 + C1 * C2 * S2 ^ 2)) (√(s1 ^ 2 + c1 * c2 * s2 ^ 2))
  have h2 := scaled_le (by positivity : 0 ≤ 3 * u) hsB
  linarith

theorem smallConsts : SmallConsts (2 ^ (-50 : ℤ)) (2 ^ (-1000 : ℤ)) (2 ^ (-490 : ℤ)) where
  u0 := by positivity
  u1 := by norm_num
  t0 := by positivity
  τ0 := by positivity
  tτ := by
    have e : ((2 : ℝ) ^ (-490 : ℤ)) ^ 2 = 2 ^ (-980 : ℤ) := by
      rw [← zpow_natCast, ← zpow_mul]; norm_num
    have e' : (2 : ℝ) ^ (-980 : ℤ) = 2 ^ (20 : ℤ) * 2 ^ (-1000 : ℤ) := by
      rw [← zpow_add₀ (by norm_num)]; norm_num
    rw [e, e']
    exact mul_le_mul_of_nonneg_right (by norm_num) (by positivity)
  τ1 := by
    calc (2 : ℝ) ^ (-490 : ℤ) ≤ 2 ^ (-100 : ℤ) := zpow_le_zpow_right₀ (by norm_num) (by norm_num)
      _ ≤ _ := by norm_num
  t1 := by
    calc (2 : ℝ) ^ (-1000 : ℤ) ≤ 2 ^ (-100 : ℤ) := zpow_le_zpow_right₀ (by norm_num) (by norm_num)
      _ ≤ _ := by norm_num

/-- the value of `a` in doubles -/
theorem float_a_close [PyTrig DblR] (H : TrigClose) {lon1 lat1 lon2 lat2 : DblR} {x1 y1 x2 y2 : ℝ} (hx1 : lon1.val = .fin x1)
    (hy1 : lat1.val = .fin y1) (hx2 : lon2.val = .fin x2) (hy2 : lat2.val = .fin y2) (bx1 : |x1| ≤ 360) (bx2 : |x2| ≤ 360)
    (by1 : |y1| ≤ 89) (by2 : |y2| ≤ 89)
    (ha : Real.sin ((radians y2 - radians y1) / 2) ^ 2 +
      Real.cos (radians y1) * Real.cos (radians y2) * Real.sin ((radians x2 - radians x1) / 2) ^ 2 ≤ 1 / 2) :
    ∃ A, (PyTrig.sq (PyTrig.sin ((PyTrig.radians lat2 -ᶠ PyTrig.radians lat1) /ᶠ PyFloat.ofInt 2)) +ᶠ
        (PyTrig.cos (PyTrig.radians lat1) *ᶠ PyTrig.cos (PyTrig.radians lat2)) *ᶠ
          PyTrig.sq (PyTrig.sin ((PyTrig.radians lon2 -ᶠ PyTrig.radians lon1) /ᶠ PyFloat.ofInt 2))).val = .fin A ∧ 0 ≤ A ∧
      |√A - √(Real.sin ((radians y2 - radians y1) / 2) ^ 2 +
        Real.cos (radians y1) * Real.cos (radians y2) * Real.sin ((radians x2 - radians x1) / 2) ^ 2)| ≤ 477 * 2 ^ (-50 : ℤ) := by
  obtain ⟨S1, hS1, eS1⟩ := half_diff_close H hy1 hy2 (by linarith) (by linarith)
  obtain ⟨S2, hS2, eS2⟩ := half_diff_close H hx1 hx2 bx1 bx2
  obtain ⟨C1, hC1, eC1⟩ := cos_close H hy1 by1
  obtain ⟨C2, hC2, eC2⟩ := cos_close H hy2 by2
  have lc1 := cos_lat_lower by1
  have lc2 := cos_lat_lower by2
  have uc1 := Real.cos_le_one (radians y1)
  have uc2 := Real.cos_le_one (radians y2)
  have us1 := Real.abs_sin_le_one ((radians y2 - radians y1) / 2)
  have us2 := Real.abs_sin_le_one ((radians x2 - radians x1) / 2)
  generalize Real.sin ((radians y2 - radians y1) / 2) = s1 at *
  generalize Real.sin ((radians x2 - radians x1) / 2) = s2 at *
  generalize Real.cos (radians y1) = c1 at *
  generalize Real.cos (radians y2) = c2 at *
  have e1 : (2 : ℝ) ^ (-51 : ℤ) = 2 ^ (-50 : ℤ) / 2 := by norm_num
  have e3 : (2 : ℝ) ^ (-53 : ℤ) = 2 ^ (-50 : ℤ) / 8 := by norm_num
  have t1 : (2 : ℝ) ^ (-1075 : ℤ) ≤ 2 ^ (-1000 : ℤ) := zpow_le_zpow_right₀ (by norm_num) (by norm_num)
  have k := smallConsts
  have u0 := k.u0
  have u1 := k.u1
  have k1 := k.t1
  have k0 := k.t0
  have p1 := H.sq _ S1 hS1
  have p2 := H.sq _ S2 hS2
  have q1 := @dbl_mul
  have q2 := @dbl_add
  rw [e1] at p1 p2
  simp only [e3] at q1 q2
  generalize (2 : ℝ) ^ (-50 : ℤ) = u at *
  generalize (2 : ℝ) ^ (-1000 : ℤ) = t at *
  generalize (2 : ℝ) ^ (-490 : ℤ) = τ at *
  generalize (2 : ℝ) ^ (-1075 : ℤ) = t' at *
  have lC1 := abs_le.mp eC1
  have lC2 := abs_le.mp eC2
  have lS1 := abs_le.mp eS1
  have lS2 := abs_le.mp eS2
  have ls1 := abs_le.mp us1
  have ls2 := abs_le.mp us2
  have aS1 : |S1| ≤ 101 / 100 := abs_le.mpr ⟨by linarith, by linarith⟩
  have aS2 : |S2| ≤ 101 / 100 := abs_le.mpr ⟨by linarith, by linarith⟩
  have hC10 : 0 ≤ C1 := by linarith
  have hC20 : 0 ≤ C2 := by linarith
  have hC11 : C1 ≤ 101 / 100 := by linarith
  have hC21 : C2 ≤ 101 / 100 := by linarith
  have bsq : ∀ X : ℝ, |X| ≤ 101 / 100 → X ^ 2 ≤ 2 := by
    intro X hX
    have := abs_le.mp hX
    nlinarith
  have hu2 : ∀ X : ℝ, X ≤ 8 → u / 2 * X ≤ 1 / 1000 := fun X hX => (scaled_le (by linarith) hX).trans (by linarith)
  have hu8 : ∀ X : ℝ, X ≤ 8 → u / 8 * X ≤ 1 / 1000 := fun X hX => (scaled_le (by linarith) hX).trans (by linarith)
  have hP1 : C1 * C2 ≤ 2 := by clear * - hC10 hC20 hC11 hC21; nlinarith
  have hP0 : 0 ≤ C1 * C2 := mul_nonneg hC10 hC20
  obtain ⟨Q1, hQ1, nQ1, eQ1⟩ := p1 (by linarith)
  obtain ⟨Q2, hQ2, nQ2, eQ2⟩ := p2 (by linarith)
  obtain ⟨P, hP, nP, eP⟩ := q1 hC1 hC2 (by rw [abs_of_nonneg hP0]; linarith)
  have nP := nP hP0
  have hQ1' : Q1 ≤ 3 := by
    have := (abs_le.mp eQ1).2
    linarith [bsq S1 aS1, hu2 (S1 ^ 2) (by linarith [bsq S1 aS1])]
  have hQ2' : Q2 ≤ 3 := by
    have := (abs_le.mp eQ2).2
    linarith [bsq S2 aS2, hu2 (S2 ^ 2) (by linarith [bsq S2 aS2])]
  have hP' : P ≤ 5 / 2 := by
    have := (abs_le.mp eP).2
    rw [abs_of_nonneg hP0] at this
    linarith [hu8 (C1 * C2) (by linarith)]
  have hPQ0 : 0 ≤ P * Q2 := mul_nonneg nP nQ2
  have hPQ : P * Q2 ≤ 8 := by clear * - nP nQ2 hP' hQ2'; nlinarith
  obtain ⟨M, hM, nM, eM⟩ := q1 hP hQ2 (by rw [abs_of_nonneg hPQ0]; linarith)
  have nM := nM hPQ0
  have hM' : M ≤ 9 := by
    have := (abs_le.mp eM).2
    rw [abs_of_nonneg hPQ0] at this
    linarith [hu8 (P * Q2) hPQ]
  obtain ⟨A, hA, nA, eA⟩ := q2 hQ1 hM (by rw [abs_of_nonneg (add_nonneg nQ1 nM)]; linarith) (add_nonneg nQ1 nM)
  exact ⟨A, hA, nA, a_close k us1 us2 lc1 uc1 lc2 uc2 eS1 eS2 eC1 eC2 nQ1 eQ1 nQ2 eQ2 (eP.trans (by linarith)) nM
    (eM.trans (by linarith)) nA (eA.trans (by linarith)) ha⟩

/-- the steps from `a` to the distance -/
theorem float_tail [PyTrig DblR] (H : TrigClose) {a A : ℝ} {Af : DblR} (hA : Af.val = .fin A) (nA : 0 ≤ A) (ha0 : 0 ≤ a)
    (ha2 : a ≤ 1 / 2) (r3 : |√A - √a| ≤ 477 * 2 ^ (-50 : ℤ)) :
    ∃ d, (PyFloat.ofInt 6367 *ᶠ (PyFloat.ofInt 2 *ᶠ
        PyTrig.arctan2 (PyTrig.half Af) (PyTrig.half (PyFloat.ofInt 1 -ᶠ Af)))).val = .fin d ∧
      |d - 6367 * (2 * arctan2 (√a) (√(1 - a)))| ≤ 1 / 10 ^ 7 := by
  have e1 : (2 : ℝ) ^ (-51 : ℤ) = 2 ^ (-50 : ℤ) / 2 := by norm_num
  have e3 : (2 : ℝ) ^ (-53 : ℤ) = 2 ^ (-50 : ℤ) / 8 := by norm_num
  have t1 : (2 : ℝ) ^ (-1075 : ℤ) ≤ 2 ^ (-1000 : ℤ) := zpow_le_zpow_right₀ (by norm_num) (by norm_num)
  have t2 : (2 : ℝ) ^ (-500 : ℤ) ≤ 2 ^ (-490 : ℤ) := zpow_le_zpow_right₀ (by norm_num) (by norm_num)
  obtain ⟨u0, u1, k0, m0, -, m1, k1⟩ := smallConsts
  have p3 := H.half
  have p4 := H.arctan2
  have q1 := @dbl_mul
  have q3 := @dbl_sub
  simp only [e1] at p3
  simp only [e3] at q1 q3
  generalize (2 : ℝ) ^ (-50 : ℤ) = u at *
  generalize (2 : ℝ) ^ (-1000 : ℤ) = t at *
  generalize (2 : ℝ) ^ (-490 : ℤ) = τ at *
  generalize (2 : ℝ) ^ (-1075 : ℤ) = t' at *
  generalize (2 : ℝ) ^ (-500 : ℤ) = τ' at *
  have hsa : √a ≤ 71 / 100 := by
    rw [Real.sqrt_le_iff]
    exact ⟨by norm_num, by norm_num; linarith⟩
  have hsA : √A ≤ 1 := by
    have := (abs_le.mp r3).2
    linarith
  have hA2 : A ≤ 1 := by
    rw [Real.sqrt_le_one] at hsA <;> linarith
  obtain ⟨Y, hY, nY, eY⟩ := p3 _ A hA nA (by linarith)
  have eY' : |Y - √A| ≤ 2 * u := by linarith [scaled_le (by linarith : 0 ≤ u / 2) hsA]
  have h1A : |1 - A| ≤ 1 := abs_le.mpr ⟨by linarith, by linarith⟩
  obtain ⟨w, hw, ew⟩ := q3 RFl.val_one hA (by linarith)
  have ew' : |w - (1 - A)| ≤ 2 * u := by linarith [scaled_le (by linarith : 0 ≤ u / 8) h1A]
  have hw0 := angle_close (u := u) (X := √w) (T := arctan2 Y (√w)) u0.le (by linarith) ha0 ha2 nA r3 eY' ew'
    (by rw [sub_self, abs_zero]; linarith) (by rw [sub_self, abs_zero]; linarith)
  obtain ⟨X, hX, nX, eX⟩ := p3 _ w hw (by linarith [hw0.2.1]) (by linarith [hw0.2.2.1])
  have hsw : √w ≤ 2 := by
    rw [Real.sqrt_le_iff]
    refine ⟨by norm_num, ?_⟩
    norm_num
    linarith [hw0.2.2.1]
  have hsw2 : √w ≤ 11 / 10 := by
    rw [Real.sqrt_le_iff]
    refine ⟨by norm_num, ?_⟩
    norm_num
    linarith [hw0.2.2.1]
  have eX' : |X - √w| ≤ 2 * u := by linarith [scaled_le (by linarith : 0 ≤ u / 2) hsw]
  have hX0 := angle_close (u := u) (X := X) (T := arctan2 Y X) u0.le (by linarith) ha0 ha2 nA r3 eY' ew' eX'
    (by rw [sub_self, abs_zero]; linarith)
  obtain ⟨T, hT, eT⟩ := p4 _ _ Y X hY hX nY (by
      have := (abs_le.mp eY').2
      linarith) hX0.2.2.2 (by
      have := (abs_le.mp eX').2
      linarith)
  have hfin := (angle_close u0.le (by linarith) ha0 ha2 nA r3 eY' ew' eX' eT).1
  have hq := arg_quadrant (Real.sqrt_nonneg a) (Real.sqrt_nonneg (1 - a))
  generalize arctan2 (√a) (√(1 - a)) = θ at *
  have hpi := Real.pi_le_four
  have hf := abs_le.mp hfin
  have hTb : |T| ≤ 3 := abs_le.mpr ⟨by linarith, by linarith⟩
  have v2 : (PyFloat.ofInt 2 : DblR).val = .fin 2 := val_ofNat_b64 2 (by norm_num)
  have v6 : (PyFloat.ofInt 6367 : DblR).val = .fin 6367 := val_ofNat_b64 6367 (by norm_num)
  have h2T : |2 * T| ≤ 6 := by
    rw [abs_mul, abs_two]
    linarith
  obtain ⟨c, hc, _, ec⟩ := q1 v2 hT (by linarith)
  have ec2 : |c - 2 * T| ≤ 2 * u := by linarith [scaled_le (by linarith : 0 ≤ u / 8) h2T]
  have ec3 := abs_le.mp ec2
  have ec' : |c - 2 * θ| ≤ 5202 * u := abs_le.mpr ⟨by linarith, by linarith⟩
  have hcb : |c| ≤ 7 := abs_le.mpr ⟨by linarith, by linarith⟩
  have h6c : |6367 * c| ≤ 6367 * 7 := by
    rw [abs_mul, abs_of_nonneg (by norm_num : (0 : ℝ) ≤ 6367)]
    linarith
  obtain ⟨d, hd, _, ed⟩ := q1 v6 hc (by linarith)
  refine ⟨d, hd, ?_⟩
  have f1 : |d - 6367 * c| ≤ 6367 * u := by linarith [scaled_le (by linarith : 0 ≤ u / 8) h6c]
  have f2 := abs_le.mp f1
  have f3 := abs_le.mp ec'
  exact abs_le.mpr ⟨by linarith, by linarith⟩

/-- **C144** The distance computed in double precision differs by at most 0.1 mm (`10^-7` km) from the exact great circle
distance, for points up to latitude 89° that are at most a quarter of the circumference apart. -/
theorem C144_accuracy [PyTrig DblR] (H : TrigClose) {lon1 lat1 lon2 lat2 : DblR} {x1 y1 x2 y2 : ℝ} (hx1 : lon1.val = .fin x1)
    (hy1 : lat1.val = .fin y1) (hx2 : lon2.val = .fin x2) (hy2 : lat2.val = .fin y2) (bx1 : |x1| ≤ 360) (bx2 : |x2| ≤ 360)
    (by1 : |y1| ≤ 89) (by2 : |y2| ≤ 89) (hd : haversine x1 y1 x2 y2 ≤ 6367 * (Real.pi / 2)) :
    ∃ d, (haversineF lon1 lat1 lon2 lat2).val = .fin d ∧ |d - haversine x1 y1 x2 y2| ≤ 1 / 10 ^ 7 := by
  have hav := hav_eq x1 y1 x2 y2
  have ha0 : 0 ≤ Real.sin ((radians y2 - radians y1) / 2) ^ 2 +
      Real.cos (radians y1) * Real.cos (radians y2) * Real.sin ((radians x2 - radians x1) / 2) ^ 2 := by
    have := mul_nonneg ((by norm_num : (0 : ℝ) ≤ 1 / 90).trans (cos_lat_lower by1))
      ((by norm_num : (0 : ℝ) ≤ 1 / 90).trans (cos_lat_lower by2))
    positivity
  have ha2 : Real.sin ((radians y2 - radians y1) / 2) ^ 2 +
      Real.cos (radians y1) * Real.cos (radians y2) * Real.sin ((radians x2 - radians x1) / 2) ^ 2 ≤ 1 / 2 := by
    rw [haversine_eq_angle] at hd
    have h2 : InnerProductGeometry.angle (unitVec x1 y1) (unitVec x2 y2) ≤ Real.pi / 2 := by linarith
    have h3 : 0 ≤ inner ℝ (unitVec x1 y1) (unitVec x2 y2) := by
      have h4 := InnerProductGeometry.cos_angle (unitVec x1 y1) (unitVec x2 y2)
      rw [norm_unitVec, norm_unitVec, mul_one, div_one] at h4
      rw [← h4]
      exact Real.cos_nonneg_of_neg_pi_div_two_le_of_le
        (by linarith [InnerProductGeometry.angle_nonneg (unitVec x1 y1) (unitVec x2 y2), Real.pi_pos]) h2
    linarith
  obtain ⟨A, hA, nA, r3⟩ := float_a_close H hx1 hy1 hx2 hy2 bx1 bx2 by1 by2 ha2
  obtain ⟨d, h1, h2⟩ := float_tail H hA nA ha0 ha2 r3
  refine ⟨d, h1, ?_⟩
  have e : haversine x1 y1 x2 y2 = 6367 * (2 * arctan2
      (√(Real.sin ((radians y2 - radians y1) / 2) ^ 2 +
        Real.cos (radians y1) * Real.cos (radians y2) * Real.sin ((radians x2 - radians x1) / 2) ^ 2))
      (√(1 - (Real.sin ((radians y2 - radians y1) / 2) ^ 2 +
        Real.cos (radians y1) * Real.cos (radians y2) * Real.sin ((radians x2 - radians x1) / 2) ^ 2)))) := by
    unfold haversine
    dsimp only
    rw [Real.sqrt_eq_rpow, Real.sqrt_eq_rpow]
    norm_num
  rw [e]
  exact h2

/-! ### Distance matrices and neighbours -/

/-- the end point `p` has the exact coordinates `q`, at most 89° north or south -/
def SiteIs (p : SiteF DblR) (q : Site) : Prop :=
  p.lon.val = .fin q.lon ∧ p.lat.val = .fin q.lat ∧ |q.lon| ≤ 360 ∧ |q.lat| ≤ 89

/-- the exact distance of two end points -/
noncomputable def exactDist (p q : Site) : ℝ := haversine p.lon p.lat q.lon q.lat

theorem distMatrix_close [PyTrig DblR] (H : TrigClose) {Id : Type} [DecidableEq Id] (ids : List Id) (hn : ids.Nodup)
    {src dst : List (SiteF DblR)} {qs qd : List Site} (hs : List.Forall₂ SiteIs src qs) (hd : List.Forall₂ SiteIs dst qd)
    (ls : src.length = ids.length) (ld : dst.length = ids.length) {i j : Nat} {p q : Site} (hp : qs[i]? = some p)
    (hq : qd[j]? = some q) (hfar : exactDist p q ≤ 6367 * (Real.pi / 2)) :
    ∃ v d, entry' (distMatrixOf PyFloat.nan (PyFloat.ofInt 0) distF ids src dst) i j = some v ∧ v.val = .fin d ∧
      |d - if i = j then 0 else exactDist p q| ≤ 1 / 10 ^ 7 ∧ (i = j → d = 0) := by
  have get : ∀ {l : List (SiteF DblR)} {r : List Site}, List.Forall₂ SiteIs l r → ∀ {k : Nat} {s : Site}, r[k]? = some s →
      ∃ f, l[k]? = some f ∧ SiteIs f s := by
    intro l r h
    induction h with
    | nil => intro k s hk; simp at hk
    | cons h0 _ ih =>
      intro k s hk
      cases k with
      | zero => cases hk; exact ⟨_, rfl, h0⟩
      | succ k => exact ih hk
  obtain ⟨f, hf, f1, f2, f3, f4⟩ := get hs hp
  obtain ⟨g, hg, g1, g2, g3, g4⟩ := get hd hq
  have e := (distMatrixOf_entries (PyFloat.nan : DblR) (PyFloat.ofInt 0) distF ids hn src dst ls ld).2.2 i j f g hf hg
  by_cases hij : i = j
  · refine ⟨_, 0, e, ?_, ?_, fun _ => rfl⟩
    · rw [if_pos hij]; exact RFl.val_zero
    · rw [if_pos hij, sub_self, abs_zero]; norm_num
  · obtain ⟨d, h1, h2⟩ := C144_accuracy H f1 f2 g1 g2 f3 g3 f4 g4 hfar
    refine ⟨_, d, e, ?_, ?_, fun h => absurd h hij⟩
    · rw [if_neg hij]; exact h1
    · rw [if_neg hij]; exact h2

/-- **C144** Every entry of the four matrices of `calc_distance_between_cml_endpoints` is within 0.1 mm of the exact
distance (0 on the diagonal). -/
theorem C144_matrices [PyTrig DblR] (H : TrigClose) {Id : Type} [DecidableEq Id] (ids : List Id) (hn : ids.Nodup)
    {siteA siteB : List (SiteF DblR)} {qA qB : List Site} (hA : List.Forall₂ SiteIs siteA qA) (hB : List.Forall₂ SiteIs siteB qB)
    (lA : siteA.length = ids.length) (lB : siteB.length = ids.length) {i j : Nat} {pA pB p'A p'B : Site} (h1 : qA[i]? = some pA)
    (h2 : qB[i]? = some pB) (h3 : qA[j]? = some p'A) (h4 : qB[j]? = some p'B) :
    ∀ m p q, (m, p, q) ∈ [((calcDistancesF ids siteA siteB).a_to_all_a, pA, p'A), ((calcDistancesF ids siteA siteB).a_to_all_b, pA, p'B),
        ((calcDistancesF ids siteA siteB).b_to_all_a, pB, p'A), ((calcDistancesF ids siteA siteB).b_to_all_b, pB, p'B)] →
      exactDist p q ≤ 6367 * (Real.pi / 2) →
      ∃ v d, entry' m i j = some v ∧ v.val = .fin d ∧ |d - if i = j then 0 else exactDist p q| ≤ 1 / 10 ^ 7 ∧ (i = j → d = 0) := by
  intro m p q hm hfar
  simp only [calcDistancesF, List.mem_cons, List.not_mem_nil, or_false, Prod.mk.injEq] at hm
  rcases hm with ⟨rfl, rfl, rfl⟩ | ⟨rfl, rfl, rfl⟩ | ⟨rfl, rfl, rfl⟩ | ⟨rfl, rfl, rfl⟩
  · exact distMatrix_close H ids hn hA hA lA lA h1 h3 hfar
  · exact distMatrix_close H ids hn hA hB lA lB h1 h4 hfar
  · exact distMatrix_close H ids hn hB hA lB lA h2 h3 hfar
  · exact distMatrix_close H ids hn hB hB lB lB h2 h4 hfar

/-- the computed matrices as input of `nearby_wetdry` -/
noncomputable def asDistF [PyTrig DblR] {Id : Type} [DecidableEq Id] (ids : List Id) (siteA siteB : List (SiteF DblR)) : Nearby.Dist DblR Id where
  ids := ids
  aa := (calcDistancesF ids siteA siteB).a_to_all_a
  ab := (calcDistancesF ids siteA siteB).a_to_all_b
  ba := (calcDistancesF ids siteA siteB).b_to_all_a
  bb := (calcDistancesF ids siteA siteB).b_to_all_b

theorem row_of_entry {m : Matrix' DblR} {i j : Nat} {v : DblR} (h : entry' m i j = some v) : (m.getD i [])[j]? = some v := by
  unfold entry' at h
  rw [List.getD_eq_getElem?_getD]
  cases hr : m[i]? with
  | none => rw [hr] at h; cases h
  | some r => rw [hr] at h; exact h

theorem lt_close {v r : DblR} {d e ρ : ℝ} (hv : v.val = .fin d) (hr : r.val = .fin ρ) (h : |d - e| ≤ 1 / 10 ^ 7)
    (hm : 1 / 10 ^ 7 < |e - ρ|) : (v <ᶠ r) = decide (e < ρ) := by
  rw [RFl.lt_def, hv, hr, Fl.pf_lt_fin, decide_eq_decide]
  have h' := abs_le.mp h
  rcases lt_abs.mp hm with k | k <;> constructor <;> intro _ <;> linarith

/-- **C144** The neighbours `nearby_wetdry` selects from the computed distances are those of the exact distances, for every
radius that no exact distance of the pair meets within 0.1 mm: link `j` is selected for link `i` exactly if it is the same
link or all four exact distances of their end points are smaller than the radius. -/
theorem C144_neighbours [PyTrig DblR] (H : TrigClose) {Id : Type} [DecidableEq Id] (ids : List Id) (hn : ids.Nodup)
    {siteA siteB : List (SiteF DblR)} {qA qB : List Site} (hA : List.Forall₂ SiteIs siteA qA) (hB : List.Forall₂ SiteIs siteB qB)
    (lA : siteA.length = ids.length) (lB : siteB.length = ids.length) {radius : DblR} {ρ : ℝ} (hr : radius.val = .fin ρ) (hρ : 0 < ρ)
    {i j : Nat} {cmlid : Id} (hi : ids[i]? = some cmlid) {pA pB p'A p'B : Site} (h1 : qA[i]? = some pA) (h2 : qB[i]? = some pB)
    (h3 : qA[j]? = some p'A) (h4 : qB[j]? = some p'B)
    (hfar : i ≠ j → ∀ e ∈ [exactDist pA p'A, exactDist pA p'B, exactDist pB p'A, exactDist pB p'B],
      e ≤ 6367 * (Real.pi / 2) ∧ 1 / 10 ^ 7 < |e - ρ|) :
    ∃ mask, Nearby.within (asDistF ids siteA siteB) radius cmlid = .ok mask ∧ mask.length = ids.length ∧
      (mask[j]? = some true ↔ i = j ∨
        (exactDist pA p'A < ρ ∧ exactDist pA p'B < ρ ∧ exactDist pB p'A < ρ ∧ exactDist pB p'B < ρ)) ∧
      (mask[j]? = some false ∨ mask[j]? = some true) := by
  have hidx : ids.idxOf? cmlid = some i := by
    obtain ⟨b, c⟩ := List.getElem?_eq_some_iff.mp hi
    unfold List.idxOf?
    rw [List.findIdx?_eq_some_iff_getElem]
    refine ⟨b, by simpa using c, fun m hm => ?_⟩
    simp only [beq_iff_eq]
    intro h
    have := (List.Nodup.getElem_inj_iff hn (hi := by omega) (hj := b)).mp (h.trans c.symm)
    omega
  have key : ∀ m p q, (m, p, q) ∈ [((calcDistancesF ids siteA siteB).a_to_all_a, pA, p'A),
        ((calcDistancesF ids siteA siteB).a_to_all_b, pA, p'B), ((calcDistancesF ids siteA siteB).b_to_all_a, pB, p'A),
        ((calcDistancesF ids siteA siteB).b_to_all_b, pB, p'B)] →
      (i ≠ j → exactDist p q ≤ 6367 * (Real.pi / 2) ∧ 1 / 10 ^ 7 < |exactDist p q - ρ|) →
      (m.getD i []).length = ids.length ∧ ((m.getD i []).map (· <ᶠ radius))[j]? = some (decide (i = j ∨ exactDist p q < ρ)) := by
    intro m p q hm g
    have hil : i < ids.length := (List.getElem?_eq_some_iff.mp hi).1
    have hjl : j < ids.length := by
      rw [← lA, hA.length_eq]; exact (List.getElem?_eq_some_iff.mp h3).1
    have hshape : m.length = ids.length ∧ (∀ r ∈ m, r.length = ids.length) ∧ entry' m i i = some (PyFloat.ofInt 0) := by
      have sp : ∀ src dst : List (SiteF DblR), src.length = ids.length → dst.length = ids.length →
          (distMatrixOf PyFloat.nan (PyFloat.ofInt 0) distF ids src dst).length = ids.length ∧
          (∀ r ∈ distMatrixOf PyFloat.nan (PyFloat.ofInt 0) distF ids src dst, r.length = ids.length) ∧
          entry' (distMatrixOf PyFloat.nan (PyFloat.ofInt 0) distF ids src dst) i i = some (PyFloat.ofInt 0) := by
        intro src dst ls ld
        obtain ⟨w1, w2, w3⟩ := distMatrixOf_entries (PyFloat.nan : DblR) (PyFloat.ofInt 0) distF ids hn src dst ls ld
        refine ⟨w1, w2, ?_⟩
        rw [w3 i i _ _ (List.getElem?_eq_getElem (by omega)) (List.getElem?_eq_getElem (by omega)), if_pos rfl]
      simp only [calcDistancesF, List.mem_cons, Prod.mk.injEq, List.not_mem_nil, or_false] at hm
      rcases hm with ⟨rfl, -⟩ | ⟨rfl, -⟩ | ⟨rfl, -⟩ | ⟨rfl, -⟩
      · exact sp _ _ lA lA
      · exact sp _ _ lA lB
      · exact sp _ _ lB lA
      · exact sp _ _ lB lB
    refine ⟨?_, ?_⟩
    · rw [List.getD_eq_getElem?_getD, List.getElem?_eq_getElem (by rw [hshape.1]; exact hil)]
      exact hshape.2.1 _ (List.getElem_mem _)
    by_cases hij : i = j
    · subst hij
      rw [List.getElem?_map, row_of_entry hshape.2.2, Option.map_some]
      congr 1
      rw [RFl.lt_def, RFl.val_zero, hr, Fl.pf_lt_fin, decide_eq_decide]
      exact ⟨fun _ => Or.inl rfl, fun _ => hρ⟩
    · obtain ⟨g1, g2⟩ := g hij
      obtain ⟨v, d, k1, k2, k3, k4⟩ := C144_matrices H ids hn hA hB lA lB h1 h2 h3 h4 m p q hm g1
      rw [List.getElem?_map, row_of_entry k1, Option.map_some]
      congr 1
      rw [if_neg hij] at k3
      rw [lt_close k2 hr k3 g2, decide_eq_decide]
      exact ⟨Or.inr, fun h => h.resolve_left hij⟩
  obtain ⟨l1, r1⟩ := key _ _ _ (.head _) (fun h => hfar h _ (.head _))
  obtain ⟨l2, r2⟩ := key _ _ _ (.tail _ (.head _)) (fun h => hfar h _ (.tail _ (.head _)))
  obtain ⟨l3, r3⟩ := key _ _ _ (.tail _ (.tail _ (.head _))) (fun h => hfar h _ (.tail _ (.tail _ (.head _))))
  obtain ⟨l4, r4⟩ := key _ _ _ (.tail _ (.tail _ (.tail _ (.head _)))) (fun h => hfar h _ (.tail _ (.tail _ (.tail _ (.head _)))))
  refine ⟨_, by unfold Nearby.within asDistF; rw [hidx], by
    unfold Nearby.withinRow
    simp only [List.length_zipWith, List.length_map, l1, l2, l3, l4, min_self], ?_⟩
  unfold Nearby.withinRow
  simp only [List.getElem?_zipWith, r1, r2, r3, r4, Option.some.injEq, Bool.and_eq_true, decide_eq_true_eq]
  constructor
  · tauto
  · rw [← Bool.not_eq_true]
    simp only [Bool.and_eq_true, decide_eq_true_eq]
    exact (Classical.em _).symm

/-! ### Correctly rounded functions -/

theorem correctTrig_close : @TrigClose (correctTrig (binary64 (K := ℝ))) := by
  let _ := correctTrig (binary64 (K := ℝ))
  have t0 : (2 : ℝ) ^ (-1075 : ℤ) ≤ 2 ^ (-1000 : ℤ) := zpow_le_zpow_right₀ (by norm_num) (by norm_num)
  have t1 : (2 : ℝ) ^ (-1075 : ℤ) ≤ 2 ^ (-500 : ℤ) := zpow_le_zpow_right₀ (by norm_num) (by norm_num)
  have t2 : (2 : ℝ) ^ (-1075 : ℤ) ≤ 2 ^ (-53 : ℤ) := zpow_le_zpow_right₀ (by norm_num) (by norm_num)
  have s1 : (2 : ℝ) ^ (-53 : ℤ) ≤ 2 ^ (-51 : ℤ) := zpow_le_zpow_right₀ (by norm_num) (by norm_num)
  have s2 : (2 : ℝ) ^ (-53 : ℤ) * 4 + 2 ^ (-53 : ℤ) ≤ 2 ^ (-50 : ℤ) := by norm_num
  have s0 : (0 : ℝ) ≤ 2 ^ (-53 : ℤ) := by positivity
  have unit : ∀ x : ℝ, |x| ≤ 4 → ∃ z, (binary64 (K := ℝ)).rnd x = .fin z ∧ |z - x| ≤ 2 ^ (-50 : ℤ) := by
    intro x hx
    obtain ⟨z, hz, he⟩ := dbl_round (x := x) (by linarith)
    exact ⟨z, hz, by linarith [mul_le_mul_of_nonneg_left hx s0]⟩
  refine { radians := ?_, sin := ?_, cos := ?_, sq := ?_, half := ?_, arctan2 := ?_ }
  · intro x a hx ha
    have hpi : 0 < Real.pi / 180 ∧ Real.pi / 180 ≤ 1 := by
      constructor
      · have := Real.pi_pos; positivity
      · have := Real.pi_le_four; linarith
    have hb : |radians a| ≤ |a| := by
      unfold radians
      rw [abs_mul, abs_of_pos hpi.1]
      exact mul_le_of_le_one_right (abs_nonneg _) hpi.2
    obtain ⟨z, hz, he⟩ := dbl_round (x := radians a) (by linarith)
    refine ⟨z, ?_, he.trans (add_le_add (mul_le_mul_of_nonneg_right s1 (abs_nonneg _)) t0)⟩
    show (binary64 (K := ℝ)).round (x.val *ᶠ .fin (Real.pi / 180)) = _
    rw [hx, Fl.pf_mul_fin]
    exact hz
  · intro x a hx _
    obtain ⟨z, hz, he⟩ := unit (Real.sin a) ((Real.abs_sin_le_one a).trans (by norm_num))
    refine ⟨z, ?_, he⟩
    show (binary64 (K := ℝ)).round (flFun Real.sin x.val) = _
    rw [hx]; exact hz
  · intro x a hx _
    obtain ⟨z, hz, he⟩ := unit (Real.cos a) ((Real.abs_cos_le_one a).trans (by norm_num))
    refine ⟨z, ?_, he⟩
    show (binary64 (K := ℝ)).round (flFun Real.cos x.val) = _
    rw [hx]; exact hz
  · intro x a hx ha
    have h2 : a ^ 2 ≤ 4 := by rw [← sq_abs]; nlinarith [abs_nonneg a]
    obtain ⟨z, hz, he⟩ := dbl_round (x := a ^ 2) (by rw [abs_of_nonneg (sq_nonneg a)]; linarith)
    rw [abs_of_nonneg (sq_nonneg a)] at he
    refine ⟨z, ?_, dbl_nonneg hz (sq_nonneg a), he.trans (add_le_add (mul_le_mul_of_nonneg_right s1 (sq_nonneg a)) t0)⟩
    show (binary64 (K := ℝ)).round (x.val *ᶠ x.val) = _
    rw [hx, Fl.pf_mul_fin, ← sq]
    exact hz
  · intro x a hx h0 h2
    have hs : √a ≤ 2 := by
      rw [Real.sqrt_le_iff]
      exact ⟨by norm_num, by linarith⟩
    have hs0 := Real.sqrt_nonneg a
    obtain ⟨z, hz, he⟩ := dbl_round (x := √a) (by rw [abs_of_nonneg hs0]; linarith)
    rw [abs_of_nonneg hs0] at he
    refine ⟨z, ?_, dbl_nonneg hz hs0, he.trans (add_le_add (mul_le_mul_of_nonneg_right s1 hs0) t1)⟩
    show (binary64 (K := ℝ)).round (Fl.sqrt x.val) = _
    rw [hx]
    simp only [Fl.sqrt, if_neg (not_lt.mpr h0)]
    exact hz
  · intro y x b a hy hx hb _ ha _
    obtain ⟨l, r⟩ := arg_quadrant hb (by linarith : 0 ≤ a)
    obtain ⟨z, hz, he⟩ := unit (arctan2 b a) (by
      rw [abs_of_nonneg l]
      linarith [Real.pi_le_four])
    refine ⟨z, ?_, he⟩
    show (binary64 (K := ℝ)).round (flArctan2 y.val x.val) = _
    rw [hy, hx]
    exact hz

/-- two end points on a meridian, one degree apart: the computed distance is within 0.1 mm of `6367 π / 180` km -/
example : letI := correctTrig (binary64 (K := ℝ))
    ∃ d, (haversineF (PyFloat.ofInt (11 : ℕ) : DblR) (PyFloat.ofInt (47 : ℕ)) (PyFloat.ofInt (11 : ℕ)) (PyFloat.ofInt (48 : ℕ))).val = .fin d ∧
      |d - 6367 * (1 * (Real.pi / 180))| ≤ 1 / 10 ^ 7 := by
  let _ := correctTrig (binary64 (K := ℝ))
  have hm := C30_meridian 11 47 48 (by norm_num) (by norm_num)
  have e : (48 : ℝ) - 47 = 1 := by norm_num
  rw [e] at hm
  rw [← hm]
  exact C144_accuracy correctTrig_close (val_ofNat_b64 11 (by norm_num)) (val_ofNat_b64 47 (by norm_num)) (val_ofNat_b64 11 (by norm_num))
    (val_ofNat_b64 48 (by norm_num)) (by norm_num) (by norm_num) (by norm_num) (by norm_num) (by
      rw [hm]
      linarith [Real.pi_pos])

/-- two links on the same meridian with end points one degree (about 111 km) apart: neighbours for a radius of 200 km, not for
a radius of 100 km -/
example (r : ℕ) (hr : r = 100 ∨ r = 200) : letI := correctTrig (binary64 (K := ℝ))
    let p : SiteF DblR := ⟨PyFloat.ofInt (11 : ℕ), PyFloat.ofInt (47 : ℕ)⟩
    let q : SiteF DblR := ⟨PyFloat.ofInt (11 : ℕ), PyFloat.ofInt (48 : ℕ)⟩
    ∃ mask, Nearby.within (asDistF ["a", "b"] [p, q] [q, p]) (PyFloat.ofInt r) "a" = .ok mask ∧ (mask[1]? = some true ↔ r = 200) := by
  let _ := correctTrig (binary64 (K := ℝ))
  intro p q
  have m1 := C30_meridian 11 47 48 (by norm_num) (by norm_num)
  have m2 := (C30_metric 11 48 11 47 0 0).2.2.1.trans m1
  have m3 := C30_meridian 11 47 47 (by norm_num) (by norm_num)
  have m4 := C30_meridian 11 48 48 (by norm_num) (by norm_num)
  have hp : SiteIs p ⟨11, 47⟩ := ⟨val_ofNat_b64 11 (by norm_num), val_ofNat_b64 47 (by norm_num), by norm_num, by norm_num⟩
  have hq : SiteIs q ⟨11, 48⟩ := ⟨val_ofNat_b64 11 (by norm_num), val_ofNat_b64 48 (by norm_num), by norm_num, by norm_num⟩
  have pl := Real.pi_gt_d2
  have pu := Real.pi_lt_d2
  obtain ⟨mask, h1, -, h2, _⟩ := C144_neighbours correctTrig_close ["a", "b"] (by decide) (.cons hp (.cons hq .nil)) (.cons hq (.cons hp .nil))
    rfl rfl (radius := PyFloat.ofInt r) (ρ := r) (val_ofNat_b64 r (by rcases hr with rfl | rfl <;> norm_num))
    (by rcases hr with rfl | rfl <;> norm_num) (i := 0) (j := 1) rfl rfl rfl rfl rfl (by
      intro _ e he
      simp only [exactDist, List.mem_cons, List.not_mem_nil, or_false, m1, m2, m3, m4] at he
      have hl : (100 : ℝ) ≤ r := by rcases hr with rfl | rfl <;> norm_num
      have one : |6367 * ((48 - 47) * (Real.pi / 180)) - r| > 1 / 10 ^ 7 := by
        rcases hr with rfl | rfl
        · exact lt_abs.mpr (Or.inl (by push_cast; linarith))
        · exact lt_abs.mpr (Or.inr (by push_cast; linarith))
      rcases he with rfl | rfl | rfl | rfl
      · exact ⟨by linarith, one⟩
      · exact ⟨by linarith, lt_abs.mpr (Or.inr (by linarith))⟩
      · exact ⟨by linarith, lt_abs.mpr (Or.inr (by linarith))⟩
      · exact ⟨by linarith, one⟩)
  refine ⟨mask, h1, h2.trans ?_⟩
  simp only [exactDist, m1, m2, m3, m4]
  constructor
  · rintro (h | h)
    · cases h
    · rcases hr with rfl | rfl
      · have := h.1
        push_cast at this
        linarith
      · rfl
  · rintro rfl
    right
    push_cast
    refine ⟨?_, ?_, ?_, ?_⟩ <;> linarith

end Verif.Props
