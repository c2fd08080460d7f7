import Mathlib.Analysis.SpecialFunctions.Integrals.Basic
import Mathlib.MeasureTheory.Integral.IntervalIntegral.Periodic
import Mathlib.MeasureTheory.Integral.DominatedConvergence
import Mathlib.Topology.ContinuousMap.Weierstrass
import Mathlib.Analysis.SpecialFunctions.Complex.Arg

/-!
# The spherical covariance function is positive semidefinite in the plane

Turning bands: the spherical covariance is the mean, over all directions in space, of a covariance of one variable; that one
is the autocorrelation of `x ↦ x` on `[-1/2, 1/2]`.
-/

namespace Verif.Spherical
open Real MeasureTheory intervalIntegral Set Finset

/-! ### one variable -/

/-- `x` on `[-1/2, 1/2]`, zero elsewhere -/
noncomputable def ramp (x : ℝ) : ℝ := (Icc (-(1/2) : ℝ) (1/2)).indicator (fun x => x) x

/-- the covariance of one variable -/
noncomputable def cov1 (s : ℝ) : ℝ := if |s| ≤ 1 then 1 - 3 * |s| + 2 * |s| ^ 3 else 0

theorem ramp_mul (a b x : ℝ) : ramp (x - a) * ramp (x - b) =
    (Icc (max (a - 1/2) (b - 1/2)) (min (a + 1/2) (b + 1/2))).indicator (fun x => (x - a) * (x - b)) x := by
  unfold ramp
  by_cases h : x ∈ Icc (max (a - 1/2) (b - 1/2)) (min (a + 1/2) (b + 1/2))
  · rw [indicator_of_mem h]
    simp only [Set.mem_Icc, max_le_iff, le_min_iff] at h
    rw [indicator_of_mem, indicator_of_mem] <;> constructor <;> linarith
  · rw [indicator_of_notMem h]
    simp only [Set.mem_Icc, max_le_iff, le_min_iff, not_and_or, not_le] at h
    by_cases h1 : x - a ∈ Icc (-(1/2) : ℝ) (1/2)
    · rw [indicator_of_notMem (a := x - b), mul_zero]
      rintro ⟨h2, h3⟩
      obtain ⟨h4, h5⟩ := h1
      rcases h with (h | h) | (h | h) <;> linarith
    · rw [indicator_of_notMem h1, zero_mul]

theorem ramp_integrable (a b : ℝ) : Integrable (fun x => ramp (x - a) * ramp (x - b)) := by
  simp_rw [ramp_mul]
  rw [integrable_indicator_iff measurableSet_Icc]
  exact (by fun_prop : Continuous fun x : ℝ => (x - a) * (x - b)).continuousOn.integrableOn_Icc

theorem ramp_integral_le {a b : ℝ} (hab : a ≤ b) : 12 * ∫ x, ramp (x - a) * ramp (x - b) = cov1 (a - b) := by
  simp_rw [ramp_mul]
  rw [MeasureTheory.integral_indicator measurableSet_Icc, integral_Icc_eq_integral_Ioc]
  rw [max_eq_right (by linarith), min_eq_left (by linarith)]
  unfold cov1
  rw [abs_of_nonpos (by linarith : a - b ≤ 0)]
  split
  · rename_i h
    rw [← intervalIntegral.integral_of_le (by linarith)]
    have e : ∀ x : ℝ, (x - a) * (x - b) = x ^ 2 - (a + b) * x + a * b := by intro x; ring
    simp_rw [e]
    rw [intervalIntegral.integral_add, intervalIntegral.integral_sub, intervalIntegral.integral_const_mul,
      integral_pow, integral_id, intervalIntegral.integral_const]
    · simp only [smul_eq_mul]
      norm_num
      ring
    all_goals exact (by fun_prop : Continuous _).intervalIntegrable _ _
  · rename_i h
    rw [Set.Ioc_eq_empty (by linarith)]
    simp

theorem ramp_integral (a b : ℝ) : 12 * ∫ x, ramp (x - a) * ramp (x - b) = cov1 (a - b) := by
  rcases le_total a b with h | h
  · exact ramp_integral_le h
  · have := ramp_integral_le h
    have e : cov1 (a - b) = cov1 (b - a) := by unfold cov1; rw [abs_sub_comm]
    rw [e, ← this]
    simp_rw [mul_comm]

theorem cov1_posdef {n : Nat} (c s : Fin n → ℝ) : 0 ≤ ∑ i, ∑ j, c i * c j * cov1 (s i - s j) := by
  have key : ∑ i, ∑ j, c i * c j * cov1 (s i - s j) = 12 * ∫ x, (∑ i, c i * ramp (x - s i)) ^ 2 := by
    have e : ∀ x, (∑ i, c i * ramp (x - s i)) ^ 2 =
        ∑ i, ∑ j, c i * c j * (ramp (x - s i) * ramp (x - s j)) := by
      intro x
      rw [sq, Finset.sum_mul_sum]
      refine Finset.sum_congr rfl fun i _ => Finset.sum_congr rfl fun j _ => by ring
    simp_rw [e]
    rw [integral_finsetSum _ fun i _ => integrable_finsetSum _ fun j _ => (ramp_integrable _ _).const_mul _,
      Finset.mul_sum]
    refine Finset.sum_congr rfl fun i _ => ?_
    rw [integral_finsetSum _ fun j _ => (ramp_integrable _ _).const_mul _, Finset.mul_sum]
    refine Finset.sum_congr rfl fun j _ => ?_
    rw [MeasureTheory.integral_const_mul, ← ramp_integral]
    ring
  rw [key]
  exact mul_nonneg (by norm_num) (integral_nonneg fun x => sq_nonneg _)

theorem cov1_continuous : Continuous cov1 := by
  unfold cov1
  refine Continuous.if_le (by fun_prop) (by fun_prop) (by fun_prop) (by fun_prop) ?_
  intro x hx
  rw [hx]
  norm_num

theorem cov1_even (s : ℝ) : cov1 (-s) = cov1 s := by unfold cov1; rw [abs_neg]

/-! ### the mean over directions -/

theorem sin_moment (k : Nat) : (∫ θ in (0:ℝ)..π, sin θ * sin θ ^ (2 * k)) * ∫ φ in (0:ℝ)..(2 * π), sin φ ^ (2 * k)
    = 4 * π / (2 * k + 1) := by
  have e : ∀ θ : ℝ, sin θ * sin θ ^ (2 * k) = sin θ ^ (2 * k + 1) := fun θ => by rw [pow_succ']
  simp_rw [e]
  induction k with
  | zero => simp; ring
  | succ k ih =>
    have h1 : ∫ θ in (0:ℝ)..π, sin θ ^ (2 * (k + 1) + 1) =
        (2 * k + 2) / (2 * k + 3) * ∫ θ in (0:ℝ)..π, sin θ ^ (2 * k + 1) := by
      have := integral_sin_pow (a := 0) (b := π) (2 * k + 1)
      rw [show 2 * (k + 1) + 1 = 2 * k + 1 + 2 by ring, this]
      simp only [sin_zero, sin_pi]
      push_cast
      rw [zero_pow (by omega)]
      ring
    have h2 : ∫ θ in (0:ℝ)..(2 * π), sin θ ^ (2 * (k + 1)) =
        (2 * k + 1) / (2 * k + 2) * ∫ θ in (0:ℝ)..(2 * π), sin θ ^ (2 * k) := by
      have := integral_sin_pow (a := 0) (b := 2 * π) (2 * k)
      rw [show 2 * (k + 1) = 2 * k + 2 by ring, this]
      simp only [sin_zero, sin_two_pi]
      push_cast
      rw [zero_pow (by omega)]
      ring
    have h3 := ih fun θ => by rw [pow_succ']
    rw [h1, h2]
    have h4 : (2 * (k:ℝ) + 1) ≠ 0 := by positivity
    have h5 : (2 * (k:ℝ) + 2) ≠ 0 := by positivity
    have h6 : (2 * (k:ℝ) + 3) ≠ 0 := by positivity
    calc (2 * (k:ℝ) + 2) / (2 * k + 3) * (∫ θ in (0:ℝ)..π, sin θ ^ (2 * k + 1)) *
          ((2 * k + 1) / (2 * k + 2) * ∫ θ in (0:ℝ)..(2 * π), sin θ ^ (2 * k))
        = (2 * k + 1) / (2 * k + 3) * ((∫ θ in (0:ℝ)..π, sin θ ^ (2 * k + 1)) * ∫ θ in (0:ℝ)..(2 * π), sin θ ^ (2 * k)) := by
          field_simp
      _ = _ := by
          rw [h3]
          push_cast
          field_simp
          ring

/-- the mean over directions, times `4π` -/
noncomputable def bands (g : ℝ → ℝ) (h : ℝ) : ℝ :=
  ∫ θ in (0:ℝ)..π, sin θ * ∫ φ in (0:ℝ)..(2 * π), g (h * sin θ * sin φ)

theorem bands_inner_continuous {g : ℝ → ℝ} (hg : Continuous g) (h : ℝ) :
    Continuous fun θ : ℝ => sin θ * ∫ φ in (0:ℝ)..(2 * π), g (h * sin θ * sin φ) := by
  refine continuous_sin.mul ?_
  exact intervalIntegral.continuous_parametric_intervalIntegral_of_continuous' (by fun_prop) _ _

theorem bands_sum {ι : Type} (S : Finset ι) (g : ι → ℝ → ℝ) (hg : ∀ i ∈ S, Continuous (g i)) (h : ℝ) :
    bands (fun s => ∑ i ∈ S, g i s) h = ∑ i ∈ S, bands (g i) h := by
  unfold bands
  have e : ∀ θ : ℝ, (sin θ * ∫ φ in (0:ℝ)..(2 * π), ∑ i ∈ S, g i (h * sin θ * sin φ)) =
      ∑ i ∈ S, sin θ * ∫ φ in (0:ℝ)..(2 * π), g i (h * sin θ * sin φ) := by
    intro θ
    rw [intervalIntegral.integral_finsetSum, Finset.mul_sum]
    intro i hi
    have := hg i hi
    exact (by fun_prop : Continuous fun φ : ℝ => g i (h * sin θ * sin φ)).intervalIntegrable _ _
  simp_rw [e]
  rw [intervalIntegral.integral_finsetSum]
  intro i hi
  exact (bands_inner_continuous (hg i hi) h).intervalIntegrable _ _

theorem bands_monomial (a : ℝ) (k : Nat) (h : ℝ) :
    bands (fun s => a * (s ^ 2) ^ k) h = 4 * π * ∫ w in (0:ℝ)..1, a * ((h * w) ^ 2) ^ k := by
  unfold bands
  have e : ∀ θ : ℝ, (sin θ * ∫ φ in (0:ℝ)..(2 * π), a * ((h * sin θ * sin φ) ^ 2) ^ k) =
      a * h ^ (2 * k) * (∫ φ in (0:ℝ)..(2 * π), sin φ ^ (2 * k)) * (sin θ * sin θ ^ (2 * k)) := by
    intro θ
    have e1 : ∀ φ : ℝ, a * ((h * sin θ * sin φ) ^ 2) ^ k = a * h ^ (2 * k) * sin θ ^ (2 * k) * sin φ ^ (2 * k) := by
      intro φ; rw [← pow_mul, mul_pow, mul_pow]; ring
    simp_rw [e1]
    rw [intervalIntegral.integral_const_mul]
    ring
  simp_rw [e]
  rw [intervalIntegral.integral_const_mul]
  have e2 : ∀ w : ℝ, a * ((h * w) ^ 2) ^ k = a * h ^ (2 * k) * w ^ (2 * k) := by
    intro w; rw [← pow_mul, mul_pow]; ring
  simp_rw [e2]
  rw [intervalIntegral.integral_const_mul, integral_pow]
  have := sin_moment k
  calc a * h ^ (2 * k) * (∫ φ in (0:ℝ)..(2 * π), sin φ ^ (2 * k)) * ∫ θ in (0:ℝ)..π, sin θ * sin θ ^ (2 * k)
      = a * h ^ (2 * k) * ((∫ θ in (0:ℝ)..π, sin θ * sin θ ^ (2 * k)) * ∫ φ in (0:ℝ)..(2 * π), sin φ ^ (2 * k)) := by ring
    _ = _ := by
      rw [this]
      push_cast
      norm_num
      ring

theorem bands_poly (P : Polynomial ℝ) (h : ℝ) :
    bands (fun s => P.eval (s ^ 2)) h = 4 * π * ∫ w in (0:ℝ)..1, P.eval ((h * w) ^ 2) := by
  simp_rw [Polynomial.eval_eq_sum_range]
  rw [bands_sum _ _ (fun i _ => by fun_prop), intervalIntegral.integral_finsetSum
    (fun i _ => (by fun_prop : Continuous _).intervalIntegrable _ _), Finset.mul_sum]
  exact Finset.sum_congr rfl fun k _ => bands_monomial _ k h

/-- the mean over directions of a function of one variable, as a mean over a segment -/
theorem bands_eq {g : ℝ → ℝ} (hg : Continuous g) (hev : ∀ s, g (-s) = g s) (h : ℝ) :
    bands g h = 4 * π * ∫ w in (0:ℝ)..1, g (h * w) := by
  refine eq_of_abs_sub_le_all ?_
  intro ε hε
  have hpi := pi_pos
  obtain ⟨δ, hδ, hδε⟩ : ∃ δ > 0, δ * (2 * π * π) + 4 * π * δ ≤ ε :=
    ⟨ε / (2 * π * π + 4 * π), by positivity, by
      rw [← mul_comm (2 * π * π), ← add_mul, mul_div_cancel₀ _ (by positivity)]⟩
  obtain ⟨P, hP⟩ := exists_polynomial_near_of_continuousOn 0 (h ^ 2) (fun y => g (Real.sqrt y))
    (by fun_prop) δ hδ
  have hclose : ∀ s : ℝ, |s| ≤ |h| → |g s - P.eval (s ^ 2)| ≤ δ := by
    intro s hs
    have h1 := hP (s ^ 2) ⟨sq_nonneg s, sq_le_sq.2 hs⟩
    rw [Real.sqrt_sq_eq_abs] at h1
    have h2 : g |s| = g s := by
      rcases abs_choice s with h | h <;> rw [h]
      exact hev s
    rw [h2, abs_sub_comm] at h1
    exact h1.le
  have hPc : Continuous fun s : ℝ => P.eval (s ^ 2) := by fun_prop
  have b1 : |bands g h - bands (fun s => P.eval (s ^ 2)) h| ≤ δ * (2 * π * π) := by
    unfold bands
    rw [← intervalIntegral.integral_sub ((bands_inner_continuous hg h).intervalIntegrable _ _)
      ((bands_inner_continuous hPc h).intervalIntegrable _ _)]
    have := intervalIntegral.norm_integral_le_of_norm_le_const (a := 0) (b := π) (C := δ * (2 * π))
      (f := fun θ => (sin θ * ∫ φ in (0:ℝ)..(2 * π), g (h * sin θ * sin φ)) -
        sin θ * ∫ φ in (0:ℝ)..(2 * π), P.eval ((h * sin θ * sin φ) ^ 2)) (by
        intro θ _
        rw [← mul_sub, norm_mul, ← intervalIntegral.integral_sub
          ((by fun_prop : Continuous fun φ : ℝ => g (h * sin θ * sin φ)).intervalIntegrable _ _)
          ((by fun_prop : Continuous fun φ : ℝ => P.eval ((h * sin θ * sin φ) ^ 2)).intervalIntegrable _ _)]
        have h1 := intervalIntegral.norm_integral_le_of_norm_le_const (a := 0) (b := 2 * π) (C := δ)
          (f := fun φ => g (h * sin θ * sin φ) - P.eval ((h * sin θ * sin φ) ^ 2)) (by
            intro φ _
            apply hclose
            rw [abs_mul, abs_mul]
            calc |h| * |sin θ| * |sin φ| ≤ |h| * 1 * 1 := by
                  gcongr
                  · exact abs_sin_le_one θ
                  · exact abs_sin_le_one φ
              _ = |h| := by ring)
        rw [sub_zero, abs_of_pos (by positivity : (0:ℝ) < 2 * π)] at h1
        calc ‖sin θ‖ * _ ≤ 1 * (δ * (2 * π)) := by
              gcongr
              exact abs_sin_le_one θ
          _ = _ := one_mul _)
    rw [sub_zero, abs_of_pos hpi] at this
    calc _ ≤ _ := this
      _ = _ := by ring
  have b2 : |(4 * π * ∫ w in (0:ℝ)..1, g (h * w)) - 4 * π * ∫ w in (0:ℝ)..1, P.eval ((h * w) ^ 2)| ≤ 4 * π * δ := by
    rw [← mul_sub, abs_mul, abs_of_pos (by positivity : (0:ℝ) < 4 * π), ← intervalIntegral.integral_sub
          ((by fun_prop : Continuous fun w : ℝ => g (h * w)).intervalIntegrable _ _)
          ((by fun_prop : Continuous fun w : ℝ => P.eval ((h * w) ^ 2)).intervalIntegrable _ _)]
    have h1 := intervalIntegral.norm_integral_le_of_norm_le_const (a := 0) (b := 1) (C := δ)
          (f := fun w => g (h * w) - P.eval ((h * w) ^ 2)) (by
            intro w hw
            apply hclose
            rw [uIoc_of_le zero_le_one] at hw
            rw [abs_mul, abs_of_pos hw.1]
            calc |h| * w ≤ |h| * 1 := by gcongr; exact hw.2
              _ = |h| := by ring)
    rw [sub_zero, abs_one, mul_one] at h1
    gcongr
    exact h1
  rw [← bands_poly] at b2
  calc |bands g h - 4 * π * ∫ w in (0:ℝ)..1, g (h * w)|
      ≤ |bands g h - bands (fun s => P.eval (s ^ 2)) h| +
        |bands (fun s => P.eval (s ^ 2)) h - 4 * π * ∫ w in (0:ℝ)..1, g (h * w)| := abs_sub_le _ _ _
    _ ≤ δ * (2 * π * π) + 4 * π * δ := by
      rw [abs_sub_comm (bands (fun s => P.eval (s ^ 2)) h)]
      exact add_le_add b1 b2
    _ ≤ ε := hδε

/-! ### the spherical covariance -/

/-- the spherical covariance with range 1 -/
noncomputable def cov3 (h : ℝ) : ℝ := if h ≤ 1 then 1 - 3 * h / 2 + h ^ 3 / 2 else 0

theorem mean_cov1 {h : ℝ} (hh : 0 ≤ h) : ∫ w in (0:ℝ)..1, cov1 (h * w) = cov3 h := by
  have poly : ∀ b : ℝ, 0 ≤ b → h * b ≤ 1 → ∫ w in (0:ℝ)..b, cov1 (h * w) =
      b - 3 * h * b ^ 2 / 2 + h ^ 3 * b ^ 4 / 2 := by
    intro b hb hb1
    have e : ∫ w in (0:ℝ)..b, cov1 (h * w) = ∫ w in (0:ℝ)..b, (1 - (3 * h) * w + (2 * h ^ 3) * w ^ 3) := by
      apply intervalIntegral.integral_congr
      intro w hw
      rw [uIcc_of_le hb] at hw
      have h1 : 0 ≤ h * w := mul_nonneg hh hw.1
      have h2 : h * w ≤ 1 := le_trans (mul_le_mul_of_nonneg_left hw.2 hh) hb1
      simp only [cov1]
      rw [abs_of_nonneg h1, if_pos h2]
      ring
    rw [e, intervalIntegral.integral_add, intervalIntegral.integral_sub, intervalIntegral.integral_const_mul,
      intervalIntegral.integral_const_mul, integral_pow, integral_id, intervalIntegral.integral_const]
    · simp only [smul_eq_mul]
      norm_num
      ring
    all_goals exact (by fun_prop : Continuous _).intervalIntegrable _ _
  unfold cov3
  split
  · rename_i h1
    rw [poly 1 zero_le_one (by linarith)]
    ring
  · rename_i h1
    push Not at h1
    have hpos : 0 < h := by linarith
    have hc := cov1_continuous
    have hint : ∀ a b : ℝ, IntervalIntegrable (fun w => cov1 (h * w)) volume a b := fun a b =>
      (by fun_prop : Continuous fun w : ℝ => cov1 (h * w)).intervalIntegrable _ _
    have hle : 1 / h ≤ 1 := by rw [div_le_one hpos]; exact h1.le
    rw [← intervalIntegral.integral_add_adjacent_intervals (hint 0 (1 / h)) (hint (1 / h) 1),
      poly (1 / h) (by positivity) (by rw [mul_one_div_cancel hpos.ne'])]
    have e : ∫ w in (1 / h)..1, cov1 (h * w) = ∫ w in (1 / h)..1, (0:ℝ) := by
      apply intervalIntegral.integral_congr
      intro w hw
      rw [uIcc_of_le hle] at hw
      have h2 : 1 ≤ h * w := by
        have := mul_le_mul_of_nonneg_left hw.1 hh
        rwa [mul_one_div_cancel hpos.ne'] at this
      simp only [cov1]
      rw [abs_of_nonneg (by linarith)]
      split
      · have : h * w = 1 := by linarith
        rw [this]; norm_num
      · rfl
    rw [e]
    simp only [intervalIntegral.integral_zero]
    field_simp
    ring

/-- the mean over the directions in space of the projections of a vector of the plane depends on its length only -/
theorem plane_bands {g : ℝ → ℝ} (v1 v2 : ℝ) :
    (∫ θ in (0:ℝ)..π, sin θ * ∫ φ in (0:ℝ)..(2 * π), g (sin θ * (v1 * sin φ + v2 * cos φ))) =
      bands g (Real.sqrt (v1 ^ 2 + v2 ^ 2)) := by
  obtain ⟨r, α, hr, h1, h2⟩ : ∃ r α : ℝ, r = Real.sqrt (v1 ^ 2 + v2 ^ 2) ∧ v1 = r * cos α ∧ v2 = r * sin α := by
    refine ⟨_, Complex.arg ⟨v1, v2⟩, rfl, ?_, ?_⟩
    · have := Complex.norm_mul_cos_arg (⟨v1, v2⟩ : ℂ)
      rw [Complex.norm_def, Complex.normSq_mk] at this
      rw [sq, sq, this]
    · have := Complex.norm_mul_sin_arg (⟨v1, v2⟩ : ℂ)
      rw [Complex.norm_def, Complex.normSq_mk] at this
      rw [sq, sq, this]
  rw [← hr]
  unfold bands
  refine intervalIntegral.integral_congr fun θ _ => ?_
  congr 1
  have e : ∀ φ : ℝ, sin θ * (v1 * sin φ + v2 * cos φ) = r * sin θ * sin (φ + α) := by
    intro φ; rw [h1, h2, sin_add]; ring
  simp_rw [e]
  rw [intervalIntegral.integral_comp_add_right (fun φ => g (r * sin θ * sin φ))]
  have hper : Function.Periodic (fun φ => g (r * sin θ * sin φ)) (2 * π) := by
    intro φ
    simp only [sin_add_two_pi]
  have := hper.intervalIntegral_add_eq α 0
  rw [zero_add] at this
  rw [zero_add, add_comm (2 * π), this]

/-- The spherical covariance is positive semidefinite in the plane. -/
theorem cov3_posdef {n : Nat} (c : Fin n → ℝ) (p : Fin n → ℝ × ℝ) :
    0 ≤ ∑ i, ∑ j, c i * c j * cov3 (Real.sqrt (((p i).1 - (p j).1) ^ 2 + ((p i).2 - (p j).2) ^ 2)) := by
  have hpi := pi_pos
  have hc := cov1_continuous
  let G : Fin n → Fin n → ℝ → ℝ := fun i j θ =>
    sin θ * ∫ φ in (0:ℝ)..(2 * π), cov1 (sin θ * (((p i).1 - (p j).1) * sin φ + ((p i).2 - (p j).2) * cos φ))
  have hGc : ∀ i j, Continuous (G i j) := fun i j =>
    continuous_sin.mul (intervalIntegral.continuous_parametric_intervalIntegral_of_continuous' (by fun_prop) _ _)
  have hG : ∀ i j, ∫ θ in (0:ℝ)..π, G i j θ =
      4 * π * cov3 (Real.sqrt (((p i).1 - (p j).1) ^ 2 + ((p i).2 - (p j).2) ^ 2)) := by
    intro i j
    show (∫ θ in (0:ℝ)..π, sin θ * _) = _
    rw [plane_bands, bands_eq hc cov1_even, mean_cov1 (Real.sqrt_nonneg _)]
  have hpos : 0 ≤ ∫ θ in (0:ℝ)..π, ∑ i, ∑ j, c i * c j * G i j θ := by
    apply intervalIntegral.integral_nonneg hpi.le
    intro θ hθ
    have e : ∑ i, ∑ j, c i * c j * G i j θ = sin θ * ∫ φ in (0:ℝ)..(2 * π), ∑ i, ∑ j, c i * c j *
        cov1 (sin θ * ((p i).1 * sin φ + (p i).2 * cos φ) - sin θ * ((p j).1 * sin φ + (p j).2 * cos φ)) := by
      rw [intervalIntegral.integral_finsetSum, Finset.mul_sum]
      · refine Finset.sum_congr rfl fun i _ => ?_
        rw [intervalIntegral.integral_finsetSum, Finset.mul_sum]
        · refine Finset.sum_congr rfl fun j _ => ?_
          rw [intervalIntegral.integral_const_mul]
          show c i * c j * (sin θ * _) = _
          have e2 : ∀ φ : ℝ, sin θ * ((p i).1 * sin φ + (p i).2 * cos φ) - sin θ * ((p j).1 * sin φ + (p j).2 * cos φ) =
            sin θ * (((p i).1 - (p j).1) * sin φ + ((p i).2 - (p j).2) * cos φ) := by intro φ; ring
          simp_rw [e2]
          ring
        · intro j _
          exact (by fun_prop : Continuous _).intervalIntegrable _ _
      · intro i _
        exact (by fun_prop : Continuous _).intervalIntegrable _ _
    rw [e]
    refine mul_nonneg (sin_nonneg_of_nonneg_of_le_pi hθ.1 hθ.2) ?_
    apply intervalIntegral.integral_nonneg (by positivity)
    intro φ _
    exact cov1_posdef c fun i => sin θ * ((p i).1 * sin φ + (p i).2 * cos φ)
  rw [intervalIntegral.integral_finsetSum
    (fun i _ => (by fun_prop : Continuous _).intervalIntegrable _ _)] at hpos
  have e : ∀ i, ∫ θ in (0:ℝ)..π, ∑ j, c i * c j * G i j θ = 4 * π *
      ∑ j, c i * c j * cov3 (Real.sqrt (((p i).1 - (p j).1) ^ 2 + ((p i).2 - (p j).2) ^ 2)) := by
    intro i
    rw [intervalIntegral.integral_finsetSum
      (fun j _ => (by fun_prop : Continuous _).intervalIntegrable _ _), Finset.mul_sum]
    refine Finset.sum_congr rfl fun j _ => ?_
    rw [intervalIntegral.integral_const_mul, hG]
    ring
  simp_rw [e] at hpos
  rw [← Finset.mul_sum] at hpos
  exact nonneg_of_mul_nonneg_right hpos (by positivity)

end Verif.Spherical
