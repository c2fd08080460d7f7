import Verif.Props.Leijnse

/-!
# Property C18: dispersion of the permittivity of water
-/

namespace Verif.Props
open Verif Verif.KR Verif.WaaModels

/-- **C18** The two relaxations: with `s = 77.66 - 103.3 t`, `t = 1 - 300/T`, relaxation frequencies `g` and `39.8 g` in GHz, permittivities
`s`, `0.0671 s` and `3.52 + 7.52 t`, real and imaginary part are those of the double Debye law of Liebe et al. (1991), at every temperature. -/
theorem C18_relaxation (f T t s g : ℝ) (ht : t = 1 - 300 / T) (hs : s = 77.66 - 103.3 * t) (hg : g = 20.2 + 146.4 * t + 316 * t ^ 2) :
    (eps_water f T).re = 3.52 + 7.52 * t + (0.0671 * s - (3.52 + 7.52 * t)) / (1 + (f * 1e-9 / (39.8 * g)) ^ 2)
      + (1 - 0.0671) * s / (1 + (f * 1e-9 / g) ^ 2) ∧
    (eps_water f T).im = (0.0671 * s - (3.52 + 7.52 * t)) * (f * 1e-9 / (39.8 * g)) / (1 + (f * 1e-9 / (39.8 * g)) ^ 2)
      + (1 - 0.0671) * s * (f * 1e-9 / g) / (1 + (f * 1e-9 / g) ^ 2) := by
  have h0 : e0 T = s := by rw [e0, teta, hs, ht]
  have h1 : e1 T = 0.0671 * s := by rw [e1, h0]
  have h2 : e2 T = 3.52 + 7.52 * t := by rw [e2, teta, ht]
  have h3 : f1 T = g := by rw [f1, teta, hg, ht]; ring
  have h4 : f2 T = 39.8 * g := by rw [f2, h3]
  rw [eps_water_eq, Complex.add_re, Complex.add_re, Complex.add_im, Complex.add_im, (debye_re_im _ _).1, (debye_re_im _ _).1,
    (debye_re_im _ _).2, (debye_re_im _ _).2, h0, h1, h2, h3, h4]
  constructor
  · rw [Complex.ofReal_re]; ring
  · rw [Complex.ofReal_im]; ring

/-- **C18** Normal dispersion: from 205 K to 339 K the real part decreases strictly with the frequency, from the static to the optical value,
and the imaginary part is never more than half the difference of these two. -/
theorem C18_dispersion (T : ℝ) (hT1 : 205 ≤ T) (hT2 : T ≤ 339) :
    (∀ f f' : ℝ, 0 ≤ f → f < f' → (eps_water f' T).re < (eps_water f T).re) ∧
    ∀ f : ℝ, 0 ≤ f →
      3.52 + 7.52 * (1 - 300 / T) < (eps_water f T).re ∧ (eps_water f T).re ≤ 77.66 - 103.3 * (1 - 300 / T) ∧
      (eps_water f T).im ≤ (77.66 - 103.3 * (1 - 300 / T) - (3.52 + 7.52 * (1 - 300 / T))) / 2 := by
  obtain ⟨o1, o2, o3⟩ := e_order hT1 hT2
  have p1 := f1_pos T
  have h0 : e0 T = 77.66 - 103.3 * (1 - 300 / T) := by rw [e0, teta]
  have h2 : e2 T = 3.52 + 7.52 * (1 - 300 / T) := by rw [e2, teta]
  have key := fun f => C18_relaxation f T _ _ _ rfl rfl rfl
  have h3 : f1 T = 20.2 + 146.4 * (1 - 300 / T) + 316 * (1 - 300 / T) ^ 2 := by rw [f1, teta]; ring
  rw [← h0, ← h2]
  simp only [← h0, ← h2, ← h3] at key
  have d1 : 0 < 0.0671 * e0 T - e2 T := sub_pos.mpr o2
  have d2 : 0 < (1 - 0.0671) * e0 T := by
    have : 0 < e0 T := by linarith
    norm_num; linarith
  generalize f1 T = g at *
  generalize e0 T = s at *
  generalize e2 T = c at *
  refine ⟨fun f f' hf hff => ?_, fun f hf => ?_⟩
  · rw [(key f).1, (key f').1]
    have m : ∀ k : ℝ, 0 < k → (f * 1e-9 / k) ^ 2 < (f' * 1e-9 / k) ^ 2 := by
      intro k hk
      apply pow_lt_pow_left₀ _ (by positivity) (by norm_num)
      exact div_lt_div_of_pos_right (by norm_num; linarith) hk
    have a1 := div_lt_div_of_pos_left d1 (by positivity) (add_lt_add_right (m (39.8 * g) (by linarith)) 1)
    have a2 := div_lt_div_of_pos_left d2 (by positivity) (add_lt_add_right (m g p1) 1)
    linarith
  · rw [(key f).1, (key f).2]
    have q : ∀ e x : ℝ, 0 < e → 0 ≤ x → 0 < e / (1 + x ^ 2) ∧ e / (1 + x ^ 2) ≤ e ∧ e * x / (1 + x ^ 2) ≤ e / 2 := by
      intro e x he hx
      refine ⟨by positivity, div_le_self he.le (by nlinarith [sq_nonneg x]), ?_⟩
      rw [div_le_div_iff₀ (by positivity) (by norm_num)]
      nlinarith [mul_nonneg he.le (sq_nonneg (x - 1))]
    obtain ⟨a1, a2, a3⟩ := q _ (f * 1e-9 / (39.8 * g)) d1 (by positivity)
    obtain ⟨b1, b2, b3⟩ := q _ (f * 1e-9 / g) d2 (by positivity)
    refine ⟨by linarith, by linarith, by linarith⟩

/-- water of 300 K at 20.2 GHz, the lower relaxation frequency -/
example : (eps_water 20200000000 300).re < 42 ∧ 41 < (eps_water 20200000000 300).re := by
  obtain ⟨h, -⟩ := C18_relaxation 20200000000 300 0 77.66 20.2 (by norm_num) (by norm_num) (by norm_num)
  rw [h]
  norm_num

end Verif.Props
