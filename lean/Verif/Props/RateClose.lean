import Verif.Props.RoundedRate

/-!
# The power law in double arithmetic, for every attenuation that is not negative

Used by C124 and C125.
-/

namespace Verif.Props
open Verif Verif.KR Verif.Bin

/-- `pow` has a relative error of at most `2^-51` (two units in the last place) up to an absolute error of `2^-1000` near
underflow, and is not negative, for a base that is not negative and a positive exponent. -/
def PowClose [PyPow DblR] : Prop :=
  ∀ (x y : DblR) (a b : ℝ), x.val = .fin a → y.val = .fin b → 0 ≤ a → 0 < b → a ^ b ≤ 2 ^ (900 : ℤ) →
    ∃ c, (PyPow.pow x y).val = .fin c ∧ 0 ≤ c ∧ |c - a ^ b| ≤ 2 ^ (-51 : ℤ) * a ^ b + 2 ^ (-1000 : ℤ)

/-- The correctly rounded power is such a function. -/
theorem correctPow_close : @PowClose (correctPow (binary64 (K := ℝ))) := by
  letI := correctPow (binary64 (K := ℝ))
  intro x y a b hx hy ha hb h2
  have h0 : 0 ≤ a ^ b := Real.rpow_nonneg ha b
  obtain ⟨c, hc, hce⟩ := (binary64_precision (K := ℝ)).err (a ^ b) (by
    rw [abs_of_nonneg h0]
    exact h2.trans (zpow_le_zpow_right₀ (by norm_num) (by norm_num)))
  refine ⟨c, ?_, rnd_nonneg hc h0, ?_⟩
  · show (binary64 (K := ℝ)).round (Fl.pow x.val y.val) = _
    rw [hx, hy, Fl.pow_fin ha hb]
    exact hc
  · rw [abs_of_nonneg h0] at hce
    refine hce.trans (add_le_add (mul_le_mul_of_nonneg_right ?_ h0) ?_)
    · exact zpow_le_zpow_right₀ (by norm_num) (by norm_num)
    · exact zpow_le_zpow_right₀ (by norm_num) (by norm_num)

/-- real analysis: quotient with relative and absolute error -/
theorem rate_real_abs {aL X b P q y : ℝ} (haL : 0 < aL) (hX : 0 ≤ X) (hb1 : 1 / 8 ≤ b)
    (hP : |P - aL| ≤ 2 ^ (-52 : ℤ) * aL) (hq0 : 0 ≤ q) (hq : |q - X / P| ≤ 2 ^ (-53 : ℤ) * (X / P) + 2 ^ (-1075 : ℤ))
    (hb2 : b ≤ 8) (hy : |y - 1 / b| ≤ 2 ^ (-52 : ℤ) * (1 / b)) (hT2 : (X / aL) ^ (1 / b) ≤ 2 ^ (64 : ℤ)) :
    0 < y ∧ |q ^ y - (X / aL) ^ (1 / b)| ≤ 61 * 2 ^ (-52 : ℤ) * (X / aL) ^ (1 / b) + 2 ^ (-100 : ℤ) := by
  have hb : 0 < b := by linarith
  have hib1 : 1 / 8 ≤ 1 / b := by rw [div_le_div_iff₀ (by norm_num) hb]; linarith
  have v1 : (2 : ℝ) ^ (-52 : ℤ) ≤ 1 / 10 ^ 15 := by norm_num
  have v0 : (0 : ℝ) < 2 ^ (-52 : ℤ) := by positivity
  have hy9 : 1 / 9 ≤ y := by
    have h := (abs_le.mp hy).1
    generalize (2 : ℝ) ^ (-52 : ℤ) = v at *
    nlinarith
  refine ⟨by linarith, ?_⟩
  have hPlo : aL / 2 ≤ P := by
    have h := (abs_le.mp hP).1
    generalize (2 : ℝ) ^ (-52 : ℤ) = v at *
    nlinarith
  have hPhi : P ≤ 2 * aL := by
    have h := (abs_le.mp hP).2
    generalize (2 : ℝ) ^ (-52 : ℤ) = v at *
    nlinarith
  have hP0 : 0 < P := by linarith
  have hXP0 : 0 ≤ X / P := by positivity
  have hXa : X / aL ≤ 2 * (X / P) := by
    rw [div_le_iff₀ haL]
    calc X = X / P * P := by field_simp
      _ ≤ X / P * (2 * aL) := mul_le_mul_of_nonneg_left hPhi hXP0
      _ = _ := by ring
  have hT0 : 0 ≤ (X / aL) ^ (1 / b) := Real.rpow_nonneg (by positivity) _
  by_cases hbig : (2 : ℝ) ^ (-1000 : ℤ) ≤ X / P
  · -- the quotient is a normal number
    have hX0 : 0 < X := by
      rcases hX.lt_or_eq with h | h
      · exact h
      · rw [← h, zero_div] at hbig
        have : (0 : ℝ) < 2 ^ (-1000 : ℤ) := by positivity
        linarith
    have hq' : |q - X / P| ≤ 2 ^ (-52 : ℤ) * (X / P) := by
      have h4 : (2 : ℝ) ^ (-1075 : ℤ) ≤ 2 ^ (-53 : ℤ) * (X / P) := by
        calc (2 : ℝ) ^ (-1075 : ℤ) ≤ 2 ^ (-53 + -1000 : ℤ) := zpow_le_zpow_right₀ (by norm_num) (by norm_num)
          _ = 2 ^ (-53 : ℤ) * 2 ^ (-1000 : ℤ) := zpow_add₀ (by norm_num) _ _
          _ ≤ _ := mul_le_mul_of_nonneg_left hbig (by positivity)
      calc _ ≤ 2 ^ (-53 : ℤ) * (X / P) + 2 ^ (-53 : ℤ) * (X / P) := hq.trans (add_le_add_right h4 _)
        _ = (2 * 2 ^ (-53 : ℤ)) * (X / P) := by ring
        _ = _ := by norm_num
    by_cases hT1 : (2 : ℝ) ^ (-64 : ℤ) ≤ (X / aL) ^ (1 / b)
    · obtain ⟨_, h⟩ := rate_real haL hX0 hb1 (v1.trans (by norm_num)) hP hq' hy hT1 hT2
      exact h.trans (le_add_of_nonneg_right (by positivity))
    · have hT1 := not_le.mp hT1
      have hxa0 : 0 < X / aL := div_pos hX0 haL
      have hTp : 0 < (X / aL) ^ (1 / b) := Real.rpow_pos_of_pos hxa0 _
      have hlog2 := Real.log_two_lt_d9
      have hlow : -694 ≤ Real.log (X / aL) := by
        have h1 : (2 : ℝ) ^ (-1001 : ℤ) ≤ X / aL := by
          have : X / P ≤ X / aL * 2 := by
            rw [div_le_iff₀ hP0]
            calc X = X / aL * aL := by field_simp
              _ ≤ X / aL * (2 * P) := mul_le_mul_of_nonneg_left (by linarith) hxa0.le
              _ = _ := by ring
          have e : (2 : ℝ) ^ (-1000 : ℤ) = 2 ^ (-1001 : ℤ) * 2 := by
            rw [← zpow_add_one₀ (by norm_num)]; norm_num
          rw [e] at hbig
          linarith only [hbig, this]
        have := Real.log_le_log (by positivity) h1
        rw [Real.log_zpow] at this
        push_cast at this
        linarith
      have hib2 : 1 / b ≤ 8 := by rw [div_le_iff₀ hb]; linarith
      have hlT : Real.log ((X / aL) ^ (1 / b)) = 1 / b * Real.log (X / aL) := Real.log_rpow hxa0 _
      have hneg : Real.log ((X / aL) ^ (1 / b)) ≤ 0 :=
        Real.log_nonpos hTp.le (hT1.le.trans (zpow_le_one_of_nonpos₀ (by norm_num) (by norm_num)))
      have habs : |Real.log ((X / aL) ^ (1 / b))| ≤ 5552 := by
        rw [abs_of_nonpos hneg, hlT]
        have : 0 < 1 / b := by positivity
        nlinarith
      obtain ⟨_, h⟩ := rate_log haL hX0 hb1 (by norm_num) (v1.trans (by norm_num)) (by
        calc (2 : ℝ) ^ (-52 : ℤ) * (164 / 10 + 5552) ≤ 1 / 10 ^ 15 * (164 / 10 + 5552) :=
              mul_le_mul_of_nonneg_right v1 (by norm_num)
          _ ≤ _ := by norm_num) hP hq' hy habs
      refine h.trans ?_
      have : 1001 / 1000 * (164 / 10 + 5552) * (2 : ℝ) ^ (-52 : ℤ) * (X / aL) ^ (1 / b) ≤
          1001 / 1000 * (164 / 10 + 5552) * 2 ^ (-52 : ℤ) * 2 ^ (-64 : ℤ) :=
        mul_le_mul_of_nonneg_left hT1.le (by positivity)
      have k : 1001 / 1000 * (164 / 10 + 5552) * (2 : ℝ) ^ (-52 : ℤ) * 2 ^ (-64 : ℤ) ≤ 2 ^ (-100 : ℤ) := by norm_num
      have p : 0 ≤ 61 * (2 : ℝ) ^ (-52 : ℤ) * (X / aL) ^ (1 / b) := by positivity
      linarith only [this, k, p]
  · -- both rates are tiny
    have hsm := (not_le.mp hbig).le
    have k999 : ∀ z : ℝ, 0 ≤ z → z ≤ 2 * 2 ^ (-1000 : ℤ) → ∀ w : ℝ, 1 / 9 ≤ w → z ^ w ≤ 2 ^ (-111 : ℤ) := by
      intro z hz0 hz w hw
      have e : (2 : ℝ) * 2 ^ (-1000 : ℤ) = 2 ^ (-999 : ℤ) := by rw [← zpow_one_add₀ (by norm_num)]; norm_num
      rw [e] at hz
      calc z ^ w ≤ (2 ^ (-999 : ℤ)) ^ w := Real.rpow_le_rpow hz0 hz (by linarith)
        _ ≤ (2 ^ (-999 : ℤ)) ^ ((1 : ℝ) / 9) := Real.rpow_le_rpow_of_exponent_ge (by positivity)
            (zpow_le_one_of_nonpos₀ (by norm_num) (by norm_num)) hw
        _ = 2 ^ (-111 : ℤ) := by
          rw [← Real.rpow_intCast, ← Real.rpow_mul (by norm_num), ← Real.rpow_intCast]
          norm_num
    have hq2 : q ≤ 2 * 2 ^ (-1000 : ℤ) := by
      have h := (abs_le.mp hq).2
      have e1 : (2 : ℝ) ^ (-53 : ℤ) * (X / P) ≤ 1 / 2 * (X / P) := mul_le_mul_of_nonneg_right (by norm_num) hXP0
      have e2 : (2 : ℝ) ^ (-1075 : ℤ) ≤ 1 / 2 * 2 ^ (-1000 : ℤ) := by
        calc (2 : ℝ) ^ (-1075 : ℤ) ≤ 2 ^ (-1001 : ℤ) := zpow_le_zpow_right₀ (by norm_num) (by norm_num)
          _ = _ := by rw [show (-1000 : ℤ) = -1001 + 1 from rfl, zpow_add_one₀ (by norm_num)]; ring
      generalize (2 : ℝ) ^ (-1075 : ℤ) = t1 at *
      generalize (2 : ℝ) ^ (-53 : ℤ) * (X / P) = t2 at *
      linarith only [h, e1, e2, hsm]
    have a1 := k999 q hq0 hq2 y hy9
    have a2 := k999 (X / aL) (by positivity) (hXa.trans (mul_le_mul_of_nonneg_left hsm (by norm_num))) (1 / b) (by linarith)
    have a3 : 0 ≤ q ^ y := Real.rpow_nonneg hq0 _
    have a4 : (2 : ℝ) ^ (-111 : ℤ) ≤ 2 ^ (-100 : ℤ) := zpow_le_zpow_right₀ (by norm_num) (by norm_num)
    have p : 0 ≤ 61 * (2 : ℝ) ^ (-52 : ℤ) * (X / aL) ^ (1 / b) := by positivity
    generalize 61 * (2 : ℝ) ^ (-52 : ℤ) * (X / aL) ^ (1 / b) = t1 at *
    generalize (2 : ℝ) ^ (-111 : ℤ) = t2 at *
    generalize (2 : ℝ) ^ (-100 : ℤ) = t3 at *
    rw [abs_le]
    constructor <;> linarith only [a1, a2, a3, a4, hT0, p]

/-- Parameters far from overflow and underflow. -/
structure RateRange (L a b : DblR) (l α β : ℝ) : Prop where
  hl : L.val = .fin l
  hα : a.val = .fin α
  hβ : b.val = .fin β
  l1 : (2 : ℝ) ^ (-300 : ℤ) ≤ l
  l2 : l ≤ 2 ^ (300 : ℤ)
  α1 : (2 : ℝ) ^ (-300 : ℤ) ≤ α
  α2 : α ≤ 2 ^ (300 : ℤ)
  β1 : 1 / 8 ≤ β
  β2 : β ≤ 8

/-- The rain rate of an attenuation that is not negative. -/
theorem rate_close [PyPow DblR] (hacc : PowClose) {L a b x : DblR} {l α β X : ℝ} (h : RateRange L a b l α β)
    (hX : x.val = .fin X) (hX1 : 0 ≤ X) (hX2 : X ≤ 2 ^ (300 : ℤ)) (hT2 : (X / (α * l)) ^ (1 / β) ≤ 2 ^ (64 : ℤ)) :
    ∃ ρ : ℝ, (PyPow.pow (x /ᶠ (a *ᶠ L)) ((PyFloat.ofInt 1 : DblR) /ᶠ b)).val = .fin ρ ∧ 0 ≤ ρ ∧
      |ρ - (X / (α * l)) ^ (1 / β)| ≤ 2 ^ (-46 : ℤ) * (X / (α * l)) ^ (1 / β) + 2 ^ (-99 : ℤ) := by
  obtain ⟨hl, hα, hβ, hl1, hl2, hα1, hα2, hβ1, hβ2⟩ := h
  have p300 : (0 : ℝ) < 2 ^ (-300 : ℤ) := by positivity
  have hl0 : 0 < l := p300.trans_le hl1
  have hα0 : 0 < α := p300.trans_le hα1
  have hβ0 : 0 < β := by linarith
  have hal1 : (2 : ℝ) ^ (-600 : ℤ) ≤ α * l := by
    calc (2 : ℝ) ^ (-600 : ℤ) = 2 ^ (-300 : ℤ) * 2 ^ (-300 : ℤ) := by rw [← zpow_add₀ (by norm_num)]; norm_num
      _ ≤ _ := mul_le_mul hα1 hl1 p300.le hα0.le
  have hal2 : α * l ≤ 2 ^ (600 : ℤ) := by
    calc α * l ≤ 2 ^ (300 : ℤ) * 2 ^ (300 : ℤ) := mul_le_mul hα2 hl2 hl0.le (by positivity)
      _ = _ := by rw [← zpow_add₀ (by norm_num)]; norm_num
  have hal0 : 0 < α * l := mul_pos hα0 hl0
  obtain ⟨P, hP, hPe⟩ := round_rel (hal1.trans' (zpow_le_zpow_right₀ (by norm_num) (by norm_num)))
    (hal2.trans (zpow_le_zpow_right₀ (by norm_num) (by norm_num)))
  have hPv : (a *ᶠ L).val = .fin P := by rw [RFl.val_mul, hα, hl, Fl.pf_mul_fin]; exact hP
  have hv : (2 : ℝ) ^ (-52 : ℤ) ≤ 1 / 2 := by norm_num
  have hP1 : α * l / 2 ≤ P := by
    have := mul_le_mul_of_nonneg_right hv hal0.le
    have hPa := (abs_le.mp hPe).1
    generalize (2 : ℝ) ^ (-52 : ℤ) * (α * l) = t at *
    linarith only [this, hPa]
  have hP0 : 0 < P := lt_of_lt_of_le (by positivity) hP1
  have hq2 : X / P ≤ 2 ^ (1000 : ℤ) := by
    rw [div_le_iff₀ hP0]
    calc X ≤ 2 ^ (300 : ℤ) := hX2
      _ ≤ 2 ^ (399 : ℤ) := zpow_le_zpow_right₀ (by norm_num) (by norm_num)
      _ = 2 ^ (1000 : ℤ) * (2 ^ (-600 : ℤ) * 2 ^ (-1 : ℤ)) := by
        rw [← zpow_add₀ (by norm_num), ← zpow_add₀ (by norm_num)]; norm_num
      _ ≤ 2 ^ (1000 : ℤ) * P := by
        refine mul_le_mul_of_nonneg_left (le_trans ?_ hP1) (by positivity)
        rw [zpow_neg_one, ← div_eq_mul_inv]
        exact div_le_div_of_nonneg_right hal1 (by norm_num)
  have hXP0 : 0 ≤ X / P := by positivity
  obtain ⟨q, hq, hqe⟩ := (binary64_precision (K := ℝ)).err (X / P) (by
    rw [abs_of_nonneg hXP0]
    exact hq2.trans (zpow_le_zpow_right₀ (by norm_num) (by norm_num)))
  rw [abs_of_nonneg hXP0] at hqe
  have hq0 : 0 ≤ q := rnd_nonneg hq hXP0
  have hqv : (x /ᶠ (a *ᶠ L)).val = .fin q := by
    rw [RFl.val_div, hX, hPv, Fl.pf_div_fin_ne _ _ hP0.ne']; exact hq
  have hib1 : 1 / 8 ≤ 1 / β := by rw [div_le_div_iff₀ (by norm_num) hβ0]; linarith
  have hib2 : 1 / β ≤ 8 := by rw [div_le_iff₀ hβ0]; linarith
  obtain ⟨y, hy, hye⟩ := round_rel (z := 1 / β)
    (le_trans (zpow_le_zpow_right₀ (by norm_num) (by norm_num : (-1000 : ℤ) ≤ -3)) (le_trans (by norm_num) hib1))
    (hib2.trans (le_trans (by norm_num : (8 : ℝ) ≤ 2 ^ (3 : ℤ)) (zpow_le_zpow_right₀ (by norm_num) (by norm_num))))
  have hyv : ((PyFloat.ofInt 1 : DblR) /ᶠ b).val = .fin y := by
    rw [RFl.val_div, RFl.val_one, hβ, Fl.pf_div_fin_ne _ _ hβ0.ne']; exact hy
  obtain ⟨hy0, hqy⟩ := rate_real_abs hal0 hX1 hβ1 hPe hq0 hqe hβ2 hye hT2
  have hT0 : 0 ≤ (X / (α * l)) ^ (1 / β) := Real.rpow_nonneg (by positivity) _
  set T := (X / (α * l)) ^ (1 / β) with hT
  clear_value T
  have hqu : q ^ y ≤ (1 + 61 * 2 ^ (-52 : ℤ)) * T + 2 ^ (-100 : ℤ) := by
    have := (abs_le.mp hqy).2
    linarith only [this]
  obtain ⟨c, hc, hc0, hce⟩ := hacc (x /ᶠ (a *ᶠ L)) ((PyFloat.ofInt 1 : DblR) /ᶠ b) q y hqv hyv hq0 hy0 (by
    refine hqu.trans ?_
    have e1 : (1 + 61 * (2 : ℝ) ^ (-52 : ℤ)) * T ≤ 2 * 2 ^ (64 : ℤ) :=
      mul_le_mul (by norm_num) hT2 hT0 (by norm_num)
    have e2 : (2 : ℝ) * 2 ^ (64 : ℤ) + 2 ^ (-100 : ℤ) ≤ 2 ^ (100 : ℤ) := by norm_num
    have e3 : (2 : ℝ) ^ (100 : ℤ) ≤ 2 ^ (900 : ℤ) := zpow_le_zpow_right₀ (by norm_num) (by norm_num)
    generalize (1 + 61 * (2 : ℝ) ^ (-52 : ℤ)) * T = t1 at *
    generalize (2 : ℝ) ^ (900 : ℤ) = t2 at *
    generalize (2 : ℝ) ^ (100 : ℤ) = t3 at *
    generalize (2 : ℝ) ^ (-100 : ℤ) = t4 at *
    linarith only [e1, e2, e3])
  refine ⟨c, hc, hc0, ?_⟩
  have k1 := abs_add_le (c - q ^ y) (q ^ y - T)
  rw [sub_add_sub_cancel] at k1
  have k3 := mul_le_mul_of_nonneg_left hqu (show (0 : ℝ) ≤ 2 ^ (-51 : ℤ) by positivity)
  have k4 : (2 : ℝ) ^ (-51 : ℤ) * (1 + 61 * 2 ^ (-52 : ℤ)) + 61 * 2 ^ (-52 : ℤ) ≤ 2 ^ (-46 : ℤ) := by norm_num
  have k5 := mul_le_mul_of_nonneg_right k4 hT0
  have k6 : (2 : ℝ) ^ (-51 : ℤ) * 2 ^ (-100 : ℤ) + 2 ^ (-100 : ℤ) + 2 ^ (-102 : ℤ) ≤ 2 ^ (-99 : ℤ) := by norm_num
  have k7 : (2 : ℝ) ^ (-1000 : ℤ) ≤ 2 ^ (-102 : ℤ) := zpow_le_zpow_right₀ (by norm_num) (by norm_num)
  linarith only [k1, k3, k5, k6, k7, hce, hqy]

end Verif.Props
