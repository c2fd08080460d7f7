import Verif.Props.RoundedIdw
import Mathlib.Analysis.Complex.ExponentialBounds

/-!
# Property C119: accuracy of rain rates in floating point arithmetic
-/

namespace Verif.Props
open Verif Verif.KR Verif.Bin

/-- Doubles far from overflow and underflow have a relative error of at most `2^-52`. -/
theorem round_rel {z : ℝ} (h1 : (2 : ℝ) ^ (-1000 : ℤ) ≤ z) (h2 : z ≤ 2 ^ (1000 : ℤ)) :
    ∃ w, (binary64 (K := ℝ)).round (.fin z) = .fin w ∧ |w - z| ≤ 2 ^ (-52 : ℤ) * z := by
  have hz : 0 < z := lt_of_lt_of_le (by positivity) h1
  obtain ⟨w, hw, he⟩ := (binary64_precision (K := ℝ)).err z (by
    rw [abs_of_pos hz]
    exact h2.trans (zpow_le_zpow_right₀ (by norm_num) (by norm_num)))
  refine ⟨w, hw, ?_⟩
  rw [abs_of_pos hz] at he
  have h4 : (2 : ℝ) ^ (-1075 : ℤ) ≤ 2 ^ (-53 : ℤ) * z := by
    calc (2 : ℝ) ^ (-1075 : ℤ) ≤ 2 ^ (-53 + -1000 : ℤ) := zpow_le_zpow_right₀ (by norm_num) (by norm_num)
      _ = 2 ^ (-53 : ℤ) * 2 ^ (-1000 : ℤ) := zpow_add₀ (by norm_num) _ _
      _ ≤ _ := mul_le_mul_of_nonneg_left h1 (by positivity)
  calc _ ≤ 2 ^ (-53 : ℤ) * z + 2 ^ (-53 : ℤ) * z := he.trans (add_le_add_right h4 _)
    _ = (2 * 2 ^ (-53 : ℤ)) * z := by ring
    _ = _ := by norm_num

/-- a small relative error is a small error of the logarithm -/
theorem log_ratio {w z v : ℝ} (hz : 0 < z) (hv : v ≤ 1 / 100) (h : |w - z| ≤ v * z) :
    0 < w ∧ |Real.log w - Real.log z| ≤ 102 / 100 * v := by
  have h0 : 0 ≤ v := by
    by_contra hn
    have := mul_neg_of_neg_of_pos (not_le.mp hn) hz
    linarith [abs_nonneg (w - z)]
  obtain ⟨ha, hb⟩ := abs_le.mp h
  have hw : 0 < w := by nlinarith
  refine ⟨hw, ?_⟩
  rw [← Real.log_div hw.ne' hz.ne']
  have hr : 0 < w / z := by positivity
  have e1 : w / z ≤ 1 + v := by rw [div_le_iff₀ hz]; linarith
  have e2 : 1 - v ≤ w / z := by rw [le_div_iff₀ hz]; linarith
  have u1 := Real.log_le_sub_one_of_pos hr
  have u2 := Real.one_sub_inv_le_log_of_pos hr
  have e3 : (w / z)⁻¹ ≤ 1 + 102 / 100 * v := by
    rw [inv_le_iff_one_le_mul₀ hr]
    have := mul_le_mul_of_nonneg_left e2 (show 0 ≤ 1 + 102 / 100 * v by linarith)
    nlinarith
  rw [abs_le]
  constructor <;> linarith

/-- the real analysis behind `C119`: errors `v` of the product, the quotient and the inverse exponent -/
theorem rate_log {aL X b P q y v B : ℝ} (haL : 0 < aL) (hX : 0 < X) (hb1 : 1 / 8 ≤ b) (hB : 0 ≤ B)
    (hv : v ≤ 1 / 10 ^ 6) (hvB : v * (164 / 10 + B) ≤ 1 / 10000) (hP : |P - aL| ≤ v * aL) (hq : |q - X / P| ≤ v * (X / P))
    (hy : |y - 1 / b| ≤ v * (1 / b)) (hTabs : |Real.log ((X / aL) ^ (1 / b))| ≤ B) :
    0 < q ∧ |q ^ y - (X / aL) ^ (1 / b)| ≤ 1001 / 1000 * (164 / 10 + B) * v * (X / aL) ^ (1 / b) := by
  have hb : 0 < b := by linarith
  obtain ⟨hP0, hlP⟩ := log_ratio haL (by linarith) hP
  have hv0 : 0 ≤ v := by linarith [abs_nonneg (Real.log P - Real.log aL)]
  obtain ⟨hq0, hlq⟩ := log_ratio (div_pos hX hP0) (by linarith) hq
  refine ⟨hq0, ?_⟩
  have hx : 0 < X / aL := div_pos hX haL
  set T := (X / aL) ^ (1 / b) with hT
  have hT0 : 0 < T := Real.rpow_pos_of_pos hx _
  have hlT : Real.log T = 1 / b * Real.log (X / aL) := Real.log_rpow hx _
  have hlx : Real.log (X / aL) = Real.log X - Real.log aL := Real.log_div hX.ne' haL.ne'
  have hlXP : Real.log (X / P) = Real.log X - Real.log P := Real.log_div hX.ne' hP0.ne'
  have hqx : |Real.log q - Real.log (X / aL)| ≤ 204 / 100 * v := by
    have e : Real.log q - Real.log (X / aL) = (Real.log q - Real.log (X / P)) - (Real.log P - Real.log aL) := by
      rw [hlx, hlXP]; ring
    rw [e]
    refine (abs_sub _ _).trans ?_
    linarith
  have hib : 1 / b ≤ 8 := by rw [div_le_iff₀ hb]; linarith
  have hib0 : 0 < 1 / b := by positivity
  have hy8 : |y| ≤ 801 / 100 := by
    have := abs_add_le (y - 1 / b) (1 / b)
    rw [sub_add_cancel, abs_of_pos hib0] at this
    nlinarith
  have hE : |Real.log (q ^ y) - Real.log T| ≤ (164 / 10 + B) * v := by
    rw [Real.log_rpow hq0, hlT]
    have e : y * Real.log q - 1 / b * Real.log (X / aL) =
        y * (Real.log q - Real.log (X / aL)) + (y - 1 / b) * Real.log (X / aL) := by ring
    rw [e]
    refine (abs_add_le _ _).trans ?_
    rw [abs_mul, abs_mul]
    have i1 : |y| * |Real.log q - Real.log (X / aL)| ≤ 801 / 100 * (204 / 100 * v) :=
      mul_le_mul hy8 hqx (abs_nonneg _) (by norm_num)
    have i2 : |y - 1 / b| * |Real.log (X / aL)| ≤ v * (1 / b) * |Real.log (X / aL)| :=
      mul_le_mul_of_nonneg_right hy (abs_nonneg _)
    have i3 : v * (1 / b) * |Real.log (X / aL)| = v * |Real.log T| := by
      rw [hlT, abs_mul, abs_of_pos hib0]; ring
    have i4 : v * |Real.log T| ≤ v * B := mul_le_mul_of_nonneg_left hTabs hv0
    linarith
  set η := Real.log (q ^ y) - Real.log T with hη
  have hqy : q ^ y = T * Real.exp η := by
    rw [hη, Real.exp_sub, Real.exp_log (Real.rpow_pos_of_pos hq0 _), Real.exp_log hT0]
    field_simp
  have hη1 : |η| ≤ 1 / 10000 := hE.trans (by linarith)
  have hexp : |Real.exp η - 1| ≤ 1001 / 1000 * ((164 / 10 + B) * v) := by
    have j1 := Real.abs_exp_sub_one_sub_id_le (hη1.trans (by norm_num))
    have j2 := abs_add_le (Real.exp η - 1 - η) η
    rw [sub_add_cancel] at j2
    have j3 : η ^ 2 ≤ 1 / 10000 * ((164 / 10 + B) * v) := by
      rw [← sq_abs, sq]
      exact mul_le_mul hη1 hE (abs_nonneg _) (by norm_num)
    have : 0 ≤ (164 / 10 + B) * v := mul_nonneg (by linarith) hv0
    linarith
  rw [hqy]
  have e : T * Real.exp η - T = T * (Real.exp η - 1) := by ring
  rw [e, abs_mul, abs_of_pos hT0]
  calc T * |Real.exp η - 1| ≤ T * (1001 / 1000 * ((164 / 10 + B) * v)) := mul_le_mul_of_nonneg_left hexp hT0.le
    _ = _ := by ring

/-- the same for rain rates that are neither very small nor very large -/
theorem rate_real {aL X b P q y v : ℝ} (haL : 0 < aL) (hX : 0 < X) (hb1 : 1 / 8 ≤ b)
    (hv : v ≤ 1 / 10 ^ 6) (hP : |P - aL| ≤ v * aL) (hq : |q - X / P| ≤ v * (X / P)) (hy : |y - 1 / b| ≤ v * (1 / b))
    (hT1 : (2 : ℝ) ^ (-64 : ℤ) ≤ (X / aL) ^ (1 / b)) (hT2 : (X / aL) ^ (1 / b) ≤ 2 ^ (64 : ℤ)) :
    0 < q ∧ |q ^ y - (X / aL) ^ (1 / b)| ≤ 61 * v * (X / aL) ^ (1 / b) := by
  have hT0 : 0 < (X / aL) ^ (1 / b) := Real.rpow_pos_of_pos (div_pos hX haL) _
  have hlog2 := Real.log_two_lt_d9
  have hTabs : |Real.log ((X / aL) ^ (1 / b))| ≤ 444 / 10 := by
    have t1 := Real.log_le_log (by positivity) hT1
    have t2 := Real.log_le_log hT0 hT2
    rw [Real.log_zpow] at t1 t2
    push_cast at t1 t2
    rw [abs_le]
    constructor <;> linarith
  obtain ⟨h1, h2⟩ := rate_log haL hX hb1 (by norm_num) hv (by linarith) hP hq hy hTabs
  have hv0 : 0 ≤ v := by linarith [(log_ratio haL (by linarith) hP).2, abs_nonneg (Real.log P - Real.log aL)]
  refine ⟨h1, h2.trans (mul_le_mul_of_nonneg_right ?_ hT0.le)⟩
  linarith

/-- **C119** Rain rates of doubles, with any `pow` that is accurate to two units in the last place: for parameters and attenuation between
`2^-300` and `2^300`, `b` between 1/8 and 8 and an exact rain rate between `2^-64` and `2^64`, the
computed rain rate before the cut at `R_min` has a relative error of at most `2^-46` (14 digits are right); the cut compares this computed rate with `R_min`. -/
theorem C119_accuracy [PyPow DblR] (hacc : PowAccurate)
    (ab : List DblR → List String → String → Except Err (List DblR × List DblR))
    (A out : List DblR) (L a b R_min : DblR) (approx : String) (i : Nat) (x r : DblR) (X l α β m : ℝ)
    (ho : calcR ab A L none none (some [a]) (some [b]) approx R_min = .ok out) (hx : A[i]? = some x) (hr : out[i]? = some r)
    (hX : x.val = .fin X) (hl : L.val = .fin l) (hα : a.val = .fin α) (hβ : b.val = .fin β) (hm : R_min.val = .fin m)
    (hX1 : (2 : ℝ) ^ (-300 : ℤ) ≤ X) (hX2 : X ≤ 2 ^ (300 : ℤ)) (hl1 : (2 : ℝ) ^ (-300 : ℤ) ≤ l) (hl2 : l ≤ 2 ^ (300 : ℤ))
    (hα1 : (2 : ℝ) ^ (-300 : ℤ) ≤ α) (hα2 : α ≤ 2 ^ (300 : ℤ)) (hβ1 : 1 / 8 ≤ β) (hβ2 : β ≤ 8)
    (hT1 : (2 : ℝ) ^ (-64 : ℤ) ≤ (X / (α * l)) ^ (1 / β)) (hT2 : (X / (α * l)) ^ (1 / β) ≤ 2 ^ (64 : ℤ)) :
    ∃ ρ : ℝ, |ρ - (X / (α * l)) ^ (1 / β)| ≤ 2 ^ (-46 : ℤ) * (X / (α * l)) ^ (1 / β) ∧
      r.val = .fin (if ρ < m then 0 else ρ) := by
  rw [calcR_scalar] at ho
  cases ho
  rw [List.getElem?_map, hx, Option.map_some, Option.some.injEq] at hr
  subst hr
  have p300 : (0 : ℝ) < 2 ^ (-300 : ℤ) := by positivity
  have hX0 : 0 < X := p300.trans_le hX1
  have hl0 : 0 < l := p300.trans_le hl1
  have hα0 : 0 < α := p300.trans_le hα1
  have hβ0 : 0 < β := by linarith
  have hal1 : (2 : ℝ) ^ (-600 : ℤ) ≤ α * l := by
    calc (2 : ℝ) ^ (-600 : ℤ) = 2 ^ (-300 : ℤ) * 2 ^ (-300 : ℤ) := by rw [← zpow_add₀ (by norm_num)]; norm_num
      _ ≤ _ := mul_le_mul hα1 hl1 p300.le hα0.le
  have hal2 : α * l ≤ 2 ^ (600 : ℤ) := by
    calc α * l ≤ 2 ^ (300 : ℤ) * 2 ^ (300 : ℤ) := mul_le_mul hα2 hl2 hl0.le (by positivity)
      _ = _ := by rw [← zpow_add₀ (by norm_num)]; norm_num
  have hal0 : 0 < α * l := mul_pos hα0 hl0
  obtain ⟨P, hP, hPe⟩ := round_rel (hal1.trans' (zpow_le_zpow_right₀ (by norm_num) (by norm_num)))
    (hal2.trans (zpow_le_zpow_right₀ (by norm_num) (by norm_num)))
  have hPv : (a *ᶠ L).val = .fin P := by rw [RFl.val_mul, hα, hl, Fl.pf_mul_fin]; exact hP
  have hv : (2 : ℝ) ^ (-52 : ℤ) ≤ 1 / 2 := by norm_num
  obtain ⟨hPa, hPb⟩ := abs_le.mp hPe
  have hP1 : α * l / 2 ≤ P := by
    have := mul_le_mul_of_nonneg_right hv hal0.le
    generalize (2 : ℝ) ^ (-52 : ℤ) * (α * l) = t at *
    linarith only [this, hPa]
  have hP2 : P ≤ α * l * 2 := by
    have := mul_le_mul_of_nonneg_right hv hal0.le
    generalize (2 : ℝ) ^ (-52 : ℤ) * (α * l) = t at *
    linarith only [this, hPb, hal0]
  have hP0 : 0 < P := lt_of_lt_of_le (by positivity) hP1
  have hq1 : (2 : ℝ) ^ (-1000 : ℤ) ≤ X / P := by
    rw [le_div_iff₀ hP0]
    calc (2 : ℝ) ^ (-1000 : ℤ) * P ≤ 2 ^ (-1000 : ℤ) * (2 ^ (600 : ℤ) * 2) :=
          mul_le_mul_of_nonneg_left (hP2.trans (mul_le_mul_of_nonneg_right hal2 (by norm_num))) (by positivity)
      _ = 2 ^ (-399 : ℤ) := by rw [← zpow_add_one₀ (by norm_num), ← zpow_add₀ (by norm_num)]; norm_num
      _ ≤ 2 ^ (-300 : ℤ) := zpow_le_zpow_right₀ (by norm_num) (by norm_num)
      _ ≤ X := hX1
  have hq2 : X / P ≤ 2 ^ (1000 : ℤ) := by
    rw [div_le_iff₀ hP0]
    calc X ≤ 2 ^ (300 : ℤ) := hX2
      _ ≤ 2 ^ (399 : ℤ) := zpow_le_zpow_right₀ (by norm_num) (by norm_num)
      _ = 2 ^ (1000 : ℤ) * (2 ^ (-600 : ℤ) * 2 ^ (-1 : ℤ)) := by
        rw [← zpow_add₀ (by norm_num), ← zpow_add₀ (by norm_num)]; norm_num
      _ ≤ 2 ^ (1000 : ℤ) * P := by
        refine mul_le_mul_of_nonneg_left (le_trans ?_ hP1) (by positivity)
        rw [zpow_neg_one, ← div_eq_mul_inv]
        exact div_le_div_of_nonneg_right hal1 (by norm_num)
  obtain ⟨q, hq, hqe⟩ := round_rel hq1 hq2
  have hqv : (x /ᶠ (a *ᶠ L)).val = .fin q := by
    rw [RFl.val_div, hX, hPv, Fl.pf_div_fin_ne _ _ hP0.ne']; exact hq
  have hib1 : 1 / 8 ≤ 1 / β := by rw [div_le_div_iff₀ (by norm_num) hβ0]; linarith
  have hib2 : 1 / β ≤ 8 := by rw [div_le_iff₀ hβ0]; linarith
  obtain ⟨y, hy, hye⟩ := round_rel (z := 1 / β)
    (le_trans (zpow_le_zpow_right₀ (by norm_num) (by norm_num : (-1000 : ℤ) ≤ -3)) (le_trans (by norm_num) hib1))
    (hib2.trans (le_trans (by norm_num : (8 : ℝ) ≤ 2 ^ (3 : ℤ)) (zpow_le_zpow_right₀ (by norm_num) (by norm_num))))
  have hyv : ((PyFloat.ofInt 1 : DblR) /ᶠ b).val = .fin y := by
    rw [RFl.val_div, RFl.val_one, hβ, Fl.pf_div_fin_ne _ _ hβ0.ne']; exact hy
  obtain ⟨hq0, hqy⟩ := rate_real hal0 hX0 hβ1 (by norm_num) hPe hqe hye hT1 hT2
  set T := (X / (α * l)) ^ (1 / β) with hT
  have hT0 : 0 < T := lt_of_lt_of_le (by positivity) hT1
  clear_value T
  have hqyb : T / 2 ≤ q ^ y ∧ q ^ y ≤ 2 * T := by
    have : 61 * (2 : ℝ) ^ (-52 : ℤ) ≤ 1 / 2 := by norm_num
    have := mul_le_mul_of_nonneg_right this hT0.le
    obtain ⟨g1, g2⟩ := abs_le.mp hqy
    generalize 61 * (2 : ℝ) ^ (-52 : ℤ) * T = t at *
    constructor
    · linarith only [this, g1]
    · linarith only [this, g2, hT0]
  obtain ⟨c, hc, hce⟩ := hacc (x /ᶠ (a *ᶠ L)) ((PyFloat.ofInt 1 : DblR) /ᶠ b) q y hqv hyv hq0
    (by
      refine le_trans ?_ hqyb.1
      rw [le_div_iff₀ (by norm_num)]
      refine le_trans ?_ hT1
      calc (2 : ℝ) ^ (-900 : ℤ) * 2 = 2 ^ (-899 : ℤ) := by rw [← zpow_add_one₀ (by norm_num)]; norm_num
        _ ≤ _ := zpow_le_zpow_right₀ (by norm_num) (by norm_num))
    (by
      refine hqyb.2.trans ?_
      calc 2 * T ≤ 2 * 2 ^ (64 : ℤ) := mul_le_mul_of_nonneg_left hT2 (by norm_num)
        _ = 2 ^ (65 : ℤ) := by rw [← zpow_one_add₀ (by norm_num)]; norm_num
        _ ≤ _ := zpow_le_zpow_right₀ (by norm_num) (by norm_num))
  refine ⟨c, ?_, ?_⟩
  · have k1 := abs_add_le (c - q ^ y) (q ^ y - T)
    rw [sub_add_sub_cancel] at k1
    have k2 : q ^ y ≤ (1 + 61 * 2 ^ (-52 : ℤ)) * T := by
      have := (abs_le.mp hqy).2
      linarith only [this]
    have k3 := mul_le_mul_of_nonneg_left k2 (show (0 : ℝ) ≤ 2 ^ (-51 : ℤ) by positivity)
    have k4 : (2 : ℝ) ^ (-51 : ℤ) * (1 + 61 * 2 ^ (-52 : ℤ)) + 61 * 2 ^ (-52 : ℤ) ≤ 2 ^ (-46 : ℤ) := by norm_num
    have k5 := mul_le_mul_of_nonneg_right k4 hT0.le
    linarith only [k1, k3, k5, hce, hqy]
  · have hnx : isNaN x = false := by rw [RFl.isNaN_def, hX]; rfl
    have h0x : ((PyFloat.ofInt 0 : DblR) ≤ᶠ x) = true := by
      rw [RFl.le_def, RFl.val_zero, hX, Fl.pf_le_fin, decide_eq_true_eq]; exact hX0.le
    unfold rateF
    simp only [hnx, h0x, Bool.false_eq_true, if_false, if_true]
    have hlt : (PyPow.pow (x /ᶠ (a *ᶠ L)) ((PyFloat.ofInt 1 : DblR) /ᶠ b) <ᶠ R_min) = decide (c < m) := by
      rw [RFl.lt_def, hc, hm, Fl.pf_lt_fin]
    rw [hlt]
    by_cases h : c < m
    · simp only [h, decide_true, if_true]
      exact RFl.val_zero
    · simp only [h, decide_false, Bool.false_eq_true, if_false]
      exact hc

/-- Attenuation 8 dB on 2 km with `a = 1` and `b = 2`: 2 mm/h up to the rounding error. -/
example : letI := correctPow (binary64 (K := ℝ))
    ∃ r : DblR, calcR (fun _ _ _ => .error .valueError) [(PyFloat.ofInt (8 : ℕ) : DblR)] (PyFloat.ofInt (2 : ℕ)) none none
        (some [PyFloat.ofInt (1 : ℕ)]) (some [PyFloat.ofInt (2 : ℕ)]) "ITU_2005" (PyFloat.ofInt (1 : ℕ)) = .ok [r] ∧
      ∃ ρ : ℝ, r.val = .fin ρ ∧ |ρ - 2| ≤ 1 / 10 ^ 13 := by
  letI := correctPow (binary64 (K := ℝ))
  have v1 := val_ofNat_b64 1 (by norm_num)
  have v2 := val_ofNat_b64 2 (by norm_num)
  have v8 := val_ofNat_b64 8 (by norm_num)
  have lo : ∀ x : ℝ, 1 ≤ x → (2 : ℝ) ^ (-300 : ℤ) ≤ x := fun x hx =>
    le_trans (zpow_le_one_of_nonpos₀ (by norm_num) (by norm_num)) hx
  have hi : ∀ x : ℝ, x ≤ 2 ^ (3 : ℤ) → x ≤ 2 ^ (300 : ℤ) := fun x hx =>
    le_trans hx (zpow_le_zpow_right₀ (by norm_num) (by norm_num))
  have hT : ((8 : ℝ) / (1 * 2)) ^ (1 / (2 : ℝ)) = 2 := by
    rw [show (8 : ℝ) / (1 * 2) = 2 ^ (2 : ℝ) by norm_num, ← Real.rpow_mul (by norm_num)]
    norm_num
  have ho := calcR_scalar (fun _ _ _ => .error .valueError) [(PyFloat.ofInt (8 : ℕ) : DblR)] (PyFloat.ofInt (2 : ℕ))
    (PyFloat.ofInt (1 : ℕ)) (PyFloat.ofInt (2 : ℕ)) (PyFloat.ofInt (1 : ℕ)) "ITU_2005"
  refine ⟨_, ho, ?_⟩
  obtain ⟨ρ, h1, h2⟩ := C119_accuracy correctPow_accurate _ _ _ _ _ _ _ _ 0 _ _ 8 2 1 2 1 ho rfl rfl
    (by simpa using v8) (by simpa using v2) (by simpa using v1) (by simpa using v2) (by simpa using v1)
    (lo _ (by norm_num)) (hi _ (by norm_num)) (lo _ (by norm_num)) (hi _ (by norm_num)) (lo _ (by norm_num)) (hi _ (by norm_num))
    (by norm_num) (by norm_num) (by rw [hT]; norm_num) (by rw [hT]; norm_num)
  rw [hT] at h1
  have h3 : |ρ - 2| ≤ 1 / 10 ^ 13 := h1.trans (by norm_num)
  have h4 : ¬ ρ < 1 := by
    have := (abs_le.mp h3).1
    norm_num at this
    linarith
  rw [if_neg h4] at h2
  exact ⟨ρ, h2, h3⟩

end Verif.Props
