import Verif.Props.RateClose
import Verif.Props.RoundedMinMax
import Verif.Props.MinMaxRecovery
import Verif.Props.RoundedChain

/-!
# Property C149: rain rates from minimum and maximum levels in double precision
-/

namespace Verif.Props
open Verif Verif.KR Verif.Bin Verif.MinMax

/-- `log` has a relative error of at most `2^-51` (two units in the last place), up to an absolute error of `2^-1000`, for numbers from
1 on. -/
def LogClose [PyLog DblR] : Prop :=
  ∀ (x : DblR) (a : ℝ), x.val = .fin a → 1 ≤ a → a ≤ 2 ^ (64 : ℤ) →
    ∃ c, (PyLog.log x).val = .fin c ∧ |c - Real.log a| ≤ 2 ^ (-51 : ℤ) * Real.log a + 2 ^ (-1000 : ℤ)

/-- the correctly rounded logarithm -/
@[reducible] noncomputable def correctLog (R : Rounding ℝ) : PyLog (RFl R) := ⟨fun x => RFl.mk' R (Fl.log x.val)⟩

/-- The correctly rounded logarithm is such a function. -/
theorem correctLog_close : @LogClose (correctLog (binary64 (K := ℝ))) := by
  let _ := correctLog (binary64 (K := ℝ))
  intro x a hx h1 h2
  have h0 : 0 ≤ Real.log a := Real.log_nonneg h1
  have hb : Real.log a ≤ 2 ^ (64 : ℤ) := (Real.log_le_self (by linarith)).trans h2
  obtain ⟨c, hc, hce⟩ := (binary64_precision (K := ℝ)).err (Real.log a) (by
    rw [abs_of_nonneg h0]
    exact hb.trans (zpow_le_zpow_right₀ (by norm_num) (by norm_num)))
  refine ⟨c, ?_, ?_⟩
  · show (binary64 (K := ℝ)).round (Fl.log x.val) = _
    rw [hx, Fl.log_fin (by linarith)]
    exact hc
  · rw [abs_of_nonneg h0] at hce
    refine hce.trans (add_le_add (mul_le_mul_of_nonneg_right ?_ h0) ?_)
    · exact zpow_le_zpow_right₀ (by norm_num) (by norm_num)
    · exact zpow_le_zpow_right₀ (by norm_num) (by norm_num)

/-- a small relative error of the base of a power -/
theorem rpow_rel {w z v e : ℝ} (hz : 0 < z) (hv : v ≤ 1 / 10 ^ 4) (he0 : 0 ≤ e) (he : e ≤ 8) (h : |w - z| ≤ v * z) :
    0 < w ∧ |w ^ e - z ^ e| ≤ 9 * v * z ^ e := by
  obtain ⟨hw, hl⟩ := log_ratio hz (by linarith) h
  have hv0 : 0 ≤ v := by linarith [abs_nonneg (Real.log w - Real.log z)]
  refine ⟨hw, ?_⟩
  have hT : 0 < z ^ e := Real.rpow_pos_of_pos hz e
  set η := e * (Real.log w - Real.log z) with hη
  have hE : |η| ≤ 8.16 * v := by
    rw [hη, abs_mul, abs_of_nonneg he0]
    calc e * |Real.log w - Real.log z| ≤ 8 * (102 / 100 * v) := mul_le_mul he hl (abs_nonneg _) (by norm_num)
      _ = _ := by ring
  have hwz : w ^ e = z ^ e * Real.exp η := by
    rw [hη, Real.rpow_def_of_pos hw, Real.rpow_def_of_pos hz, ← Real.exp_add]
    congr 1
    ring
  have hη1 : |η| ≤ 1 / 1000 := hE.trans (by linarith)
  have j1 := Real.abs_exp_sub_one_sub_id_le (hη1.trans (by norm_num))
  have j2 := abs_add_le (Real.exp η - 1 - η) η
  rw [sub_add_cancel] at j2
  have j3 : η ^ 2 ≤ 1 / 1000 * (8.16 * v) := by
    rw [← sq_abs, sq]
    exact mul_le_mul hη1 hE (abs_nonneg _) (by norm_num)
  rw [hwz, show z ^ e * Real.exp η - z ^ e = (Real.exp η - 1) * z ^ e by ring, abs_mul, abs_of_pos hT]
  exact mul_le_mul_of_nonneg_right (by linarith) hT.le

/-- a product of two errors -/
theorem rel_trans {x y z u v w : ℝ} (hz : 0 ≤ z) (hu : 0 ≤ u) (h1 : |x - y| ≤ u * y) (h2 : |y - z| ≤ v * z)
    (hw : u * (1 + v) + v ≤ w) : |x - z| ≤ w * z := by
  have k := abs_add_le (x - y) (y - z)
  rw [sub_add_sub_cancel] at k
  have hy : y ≤ (1 + v) * z := by
    have := (abs_le.mp h2).2
    linarith
  have h3 := mul_le_mul_of_nonneg_left hy hu
  have h4 := mul_le_mul_of_nonneg_right hw hz
  linarith

theorem sum_aux {A B x u v γ z : ℝ} (h1 : A ≤ u * x + z) (h2 : B ≤ v * γ) (t : v * γ + z ≤ u * γ) : A + B ≤ u * (x + γ) := by
  rw [mul_add]
  linarith

/-- `ln k + gamma` -/
noncomputable def gumbel (κ : ℝ) : ℝ := Real.log κ + 0.57721566

theorem gumbel_range {κ : ℝ} (h1 : 1 ≤ κ) (h2 : κ ≤ 2 ^ (64 : ℤ)) : 0.57721566 ≤ gumbel κ ∧ gumbel κ ≤ 45 := by
  have h0 : 0 ≤ Real.log κ := Real.log_nonneg h1
  have h := Real.log_le_log (by linarith) h2
  rw [Real.log_zpow] at h
  push_cast at h
  have hlog2 := Real.log_two_lt_d9
  unfold gumbel
  constructor <;> linarith

/-- The parameters of `calc_R_from_A_min_max`, far from overflow and underflow; `euler` is the constant 0.57721566 of the code, rounded. -/
structure MinMaxRange (L a b k euler : DblR) (l α β κ : ℝ) : Prop where
  hl : L.val = .fin l
  hα : a.val = .fin α
  hβ : b.val = .fin β
  hk : k.val = .fin κ
  l1 : (2 : ℝ) ^ (-300 : ℤ) ≤ l
  l2 : l ≤ 2 ^ (300 : ℤ)
  α1 : (2 : ℝ) ^ (-200 : ℤ) ≤ α
  α2 : α ≤ 2 ^ (200 : ℤ)
  β1 : 1 / 8 ≤ β
  β2 : β ≤ 8
  κ1 : 1 ≤ κ
  κ2 : κ ≤ 2 ^ (64 : ℤ)
  euler : ∃ e, euler.val = .fin e ∧ |e - 0.57721566| ≤ 2 ^ (-52 : ℤ) * 0.57721566

/-- the calibrated parameter `a_max` -/
theorem aMax_close [PyPow DblR] [PyLog DblR] (hacc : PowClose) (hlog : LogClose) {L a b k euler : DblR} {l α β κ : ℝ}
    (h : MinMaxRange L a b k euler l α β κ) :
    ∃ α', RateRange L (a *ᶠ PyPow.pow (PyLog.log k +ᶠ euler) b) b l α' β ∧
      |α' - α * gumbel κ ^ β| ≤ 11 * 2 ^ (-50 : ℤ) * (α * gumbel κ ^ β) := by
  obtain ⟨hl, hα, hβ, hk, l1, l2, α1, α2, β1, β2, κ1, κ2, e, he, hee⟩ := h
  obtain ⟨g1, g2⟩ := gumbel_range κ1 κ2
  set c := gumbel κ with hc
  have hc0 : 0 < c := by linarith
  have hα0 : 0 < α := lt_of_lt_of_le (by positivity) α1
  have hβ0 : 0 < β := by linarith
  obtain ⟨q, hq, hqe⟩ := hlog k κ hk κ1 κ2
  have hln : 0 ≤ Real.log κ := Real.log_nonneg κ1
  have z1000 : (2 : ℝ) ^ (-1000 : ℤ) ≤ 2 ^ (-100 : ℤ) := zpow_le_zpow_right₀ (by norm_num) (by norm_num)
  -- the sum
  have hsum : |(q + e) - c| ≤ 2 ^ (-51 : ℤ) * c := by
    rw [hc]
    unfold gumbel
    rw [show q + e - (Real.log κ + 0.57721566) = (q - Real.log κ) + (e - 0.57721566) by ring]
    refine (abs_add_le _ _).trans ?_
    have t : (2 : ℝ) ^ (-52 : ℤ) * 0.57721566 + 2 ^ (-100 : ℤ) ≤ 2 ^ (-51 : ℤ) * 0.57721566 := by norm_num
    have k1 := hqe.trans (add_le_add_right z1000 _)
    exact sum_aux k1 hee t
  have hs0 : 1 / 2 ≤ q + e := by
    have := (abs_le.mp hsum).1
    have t : (2 : ℝ) ^ (-51 : ℤ) * c ≤ 1 / 1000 * 45 := mul_le_mul (by norm_num) g2 hc0.le (by norm_num)
    generalize (2 : ℝ) ^ (-51 : ℤ) * c = t1 at *
    linarith only [this, t, g1, g2]
  have hs1 : q + e ≤ 46 := by
    have := (abs_le.mp hsum).2
    have t : (2 : ℝ) ^ (-51 : ℤ) * c ≤ 1 / 1000 * 45 := mul_le_mul (by norm_num) g2 hc0.le (by norm_num)
    generalize (2 : ℝ) ^ (-51 : ℤ) * c = t1 at *
    linarith only [this, t, g1, g2]
  obtain ⟨s, hs, hse⟩ := round_rel (z := q + e)
    (le_trans (zpow_le_zpow_right₀ (by norm_num) (by norm_num : (-1000 : ℤ) ≤ -1)) (le_trans (by norm_num) hs0))
    (hs1.trans (le_trans (by norm_num : (46 : ℝ) ≤ 2 ^ (6 : ℤ)) (zpow_le_zpow_right₀ (by norm_num) (by norm_num))))
  have hsv : (PyLog.log k +ᶠ euler).val = .fin s := by rw [RFl.val_add, hq, he, Fl.pf_add_fin]; exact hs
  have hsc : |s - c| ≤ 2 ^ (-50 : ℤ) * c := rel_trans hc0.le (by positivity) hse hsum (by norm_num)
  -- the power
  obtain ⟨hs0', hpw⟩ := rpow_rel hc0 (by norm_num) hβ0.le β2 hsc
  have hcb0 : 0 < c ^ β := Real.rpow_pos_of_pos hc0 β
  have hcb1 : 1 / 128 ≤ c ^ β := by
    by_cases h1 : 1 ≤ c
    · exact le_trans (by norm_num) (Real.one_le_rpow h1 hβ0.le)
    · calc (1 : ℝ) / 128 ≤ 0.57721566 ^ (8 : ℝ) := by
            rw [show (8 : ℝ) = ((8 : ℕ) : ℝ) by norm_num, Real.rpow_natCast]; norm_num
        _ ≤ c ^ (8 : ℝ) := Real.rpow_le_rpow (by norm_num) g1 (by norm_num)
        _ ≤ c ^ β := Real.rpow_le_rpow_of_exponent_ge hc0 (not_le.mp h1).le β2
  have hcb2 : c ^ β ≤ 2 ^ (44 : ℤ) := by
    calc c ^ β ≤ 45 ^ β := Real.rpow_le_rpow hc0.le g2 hβ0.le
      _ ≤ 45 ^ (8 : ℝ) := Real.rpow_le_rpow_of_exponent_le (by norm_num) β2
      _ ≤ _ := by rw [show (8 : ℝ) = ((8 : ℕ) : ℝ) by norm_num, Real.rpow_natCast]; norm_num
  have hsb0 : 0 < s ^ β := Real.rpow_pos_of_pos hs0' β
  have hsb2 : s ^ β ≤ 2 * c ^ β := by
    have := (abs_le.mp hpw).2
    have t : 9 * (2 : ℝ) ^ (-50 : ℤ) * c ^ β ≤ 1 * c ^ β := mul_le_mul_of_nonneg_right (by norm_num) hcb0.le
    generalize 9 * (2 : ℝ) ^ (-50 : ℤ) * c ^ β = t1 at *
    linarith only [this, t]
  have hsb1 : 1 / 256 ≤ s ^ β := by
    have := (abs_le.mp hpw).1
    have t : 9 * (2 : ℝ) ^ (-50 : ℤ) * c ^ β ≤ 1 / 2 * c ^ β := mul_le_mul_of_nonneg_right (by norm_num) hcb0.le
    generalize 9 * (2 : ℝ) ^ (-50 : ℤ) * c ^ β = t1 at *
    linarith only [this, t, hcb1]
  obtain ⟨p, hp, hp0, hpe⟩ := hacc _ b s β hsv hβ hs0'.le hβ0 (by
    calc s ^ β ≤ 2 * 2 ^ (44 : ℤ) := hsb2.trans (mul_le_mul_of_nonneg_left hcb2 (by norm_num))
      _ ≤ 2 ^ (64 : ℤ) := by norm_num
      _ ≤ _ := zpow_le_zpow_right₀ (by norm_num) (by norm_num))
  have hps : |p - s ^ β| ≤ 2 ^ (-50 : ℤ) * s ^ β := by
    have t : (2 : ℝ) ^ (-100 : ℤ) ≤ 2 ^ (-51 : ℤ) * (1 / 256) := by norm_num
    have t2 := mul_le_mul_of_nonneg_left hsb1 (show (0 : ℝ) ≤ 2 ^ (-51 : ℤ) by positivity)
    have t3 : (2 : ℝ) ^ (-50 : ℤ) * s ^ β = 2 ^ (-51 : ℤ) * s ^ β + 2 ^ (-51 : ℤ) * s ^ β := by
      rw [show (-50 : ℤ) = -51 + 1 by norm_num, zpow_add_one₀ (by norm_num)]; ring
    exact (hpe.trans (add_le_add_right (z1000.trans (t.trans t2)) _)).trans t3.ge
  have hpc : |p - c ^ β| ≤ (10 + 1 / 2) * 2 ^ (-50 : ℤ) * c ^ β := rel_trans hcb0.le (by positivity) hps hpw (by norm_num)
  -- the product
  have hαc : 0 < α * c ^ β := mul_pos hα0 hcb0
  have hαp : |α * p - α * c ^ β| ≤ (10 + 1 / 2) * 2 ^ (-50 : ℤ) * (α * c ^ β) := by
    rw [← mul_sub, abs_mul, abs_of_pos hα0]
    have := mul_le_mul_of_nonneg_left hpc hα0.le
    linarith
  have hlo : (2 : ℝ) ^ (-208 : ℤ) ≤ α * c ^ β := by
    calc (2 : ℝ) ^ (-208 : ℤ) ≤ 2 ^ (-200 : ℤ) * (1 / 128) := by norm_num
      _ ≤ _ := mul_le_mul α1 hcb1 (by norm_num) hα0.le
  have hhi : α * c ^ β ≤ 2 ^ (244 : ℤ) := by
    calc α * c ^ β ≤ 2 ^ (200 : ℤ) * 2 ^ (44 : ℤ) := mul_le_mul α2 hcb2 hcb0.le (by positivity)
      _ = _ := by norm_num
  have hhalf : ∀ w z v : ℝ, 0 < z → v ≤ 1 / 2 → |w - z| ≤ v * z → z / 2 ≤ w ∧ w ≤ 2 * z := by
    intro w z v hz hv hw
    have := mul_le_mul_of_nonneg_right hv hz.le
    obtain ⟨w1, w2⟩ := abs_le.mp hw
    constructor <;> linarith
  obtain ⟨m1, m2⟩ := hhalf _ _ _ hαc (by norm_num) hαp
  obtain ⟨α', hα', hαe⟩ := round_rel (z := α * p)
    (le_trans (by
      calc (2 : ℝ) ^ (-1000 : ℤ) ≤ 2 ^ (-209 : ℤ) := zpow_le_zpow_right₀ (by norm_num) (by norm_num)
        _ = 2 ^ (-208 : ℤ) / 2 := by norm_num
        _ ≤ _ := div_le_div_of_nonneg_right hlo (by norm_num)) m1)
    (m2.trans (by
      calc 2 * (α * c ^ β) ≤ 2 * 2 ^ (244 : ℤ) := mul_le_mul_of_nonneg_left hhi (by norm_num)
        _ = 2 ^ (245 : ℤ) := by norm_num
        _ ≤ _ := zpow_le_zpow_right₀ (by norm_num) (by norm_num)))
  have hfin : |α' - α * c ^ β| ≤ 11 * 2 ^ (-50 : ℤ) * (α * c ^ β) := rel_trans hαc.le (by positivity) hαe hαp (by norm_num)
  obtain ⟨n1, n2⟩ := hhalf _ _ _ hαc (by norm_num) hfin
  refine ⟨α', ⟨hl, ?_, hβ, l1, l2, ?_, ?_, β1, β2⟩, hfin⟩
  · rw [RFl.val_mul, hα, hp, Fl.pf_mul_fin]; exact hα'
  · refine le_trans ?_ n1
    calc (2 : ℝ) ^ (-300 : ℤ) ≤ 2 ^ (-209 : ℤ) := zpow_le_zpow_right₀ (by norm_num) (by norm_num)
      _ = 2 ^ (-208 : ℤ) / 2 := by norm_num
      _ ≤ _ := div_le_div_of_nonneg_right hlo (by norm_num)
  · refine n2.trans ?_
    calc 2 * (α * c ^ β) ≤ 2 * 2 ^ (244 : ℤ) := mul_le_mul_of_nonneg_left hhi (by norm_num)
      _ = 2 ^ (245 : ℤ) := by norm_num
      _ ≤ 2 ^ (300 : ℤ) := zpow_le_zpow_right₀ (by norm_num) (by norm_num)

/-- the error of a denominator -/
theorem inv_rel {x D D' u v : ℝ} (hx : 0 ≤ x) (hD : 0 < D) (h : |D' - D| ≤ u * D) (hu : u < 1) (hv : u ≤ v * (1 - u)) :
    |x / D' - x / D| ≤ v * (x / D) := by
  have hD' : (1 - u) * D ≤ D' := by
    have := (abs_le.mp h).1
    linarith
  have hu1 : 0 < 1 - u := by linarith
  have hp : 0 < D' := lt_of_lt_of_le (mul_pos hu1 hD) hD'
  have e : x / D' - x / D = -(x / D * ((D' - D) / D')) := by field_simp; ring
  rw [e, abs_neg, abs_mul, abs_of_nonneg (div_nonneg hx hD.le), abs_div, abs_of_pos hp, mul_comm v]
  refine mul_le_mul_of_nonneg_left ?_ (div_nonneg hx hD.le)
  rw [div_le_iff₀ hp]
  have hv0 : 0 ≤ v := by
    by_contra hc
    have h0 : 0 ≤ u := by
      by_contra h0
      have := mul_neg_of_neg_of_pos (not_le.mp h0) hD
      linarith [abs_nonneg (D' - D)]
    have := mul_neg_of_neg_of_pos (not_le.mp hc) hu1
    linarith
  calc |D' - D| ≤ u * D := h
    _ ≤ v * (1 - u) * D := mul_le_mul_of_nonneg_right hv hD.le
    _ = v * ((1 - u) * D) := by ring
    _ ≤ v * D' := mul_le_mul_of_nonneg_left hD' hv0

/-- the rate with `a_max` is the rate with `a` divided by `ln k + gamma` -/
theorem gumbel_rate {α β l c X : ℝ} (hα : 0 < α) (hl : 0 < l) (hβ : 0 < β) (hc : 0 < c) (hX : 0 ≤ X) :
    (X / (α * c ^ β * l)) ^ (1 / β) = lawRate α β l X / c := by
  have hcb : 0 < c ^ β := Real.rpow_pos_of_pos hc β
  unfold lawRate
  rw [max_eq_right hX, show X / (α * c ^ β * l) = X / (α * l) / c ^ β by field_simp, Real.div_rpow (by positivity) hcb.le,
    ← Real.rpow_mul hc.le, mul_one_div_cancel hβ.ne', Real.rpow_one]

theorem calcRMinMax_scalar {F : Type} [PyFloat F] [PyPow F] [PyLog F] (ab : List F → String → String → Except Err (List F × List F))
    (euler : F) (A : List F) (L a b : F) (pol : String) (R_min k : F) :
    calcRMinMax ab euler A L none (some [a]) (some [b]) pol R_min k =
      .ok (A.map (rateF (a *ᶠ PyPow.pow (PyLog.log k +ᶠ euler) b) b L R_min)) := by
  rw [← calcR_scalar (fun _ _ _ => .error .valueError) A L (a *ᶠ PyPow.pow (PyLog.log k +ᶠ euler) b) b R_min ""]
  rfl

theorem two_errors {ρ T' T u v w z : ℝ} (hT : 0 ≤ T) (hu : 0 ≤ u) (h1 : |ρ - T'| ≤ u * T' + z) (h2 : |T' - T| ≤ v * T)
    (hw : u * (1 + v) + v ≤ w) : |ρ - T| ≤ w * T + z := by
  have k := abs_add_le (ρ - T') (T' - T)
  rw [sub_add_sub_cancel] at k
  have hy : T' ≤ (1 + v) * T := by
    have := (abs_le.mp h2).2
    linarith
  have h3 := mul_le_mul_of_nonneg_left hy hu
  have h4 := mul_le_mul_of_nonneg_right hw hT
  linarith

/-- **C149** `calc_R_from_A_min_max` in double precision, with a `pow` and a `log` that are right to two units in the last place: a
missing attenuation gives a missing rate, a negative one gives 0, and any other attenuation gives the exact rate
`(A/(a*L))**(1/b) / (ln k + 0.57721566)` up to a relative error of `2^-43` and an absolute error of `2^-99`, or 0 if this is below
`R_min`. -/
theorem C149_accuracy [PyPow DblR] [PyLog DblR] (hacc : PowClose) (hlog : LogClose)
    (ab : List DblR → String → String → Except Err (List DblR × List DblR)) (A : List DblR) (pol : String)
    (euler L a b R_min k : DblR) (l α β κ m : ℝ) (h : MinMaxRange L a b k euler l α β κ) (hm : R_min.val = .fin m) :
    ∃ out, calcRMinMax ab euler A L none (some [a]) (some [b]) pol R_min k = .ok out ∧ out.length = A.length ∧
      ∀ (i : Nat) x r, A[i]? = some x → out[i]? = some r →
        (x.val = .nan → r.val = .nan) ∧
        ∀ X : ℝ, x.val = .fin X →
          (X < 0 → r.val = .fin 0) ∧
          (0 ≤ X → X ≤ 2 ^ (300 : ℤ) → (X / (α * l)) ^ (1 / β) / (Real.log κ + 0.57721566) ≤ 2 ^ (63 : ℤ) →
            ∃ ρ : ℝ, 0 ≤ ρ ∧ |ρ - (X / (α * l)) ^ (1 / β) / (Real.log κ + 0.57721566)| ≤
                2 ^ (-43 : ℤ) * ((X / (α * l)) ^ (1 / β) / (Real.log κ + 0.57721566)) + 2 ^ (-99 : ℤ) ∧
              r.val = .fin (if ρ < m then 0 else ρ)) := by
  refine ⟨_, calcRMinMax_scalar _ _ _ _ _ _ _ _ _, by rw [List.length_map], ?_⟩
  intro i x r hx hr
  rw [List.getElem?_map, hx, Option.map_some, Option.some.injEq] at hr
  subst hr
  refine ⟨?_, ?_⟩
  · intro hn
    have : isNaN x = true := by rw [RFl.isNaN_def, hn]; rfl
    unfold rateF
    rw [if_pos this]
    rfl
  intro X hX
  have hnx : isNaN x = false := by rw [RFl.isNaN_def, hX]; rfl
  refine ⟨?_, ?_⟩
  · intro hneg
    have h0x : ((PyFloat.ofInt 0 : DblR) ≤ᶠ x) = false := by
      rw [RFl.le_def, RFl.val_zero, hX, Fl.pf_le_fin, decide_eq_false_iff_not]; exact not_le.mpr hneg
    unfold rateF
    simp only [hnx, h0x, Bool.false_eq_true, if_false]
    split_ifs <;> exact RFl.val_zero
  intro hX0 hX2 hT
  have h0x : ((PyFloat.ofInt 0 : DblR) ≤ᶠ x) = true := by
    rw [RFl.le_def, RFl.val_zero, hX, Fl.pf_le_fin, decide_eq_true_eq]; exact hX0
  obtain ⟨α', hrange, hα'⟩ := aMax_close hacc hlog h
  obtain ⟨g1, g2⟩ := gumbel_range h.κ1 h.κ2
  have hα0 : 0 < α := lt_of_lt_of_le (by positivity) h.α1
  have hl0 : 0 < l := lt_of_lt_of_le (by positivity) h.l1
  have hβ0 : 0 < β := by linarith [h.β1]
  have hc0 : 0 < gumbel κ := by linarith
  have hgr := gumbel_rate hα0 hl0 hβ0 hc0 hX0
  have hlaw : lawRate α β l X = (X / (α * l)) ^ (1 / β) := by unfold lawRate; rw [max_eq_right hX0]
  rw [hlaw] at hgr
  change _ / gumbel κ ≤ _ at hT
  show ∃ ρ : ℝ, 0 ≤ ρ ∧ |ρ - _ / gumbel κ| ≤ 2 ^ (-43 : ℤ) * (_ / gumbel κ) + 2 ^ (-99 : ℤ) ∧ _
  rw [← hgr] at hT ⊢
  have hib0 : 0 ≤ 1 / β := by positivity
  have hib2 : 1 / β ≤ 8 := by rw [div_le_iff₀ hβ0]; linarith [h.β1]
  have hcb : 0 < gumbel κ ^ β := Real.rpow_pos_of_pos hc0 β
  set D := α * gumbel κ ^ β * l with hD
  have hD0 : 0 < D := by positivity
  have hDD : |α' * l - D| ≤ 11 * 2 ^ (-50 : ℤ) * D := by
    rw [hD, ← sub_mul, abs_mul, abs_of_pos hl0, ← mul_assoc]
    exact mul_le_mul_of_nonneg_right hα' hl0.le
  have hq := inv_rel (v := 12 * 2 ^ (-50 : ℤ)) hX0 hD0 hDD (by norm_num) (by norm_num)
  have hTT : |(X / (α' * l)) ^ (1 / β) - (X / D) ^ (1 / β)| ≤ 108 * 2 ^ (-50 : ℤ) * (X / D) ^ (1 / β) := by
    rcases hX0.lt_or_eq with hp | hp
    · have := (rpow_rel (div_pos hp hD0) (by norm_num) hib0 hib2 hq).2
      refine this.trans (le_of_eq ?_)
      ring
    · rw [← hp, zero_div, zero_div, sub_self, abs_zero, Real.zero_rpow (by positivity), mul_zero]
  have hT0 : 0 ≤ (X / D) ^ (1 / β) := Real.rpow_nonneg (by positivity) _
  have hT64 : (X / (α' * l)) ^ (1 / β) ≤ 2 ^ (64 : ℤ) := by
    have k1 := (abs_le.mp hTT).2
    have k2 : 108 * (2 : ℝ) ^ (-50 : ℤ) * (X / D) ^ (1 / β) ≤ 1 * (X / D) ^ (1 / β) :=
      mul_le_mul_of_nonneg_right (by norm_num) hT0
    have k3 : (2 : ℝ) ^ (64 : ℤ) = 2 * 2 ^ (63 : ℤ) := by norm_num
    rw [k3]
    generalize 108 * (2 : ℝ) ^ (-50 : ℤ) * (X / D) ^ (1 / β) = t at *
    generalize (2 : ℝ) ^ (63 : ℤ) = t2 at *
    linarith only [k1, k2, hT]
  obtain ⟨ρ, r1, r2, r3⟩ := rate_close hacc hrange hX hX0 hX2 hT64
  refine ⟨ρ, r2, two_errors hT0 (by positivity) r3 hTT (by norm_num), ?_⟩
  unfold rateF
  simp only [hnx, h0x, Bool.false_eq_true, if_false, if_true]
  have hlt : ∀ y : DblR, y.val = .fin ρ → (y <ᶠ R_min) = decide (ρ < m) := by
    intro y hy
    rw [RFl.lt_def, hy, hm, Fl.pf_lt_fin]
  rw [hlt _ r1]
  by_cases hc : ρ < m
  · simp only [hc, decide_true, if_true]
    exact RFl.val_zero
  · simp only [hc, decide_false, Bool.false_eq_true, if_false]
    exact r1

/-- the exact min/max attenuation of reported levels -/
theorem reported_bounds {n : ℕ} {T : ℕ → ℝ} {loss : ℕ → List ℝ} {gT gR : ℝ} {txMin txMax rxMin rxMax : ℕ → ℝ}
    (h : Reported n T loss gT gR txMin txMax rxMin rxMax) {window i : ℕ} (hi : i < n) {m hi' lo' : ℝ}
    (hm : IsLeast {z | ∃ k, k < n ∧ i - window ≤ k ∧ k ≤ i ∧ z = txMin k - rxMax k + (gT + gR) / 2} m)
    (hhi : IsGreatest {z | z ∈ loss i} hi') (hlo : IsLeast {z | ∃ k, i - window ≤ k ∧ k ≤ i ∧ z ∈ loss k} lo') :
    max 0 (txMax i - rxMin i - (gT + gR) / 2 - m) ≤ hi' - lo' ∧
      hi' - lo' - 2 * (gT + gR) ≤ max 0 (txMax i - rxMin i - (gT + gR) / 2 - m) := by
  obtain ⟨⟨k0, hk0, a1, a2, em⟩, mle⟩ := hm
  obtain ⟨l, ⟨⟨xl, hxl, el⟩, hl2⟩, hl3⟩ := h.rxMin i hi
  have eq1 : l = T i - hi' := by
    have c1 := hhi.2 hxl
    have c2 := hl2 ⟨hi', hhi.1, rfl⟩
    linarith
  have t1 := abs_le.mp (h.txMax i hi)
  have t2 := abs_le.mp hl3
  have low : ∀ k, k < n → ∃ y ∈ loss k, y ≤ txMin k - rxMax k + (gT + gR) / 2 ∧
      txMin k - rxMax k + (gT + gR) / 2 ≤ y + (gT + gR) ∧ ∀ z ∈ loss k, y ≤ z := by
    intro k hk
    obtain ⟨g, ⟨⟨y, hy, ey⟩, hg2⟩, hg3⟩ := h.rxMax k hk
    have u1 := abs_le.mp (h.txMin k hk)
    have u2 := abs_le.mp hg3
    refine ⟨y, hy, by linarith [u1.1, u1.2, u2.1, u2.2], by linarith [u1.1, u1.2, u2.1, u2.2], ?_⟩
    intro z hz
    have := hg2 ⟨z, hz, rfl⟩
    linarith
  obtain ⟨⟨k1, b1, b2, b3⟩, hlo2⟩ := hlo
  obtain ⟨y0, hy0, c1, c2, _⟩ := low k0 hk0
  obtain ⟨y1, hy1, d1, d2, d3⟩ := low k1 (by omega)
  have g1 : lo' ≤ y0 := hlo2 ⟨k0, a1, a2, hy0⟩
  have g2 : y1 ≤ lo' := d3 lo' b3
  have g3 : m ≤ txMin k1 - rxMax k1 + (gT + gR) / 2 := mle ⟨k1, by omega, b1, b2, rfl⟩
  have hlh : lo' ≤ hi' := hlo2 ⟨i, by omega, le_rfl, hhi.1⟩
  refine ⟨max_le (by linarith) (by linarith), le_max_of_le_right ?_⟩
  linarith

/-- **C149** From the minimum and maximum levels to rain rates in double precision. During step `i` it rains at the rates `rain i`, each
rate `R` adds the loss `a*R^b*L` to a constant loss, at some moment of the last `window + 1` steps it does not rain, and the levels
(at most 1000 dB, see `MinMaxIn`) are known up to half their resolution `gT`, `gR`. Then `calc_R_from_A_min_max` of `_calc_A_min_max`
gives the rate for the loss of the strongest rain of the step, at most `2^-38` dB too large or `2*(gT+gR) + 2^-38` dB too small, divided by
`ln k + 0.57721566`, up to a relative error of `2^-43` and an absolute error of `2^-99` (0 if this is below `R_min`). -/
theorem C149_chain [PyPow DblR] [PyLog DblR] (hacc : PowClose) (hlog : LogClose)
    (ab : List DblR → String → String → Except Err (List DblR × List DblR)) (pol : String)
    (euler L a b R_min k : DblR) (l α β κ rmin : ℝ) (hP : MinMaxRange L a b k euler l α β κ) (hm : R_min.val = .fin rmin)
    (n : ℕ) (T : ℕ → ℝ) (B : ℝ) (rain : ℕ → List ℝ) (gT gR : ℝ) (hr : ∀ i < n, ∀ R ∈ rain i, 0 ≤ R)
    (txMin txMax rxMin rxMax : ℕ → ℝ) (dtm dtM drm drM : List DblR) (dT dR : DblR) (window : ℕ)
    (h : Reported n T (fun i => (rain i).map fun R => B + α * R ^ β * l) gT gR txMin txMax rxMin rxMax)
    (hin : MinMaxIn dtm dtM drm drM ((List.range n).map txMin) ((List.range n).map txMax) ((List.range n).map rxMin)
      ((List.range n).map rxMax) dT dR gT gR 1000)
    (hbig : (8192 / (α * l)) ^ (1 / β) / (Real.log κ + 0.57721566) ≤ 2 ^ (63 : ℤ)) :
    ∃ A Rs, calcAMinMax dtm dtM drm drM dT dR window = .ok A ∧
      calcRMinMax ab euler A L none (some [a]) (some [b]) pol R_min k = .ok Rs ∧
      ∀ i, window ≤ i → i < n → (∃ j, i - window ≤ j ∧ j ≤ i ∧ 0 ∈ rain j) → ∀ Rmax, IsGreatest {R | R ∈ rain i} Rmax →
        ∃ v r, Rs[i]? = some v ∧ v.val = .fin r ∧ 0 ≤ r ∧
          r ≤ (1 + 2 ^ (-43 : ℤ)) * (lawRate α β l (α * Rmax ^ β * l + 2 ^ (-38 : ℤ)) / (Real.log κ + 0.57721566)) + 2 ^ (-99 : ℤ) ∧
          (rmin ≤ (1 - 2 ^ (-43 : ℤ)) * (lawRate α β l (α * Rmax ^ β * l - 2 * (gT + gR) - 2 ^ (-38 : ℤ)) /
              (Real.log κ + 0.57721566)) - 2 ^ (-99 : ℤ) →
            (1 - 2 ^ (-43 : ℤ)) * (lawRate α β l (α * Rmax ^ β * l - 2 * (gT + gR) - 2 ^ (-38 : ℤ)) /
              (Real.log κ + 0.57721566)) - 2 ^ (-99 : ℤ) ≤ r) := by
  obtain ⟨A, hA, hAv⟩ := C121_doubles dtm dtM drm drM _ _ _ _ dT dR gT gR window hin
  obtain ⟨Rs, hRs, hRl, hRv⟩ := C149_accuracy hacc hlog ab A pol euler L a b R_min k l α β κ rmin hP hm
  refine ⟨A, Rs, hA, hRs, ?_⟩
  intro i hwi hi hdry Rmax hmax
  obtain ⟨v, p, m, hv, hvp, hp0, hmin, hpe⟩ := hAv i hwi (by simpa using hi) (by simpa using hi)
  simp only [List.getElem_map, List.getElem_range, List.length_map, List.length_range] at hmin hpe
  have hα0 : 0 < α := lt_of_lt_of_le (by positivity) hP.α1
  have hl0 : 0 < l := lt_of_lt_of_le (by positivity) hP.l1
  have hβ0 : 0 < β := by linarith [hP.β1]
  have hαl : 0 < α * l := mul_pos hα0 hl0
  have hib : 0 < 1 / β := by positivity
  obtain ⟨g1, g2⟩ := gumbel_range hP.κ1 hP.κ2
  have hc0 : 0 < Real.log κ + 0.57721566 := by
    have : 0 < gumbel κ := by linarith
    exact this
  set c := Real.log κ + 0.57721566 with hc
  have hmono : ∀ p q : ℝ, 0 ≤ p → p ≤ q → B + α * p ^ β * l ≤ B + α * q ^ β * l := by
    intro p q hp hpq
    have := Real.rpow_le_rpow hp hpq hβ0.le
    have h2 : α * p ^ β ≤ α * q ^ β := mul_le_mul_of_nonneg_left this hα0.le
    have h3 := mul_le_mul_of_nonneg_right h2 hl0.le
    linarith
  obtain ⟨b1, b2⟩ := reported_bounds (window := window) h hi (m := m) (hi' := B + α * Rmax ^ β * l) (lo' := B)
    (by
      obtain ⟨⟨k, k1, _, k2, k3, e⟩, hle⟩ := hmin
      refine ⟨⟨k, k1, k2, k3, e⟩, ?_⟩
      rintro z ⟨k, k1, k2, k3, rfl⟩
      exact hle ⟨k, k1, k1, k2, k3, rfl⟩)
    ⟨List.mem_map.mpr ⟨Rmax, hmax.1, rfl⟩, by
      rintro z hz
      obtain ⟨R, hR, rfl⟩ := List.mem_map.mp hz
      exact hmono R Rmax (hr i hi R hR) (hmax.2 hR)⟩
    ⟨by
      obtain ⟨j, j1, j2, j3⟩ := hdry
      refine ⟨j, j1, j2, List.mem_map.mpr ⟨0, j3, ?_⟩⟩
      rw [Real.zero_rpow hβ0.ne']
      ring, by
      rintro z ⟨j, _, j2, hz⟩
      obtain ⟨R, hR, rfl⟩ := List.mem_map.mp hz
      have : 0 ≤ α * R ^ β * l := by
        have := Real.rpow_nonneg (hr j (by omega) R hR) β
        positivity
      linarith⟩
  have z38 : (2 : ℝ) ^ (-38 : ℤ) ≤ 1 := by norm_num
  obtain ⟨e1, e2⟩ := abs_le.mp hpe
  -- the attenuation is at most 8192 dB
  have hbound : max 0 (txMax i - rxMin i - (gT + gR) / 2 - m) ≤ 7000 := by
    obtain ⟨⟨k, k1, _, _, _, rfl⟩, _⟩ := hmin
    have i1 := abs_le.mp (hin.c1 (txMin k) (List.mem_map.mpr ⟨k, List.mem_range.mpr k1, rfl⟩))
    have i2 := abs_le.mp (hin.c4 (rxMax k) (List.mem_map.mpr ⟨k, List.mem_range.mpr k1, rfl⟩))
    have i3 := abs_le.mp (hin.c2 (txMax i) (List.mem_map.mpr ⟨i, List.mem_range.mpr hi, rfl⟩))
    have i4 := abs_le.mp (hin.c3 (rxMin i) (List.mem_map.mpr ⟨i, List.mem_range.mpr hi, rfl⟩))
    have i5 := abs_le.mp hin.b1
    have i6 := abs_le.mp hin.b2
    exact max_le (by norm_num) (by linarith [i1.1, i2.2, i3.2, i4.1, i5.1, i6.1])
  have hp8 : p ≤ 8192 := by linarith only [hbound, e2, z38]
  have hlp : lawRate α β l p = (p / (α * l)) ^ (1 / β) := by unfold lawRate; rw [max_eq_right hp0]
  have hl8 : lawRate α β l 8192 = (8192 / (α * l)) ^ (1 / β) := by unfold lawRate; rw [max_eq_right (by norm_num)]
  have hT : (p / (α * l)) ^ (1 / β) / c ≤ 2 ^ (63 : ℤ) := by
    rw [← hlp]
    rw [← hl8] at hbig
    exact (div_le_div_of_nonneg_right (lawRate_mono hαl hib hp8) hc0.le).trans hbig
  have hiA : i < A.length := (List.getElem?_eq_some_iff.mp hv).1
  have hRi : Rs[i]? = some (Rs[i]'(by omega)) := List.getElem?_eq_getElem (by omega)
  obtain ⟨ρ, r1, r2, r3⟩ := ((hRv i v _ hv hRi).2 p hvp).2 hp0 (hp8.trans (by
    exact le_trans (by norm_num : (8192 : ℝ) ≤ 2 ^ (13 : ℤ)) (zpow_le_zpow_right₀ (by norm_num) (by norm_num)))) hT
  rw [← hlp] at r2
  have h38 : p ≤ α * Rmax ^ β * l + 2 ^ (-38 : ℤ) ∧ α * Rmax ^ β * l - 2 * (gT + gR) - 2 ^ (-38 : ℤ) ≤ p := by
    generalize (2 : ℝ) ^ (-38 : ℤ) = z at *
    constructor
    · linarith only [b1, e2]
    · linarith only [b2, e1]
  have hup : lawRate α β l p / c ≤ lawRate α β l (α * Rmax ^ β * l + 2 ^ (-38 : ℤ)) / c :=
    div_le_div_of_nonneg_right (lawRate_mono hαl hib h38.1) hc0.le
  have hlow : lawRate α β l (α * Rmax ^ β * l - 2 * (gT + gR) - 2 ^ (-38 : ℤ)) / c ≤ lawRate α β l p / c :=
    div_le_div_of_nonneg_right (lawRate_mono hαl hib h38.2) hc0.le
  have hnn := div_nonneg (lawRate_nonneg (β := β) hαl (α * Rmax ^ β * l + 2 ^ (-38 : ℤ))) hc0.le
  obtain ⟨s1, s2⟩ := abs_le.mp r2
  have u1 : ρ ≤ (1 + 2 ^ (-43 : ℤ)) * (lawRate α β l (α * Rmax ^ β * l + 2 ^ (-38 : ℤ)) / c) + 2 ^ (-99 : ℤ) := by
    have := mul_le_mul_of_nonneg_left hup (show (0 : ℝ) ≤ 1 + 2 ^ (-43 : ℤ) by positivity)
    linarith only [this, s2]
  have u2 : (1 - 2 ^ (-43 : ℤ)) * (lawRate α β l (α * Rmax ^ β * l - 2 * (gT + gR) - 2 ^ (-38 : ℤ)) / c) - 2 ^ (-99 : ℤ) ≤ ρ := by
    have := mul_le_mul_of_nonneg_left hlow (show (0 : ℝ) ≤ 1 - 2 ^ (-43 : ℤ) by norm_num)
    linarith only [this, s1]
  refine ⟨_, _, hRi, r3, ?_, ?_, ?_⟩
  · split_ifs
    · exact le_rfl
    · exact r1
  · split_ifs
    · positivity
    · exact u1
  · intro hcut
    rw [if_neg (not_lt.mpr (hcut.trans u2))]
    exact u2

/-- `a = 1`, `b = 2`, a length of 2 km and `k = 1` meet the conditions. -/
theorem minMaxRange_one : MinMaxRange (PyFloat.ofInt (2 : ℕ)) (PyFloat.ofInt (1 : ℕ)) (PyFloat.ofInt (2 : ℕ)) (PyFloat.ofInt (1 : ℕ))
    (RFl.mk' (binary64 (K := ℝ)) (.fin 0.57721566)) 2 1 2 1 := by
  have v1 := val_ofNat_b64 1 (by norm_num)
  have v2 := val_ofNat_b64 2 (by norm_num)
  obtain ⟨e, he, hee⟩ := round_rel (z := 0.57721566)
    (le_trans (zpow_le_zpow_right₀ (by norm_num) (by norm_num : (-1000 : ℤ) ≤ -1)) (by norm_num))
    (le_trans (by norm_num : (0.57721566 : ℝ) ≤ 2 ^ (0 : ℤ)) (zpow_le_zpow_right₀ (by norm_num) (by norm_num)))
  exact ⟨by simpa using v2, by simpa using v1, by simpa using v2, by simpa using v1,
    le_trans (zpow_le_one_of_nonpos₀ (by norm_num) (by norm_num)) (by norm_num),
    le_trans (by norm_num : (2 : ℝ) ≤ 2 ^ (1 : ℤ)) (zpow_le_zpow_right₀ (by norm_num) (by norm_num)),
    zpow_le_one_of_nonpos₀ (by norm_num) (by norm_num), one_le_zpow₀ (by norm_num) (by norm_num), by norm_num, by norm_num, le_rfl,
    one_le_zpow₀ (by norm_num) (by norm_num), e, he, hee⟩

/-- A dry step and a step with 2 mm/h (`a = 1`, `b = 2`, 2 km, so 8 dB): the received level falls from 50 to 42 dB, and the mean rate for
`k = 1` is 2/0.577... = 3.46... mm/h. -/
example : letI := correctPow (binary64 (K := ℝ))
    letI := correctLog (binary64 (K := ℝ))
    ∃ A Rs, calcAMinMax [(PyFloat.ofInt (100 : ℕ) : DblR), PyFloat.ofInt (100 : ℕ)] [PyFloat.ofInt (100 : ℕ), PyFloat.ofInt (100 : ℕ)]
        [PyFloat.ofInt (50 : ℕ), PyFloat.ofInt (42 : ℕ)] [PyFloat.ofInt (50 : ℕ), PyFloat.ofInt (42 : ℕ)]
        (PyFloat.ofInt (0 : ℕ)) (PyFloat.ofInt (0 : ℕ)) 1 = .ok A ∧
      calcRMinMax (fun _ _ _ => .error .valueError) (RFl.mk' (binary64 (K := ℝ)) (.fin 0.57721566)) A (PyFloat.ofInt (2 : ℕ)) none
        (some [PyFloat.ofInt (1 : ℕ)]) (some [PyFloat.ofInt (2 : ℕ)]) "H" (PyFloat.ofInt (1 : ℕ)) (PyFloat.ofInt (1 : ℕ)) = .ok Rs ∧
      ∃ (v : DblR) (r : ℝ), Rs[1]? = some v ∧ v.val = .fin r ∧ 3.4 ≤ r ∧ r ≤ 3.52 := by
  letI := correctPow (binary64 (K := ℝ))
  letI := correctLog (binary64 (K := ℝ))
  have v := val_ofNat_b64
  have v0 := v 0 (by norm_num)
  have v1 := v 1 (by norm_num)
  have v100 := v 100 (by norm_num)
  have v50 := v 50 (by norm_num)
  have v42 := v 42 (by norm_num)
  have hrep : Reported 2 (fun _ => (100 : ℝ)) (fun i => ((if i = 0 then [0] else [2]) : List ℝ).map fun R => 50 + 1 * R ^ (2 : ℝ) * 2)
      0 0 (fun _ => 100) (fun _ => 100) (fun i => if i = 0 then 50 else 42) (fun i => if i = 0 then 50 else 42) := by
    refine ⟨fun i _ => by norm_num, fun i _ => by norm_num, fun i _ => ?_, fun i _ => ?_⟩ <;>
    · by_cases h : i = 0
      · simp only [h, if_true]
        exact ⟨50, ⟨⟨50, by norm_num, by norm_num⟩, by rintro z ⟨x, hx, rfl⟩; norm_num at hx; rw [hx]; norm_num⟩, by norm_num⟩
      · simp only [h, if_false]
        exact ⟨42, ⟨⟨58, by norm_num, by norm_num⟩, by rintro z ⟨x, hx, rfl⟩; norm_num at hx; rw [hx]; norm_num⟩, by norm_num⟩
  obtain ⟨A, Rs, hA, hR, hv⟩ := C149_chain correctPow_close correctLog_close (fun _ _ _ => .error .valueError) "H" _ _ _ _
    (PyFloat.ofInt (1 : ℕ)) _ 2 1 2 1 1 minMaxRange_one (by simpa using v1) 2 _ 50 _ 0 0
    (by
      intro i _ R hR
      by_cases h : i = 0
      · simp [h] at hR; rw [hR]
      · simp [h] at hR; rw [hR]; norm_num)
    _ _ _ _ [(PyFloat.ofInt (100 : ℕ) : DblR), PyFloat.ofInt (100 : ℕ)] [PyFloat.ofInt (100 : ℕ), PyFloat.ofInt (100 : ℕ)]
        [PyFloat.ofInt (50 : ℕ), PyFloat.ofInt (42 : ℕ)] [PyFloat.ofInt (50 : ℕ), PyFloat.ofInt (42 : ℕ)]
        (PyFloat.ofInt (0 : ℕ)) (PyFloat.ofInt (0 : ℕ)) 1 hrep
    (by
      have e : List.range 2 = [0, 1] := rfl
      rw [Nat.cast_ofNat, Nat.cast_ofNat] at v100 v50 v42
      rw [Nat.cast_zero, Nat.cast_zero] at v0
      constructor <;> norm_num [e, FinVals, v0, v100, v50, v42])
    (by
      rw [Real.log_one]
      have e : ((8192 : ℝ) / (1 * 2)) ^ (1 / (2 : ℝ)) = 64 := by
        rw [show (8192 : ℝ) / (1 * 2) = 64 ^ (2 : ℝ) by norm_num, ← Real.rpow_mul (by norm_num)]
        norm_num
      rw [e]
      norm_num)
  refine ⟨A, Rs, hA, hR, ?_⟩
  obtain ⟨w, r, w1, w2, w3, w4, w5⟩ := hv 1 le_rfl (by norm_num) ⟨0, by norm_num, by norm_num, by simp⟩ 2
    ⟨by simp, by intro z hz; simp at hz; rw [hz]⟩
  have hsq : ∀ x : ℝ, 0 ≤ x → (x ^ (2 : ℝ)) ^ (1 / (2 : ℝ)) = x := by
    intro x hx
    rw [← Real.rpow_mul hx]
    norm_num
  rw [Real.log_one] at w4 w5
  have b1 : lawRate 1 2 2 (1 * 2 ^ (2 : ℝ) * 2 + 2 ^ (-38 : ℤ)) ≤ 2.03 := by
    unfold lawRate
    rw [← hsq 2.03 (by norm_num)]
    exact Real.rpow_le_rpow (by positivity) (by norm_num) (by norm_num)
  have b2 : 1.97 ≤ lawRate 1 2 2 (1 * 2 ^ (2 : ℝ) * 2 - 2 * (0 + 0) - 2 ^ (-38 : ℤ)) := by
    unfold lawRate
    rw [← hsq 1.97 (by norm_num)]
    exact Real.rpow_le_rpow (by positivity) (by norm_num) (by norm_num)
  have c2 : (3.4 : ℝ) ≤ (1 - 2 ^ (-43 : ℤ)) * (lawRate 1 2 2 (1 * 2 ^ (2 : ℝ) * 2 - 2 * (0 + 0) - 2 ^ (-38 : ℤ)) / (0 + 0.57721566)) -
      2 ^ (-99 : ℤ) := by
    refine le_trans (by norm_num) (sub_le_sub_right (mul_le_mul_of_nonneg_left (div_le_div_of_nonneg_right b2 (by norm_num))
      (by norm_num)) _)
  refine ⟨w, r, w1, w2, c2.trans (w5 (le_trans (by norm_num) c2)), w4.trans ?_⟩
  refine le_trans (add_le_add_left (mul_le_mul_of_nonneg_left (div_le_div_of_nonneg_right b1 (by norm_num))
    (by positivity)) _) (by norm_num)

end Verif.Props
