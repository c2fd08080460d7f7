import Verif.Props.RoundedLookup
import Verif.Props.RoundedRate
import Verif.Props.ItuSpline

/-!
# Property C163: accuracy of the look-up of the wet antenna attenuation in double arithmetic
-/

namespace Verif.Props
open Verif Verif.KR Verif.Bin Verif.WaaModels

/-- a small error of the logarithm is a small relative error -/
theorem exp_log_close {s t c : ℝ} (hs : 0 < s) (ht : 0 < t) (hc : c ≤ 1 / 100) (h : |Real.log s - Real.log t| ≤ c) :
    |s - t| ≤ 102 / 100 * c * t := by
  set D := Real.log s - Real.log t with hD
  have e : s = t * Real.exp D := by
    rw [hD, Real.exp_sub, Real.exp_log hs, Real.exp_log ht, mul_div_cancel₀ _ ht.ne']
  have c0 : 0 ≤ c := (abs_nonneg _).trans h
  have k := Real.abs_exp_sub_one_sub_id_le (x := D) (by linarith)
  have k2 : |Real.exp D - 1| ≤ 102 / 100 * c := by
    have a : |Real.exp D - 1| ≤ |Real.exp D - 1 - D| + |D| := by
      have := abs_add_le (Real.exp D - 1 - D) D
      rwa [sub_add_cancel] at this
    have b : D ^ 2 ≤ c * c := by
      rw [← sq_abs, sq]
      exact mul_le_mul h h (abs_nonneg _) c0
    nlinarith
  rw [show s - t = (Real.exp D - 1) * t by rw [e]; ring, abs_mul, abs_of_pos ht]
  exact mul_le_mul_of_nonneg_right k2 ht.le

/-- wet antenna attenuation for close rain rates -/
theorem pastorek_rate_close {α ζ δ T ρ c : ℝ} (α0 : 0 < α) (ζ0 : 0 < ζ) (ζ1 : ζ ≤ 1) (δ0 : 0 < δ) (T0 : 0 < T) (ρ0 : 0 < ρ)
    (hc : c ≤ 1 / 100) (h : |Real.log ρ - Real.log T| ≤ c) :
    |α * (1 - Real.exp (-(δ * ρ ^ ζ))) - pastorek α ζ δ T| ≤ 204 / 100 * c * α := by
  have c0 : 0 ≤ c := (abs_nonneg _).trans h
  have s0 : 0 < δ * ρ ^ ζ := mul_pos δ0 (Real.rpow_pos_of_pos ρ0 ζ)
  have t0 : 0 < δ * T ^ ζ := mul_pos δ0 (Real.rpow_pos_of_pos T0 ζ)
  have hl : |Real.log (δ * ρ ^ ζ) - Real.log (δ * T ^ ζ)| ≤ c := by
    rw [Real.log_mul δ0.ne' (Real.rpow_pos_of_pos ρ0 ζ).ne', Real.log_mul δ0.ne' (Real.rpow_pos_of_pos T0 ζ).ne',
      Real.log_rpow ρ0, Real.log_rpow T0, show Real.log δ + ζ * Real.log ρ - (Real.log δ + ζ * Real.log T) =
        ζ * (Real.log ρ - Real.log T) by ring, abs_mul, abs_of_pos ζ0]
    calc ζ * |Real.log ρ - Real.log T| ≤ 1 * c := mul_le_mul ζ1 h (abs_nonneg _) zero_le_one
      _ = c := one_mul c
  have k := exp_neg_close s0.le t0.le (δ := 102 / 100 * c) (η := 0) (by linarith) (by linarith) le_rfl
    (by rw [add_zero]; exact exp_log_close s0 t0 hc hl)
  unfold pastorek
  rw [neg_mul, show α * (1 - Real.exp (-(δ * ρ ^ ζ))) - α * (1 - Real.exp (-(δ * T ^ ζ))) =
    α * -(Real.exp (-(δ * ρ ^ ζ)) - Real.exp (-(δ * T ^ ζ))) by ring, abs_mul, abs_neg, abs_of_pos α0]
  have := mul_le_mul_of_nonneg_left k α0.le
  linarith

/-- parameters far from overflow and underflow are admissible -/
theorem RateRange.rainParams {L a b : DblR} {l α β : ℝ} (h : RateRange L a b l α β) : RainParams a b L := by
  obtain ⟨hl, hα, hβ, l1, l2, α1, α2, β1, β2⟩ := h
  have p300 : (0 : ℝ) < 2 ^ (-300 : ℤ) := by positivity
  have l0 := p300.trans_le l1
  have α0 := p300.trans_le α1
  have hal1 : (2 : ℝ) ^ (-600 : ℤ) ≤ α * l := by
    calc (2 : ℝ) ^ (-600 : ℤ) = 2 ^ (-300 : ℤ) * 2 ^ (-300 : ℤ) := by rw [← zpow_add₀ (by norm_num)]; norm_num
      _ ≤ _ := mul_le_mul α1 l1 p300.le α0.le
  have hal2 : α * l ≤ 2 ^ (600 : ℤ) := by
    calc α * l ≤ 2 ^ (300 : ℤ) * 2 ^ (300 : ℤ) := mul_le_mul α2 l2 l0.le (by positivity)
      _ = _ := by rw [← zpow_add₀ (by norm_num)]; norm_num
  obtain ⟨P, hP, hPe⟩ := round_rel (hal1.trans' (zpow_le_zpow_right₀ (by norm_num) (by norm_num)))
    (hal2.trans (zpow_le_zpow_right₀ (by norm_num) (by norm_num)))
  have β0 : 0 < β := by linarith
  have i1 : (1 / 8 : ℝ) ≤ 1 / β := one_div_le_one_div_of_le β0 β2
  have i2 : 1 / β ≤ 8 := by rw [div_le_iff₀ β0]; linarith
  obtain ⟨q, hq, hqe⟩ := round_rel (z := 1 / β) (i1.trans' (le_trans (zpow_le_zpow_right₀ (by norm_num) (by norm_num) : (2 : ℝ) ^ (-1000 : ℤ) ≤ 2 ^ (-3 : ℤ)) (by norm_num)))
    (i2.trans (le_trans (by norm_num : (8 : ℝ) ≤ 2 ^ (3 : ℤ)) (zpow_le_zpow_right₀ (by norm_num) (by norm_num))))
  refine ⟨⟨P, ?_, (log_ratio (mul_pos α0 l0) (by norm_num) hPe).1⟩, ?_⟩
  · rw [RFl.val_mul, hα, hl, Fl.pf_mul_fin]; exact hP
  · rw [RFl.lt_def, RFl.val_zero, RFl.val_div, RFl.val_one, hβ, Fl.pf_div_fin_ne _ _ β0.ne', hq, Fl.pf_lt_fin, decide_eq_true_eq]
    exact (log_ratio (by positivity) (by norm_num) hqe).1

/-- the entries of the table -/
theorem entry_close [PyPow DblR] [MonoPow DblR] [PyExp DblR] (hpow : PowClose) (hacc : PowAccurate) (hexp : ExpClose) (he : ExpRange)
    {grid : List DblR} {a : ℕ → ℝ} (hg : DoubleGrid grid a) {A_max zeta d u v L : DblR} {α ζ δ l μ β m b ε : ℝ}
    (h : PastorekParams A_max zeta d α δ) (hζ : zeta.val = .fin ζ) (ζ1 : ζ ≤ 1)
    (hα1 : 2 ^ (-300 : ℤ) ≤ α) (hα2 : α ≤ 2 ^ (300 : ℤ)) (hδ2 : δ ≤ 2 ^ (100 : ℤ))
    (hr : RateRange L u v l μ β) (β1 : 1 / 2 ≤ β)
    (m0 : 0 < m) (b0 : 0 < b) (b8 : b ≤ 8) (hε : ε ≤ 2 ^ (-16 : ℤ)) (hm : |μ - m| ≤ ε * m) (hb : |1 / β - 1 / b| ≤ ε)
    (hT1 : (2 : ℝ) ^ (-60 : ℤ) ≤ rainOf m b l (gridA 1)) (hT2 : rainOf m b l 1000 ≤ 2 ^ (60 : ℤ))
    {k : ℕ} (hk : k < 100) {x : DblR} (hx : x.val = .fin (a k)) {w : ℝ}
    (hw : (pastorekElem A_max zeta d (rateF u v L (PyFloat.ofInt 0) x)).val = .fin w) :
    |w - pastorek α ζ δ (rainOf m b l (gridA k))| ≤ (2 ^ (-42 : ℤ) + 1024 * ε) * α := by
  have hrp := hr.rainParams
  have α0 := h.α0
  have ζ0 : 0 < ζ := by
    have := h.hz
    rw [RFl.lt_def, RFl.val_zero, hζ, Fl.pf_lt_fin, decide_eq_true_eq] at this
    exact this
  have p300 : (0 : ℝ) < 2 ^ (-300 : ℤ) := by positivity
  have l0 := p300.trans_le hr.l1
  have μ0 := p300.trans_le hr.α1
  have β0 : 0 < β := by linarith
  have ε0 : 0 ≤ ε := (abs_nonneg _).trans hb
  rcases Nat.eq_zero_or_pos k with rfl | hk0
  · rw [hg.zero] at hx
    have : x = PyFloat.ofInt 0 := RFl.ext (hx.trans RFl.val_zero.symm)
    subst this
    rw [rateF_zero hrp, pastorek_elem_zero (by rw [RFl.eq_def, RFl.val_zero]; simp), RFl.val_zero] at hw
    rw [← Fl.fin.inj hw, show gridA 0 = 0 from rfl, rainOf_zero b0, pastorek_zero ζ0, sub_zero, abs_zero]
    positivity
  have g1 : (1.3e-10 : ℝ) ≤ gridA k := grid_first_ge.trans (gridA_strictMono.monotone hk0)
  have g0 : 0 < gridA k := by norm_num at g1; linarith
  have g2 := grid_le_1000 hk
  obtain ⟨a0, al⟩ := log_ratio g0 (by norm_num) (hg.close k hk)
  have ab2 := (hg.bounds hk).2
  have ab1 := (hg.bounds hk).1
  have aL0 : 0 < μ * l := mul_pos μ0 l0
  have mL0 : 0 < m * l := mul_pos m0 l0
  -- exact rates
  have T0 : 0 < rainOf m b l (gridA k) := Real.rpow_pos_of_pos (div_pos g0 mL0) _
  have S0 : 0 < (a k / (μ * l)) ^ (1 / β) := Real.rpow_pos_of_pos (div_pos a0 aL0) _
  have Tlo : (2 : ℝ) ^ (-60 : ℤ) ≤ rainOf m b l (gridA k) := by
    refine hT1.trans (Real.rpow_le_rpow (div_nonneg (gridA_nonneg 1) mL0.le) ?_ (by positivity))
    exact div_le_div_of_nonneg_right (gridA_strictMono.monotone hk0) mL0.le
  have Thi : rainOf m b l (gridA k) ≤ 2 ^ (60 : ℤ) := by
    refine le_trans (Real.rpow_le_rpow (div_nonneg g0.le mL0.le) ?_ (by positivity)) hT2
    exact div_le_div_of_nonneg_right g2 mL0.le
  have ib : 1 / β ≤ 2 := by rw [div_le_iff₀ β0]; linarith
  have ib0 : 0 ≤ 1 / β := by positivity
  have lT : |Real.log (rainOf m b l (gridA k))| ≤ 42 := by
    have lo := Real.log_le_log (by positivity) Tlo
    have hi := Real.log_le_log T0 Thi
    rw [Real.log_zpow] at lo hi
    push_cast at lo hi
    have := Real.log_two_lt_d9
    rw [abs_le]
    constructor <;> linarith
  have lq : |Real.log (gridA k) - Real.log (m * l)| ≤ 336 := by
    have e : Real.log (gridA k) - Real.log (m * l) = b * Real.log (rainOf m b l (gridA k)) := by
      unfold rainOf
      rw [Real.log_rpow (div_pos g0 mL0), Real.log_div g0.ne' mL0.ne']
      field_simp
    rw [e, abs_mul, abs_of_pos b0]
    calc b * _ ≤ 8 * 42 := mul_le_mul b8 lT (abs_nonneg _) (by norm_num)
      _ = 336 := by norm_num
  have lm := (log_ratio m0 (by refine hε.trans ?_; norm_num) hm).2
  have lST : |Real.log ((a k / (μ * l)) ^ (1 / β)) - Real.log (rainOf m b l (gridA k))| ≤ 204 / 100 * 2 ^ (-45 : ℤ) + 340 * ε := by
    unfold rainOf
    rw [Real.log_rpow (div_pos a0 aL0), Real.log_rpow (div_pos g0 mL0), Real.log_div a0.ne' aL0.ne', Real.log_div g0.ne' mL0.ne',
      Real.log_mul μ0.ne' l0.ne',
      show 1 / β * (Real.log (a k) - (Real.log μ + Real.log l)) - 1 / b * (Real.log (gridA k) - Real.log (m * l)) =
        1 / β * ((Real.log (a k) - Real.log (gridA k)) - (Real.log μ - Real.log m)) +
          (1 / β - 1 / b) * (Real.log (gridA k) - Real.log (m * l)) by rw [Real.log_mul m0.ne' l0.ne']; ring]
    refine (abs_add_le _ _).trans ?_
    rw [abs_mul, abs_mul, abs_of_nonneg ib0]
    have c1 := mul_le_mul ib ((abs_sub _ _).trans (add_le_add al lm)) (abs_nonneg _) (by norm_num : (0 : ℝ) ≤ 2)
    have c2 := mul_le_mul hb lq (abs_nonneg _) ε0
    refine (add_le_add c1 c2).trans ?_
    generalize (2 : ℝ) ^ (-45 : ℤ) = t
    linarith
  have cl : 204 / 100 * 2 ^ (-45 : ℤ) + 340 * ε ≤ 1 / 100 := by
    norm_num at hε ⊢
    linarith
  have dST := exp_log_close S0 T0 cl lST
  have ST : |(a k / (μ * l)) ^ (1 / β) - rainOf m b l (gridA k)| ≤ 1 / 2 * rainOf m b l (gridA k) :=
    dST.trans (mul_le_mul_of_nonneg_right (by linarith) T0.le)
  obtain ⟨st1, st2⟩ := abs_le.mp ST
  have e61 : (2 : ℝ) ^ (60 : ℤ) * 2 = 2 ^ (61 : ℤ) := by norm_num
  have e61' : (2 : ℝ) ^ (-61 : ℤ) * 2 = 2 ^ (-60 : ℤ) := by norm_num
  have Slo : (2 : ℝ) ^ (-61 : ℤ) ≤ (a k / (μ * l)) ^ (1 / β) := by
    generalize (2 : ℝ) ^ (-61 : ℤ) = t1 at *
    generalize (2 : ℝ) ^ (-60 : ℤ) = t2 at *
    linarith only [st1, Tlo, e61']
  have Shi : (a k / (μ * l)) ^ (1 / β) ≤ 2 ^ (61 : ℤ) := by
    generalize (2 : ℝ) ^ (61 : ℤ) = t1 at *
    generalize (2 : ℝ) ^ (60 : ℤ) = t2 at *
    linarith only [st2, Thi, e61, T0]
  -- the rate in doubles
  obtain ⟨ρ, hρe, hρ⟩ := C119_accuracy hacc (fun _ _ _ => .error .valueError) [x] _ L u v (PyFloat.ofInt 0) "" 0 x _ (a k) l μ β 0
    (calcR_scalar _ _ _ _ _ _ _) rfl rfl hx hr.hl hr.hα hr.hβ RFl.val_zero
    (by
      have e : (2 : ℝ) ^ (-300 : ℤ) ≤ 2 ^ (-34 : ℤ) := zpow_le_zpow_right₀ (by norm_num) (by norm_num)
      refine e.trans ?_
      norm_num at g1 ab1 ⊢
      linarith)
    (by
      have e : (2 : ℝ) ^ (11 : ℤ) ≤ 2 ^ (300 : ℤ) := zpow_le_zpow_right₀ (by norm_num) (by norm_num)
      refine le_trans ?_ e
      norm_num
      linarith) hr.l1 hr.l2 hr.α1 hr.α2 hr.β1 hr.β2
    (Slo.trans' (zpow_le_zpow_right₀ (by norm_num) (by norm_num))) (Shi.trans (zpow_le_zpow_right₀ (by norm_num) (by norm_num)))
  obtain ⟨ρ0, lρ⟩ := log_ratio S0 (by norm_num) hρe
  rw [if_neg (not_lt.mpr ρ0.le)] at hρ
  have lall : |Real.log ρ - Real.log (rainOf m b l (gridA k))| ≤ 51 / 10 * 2 ^ (-46 : ℤ) + 340 * ε := by
    refine (abs_sub_le _ (Real.log ((a k / (μ * l)) ^ (1 / β))) _).trans ((add_le_add lρ lST).trans ?_)
    norm_num
    linarith
  have k1 := pastorek_rate_close α0 ζ0 ζ1 h.δ0 T0 ρ0 (by norm_num at hε ⊢; linarith) lall
  -- the formula in doubles
  obtain ⟨waa, hwaa, -, hz⟩ := C154_accuracy hpow hexp he h hζ hα1 hα2 hδ2 [rateF u v L (PyFloat.ofInt 0) x]
  have hρb : ρ ≤ 2 ^ (62 : ℤ) := by
    have b := (abs_le.mp hρe).2
    have c : (2 : ℝ) ^ (-46 : ℤ) * (a k / (μ * l)) ^ (1 / β) ≤ 1 * (a k / (μ * l)) ^ (1 / β) := mul_le_mul_of_nonneg_right (by norm_num) S0.le
    have e : (2 : ℝ) ^ (61 : ℤ) * 2 = 2 ^ (62 : ℤ) := by norm_num
    generalize (2 : ℝ) ^ (-46 : ℤ) * (a k / (μ * l)) ^ (1 / β) = t at *
    generalize (2 : ℝ) ^ (61 : ℤ) = t1 at *
    generalize (2 : ℝ) ^ (62 : ℤ) = t2 at *
    linarith only [b, c, e, Shi]
  have hpw : ρ ^ ζ ≤ 2 ^ (900 : ℤ) := by
    rcases le_total ρ 1 with h1 | h1
    · exact (Real.rpow_le_one ρ0.le h1 ζ0.le).trans (one_le_zpow₀ (by norm_num) (by norm_num))
    · calc ρ ^ ζ ≤ ρ ^ (1 : ℝ) := Real.rpow_le_rpow_of_exponent_le h1 ζ1
        _ = ρ := Real.rpow_one ρ
        _ ≤ 2 ^ (62 : ℤ) := hρb
        _ ≤ _ := zpow_le_zpow_right₀ (by norm_num) (by norm_num)
  obtain ⟨y, w', hy, hyv, hwe⟩ := hz 0 _ ρ rfl hρ ρ0.le hpw
  cases hwaa
  simp only [List.map_cons, List.getElem?_cons_zero, Option.some.injEq] at hy
  subst hy
  rw [hw] at hyv
  cases hyv
  refine (abs_sub_le _ _ _).trans ((add_le_add hwe k1).trans ?_)
  rw [← add_mul]
  refine mul_le_mul_of_nonneg_right ?_ α0.le
  norm_num
  linarith

/-- **C163** Accuracy: where both the exact look-up and the one in doubles give a result, they differ by at most `2^-40 A_max`
plus `2^-44` times the observed attenuation, plus `2^11 ε A_max` if the power-law parameters of the two runs differ by `ε`. -/
theorem C163_accuracy [PyPow DblR] [MonoPow DblR] [PyExp DblR] (hpow : PowClose) (hacc : PowAccurate) (hexp : ExpClose)
    (he : ExpRange) (hm : ExpMono)
    (ab : List DblR → List String → String → Except Err (List DblR × List DblR)) {grid : List DblR} {a : ℕ → ℝ}
    (hg : DoubleGrid grid a) {f L A_max zeta d u v : DblR} {pol : String} {α ζ δ l μ β m b ε : ℝ}
    (h : PastorekParams A_max zeta d α δ) (hζ : zeta.val = .fin ζ) (ζ1 : ζ ≤ 1)
    (hα1 : 2 ^ (-300 : ℤ) ≤ α) (hα : α ≤ 2 ^ (14 : ℤ)) (hδ2 : δ ≤ 2 ^ (100 : ℤ))
    (hab : ab [f /ᶠ PyFloat.ofInt 1000000000] [pol] "ITU_2005" = .ok ([u], [v]))
    (hr : RateRange L u v l μ β) (β1 : 1 / 2 ≤ β)
    (m0 : 0 < m) (b0 : 0 < b) (b8 : b ≤ 8) (hε : ε ≤ 2 ^ (-16 : ℤ)) (hmε : |μ - m| ≤ ε * m) (hbε : |1 / β - 1 / b| ≤ ε)
    (hT1 : (2 : ℝ) ^ (-60 : ℤ) ≤ (gridA 1 / (m * l)) ^ (1 / b)) (hT2 : (1000 / (m * l)) ^ (1 / b) ≤ 2 ^ (60 : ℤ))
    (spline : Spline) (fx : Fl ℝ)
    (habx : a_b spline [fx /ᶠ PyFloat.ofInt 1000000000] [pol] "ITU_2005" = .ok ([.fin m], [.fin b]))
    (A_obs out : List DblR) (ref : List (Fl ℝ))
    (hout : pastorekFromAObs ab grid A_obs f pol L A_max zeta d = .ok out)
    (href : waa_pastorek_2021_from_A_obs spline (A_obs.map (·.val)) fx pol (.fin l) (.fin α) (.fin ζ) (.fin δ) = .ok ref) :
    out.length = A_obs.length ∧ ref.length = A_obs.length ∧
    ∀ (i : ℕ) (z : DblR) (x : ℝ), A_obs[i]? = some z → z.val = .fin x →
      ∃ (y : DblR) (v' r : ℝ), out[i]? = some y ∧ y.val = .fin v' ∧ ref[i]? = some (.fin r) ∧
        |v' - r| ≤ (2 ^ (-40 : ℤ) + 2 ^ (11 : ℤ) * ε) * α + 2 ^ (-44 : ℤ) * x := by
  have α0 := h.α0
  have ζ0 : 0 < ζ := by
    have := h.hz
    rw [RFl.lt_def, RFl.val_zero, hζ, Fl.pf_lt_fin, decide_eq_true_eq] at this
    exact this
  have p300 : (0 : ℝ) < 2 ^ (-300 : ℤ) := by positivity
  have l0 := p300.trans_le hr.l1
  have ε0 : 0 ≤ ε := (abs_nonneg _).trans hbε
  obtain ⟨w, hw, w0, w00, wm, wα⟩ := table_double he hm hg h hr.rainParams
  set waa := grid.map fun x => pastorekElem A_max zeta d (rateF u v L (PyFloat.ofInt 0) x) with hwaa
  have hwl : waa.length = 100 := by rw [hwaa, List.length_map, hg.len]
  have hwv : ∀ k, k < 100 → ∃ x, waa[k]? = some x ∧ x.val = .fin (w k) := by
    intro k hk
    obtain ⟨x, hx, _, hp⟩ := hw k hk
    exact ⟨_, by rw [hwaa, List.getElem?_map, hx]; rfl, hp⟩
  have hα2 : α ≤ 2 ^ (300 : ℤ) := hα.trans (zpow_le_zpow_right₀ (by norm_num) (by norm_num))
  set W : ℕ → ℝ := fun k => pastorek α ζ δ (rainOf m b l (gridA k)) with hW
  have hwW : ∀ k, k < 100 → |w k - W k| ≤ (2 ^ (-42 : ℤ) + 1024 * ε) * α := by
    intro k hk
    obtain ⟨x, hx, hxv, hp⟩ := hw k hk
    exact entry_close hpow hacc hexp he hg h hζ ζ1 hα1 hα2 hδ2 hr β1 m0 b0 b8 hε hmε hbε hT1 hT2 hk hxv hp
  obtain ⟨X, X0, Xe, Xm, Xs, hq, hv⟩ := query_double hg hwl hwv w0 w00 wm wα hα
  -- the exact run
  have hR : ∀ k, 0 ≤ rainOf m b l (gridA k) := fun k => rainOf_nonneg m0 l0 (gridA_nonneg k)
  have hWm : StrictMono W := fun i j hij =>
    pastorek_strictMono α0 ζ0 h.δ0 (hR i) (rainOf_strictMono m0 b0 l0 (gridA_nonneg i) (gridA_strictMono hij))
  have hW0 : W 0 = 0 := by
    simp only [hW]
    rw [show gridA 0 = 0 from rfl, rainOf_zero b0, pastorek_zero ζ0]
  have hinc : StrictMono fun k => gridA k + W k := fun i j hij => add_lt_add (gridA_strictMono hij) (hWm hij)
  have hnegx : (A_obs.map (·.val)).any (fun x => x <ᶠ (PyFloat.ofInt 0 : Fl ℝ)) = false := by
    by_contra hc
    rw [Bool.not_eq_false] at hc
    rw [from_A_obs_eq, if_pos hc] at href
    cases href
  rw [pastorek_lookup m0 b0 l0 ζ0 spline fx pol habx _ hnegx] at href
  obtain ⟨g, hgl, _, _, _, _, _, gok, gerr⟩ := lookup_spec_linI W hinc
  have hin : ∀ z ∈ A_obs.map (·.val), z = .nan ∨ ∃ x, z = .fin x ∧ W 0 ≤ x ∧ x ≤ 1000 + W 99 := by
    by_contra hc
    push Not at hc
    obtain ⟨z, hz, hz1, hz2⟩ := hc
    have := gerr _ ⟨z, hz, hz1, fun x hx hxx => absurd hxx.2 (not_le.mpr (hz2 x hx hxx.1))⟩
    rw [this] at href
    cases href
  rw [gok _ hin] at href
  cases href
  -- the run in doubles
  have hneg : A_obs.any (fun x => x <ᶠ (PyFloat.ofInt 0 : DblR)) = false := by
    by_contra hc
    rw [Bool.not_eq_false] at hc
    rw [from_A_obs_double grid A_obs hab, if_pos hc] at hout
    cases hout
  rw [from_A_obs_double grid A_obs hab, hneg, if_neg Bool.false_ne_true, ← hwaa] at hout
  unfold lookupOn at hout
  dsimp only at hout
  have hall : ∀ z ∈ A_obs, interp1dLinear (List.zipWith (· +ᶠ ·) grid waa) waa z =
      .ok (if isNaN z then z else npInterp ((List.zipWith (· +ᶠ ·) grid waa).zip waa) z) := by
    by_contra hc
    push Not at hc
    obtain ⟨z, hz, hne⟩ := hc
    have herr : interp1dLinear (List.zipWith (· +ᶠ ·) grid waa) waa z = .error .valueError := by
      rw [hq z] at hne ⊢
      split_ifs at hne ⊢ <;> first | exact absurd rfl hne | rfl
    rw [mapM_error _ .valueError _ (by
      intro y _
      rw [hq y]
      split_ifs
      · exact .inl ⟨_, rfl⟩
      · exact .inl ⟨_, rfl⟩
      · exact .inr rfl) z hz herr] at hout
    cases hout
  rw [mapM_ok _ _ _ hall] at hout
  cases hout
  refine ⟨by simp, by simp, ?_⟩
  intro i z x hi hx
  have hz := List.mem_of_getElem? hi
  have hn : ¬ isNaN z = true := by rw [RFl.isNaN_def, hx]; exact Bool.false_ne_true
  have hxr : 0 ≤ x ∧ x ≤ 1000 + W 99 := by
    rcases hin z.val (List.mem_map.mpr ⟨z, hz, rfl⟩) with e | ⟨x', e, h1, h2⟩
    · rw [hx] at e; cases e
    · rw [hx] at e; cases e
      rw [hW0] at h1
      exact ⟨h1, h2⟩
  have hx99 : x ≤ X 99 := by
    have := hall z hz
    rw [hq z, if_neg hn, if_neg hn] at this
    by_contra hc
    rw [if_neg (by rw [hx]; simp; intro _; exact not_le.mp hc)] at this
    cases this
  obtain ⟨y, y1, y2, y3, y4⟩ := hv z x hx hxr.1
  refine ⟨_, y, g x, by rw [List.getElem?_map, hi]; rfl, ?_, ?_, ?_⟩
  · dsimp only
    rw [if_neg hn]
    exact y1
  · rw [List.getElem?_map, List.getElem?_map, hi, Option.map_some, Option.map_some, hx]
  · have hG : linI ((List.range 100).map fun k => (X k, w k)) x ≤ α := by
      have hI : Inc ((List.range 100).map fun k => (X k, w k)) := by
        rw [Inc, List.pairwise_iff_getElem]
        intro i j hi hj hij
        have hj' : j < 100 := by simpa using hj
        simp only [List.getElem_map, List.getElem_range]
        exact Xm i j hij hj'
      refine (linI_bounds _ hI (lo := 0) (hi := α) ?_ ?_ (X 0, w 0) ?_ x (by rw [X0]; exact hxr.1)).2
      · intro p hp
        rw [List.mem_map] at hp
        obtain ⟨k, hk, rfl⟩ := hp
        exact w0 k (List.mem_range.mp hk)
      · intro p hp
        rw [List.mem_map] at hp
        obtain ⟨k, hk, rfl⟩ := hp
        exact wα k (List.mem_range.mp hk)
      · rw [List.head?_eq_getElem?, List.getElem?_map, List.getElem?_range (by norm_num)]; rfl
    have hp := linI_perturb 99 X w (fun k => gridA k + W k) W (by norm_num) (2 ^ (-44 : ℤ)) ((2 ^ (-42 : ℤ) + 1024 * ε) * α)
      (fun i j hij hj => Xm i j hij (by omega)) (fun i j hij _ => hinc hij)
      (fun i j hij _ => ⟨(hWm hij).le, by have := gridA_strictMono hij; linarith⟩)
      (fun i _ => hinc.monotone (Nat.zero_le i))
      (by
        intro k hk
        have e1 := Xe k (by omega)
        have e2 := hg.close k (by omega)
        have e3 := hwW k (by omega)
        have b := hg.bounds (k := k) (by omega)
        have a0 := hg.nonneg (k := k) (by omega)
        have c0 := w0 k (by omega)
        have s0 : 0 ≤ a k + w k := by linarith
        have t1 : |X k - (gridA k + W k)| ≤ |X k - (a k + w k)| + |a k - gridA k| + |w k - W k| := by
          rw [show X k - (gridA k + W k) = (X k - (a k + w k)) + (a k - gridA k) + (w k - W k) by ring]
          exact abs_add_three _ _ _
        have Xlo : a k + w k ≤ 101 / 100 * X k := by
          have f := (abs_le.mp e1).1
          have r : (2 : ℝ) ^ (-53 : ℤ) * (a k + w k) ≤ 1 / 1000 * (a k + w k) := mul_le_mul_of_nonneg_right (by norm_num) s0
          generalize (2 : ℝ) ^ (-53 : ℤ) * (a k + w k) = t at *
          linarith
        have X0' : 0 ≤ X k := by linarith
        have r1 : (2 : ℝ) ^ (-53 : ℤ) * (a k + w k) ≤ 2 ^ (-53 : ℤ) * (101 / 100 * X k) := mul_le_mul_of_nonneg_left Xlo (by positivity)
        have r2 : (2 : ℝ) ^ (-45 : ℤ) * gridA k ≤ 2 ^ (-45 : ℤ) * (102 / 100 * X k) :=
          mul_le_mul_of_nonneg_left (by linarith [gridA_nonneg k]) (by positivity)
        have r3 : (2 : ℝ) ^ (-53 : ℤ) * (101 / 100 * X k) + 2 ^ (-45 : ℤ) * (102 / 100 * X k) ≤ 2 ^ (-44 : ℤ) * X k := by
          rw [← mul_assoc, ← mul_assoc, ← add_mul]
          exact mul_le_mul_of_nonneg_right (by norm_num) X0'
        refine t1.trans (add_le_add ((add_le_add e1 e2).trans ((add_le_add r1 r2).trans r3)) e3))
      (fun k hk => hwW k (by omega)) x (by rw [X0]; exact hxr.1) (by rw [show gridA 0 = 0 from rfl, hW0, add_zero]; exact hxr.1) hx99
    rw [← hgl] at hp
    refine (abs_sub_le _ _ _).trans ((add_le_add y4 hp).trans ?_)
    have b1 : (2 : ℝ) ^ (-49 : ℤ) * linI ((List.range 100).map fun k => (X k, w k)) x ≤ 2 ^ (-49 : ℤ) * α :=
      mul_le_mul_of_nonneg_left hG (by positivity)
    have b2 : (2 : ℝ) ^ (-1000 : ℤ) ≤ 2 ^ (-49 : ℤ) * α := by
      calc (2 : ℝ) ^ (-1000 : ℤ) ≤ 2 ^ (-349 : ℤ) := zpow_le_zpow_right₀ (by norm_num) (by norm_num)
        _ = 2 ^ (-49 : ℤ) * 2 ^ (-300 : ℤ) := by rw [← zpow_add₀ (by norm_num)]; norm_num
        _ ≤ _ := mul_le_mul_of_nonneg_left hα1 (by positivity)
    have b3 : (2 : ℝ) ^ (-49 : ℤ) * α + 2 ^ (-49 : ℤ) * α + 2 * ((2 ^ (-42 : ℤ) + 1024 * ε) * α) ≤ (2 ^ (-40 : ℤ) + 2 ^ (11 : ℤ) * ε) * α := by
      rw [← mul_assoc, ← add_mul, ← add_mul]
      refine mul_le_mul_of_nonneg_right ?_ α0.le
      norm_num
      linarith
    generalize (2 : ℝ) ^ (-1000 : ℤ) = t1 at *
    generalize (2 : ℝ) ^ (-49 : ℤ) * α = t2 at *
    generalize (2 : ℝ) ^ (-49 : ℤ) * linI ((List.range 100).map fun k => (X k, w k)) x = t3 at *
    generalize 2 * (((2 : ℝ) ^ (-42 : ℤ) + 1024 * ε) * α) = t4 at *
    generalize ((2 : ℝ) ^ (-40 : ℤ) + 2 ^ (11 : ℤ) * ε) * α = t5 at *
    linarith

/-- the ITU table, cubic spline: rain rates of the look-up table are far from overflow and underflow -/
theorem itu_rates {m b l : ℝ} (m1 : 0.000025 ≤ m) (m2 : m ≤ 1.37) (b1 : 0.67 ≤ b) (l1 : 1 / 10 ≤ l) (l2 : l ≤ 50) :
    (2 : ℝ) ^ (-60 : ℤ) ≤ (gridA 1 / (m * l)) ^ (1 / b) ∧ (1000 / (m * l)) ^ (1 / b) ≤ 2 ^ (60 : ℤ) := by
  have m0 : 0 < m := by norm_num at m1; linarith
  have l0 : 0 < l := by linarith
  have b0 : 0 < b := by norm_num at b1; linarith
  have i2 : 1 / b ≤ 3 / 2 := by rw [div_le_iff₀ b0]; norm_num at b1; linarith
  have i0 : 0 ≤ 1 / b := by positivity
  have ml1 : (0.0000025 : ℝ) ≤ m * l := by
    calc (0.0000025 : ℝ) = 0.000025 * (1 / 10) := by norm_num
      _ ≤ _ := mul_le_mul m1 l1 (by norm_num) m0.le
  have ml2 : m * l ≤ 68.5 := by
    calc m * l ≤ 1.37 * 50 := mul_le_mul m2 l2 l0.le (by norm_num)
      _ = 68.5 := by norm_num
  have ml0 : 0 < m * l := mul_pos m0 l0
  have g := grid_first_ge
  constructor
  · have q : (2 : ℝ) ^ (-40 : ℝ) ≤ gridA 1 / (m * l) := by
      rw [le_div_iff₀ ml0]
      have : (2 : ℝ) ^ (-40 : ℝ) = 2 ^ (-40 : ℤ) := by rw [← Real.rpow_intCast]; norm_num
      rw [this]
      refine le_trans (mul_le_mul_of_nonneg_left ml2 (by positivity)) (le_trans ?_ g)
      norm_num
    calc (2 : ℝ) ^ (-60 : ℤ) = ((2 : ℝ) ^ (-40 : ℝ)) ^ (3 / 2 : ℝ) := by
          rw [← Real.rpow_mul (by norm_num), ← Real.rpow_intCast]; norm_num
      _ ≤ ((2 : ℝ) ^ (-40 : ℝ)) ^ (1 / b) := by
          refine Real.rpow_le_rpow_of_exponent_ge (by positivity) ?_ i2
          exact Real.rpow_le_one_of_one_le_of_nonpos (by norm_num) (by norm_num)
      _ ≤ _ := Real.rpow_le_rpow (by positivity) q i0
  · have q : 1000 / (m * l) ≤ (2 : ℝ) ^ (40 : ℝ) := by
      rw [div_le_iff₀ ml0]
      have : (2 : ℝ) ^ (40 : ℝ) = 2 ^ (40 : ℤ) := by rw [← Real.rpow_intCast]; norm_num
      rw [this]
      refine le_trans ?_ (mul_le_mul_of_nonneg_left ml1 (by positivity))
      norm_num
    calc (1000 / (m * l)) ^ (1 / b) ≤ ((2 : ℝ) ^ (40 : ℝ)) ^ (1 / b) := Real.rpow_le_rpow (by positivity) q i0
      _ ≤ ((2 : ℝ) ^ (40 : ℝ)) ^ (3 / 2 : ℝ) := Real.rpow_le_rpow_of_exponent_le (Real.one_le_rpow (by norm_num) (by norm_num)) i2
      _ = _ := by rw [← Real.rpow_mul (by norm_num), ← Real.rpow_intCast]; norm_num

/-- **C163** With the ITU table: for frequencies of 1 to 100 GHz, paths of 0.1 to 50 km and observations from 0 to 999 dB (or
NaN), both runs succeed and differ by at most `(2^-40 + 2^11 ε) A_max + 2^-44 A_obs`, where `ε` bounds the relative error of `a` and
the absolute error of `1 / b` in the run in doubles. -/
theorem C163_itu [PyPow DblR] [MonoPow DblR] [PyExp DblR] (hpow : PowClose) (hacc : PowAccurate) (hexp : ExpClose)
    (he : ExpRange) (hm : ExpMono)
    (ab : List DblR → List String → String → Except Err (List DblR × List DblR)) {grid : List DblR} {a : ℕ → ℝ}
    (hg : DoubleGrid grid a) {f L A_max zeta d u v : DblR} {pol : String} {α ζ δ l μ β ε fx : ℝ}
    (h : PastorekParams A_max zeta d α δ) (hζ : zeta.val = .fin ζ) (ζ1 : ζ ≤ 1)
    (hα1 : 2 ^ (-300 : ℤ) ≤ α) (hα : α ≤ 2 ^ (14 : ℤ)) (hδ2 : δ ≤ 2 ^ (100 : ℤ))
    (hl : L.val = .fin l) (l1 : 1 / 10 ≤ l) (l2 : l ≤ 50) (f1 : 10 ^ 9 ≤ fx) (f2 : fx ≤ 100 * 10 ^ 9) (hp : isH pol ∨ isV pol)
    (hab : ab [f /ᶠ PyFloat.ofInt 1000000000] [pol] "ITU_2005" = .ok ([u], [v])) (hu : u.val = .fin μ) (hv : v.val = .fin β) :
    ∃ m b : ℝ, 0 < m ∧ 0 < b ∧ a_b cubicSpline [.fin (fx / 10 ^ 9)] [pol] "ITU_2005" = .ok ([.fin m], [.fin b]) ∧
      (ε ≤ 2 ^ (-16 : ℤ) → |μ - m| ≤ ε * m → |1 / β - 1 / b| ≤ ε →
        ∀ A_obs : List DblR, (∀ z ∈ A_obs, isNaN z = true ∨ ∃ x, z.val = .fin x ∧ 0 ≤ x ∧ x ≤ 999) →
        ∃ out ref, pastorekFromAObs ab grid A_obs f pol L A_max zeta d = .ok out ∧
          waa_pastorek_2021_from_A_obs cubicSpline (A_obs.map (·.val)) (.fin fx) pol (.fin l) (.fin α) (.fin ζ) (.fin δ) = .ok ref ∧
          out.length = A_obs.length ∧ ref.length = A_obs.length ∧
          ∀ (i : ℕ) (z : DblR) (x : ℝ), A_obs[i]? = some z → z.val = .fin x →
            ∃ (y : DblR) (v' r : ℝ), out[i]? = some y ∧ y.val = .fin v' ∧ ref[i]? = some (.fin r) ∧
              |v' - r| ≤ (2 ^ (-40 : ℤ) + 2 ^ (11 : ℤ) * ε) * α + 2 ^ (-44 : ℤ) * x) := by
  have g1 : 1 ≤ fx / 10 ^ 9 := by rw [le_div_iff₀ (by norm_num)]; linarith
  have g2 : fx / 10 ^ 9 ≤ 100 := by rw [div_le_iff₀ (by norm_num)]; linarith
  obtain ⟨r, r', hrr, habx⟩ := ab_single g1 g2 hp (Or.inr rfl : "ITU_2005" = "ITU_2003" ∨ "ITU_2005" = "ITU_2005")
  obtain ⟨m1, m2⟩ := cert_a_range (Or.inr rfl : "ITU_2005" = "ITU_2003" ∨ "ITU_2005" = "ITU_2005") (r := r) (by tauto) g1 g2
  obtain ⟨b1, b2⟩ := cert_b_range (Or.inr rfl : "ITU_2005" = "ITU_2003" ∨ "ITU_2005" = "ITU_2005") (r := r') (by tauto) g1 g2
  generalize (certOf "ITU_2005" r).s (fx / 10 ^ 9) = m at *
  generalize (certOf "ITU_2005" r').s (fx / 10 ^ 9) = b at *
  have m0 : 0 < m := by norm_num at m1; linarith
  have b0 : 0 < b := by norm_num at b1; linarith
  refine ⟨m, b, m0, b0, habx, ?_⟩
  intro hε hmε hbε A_obs hA
  have l0 : 0 < l := by linarith
  obtain ⟨T1, T2⟩ := itu_rates m1 m2 b1 l1 l2
  have i2 : 1 / b ≤ 3 / 2 := by rw [div_le_iff₀ b0]; norm_num at b1; linarith
  have i1 : 1 / 2 ≤ 1 / b := one_div_le_one_div_of_le b0 (by norm_num at b2; linarith)
  have hε' : ε ≤ 1 / 100 := hε.trans (by norm_num)
  obtain ⟨β1', β2'⟩ := abs_le.mp hbε
  have iβ : 0 < 1 / β := by linarith
  have β0 : 0 < β := one_div_pos.mp iβ
  have bβ1 : 1 / 2 ≤ β := by
    have : 1 / β ≤ 2 := by linarith
    rw [div_le_iff₀ β0] at this
    linarith
  have bβ2 : β ≤ 8 := by
    have : 1 / 8 ≤ 1 / β := by linarith
    rw [le_div_iff₀ β0] at this
    linarith
  obtain ⟨μ1', μ2'⟩ := abs_le.mp hmε
  have em : ε * m ≤ 1 / 100 * m := mul_le_mul_of_nonneg_right hε' m0.le
  have lo : ∀ x : ℝ, 1 / 2 ^ 20 ≤ x → (2 : ℝ) ^ (-300 : ℤ) ≤ x := fun x hx =>
    le_trans (le_trans (zpow_le_zpow_right₀ (by norm_num) (by norm_num) : (2 : ℝ) ^ (-300 : ℤ) ≤ 2 ^ (-20 : ℤ)) (by norm_num)) hx
  have hi : ∀ x : ℝ, x ≤ 64 → x ≤ (2 : ℝ) ^ (300 : ℤ) := fun x hx =>
    le_trans hx (le_trans (by norm_num : (64 : ℝ) ≤ 2 ^ (6 : ℤ)) (zpow_le_zpow_right₀ (by norm_num) (by norm_num)))
  have hr : RateRange L u v l μ β := ⟨hl, hu, hv, lo l (by norm_num; linarith), hi l (by linarith),
    lo μ (by norm_num at m1 ⊢; linarith), hi μ (by norm_num at m2; linarith), by linarith, bβ2⟩
  obtain ⟨top, t1, -, hrun, -⟩ := C163_range he hm ab hg h hα hab hr.rainParams
  have ζ0 : 0 < ζ := by
    have := h.hz
    rw [RFl.lt_def, RFl.val_zero, hζ, Fl.pf_lt_fin, decide_eq_true_eq] at this
    exact this
  have habx' : a_b cubicSpline [Fl.fin fx /ᶠ PyFloat.ofInt 1000000000] [pol] "ITU_2005" = .ok ([.fin m], [.fin b]) := by
    rw [Fl.pf_ofInt, Fl.pf_div_fin_ne _ _ (by norm_num)]
    push_cast
    norm_num at habx ⊢
    exact habx
  obtain ⟨g, top', t1', -, -, -, -, -, gok, -⟩ := C16_from_A_obs m0 b0 l0 h.α0 ζ0 h.δ0 cubicSpline (.fin fx) pol habx'
  obtain ⟨out, ho, -⟩ := hrun A_obs (by
    intro z hz
    rcases hA z hz with hn | ⟨x, hx, x0, x1⟩
    · exact .inl hn
    · exact .inr ⟨x, hx, x0, x1.trans t1⟩)
  have hx := gok (A_obs.map (·.val)) (by
    intro z hz
    obtain ⟨y, hy, rfl⟩ := List.mem_map.mp hz
    rcases hA y hy with hn | ⟨x, hx, x0, x1⟩
    · rw [RFl.isNaN_def] at hn
      left
      cases hv : y.val <;> rw [hv] at hn <;> first | rfl | cases hn
    · exact .inr ⟨x, hx, x0, by linarith⟩)
  refine ⟨out, _, ho, hx, C163_accuracy hpow hacc hexp he hm ab hg h hζ ζ1 hα1 hα hδ2 hab hr bβ1 m0 b0 (by norm_num at b2; linarith)
    hε hmε hbε T1 T2 cubicSpline (.fin fx) habx' A_obs out _ ho hx⟩

/-- correctly rounded values of the grid -/
theorem doubleGrid_exists : ∃ (grid : List DblR) (a : ℕ → ℝ), DoubleGrid grid a := by
  have key : ∀ k, ∃ x : DblR, k < 100 → ∃ y, x.val = .fin y ∧ |y - gridA k| ≤ 2 ^ (-45 : ℤ) * gridA k := by
    intro k
    rcases Nat.eq_zero_or_pos k with rfl | hk
    · exact ⟨PyFloat.ofInt 0, fun _ => ⟨0, RFl.val_zero, by simp [gridA]⟩⟩
    · refine ⟨RFl.mk' _ (.fin (gridA k)), fun hk' => ?_⟩
      have g1 : (1.3e-10 : ℝ) ≤ gridA k := grid_first_ge.trans (gridA_strictMono.monotone hk)
      have g2 := grid_le_1000 hk'
      obtain ⟨w, hw, he⟩ := round_rel (z := gridA k)
        (le_trans (le_trans (zpow_le_zpow_right₀ (by norm_num) (by norm_num) : (2 : ℝ) ^ (-1000 : ℤ) ≤ 2 ^ (-40 : ℤ)) (by norm_num)) g1)
        (g2.trans (le_trans (by norm_num : (1000 : ℝ) ≤ 2 ^ (10 : ℤ)) (zpow_le_zpow_right₀ (by norm_num) (by norm_num))))
      exact ⟨w, hw, he.trans (mul_le_mul_of_nonneg_right (by norm_num) (gridA_nonneg k))⟩
  choose x hx using key
  choose! y hy using hx
  exact ⟨(List.range 100).map x, y, by simp, fun k hk => ⟨x k, by simp [hk], (hy k hk).1⟩, fun k hk => (hy k hk).2⟩

/-- a link of 5 km at 23 GHz, with correctly rounded functions and parameters within `2^-40` of the exact ones: NaN, no attenuation
and 30 dB -/
example (ab : List DblR → List String → String → Except Err (List DblR × List DblR)) (f u v nan x0 x30 : DblR) (μ β m b : ℝ)
    (hab : ab [f /ᶠ PyFloat.ofInt 1000000000] ["V"] "ITU_2005" = .ok ([u], [v])) (hu : u.val = .fin μ) (hv : v.val = .fin β)
    (hx : a_b cubicSpline [.fin (23 * 10 ^ 9 / 10 ^ 9)] ["V"] "ITU_2005" = .ok ([.fin m], [.fin b]))
    (hm : |μ - m| ≤ 2 ^ (-40 : ℤ) * m) (hb : |1 / β - 1 / b| ≤ 2 ^ (-40 : ℤ))
    (h1 : nan.val = .nan) (h2 : x0.val = .fin 0) (h3 : x30.val = .fin 30) :
    ∃ grid a, DoubleGrid grid a ∧ ∃ out ref,
      @pastorekFromAObs DblR _ (correctPow _) correctExp ab grid [nan, x0, x30] f "V"
        (dyad 5 0 (by norm_num) (by norm_num) (by norm_num) (by norm_num))
        (dyad 14 0 (by norm_num) (by norm_num) (by norm_num) (by norm_num))
        (dyad 1 (-1) (by norm_num) (by norm_num) (by norm_num) (by norm_num))
        (dyad 1 (-3) (by norm_num) (by norm_num) (by norm_num) (by norm_num)) = .ok out ∧
      waa_pastorek_2021_from_A_obs cubicSpline [.nan, .fin 0, .fin 30] (.fin (23 * 10 ^ 9)) "V" (.fin 5) (.fin 14) (.fin (1 / 2))
        (.fin (1 / 8)) = .ok ref ∧
      ∃ (y : DblR) (v' r : ℝ), out[2]? = some y ∧ y.val = .fin v' ∧ ref[2]? = some (.fin r) ∧ |v' - r| ≤ 1 / 10 ^ 7 := by
  obtain ⟨grid, a, hg⟩ := doubleGrid_exists
  refine ⟨grid, a, hg, ?_⟩
  let _ := correctPow (binary64 (K := ℝ))
  let _ := correctExp
  have _ := correctPow_laws (binary64 (K := ℝ))
  obtain ⟨m', b', m0, b0, hmb, hh⟩ := C163_itu correctPow_close correctPow_accurate correctExp_close correctExp_range correctExp_mono
    ab hg (L := dyad 5 0 (by norm_num) (by norm_num) (by norm_num) (by norm_num))
    (A_max := dyad 14 0 (by norm_num) (by norm_num) (by norm_num) (by norm_num))
    (zeta := dyad 1 (-1) (by norm_num) (by norm_num) (by norm_num) (by norm_num))
    (d := dyad 1 (-3) (by norm_num) (by norm_num) (by norm_num) (by norm_num)) (α := 14) (ζ := 1 / 2) (δ := 1 / 8) (l := 5)
    (ε := 2 ^ (-40 : ℤ)) (fx := 23 * 10 ^ 9)
    ⟨by simp [dyad], by norm_num, by simp [dyad]; norm_num, by norm_num, by
      rw [RFl.lt_def, RFl.val_zero]; simp [dyad]⟩ (by simp [dyad]) (by norm_num)
    ((zpow_le_one_of_nonpos₀ (by norm_num) (by norm_num)).trans (by norm_num)) (by norm_num)
    (le_trans (by norm_num) (one_le_zpow₀ (by norm_num) (by norm_num))) (by simp [dyad]) (by norm_num) (by norm_num) (by norm_num)
    (by norm_num) (by simp [isV]) hab hu hv
  rw [hx] at hmb
  simp only [Except.ok.injEq, Prod.mk.injEq, List.cons.injEq, Fl.fin.injEq, and_true] at hmb
  obtain ⟨rfl, rfl⟩ := hmb
  obtain ⟨out, ref, h4, h5, -, -, h6⟩ := hh (by norm_num) hm hb [nan, x0, x30] (by
    intro z hz
    simp only [List.mem_cons, List.not_mem_nil, or_false] at hz
    rcases hz with rfl | rfl | rfl
    · left; rw [RFl.isNaN_def, h1]; rfl
    · exact .inr ⟨0, h2, by norm_num, by norm_num⟩
    · exact .inr ⟨30, h3, by norm_num, by norm_num⟩)
  refine ⟨out, ref, h4, ?_, ?_⟩
  · simp only [List.map_cons, List.map_nil, h1, h2, h3] at h5
    exact h5
  · obtain ⟨y, v', r, k1, k2, k3, k4⟩ := h6 2 x30 30 rfl h3
    exact ⟨y, v', r, k1, k2, k3, k4.trans (by norm_num)⟩

end Verif.Props
