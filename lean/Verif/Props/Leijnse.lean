import Verif.Props.WaaModels
import Mathlib.Analysis.SpecialFunctions.Pow.Continuity
import Mathlib.Topology.Order.Basic

/-!
# Properties C17 and C18: Leijnse wet antenna attenuation and the permittivity of water
-/

namespace Verif.Props
open Verif Verif.KR Verif.WaaModels

/-! ### C18 -/

theorem teta_range {T : ℝ} (h1 : 205 ≤ T) (h2 : T ≤ 339) :
    -0.4635 < teta T ∧ teta T < 0.1151 := by
  unfold teta
  have hT : 0 < T := by linarith
  have e : 300 / T * T = 300 := by field_simp
  constructor
  · nlinarith [div_pos (by norm_num : (0:ℝ) < 300) hT]
  · nlinarith [div_pos (by norm_num : (0:ℝ) < 300) hT]

theorem f1_pos (T : ℝ) : 0 < f1 T := by
  unfold f1
  nlinarith [sq_nonneg (teta T + 146.4 / 632)]

theorem e_order {T : ℝ} (h1 : 205 ≤ T) (h2 : T ≤ 339) :
    0 < e2 T ∧ e2 T < e1 T ∧ e1 T < e0 T := by
  obtain ⟨t1, t2⟩ := teta_range h1 h2
  unfold e1 e2 e0
  refine ⟨by linarith, by linarith, by linarith⟩

/-- one Debye relaxation term -/
theorem debye_re_im (e x : ℝ) :
    ((e : ℂ) / (1 - Complex.I * x)).re = e / (1 + x ^ 2) ∧
    ((e : ℂ) / (1 - Complex.I * x)).im = e * x / (1 + x ^ 2) := by
  have hns : Complex.normSq (1 - Complex.I * x) = 1 + x ^ 2 := by
    simp [Complex.normSq_apply]; ring
  constructor
  · rw [Complex.div_re, hns]; simp
  · rw [Complex.div_im, hns]; simp; ring

theorem one_sub_I_ne (x : ℝ) : (1 - Complex.I * x : ℂ) ≠ 0 := by
  intro h
  have := congrArg Complex.re h
  simp at this

theorem eps_water_eq (f T : ℝ) :
    eps_water f T = (e2 T : ℂ) + ((e1 T - e2 T : ℝ) : ℂ) / (1 - Complex.I * (f * 1e-9 / f2 T : ℝ))
      + ((e0 T - e1 T : ℝ) : ℂ) / (1 - Complex.I * (f * 1e-9 / f1 T : ℝ)) := by
  unfold eps_water
  push_cast
  simp only [mul_div_assoc]

/-- **C18** For `f ≥ 0` and temperatures from 205 K to 339 K the permittivity of water has
positive real part and non-negative imaginary part (positive for `f > 0`); at `f = 0` it is the
static permittivity `77.66 - 103.3 (1 - 300/T)`; no denominator is zero. -/
theorem C18_eps_water (f T : ℝ) (hf : 0 ≤ f) (h1 : 205 ≤ T) (h2 : T ≤ 339) :
    0 < (eps_water f T).re ∧ 0 ≤ (eps_water f T).im ∧ (0 < f → 0 < (eps_water f T).im) ∧
    eps_water 0 T = ((77.66 - 103.3 * (1 - 300 / T) : ℝ) : ℂ) ∧
    T ≠ 0 ∧
    ∀ g1 g2 : ℝ, g1 = 20.2 + 146.4 * (1 - 300 / T) + 316 * (1 - 300 / T) ^ 2 → g2 = 39.8 * g1 →
      g1 ≠ 0 ∧ g2 ≠ 0 ∧ (1 - Complex.I * (f * 1e-9 : ℝ) / g1 : ℂ) ≠ 0 ∧
      (1 - Complex.I * (f * 1e-9 : ℝ) / g2 : ℂ) ≠ 0 := by
  obtain ⟨o1, o2, o3⟩ := e_order h1 h2
  have p1 := f1_pos T
  have p2 : 0 < f2 T := by unfold f2; linarith
  set x1 := f * 1e-9 / f1 T with hx1
  set x2 := f * 1e-9 / f2 T with hx2
  have n1 : 0 ≤ x1 := by positivity
  have n2 : 0 ≤ x2 := by positivity
  have hre : (eps_water f T).re =
      e2 T + (e1 T - e2 T) / (1 + x2 ^ 2) + (e0 T - e1 T) / (1 + x1 ^ 2) := by
    rw [eps_water_eq, Complex.add_re, Complex.add_re, (debye_re_im _ _).1, (debye_re_im _ _).1]
    simp [hx1, hx2]
  have him : (eps_water f T).im =
      (e1 T - e2 T) * x2 / (1 + x2 ^ 2) + (e0 T - e1 T) * x1 / (1 + x1 ^ 2) := by
    rw [eps_water_eq, Complex.add_im, Complex.add_im, (debye_re_im _ _).2, (debye_re_im _ _).2]
    simp [hx1, hx2]
  have d1 : 0 < e1 T - e2 T := sub_pos.mpr o2
  have d2 : 0 < e0 T - e1 T := sub_pos.mpr o3
  refine ⟨?_, ?_, ?_, ?_, by linarith, ?_⟩
  · rw [hre]; positivity
  · rw [him]; positivity
  · intro hf'
    have n1' : 0 < x1 := by positivity
    rw [him]
    have : 0 ≤ (e1 T - e2 T) * x2 / (1 + x2 ^ 2) := by positivity
    have : 0 < (e0 T - e1 T) * x1 / (1 + x1 ^ 2) := by positivity
    linarith
  · rw [eps_water_eq]
    have : (e0 T : ℂ) = ((77.66 - 103.3 * (1 - 300 / T) : ℝ) : ℂ) := by rw [e0, teta]
    rw [← this]
    push_cast
    simp
  · intro g1 g2 hg1 hg2
    obtain rfl : g1 = f1 T := by rw [hg1, f1, teta]; ring
    obtain rfl : g2 = f2 T := hg2
    refine ⟨p1.ne', p2.ne', ?_, ?_⟩
    · have := one_sub_I_ne x1
      rwa [hx1, Complex.ofReal_div, ← mul_div_assoc] at this
    · have := one_sub_I_ne x2
      rwa [hx2, Complex.ofReal_div, ← mul_div_assoc] at this

open Filter Topology in
/-- **C18** For high frequencies the permittivity tends to the optical value `3.52 + 7.52 (1 - 300/T)`. -/
theorem C18_eps_water_limit (T : ℝ) :
    Tendsto (fun f : ℝ => eps_water f T) atTop (𝓝 ((3.52 + 7.52 * (1 - 300 / T) : ℝ) : ℂ)) := by
  have p1 := f1_pos T
  have p2 : 0 < f2 T := by unfold f2; linarith
  have key : ∀ g : ℝ, 0 < g → ∀ c : ℂ,
      Tendsto (fun f : ℝ => c / (1 - Complex.I * ((f * 1e-9 / g : ℝ) : ℂ))) atTop (𝓝 0) := by
    intro g hg c
    rw [tendsto_zero_iff_norm_tendsto_zero]
    have hb : Tendsto (fun f : ℝ => ‖c‖ / (f * 1e-9 / g)) atTop (𝓝 0) := by
      refine Tendsto.div_atTop tendsto_const_nhds ?_
      exact (tendsto_id.atTop_mul_const (by norm_num : (0:ℝ) < 1e-9)).atTop_div_const hg
    refine squeeze_zero' (Eventually.of_forall fun f => norm_nonneg _) ?_ hb
    filter_upwards [eventually_gt_atTop 0] with f hf
    rw [norm_div]
    have hx : 0 < f * 1e-9 / g := by positivity
    refine div_le_div_of_nonneg_left (norm_nonneg c) hx ?_
    have h := Complex.abs_im_le_norm (1 - Complex.I * ((f * 1e-9 / g : ℝ) : ℂ))
    rw [Complex.sub_im, Complex.one_im, Complex.im_mul_ofReal, Complex.I_im, one_mul, zero_sub,
      abs_neg, abs_of_pos hx] at h
    exact h
  have h1 := key (f2 T) p2 ((e1 T - e2 T : ℝ) : ℂ)
  have h2 := key (f1 T) p1 ((e0 T - e1 T : ℝ) : ℂ)
  have h3 := ((tendsto_const_nhds (x := (e2 T : ℂ))).add h1).add h2
  rw [add_zero, add_zero] at h3
  have he : ((3.52 + 7.52 * (1 - 300 / T) : ℝ) : ℂ) = (e2 T : ℂ) := by rw [e2, teta]
  rw [he]
  refine h3.congr fun f => ?_
  rw [eps_water_eq]

example : 0 < (eps_water 10000000000 293).im :=
  (C18_eps_water 10000000000 293 (by norm_num) (by norm_num) (by norm_num)).2.2.1 (by norm_num)

/-! ### C17 -/

/-- The transmission through the dry antenna cover: the term `y1 + y2` of the code. -/
noncomputable def coverTerm (f_Hz : ℝ) (n : ℂ) (l_antenna : ℝ) : ℂ :=
  (1 + n) ^ 2 * Complex.exp (-(Complex.I * 2 * Real.pi * f_Hz / 299792458) * n * l_antenna)
  - (1 - n) ^ 2 * Complex.exp ((Complex.I * 2 * Real.pi * f_Hz / 299792458) * n * l_antenna)

/-- With no water on the antenna the film expression is exactly 1, thus 0 dB. -/
theorem filmRatio_zero (f_Hz : ℝ) (n_water n_antenna : ℂ) (l_antenna : ℝ)
    (hw : n_water ≠ 0) (hc : coverTerm f_Hz n_antenna l_antenna ≠ 0) :
    filmRatio f_Hz n_water n_antenna l_antenna 0 = 1 ∧
    dB (filmRatio f_Hz n_water n_antenna l_antenna 0) = .fin 0 := by
  have h : filmRatio f_Hz n_water n_antenna l_antenna 0 = 1 := by
    unfold filmRatio
    unfold coverTerm at hc
    simp only [Complex.ofReal_zero, mul_zero, add_zero, sub_zero]
    set k : ℂ := Complex.I * 2 * Real.pi * f_Hz / 299792458
    rw [show -k * (n_antenna * l_antenna) = -k * n_antenna * l_antenna by ring,
      show k * (n_antenna * l_antenna) = k * n_antenna * l_antenna by ring]
    set Em := Complex.exp (-k * n_antenna * l_antenna)
    set Ep := Complex.exp (k * n_antenna * l_antenna)
    have hd : 2 * n_water * ((1 + n_antenna) ^ 2 * Em + -(1 - n_antenna) ^ 2 * Ep) ≠ 0 := by
      refine mul_ne_zero (mul_ne_zero two_ne_zero hw) ?_
      rwa [neg_mul, ← sub_eq_add_neg]
    rw [div_eq_one_iff_eq hd]
    ring
  refine ⟨h, ?_⟩
  rw [h, dB, if_neg one_ne_zero]
  simp

/-- For an absorbing cover (`Re n > 0`, `Im n ≥ 0`) the dry transmission term is never zero. -/
theorem coverTerm_ne_zero {f_Hz l_antenna : ℝ} {n : ℂ} (hf : 0 ≤ f_Hz) (hl : 0 ≤ l_antenna)
    (hre : 0 < n.re) (him : 0 ≤ n.im) : coverTerm f_Hz n l_antenna ≠ 0 := by
  intro h
  unfold coverTerm at h
  set z : ℂ := (Complex.I * 2 * Real.pi * f_Hz / 299792458) * n * l_antenna with hz
  have hneg : -(Complex.I * 2 * Real.pi * f_Hz / 299792458) * n * l_antenna = -z := by
    rw [hz]; ring
  rw [hneg] at h
  have hzre : z.re ≤ 0 := by
    have : z = ((2 * Real.pi * f_Hz / 299792458 * l_antenna : ℝ) : ℂ) * (Complex.I * n) := by
      rw [hz]; push_cast; ring
    rw [this, Complex.re_ofReal_mul]
    have h2 : (Complex.I * n).re = -n.im := by simp
    rw [h2]
    have : 0 ≤ 2 * Real.pi * f_Hz / 299792458 * l_antenna := by positivity
    nlinarith
  have hnorm := congrArg (fun w : ℂ => ‖w‖) (sub_eq_zero.mp h)
  simp only [norm_mul, norm_pow, Complex.norm_exp, Complex.neg_re] at hnorm
  have e1 : ‖1 + n‖ ^ 2 = (1 + n.re) ^ 2 + n.im ^ 2 := by
    rw [← Complex.normSq_eq_norm_sq, Complex.normSq_apply]; simp; ring
  have e2 : ‖1 - n‖ ^ 2 = (1 - n.re) ^ 2 + n.im ^ 2 := by
    rw [← Complex.normSq_eq_norm_sq, Complex.normSq_apply]; simp; ring
  rw [e1, e2] at hnorm
  have x1 : Real.exp z.re ≤ Real.exp (-z.re) := Real.exp_le_exp.mpr (by linarith)
  have x0 := Real.exp_pos z.re
  nlinarith [mul_pos hre x0, sq_nonneg (1 + n.re), sq_nonneg n.im,
    mul_nonneg (add_nonneg (sq_nonneg (1 + n.re)) (sq_nonneg n.im)) (sub_nonneg.mpr x1)]

theorem filmRatio_continuous (f_Hz : ℝ) (n_water n_antenna : ℂ) (l_antenna : ℝ) :
    Continuous fun l : ℝ => filmRatio f_Hz n_water n_antenna l_antenna l := by
  unfold filmRatio
  dsimp only
  fun_prop

open Filter Topology in
/-- The forced value 0 at `R = 0` introduces no jump: for every absorbing antenna
cover, frequency and temperature in the range of C18, the WAA of small rain rates is a finite
number that tends to 0 as the rain rate does, and at `R = 0` it is 0. -/
theorem leijnseElem_no_jump (f_Hz T_K gamma delta l_antenna : ℝ) (n_antenna : ℂ) (hf : 0 ≤ f_Hz)
    (h1 : 205 ≤ T_K) (h2 : T_K ≤ 339) (hd : 0 < delta) (hl : 0 ≤ l_antenna)
    (hre : 0 < n_antenna.re) (him : 0 ≤ n_antenna.im) :
    leijnseElem f_Hz T_K gamma delta n_antenna l_antenna (.fin 0) = .fin 0 ∧
    ∃ v : ℝ → ℝ, (∀ᶠ R in 𝓝[>] (0 : ℝ),
        leijnseElem f_Hz T_K gamma delta n_antenna l_antenna (.fin R) = .fin (v R)) ∧
      Tendsto v (𝓝[>] 0) (𝓝 0) := by
  constructor
  · unfold leijnseElem
    rw [if_pos (by simp)]
    simp
  set ρ : ℝ → ℂ := fun R => filmRatio f_Hz (nWater f_Hz T_K) n_antenna l_antenna (gamma * R ^ delta)
    with hρ
  have hnw : nWater f_Hz T_K ≠ 0 := by
    unfold nWater
    rw [Complex.cpow_ne_zero_iff]
    left
    intro h
    have := (C18_eps_water f_Hz T_K hf h1 h2).1
    rw [h] at this
    simp at this
  have hρ0 : ρ 0 = 1 := by
    rw [hρ]
    dsimp only
    rw [Real.zero_rpow hd.ne', mul_zero]
    exact (filmRatio_zero _ _ _ _ hnw (coverTerm_ne_zero hf hl hre him)).1
  have hcont : ContinuousAt ρ 0 := by
    have hinner : ContinuousAt (fun R : ℝ => gamma * R ^ delta) 0 :=
      (Real.continuousAt_rpow_const 0 delta (Or.inr hd.le)).const_mul gamma
    exact (filmRatio_continuous f_Hz (nWater f_Hz T_K) n_antenna l_antenna).continuousAt.comp hinner
  have ht : Tendsto ρ (𝓝[>] 0) (𝓝 1) := by
    have := hcont.tendsto
    rw [hρ0] at this
    exact this.mono_left nhdsWithin_le_nhds
  refine ⟨fun R => 10 * Real.logb 10 (‖ρ R‖ ^ 2), ?_, ?_⟩
  · have hne : ∀ᶠ R in 𝓝[>] (0 : ℝ), ρ R ≠ 0 := ht.eventually_ne one_ne_zero
    filter_upwards [hne, self_mem_nhdsWithin] with R hR hpos
    have hpos' : (0 : ℝ) < R := hpos
    unfold leijnseElem
    have : ((Fl.fin R : Fl ℝ) ==ᶠ PyFloat.ofInt 0) = false := by
      rw [Fl.pf_ofInt, Fl.pf_eq_fin]; simpa using hpos'.ne'
    rw [this, Fl.pow_fin_pos hpos', Fl.pf_mul_fin]
    simp only [Bool.false_eq_true, if_false]
    unfold dB
    rw [if_neg (by exact hR)]
  · have e : (0 : ℝ) = 10 * Real.logb 10 (‖(1 : ℂ)‖ ^ 2) := by simp
    have hlog : ContinuousAt (fun z : ℂ => 10 * Real.logb 10 (‖z‖ ^ 2)) 1 := by
      unfold Real.logb
      refine ContinuousAt.const_mul ?_ 10
      refine ContinuousAt.div_const ?_ _
      refine ContinuousAt.log ?_ (by simp)
      fun_prop
    have := hlog.tendsto.comp ht
    rwa [← e] at this

/-- **C17** A film of no thickness (`gamma = 0`) attenuates exactly 0 dB at every rain rate,
whenever the transmission through the dry cover is non-zero. -/
theorem C17_no_film (R : List ℝ) (hR : ∀ r ∈ R, 0 ≤ r) (f_Hz T_K delta l_antenna : ℝ)
    (n_antenna : ℂ) (hw : eps_water f_Hz T_K ≠ 0)
    (hc : coverTerm f_Hz n_antenna l_antenna ≠ 0) :
    waa_leijnse_2008 (.array (R.map .fin)) f_Hz T_K 0 delta n_antenna l_antenna =
      .ok (R.map fun _ => .fin 0) := by
  show Except.ok _ = Except.ok _
  rw [List.map_map]
  congr 1
  apply List.map_congr_left
  intro r hr
  rw [Function.comp_apply]
  unfold leijnseElem
  rcases (hR r hr).eq_or_lt with h | h
  · subst h; rw [if_pos (by simp)]; simp
  · have : ((Fl.fin r : Fl ℝ) ==ᶠ PyFloat.ofInt 0) = false := by
      rw [Fl.pf_ofInt, Fl.pf_eq_fin]; simpa using h.ne'
    rw [this, Fl.pow_fin_pos h, Fl.pf_mul_fin, zero_mul]
    simp only [Bool.false_eq_true, if_false]
    refine (filmRatio_zero _ _ _ _ ?_ hc).2
    unfold nWater
    rw [Complex.cpow_ne_zero_iff]
    exact .inl hw

open Filter Topology in
/-- **C17** The forced value 0 at `R = 0` introduces no jump: for every absorbing antenna
cover, frequency and temperature in the range of C18, the WAA of small rain rates is a finite
number that tends to 0 as the rain rate does, and at `R = 0` it is 0. -/
theorem C17_no_jump (f_Hz T_K gamma delta l_antenna : ℝ) (n_antenna : ℂ) (hf : 0 ≤ f_Hz)
    (h1 : 205 ≤ T_K) (h2 : T_K ≤ 339) (hd : 0 < delta) (hl : 0 ≤ l_antenna)
    (hre : 0 < n_antenna.re) (him : 0 ≤ n_antenna.im) :
    waa_leijnse_2008 (.array [.fin 0]) f_Hz T_K gamma delta n_antenna l_antenna = .ok [.fin 0] ∧
    ∃ v : ℝ → ℝ, (∀ᶠ R in 𝓝[>] (0 : ℝ),
        waa_leijnse_2008 (.array [.fin R]) f_Hz T_K gamma delta n_antenna l_antenna =
          .ok [.fin (v R)]) ∧
      Tendsto v (𝓝[>] 0) (𝓝 0) := by
  obtain ⟨a, v, b, c⟩ := leijnseElem_no_jump f_Hz T_K gamma delta l_antenna n_antenna hf h1 h2 hd
    hl hre him
  refine ⟨?_, v, ?_, c⟩
  · show Except.ok [_] = _
    rw [a]
  · filter_upwards [b] with R hR
    show Except.ok [_] = _
    rw [hR]

example : waa_leijnse_2008 (.array [.fin 0]) 10000000000 293 (206 / 10000000) (24 / 100)
    ⟨173 / 100, 14 / 1000⟩ (1 / 1000) = .ok [.fin 0] :=
  (C17_no_jump 10000000000 293 (206 / 10000000) (24 / 100) (1 / 1000) ⟨173 / 100, 14 / 1000⟩
    (by norm_num) (by norm_num) (by norm_num) (by norm_num) (by norm_num) (by norm_num)
    (by norm_num)).1

/-- the hypotheses of `C17_no_film` hold for a real antenna -/
example : eps_water 10000000000 293 ≠ 0 ∧
    coverTerm 10000000000 ⟨173 / 100, 14 / 1000⟩ (1 / 1000) ≠ 0 := by
  refine ⟨fun h => ?_, coverTerm_ne_zero (by norm_num) (by norm_num) (by norm_num) (by norm_num)⟩
  have := (C18_eps_water 10000000000 293 (by norm_num) (by norm_num) (by norm_num)).1
  rw [h] at this
  simp at this

/-- **C17** In `waa_leijnse_2008`: length kept, zero at zero rain, NaN at NaN rain, and a
scalar rain rate raises. -/
theorem C17_function (R : List (Fl ℝ)) (f_Hz T_K gamma delta l_antenna : ℝ) (n_antenna : ℂ)
    (hd : delta ≠ 0) :
    (∃ waa, waa_leijnse_2008 (.array R) f_Hz T_K gamma delta n_antenna l_antenna = .ok waa ∧
      waa.length = R.length ∧
      (∀ i : Nat, R[i]? = some (.fin 0) → waa[i]? = some (.fin 0)) ∧
      (∀ i : Nat, R[i]? = some .nan → waa[i]? = some .nan)) ∧
    ∀ r, waa_leijnse_2008 (.scalar r) f_Hz T_K gamma delta n_antenna l_antenna =
      .error .typeError := by
  refine ⟨⟨_, rfl, by simp, ?_, ?_⟩, fun _ => rfl⟩
  · intro i hi
    rw [List.getElem?_map, hi, Option.map_some, leijnseElem, if_pos (by simp)]
    simp
  · intro i hi
    rw [List.getElem?_map, hi, Option.map_some, leijnseElem, if_neg (by simp)]
    have : Fl.pow .nan (.fin delta) = Fl.nan := by simp [Fl.pow, hd]
    rw [this]
    rfl

/-! ### C66 -/

/-- **C66** `waa_leijnse_2008_from_A_obs`: whenever the tabulated WAA values are numbers `w k`
(`k < 100`) and the look-up abscissas `A_rain + WAA` increase, the result at every observed
value is `g A_obs` for one function `g` with `0 ≤ A_obs - g A_obs ≤ 1000`, `A_obs - g` monotone,
`g 0 = 0`, exact at the nodes, and within the range of the tabulated values. NaN stays NaN;
negative values and values beyond the table raise. -/
theorem C66_leijnse_from_A_obs {a b L : ℝ} (ha : 0 < a) (hb : 0 < b) (hL : 0 < L)
    (spline : Spline) (f_Hz : ℝ) (pol : String) (T_K gamma delta l_antenna : ℝ) (n_antenna : ℂ)
    (hab : a_b spline [Fl.fin f_Hz /ᶠ PyFloat.ofInt 1000000000] [pol] "ITU_2005" =
      .ok ([.fin a], [.fin b]))
    (w : Nat → ℝ)
    (hw : ∀ k, k < 100 → waa_leijnse_2008 (.array [.fin (rainOf a b L (gridA k))]) f_Hz T_K gamma
      delta n_antenna l_antenna = .ok [.fin (w k)])
    (hinc : StrictMono fun k => gridA k + w k) :
    ∃ g : ℝ → ℝ, g 0 = 0 ∧
      (∀ k, k < 100 → g (gridA k + w k) = w k) ∧
      (∀ x, 0 ≤ x → x ≤ 1000 + w 99 → 0 ≤ x - g x ∧ x - g x ≤ 1000) ∧
      (∀ x y, 0 ≤ x → x ≤ y → y ≤ 1000 + w 99 → x - g x ≤ y - g y) ∧
      (∀ lo hi : ℝ, (∀ k, k < 100 → lo ≤ w k ∧ w k ≤ hi) →
        ∀ x, 0 ≤ x → x ≤ 1000 + w 99 → lo ≤ g x ∧ g x ≤ hi) ∧
      (∀ A_obs : List (Fl ℝ),
        (∀ z ∈ A_obs, z = .nan ∨ ∃ x, z = .fin x ∧ 0 ≤ x ∧ x ≤ 1000 + w 99) →
        waa_leijnse_2008_from_A_obs spline A_obs f_Hz pol (.fin L) T_K gamma delta n_antenna
          l_antenna =
          .ok (A_obs.map fun z => match z with | .fin x => .fin (g x) | _ => .nan)) ∧
      (∀ A_obs : List (Fl ℝ),
        (∃ z ∈ A_obs, z ≠ .nan ∧ ∀ x, z = .fin x → x < 0 ∨ 1000 + w 99 < x) →
        waa_leijnse_2008_from_A_obs spline A_obs f_Hz pol (.fin L) T_K gamma delta n_antenna
          l_antenna = .error .valueError) := by
  replace hw : ∀ k, k < 100 → leijnseElem f_Hz T_K gamma delta n_antenna l_antenna
      (.fin (rainOf a b L (gridA k))) = .fin (w k) := fun k hk => by
    have := hw k hk
    simpa [waa_leijnse_2008] using this
  have hw0 : w 0 = 0 := by
    have := hw 0 (by norm_num)
    rw [show gridA 0 = 0 from rfl, rainOf_zero hb, leijnseElem, if_pos (by simp)] at this
    simpa using this.symm
  obtain ⟨g, g1, g2, g3, g4, _, g6, g7⟩ := lookup_spec w hinc
  have hfun : ∀ A_obs : List (Fl ℝ), A_obs.any (fun x => x <ᶠ PyFloat.ofInt 0) = false →
      waa_leijnse_2008_from_A_obs spline A_obs f_Hz pol (.fin L) T_K gamma delta n_antenna
        l_antenna = lookup A_obs ((List.range 100).map fun k => Fl.fin (w k)) := by
    intro A_obs h
    unfold waa_leijnse_2008_from_A_obs
    rw [if_neg (by rw [h]; simp), rain_table ha hb hL spline _ _ hab]
    show lookup A_obs (List.map (leijnseElem _ _ _ _ _ _) _) = _
    rw [List.map_map]
    congr 1
    apply List.map_congr_left
    intro k hk
    rw [Function.comp_apply, hw k (List.mem_range.mp hk)]
  rw [hw0] at g2 g3 g4 g6 g7
  refine ⟨g, ?_, g1, g2, g4, g3, ?_, ?_⟩
  · have := g1 0 (by norm_num)
    rw [hw0, show gridA 0 = 0 from rfl, add_zero] at this
    exact this
  · intro A_obs h
    refine (hfun A_obs ?_).trans (g6 A_obs h)
    rw [List.any_eq_false]
    intro z hz'
    rcases h z hz' with rfl | ⟨x, rfl, h1, _⟩
    · simp
    · simpa using h1
  · rintro A_obs ⟨z, hz', hne, hbad⟩
    by_cases hneg : A_obs.any (fun x => x <ᶠ PyFloat.ofInt 0) = true
    · unfold waa_leijnse_2008_from_A_obs
      rw [if_pos hneg]
    · rw [hfun A_obs (by simpa using hneg)]
      refine g7 A_obs ⟨z, hz', hne, fun x hx hc => ?_⟩
      rcases hbad x hx with h | h
      · linarith [hc.1]
      · linarith [hc.2]

/-- The table hypotheses of C66 can be met (antenna that takes up no water, `gamma = 0`). -/
example (a b L : ℝ) (ha : 0 < a) (hL : 0 < L) : (∀ k, k < 100 →
      waa_leijnse_2008 (.array [.fin (rainOf a b L (gridA k))]) 10000000000 293 0 (24 / 100)
        ⟨173 / 100, 14 / 1000⟩ (1 / 1000) = .ok [.fin 0]) ∧
    StrictMono fun k => gridA k + 0 := by
  refine ⟨fun k _ => ?_, by simpa using gridA_strictMono⟩
  refine C17_no_film [rainOf a b L (gridA k)] ?_ _ _ _ _ _ ?_
    (coverTerm_ne_zero (by norm_num) (by norm_num) (by norm_num) (by norm_num))
  · intro r hr
    rw [List.mem_singleton] at hr
    rw [hr]
    have : 0 ≤ gridA k := by
      have := gridA_strictMono.monotone (Nat.zero_le k)
      rwa [show gridA 0 = 0 from rfl] at this
    unfold rainOf
    positivity
  · intro h
    have := (C18_eps_water 10000000000 293 (by norm_num) (by norm_num) (by norm_num)).1
    rw [h] at this
    simp at this

end Verif.Props
