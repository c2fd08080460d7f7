import Verif.Props.LookupRecovery
import Verif.Props.Recovery

/-!
# Property C137: the chain with the wet antenna correction of Pastorek et al. (2021)

`baseline_constant` or `baseline_linear`, `waa_pastorek_2021_from_A_obs` and `calc_R_from_A` against the rain that made the levels.
-/

namespace Verif.Props
open Verif Verif.Baseline Verif.KR Verif.WaaModels

/-- Level of a link: the dry level and, at wet steps, the attenuation of rain of rate `R t` and the WAA this rain causes according to
Pastorek et al. (2021). -/
noncomputable def levelPastorek (wet : ℕ → Prop) [DecidablePred wet] (u v L A_max zeta d : ℝ) (dryLevel R : ℕ → ℝ) (t : ℕ) : ℝ :=
  dryLevel t + if wet t then u * R t ^ v * L + A_max * (1 - Real.exp (-d * R t ^ zeta)) else 0

/-- The chain behind the baseline. -/
theorem pastorek_chain (f L A_max zeta d R_min : ℝ) (pol : String) (hf1 : 1 ≤ f) (hf2 : f ≤ 100)
    (hpol : isH pol ∨ isV pol) (hL : 0 < L) (hA : 0 < A_max) (hz : 0 < zeta) (hz' : zeta ≤ 0.67) (hd : 0 < d) :
    ∃ u v : ℝ, a_b cubicSpline [.fin f] [pol] "ITU_2005" = .ok ([.fin u], [.fin v]) ∧ 0 < v ∧
    ∀ (wet : List Bool) (T : ℕ) (dryLevel R : ℕ → ℝ),
      (∀ t < T, WetAt wet t → R t = 0 ∨ (0 ≤ R t ∧ 1.9e-10 ≤ u * R t ^ v * L ∧ u * R t ^ v * L ≤ 1000)) →
      ∃ waa rs,
        waa_pastorek_2021_from_A_obs cubicSpline (List.zipWith (· -ᶠ ·)
            (series T (levelPastorek (WetAt wet) u v L A_max zeta d dryLevel R)) (series T dryLevel)) (.fin (f * 10 ^ 9)) pol
          (.fin L) (.fin A_max) (.fin zeta) (.fin d) = .ok waa ∧
        calc_R_from_A cubicSpline (List.zipWith (· -ᶠ ·) (List.zipWith (· -ᶠ ·)
            (series T (levelPastorek (WetAt wet) u v L A_max zeta d dryLevel R)) (series T dryLevel)) waa)
          (.fin L) (some [.fin f]) (some [pol]) none none "ITU_2005" (.fin R_min) = .ok rs ∧ rs.length = T ∧
        ∀ t < T, (¬ WetAt wet t → rs[t]? = some (.fin 0)) ∧
          (WetAt wet t → ∃ R', R t ≤ R' ∧ R' ≤ 1.6 * R t ∧ rs[t]? = some (.fin (if R' < R_min then 0 else R'))) := by
  obtain ⟨u, v, hab, h⟩ := C132_pastorek_rain f L A_max zeta d R_min pol hf1 hf2 hpol hL hA hz hz' hd
  obtain ⟨u', v', hab', hu, hv⟩ := ab_single_pos hf1 hf2 hpol (Or.inr rfl : "ITU_2005" = "ITU_2003" ∨ "ITU_2005" = "ITU_2005")
  rw [hab] at hab'
  simp only [Except.ok.injEq, Prod.mk.injEq, List.cons.injEq, Fl.fin.injEq, and_true] at hab'
  obtain ⟨rfl, rfl⟩ := hab'
  refine ⟨u, v, hab, hv, fun wet T dryLevel R hR => ?_⟩
  set Rs : List ℝ := (List.range T).map fun t => if WetAt wet t then R t else 0 with hRs
  obtain ⟨waa, rs, h1, h2, h3, h4, h5⟩ := h Rs (by
    intro r hr
    obtain ⟨t, ht, rfl⟩ := List.mem_map.mp hr
    by_cases hw : WetAt wet t
    · rw [if_pos hw]
      exact hR t (List.mem_range.mp ht) hw
    · rw [if_neg hw]
      exact Or.inl rfl)
  have e : List.zipWith (· -ᶠ ·) (series T (levelPastorek (WetAt wet) u v L A_max zeta d dryLevel R)) (series T dryLevel) =
      Rs.map fun R => Fl.fin (u * R ^ v * L + A_max * (1 - Real.exp (-d * R ^ zeta))) := by
    rw [hRs, List.map_map]
    unfold series
    rw [List.zipWith_map, List.zipWith_self]
    refine List.map_congr_left fun t _ => ?_
    rw [Fl.pf_sub_fin]
    unfold levelPastorek
    simp only [Function.comp_apply]
    congr 1
    split_ifs
    · ring
    · rw [Real.zero_rpow hv.ne', Real.zero_rpow hz.ne']
      simp
  refine ⟨waa.map Fl.fin, rs, by rw [e]; exact h2, ?_, by rw [h4, hRs]; simp, fun t ht => ?_⟩
  · rw [e, List.zipWith_map]
    exact h3
  · obtain ⟨R', r1, r2, r3⟩ := h5 t (if WetAt wet t then R t else 0) (by
      rw [hRs, List.getElem?_map, List.getElem?_range ht]
      rfl)
    constructor
    · intro hw
      rw [if_neg hw] at r1 r2
      have : R' = 0 := le_antisymm (by linarith) r1
      rw [r3, this]
      simp
    · intro hw
      rw [if_pos hw] at r1 r2
      exact ⟨R', r1, r2, r3⟩

/-- **C137** Constant baseline: if the dry level does not change from `n` steps before an event to its end and the first `n` steps are dry, the
chain gives at each wet step the rain rate or up to 1.6 times as much, never less (0 below `R_min`), and 0 at dry steps. -/
theorem C137_rain_constant (f L A_max zeta d R_min : ℝ) (pol : String) (hf1 : 1 ≤ f) (hf2 : f ≤ 100)
    (hpol : isH pol ∨ isV pol) (hL : 0 < L) (hA : 0 < A_max) (hz : 0 < zeta) (hz' : zeta ≤ 0.67) (hd : 0 < d) :
    ∃ u v : ℝ, a_b cubicSpline [.fin f] [pol] "ITU_2005" = .ok ([.fin u], [.fin v]) ∧
    ∀ (wet : List Bool) (T n : ℕ) (dryLevel R : ℕ → ℝ), 1 ≤ n → T ≤ wet.length → (∀ t < n, ¬ WetAt wet t) →
      (∀ t < T, WetAt wet t → ∀ s, s < t → t ≤ s + n → dryLevel s = dryLevel t) →
      (∀ t < T, WetAt wet t → R t = 0 ∨ (0 ≤ R t ∧ 1.9e-10 ≤ u * R t ^ v * L ∧ u * R t ^ v * L ≤ 1000)) →
      let trsl := series T (levelPastorek (WetAt wet) u v L A_max zeta d dryLevel R)
      ∃ base waa rs, baselineConstant trsl wet n = .ok base ∧
        waa_pastorek_2021_from_A_obs cubicSpline (List.zipWith (· -ᶠ ·) trsl base) (.fin (f * 10 ^ 9)) pol
          (.fin L) (.fin A_max) (.fin zeta) (.fin d) = .ok waa ∧
        calc_R_from_A cubicSpline (List.zipWith (· -ᶠ ·) (List.zipWith (· -ᶠ ·) trsl base) waa)
          (.fin L) (some [.fin f]) (some [pol]) none none "ITU_2005" (.fin R_min) = .ok rs ∧ rs.length = T ∧
        ∀ t < T, (¬ WetAt wet t → rs[t]? = some (.fin 0)) ∧
          (WetAt wet t → ∃ R', R t ≤ R' ∧ R' ≤ 1.6 * R t ∧ rs[t]? = some (.fin (if R' < R_min then 0 else R'))) := by
  obtain ⟨u, v, hab, -, h⟩ := pastorek_chain f L A_max zeta d R_min pol hf1 hf2 hpol hL hA hz hz' hd
  refine ⟨u, v, hab, fun wet T n dryLevel R hn hT h1 h2 hR => ?_⟩
  obtain ⟨waa, rs, h3, h4, h5, h6⟩ := h wet T dryLevel R hR
  exact ⟨series T dryLevel, waa, rs, C130_baseline_constant wet T n dryLevel _ hn hT h1
    (fun t _ hw => by unfold levelPastorek; rw [if_neg hw, add_zero]) h2, h3, h4, h5, h6⟩

/-- **C137** Linear baseline: the dry level may drift linearly over each event; first and last step are dry. -/
theorem C137_rain_linear (f L A_max zeta d R_min : ℝ) (pol : String) (hf1 : 1 ≤ f) (hf2 : f ≤ 100)
    (hpol : isH pol ∨ isV pol) (hL : 0 < L) (hA : 0 < A_max) (hz : 0 < zeta) (hz' : zeta ≤ 0.67) (hd : 0 < d) :
    ∃ u v : ℝ, a_b cubicSpline [.fin f] [pol] "ITU_2005" = .ok ([.fin u], [.fin v]) ∧
    ∀ (wet : List Bool) (T : ℕ) (dryLevel R : ℕ → ℝ) (ignoreNan : Bool), 0 < T → T ≤ wet.length → ¬ WetAt wet 0 →
      ¬ WetAt wet (T - 1) →
      (∀ p i q, p < i → i < q → q < T → ¬ WetAt wet p → ¬ WetAt wet q → (∀ k, p < k → k < q → WetAt wet k) →
        dryLevel i = dryLevel p + ((i : ℝ) - p) * ((dryLevel q - dryLevel p) / ((q : ℝ) - p))) →
      (∀ t < T, WetAt wet t → R t = 0 ∨ (0 ≤ R t ∧ 1.9e-10 ≤ u * R t ^ v * L ∧ u * R t ^ v * L ≤ 1000)) →
      let trsl := series T (levelPastorek (WetAt wet) u v L A_max zeta d dryLevel R)
      ∃ base waa rs, baselineLinear trsl (wet.map flagF) ignoreNan = .ok base ∧
        waa_pastorek_2021_from_A_obs cubicSpline (List.zipWith (· -ᶠ ·) trsl base) (.fin (f * 10 ^ 9)) pol
          (.fin L) (.fin A_max) (.fin zeta) (.fin d) = .ok waa ∧
        calc_R_from_A cubicSpline (List.zipWith (· -ᶠ ·) (List.zipWith (· -ᶠ ·) trsl base) waa)
          (.fin L) (some [.fin f]) (some [pol]) none none "ITU_2005" (.fin R_min) = .ok rs ∧ rs.length = T ∧
        ∀ t < T, (¬ WetAt wet t → rs[t]? = some (.fin 0)) ∧
          (WetAt wet t → ∃ R', R t ≤ R' ∧ R' ≤ 1.6 * R t ∧ rs[t]? = some (.fin (if R' < R_min then 0 else R'))) := by
  obtain ⟨u, v, hab, -, h⟩ := pastorek_chain f L A_max zeta d R_min pol hf1 hf2 hpol hL hA hz hz' hd
  refine ⟨u, v, hab, fun wet T dryLevel R ignoreNan hT0 hT h0 h1 h2 hR => ?_⟩
  obtain ⟨waa, rs, h3, h4, h5, h6⟩ := h wet T dryLevel R hR
  exact ⟨series T dryLevel, waa, rs, C130_baseline_linear wet T dryLevel _ ignoreNan hT0 hT h0 h1
    (fun t _ hw => by unfold levelPastorek; rw [if_neg hw, add_zero]) h2, h3, h4, h5, h6⟩

/-- **C137** The correction does not tolerate noise: if the level of a single step is below the baseline, `waa_pastorek_2021_from_A_obs` (and
`waa_leijnse_2008_from_A_obs`) raises for the whole series, whatever the other steps, the link and the parameters. -/
theorem C137_noise (trsl base : List (Fl ℝ)) (t : ℕ) (x y : ℝ) (hx : trsl[t]? = some (.fin x)) (hy : base[t]? = some (.fin y)) (h : x < y)
    (spline : Spline) (f_Hz L A_max zeta d : Fl ℝ) (pol : String) (g T_K gamma delta l_antenna : ℝ) (n_antenna : ℂ) :
    waa_pastorek_2021_from_A_obs spline (List.zipWith (· -ᶠ ·) trsl base) f_Hz pol L A_max zeta d = .error .valueError ∧
    waa_leijnse_2008_from_A_obs spline (List.zipWith (· -ᶠ ·) trsl base) g pol L T_K gamma delta n_antenna l_antenna =
      .error .valueError := by
  have hmem : Fl.fin (x - y) ∈ List.zipWith (· -ᶠ ·) trsl base := by
    apply List.mem_of_getElem? (i := t)
    rw [List.getElem?_zipWith, hx, hy]
    rfl
  have hany : (List.zipWith (· -ᶠ ·) trsl base).any (fun x => x <ᶠ PyFloat.ofInt 0) = true := by
    rw [List.any_eq_true]
    exact ⟨_, hmem, by simpa using h⟩
  constructor
  · rw [from_A_obs_eq]
    rw [if_pos hany]
  · unfold waa_leijnse_2008_from_A_obs
    rw [if_pos hany]

/-! ## Examples -/

/-- A dry step and a wet one with an attenuation of 1 dB by rain at 23 GHz, 5 km. -/
example : ∃ u v R : ℝ, a_b cubicSpline [.fin 23] ["V"] "ITU_2005" = .ok ([.fin u], [.fin v]) ∧ u * R ^ v * 5 = 1 ∧ 0 < R ∧
    ∃ base waa rs R',
      baselineConstant [.fin 50, .fin (50 + (u * R ^ v * 5 + 14 * (1 - Real.exp (-0.1 * R ^ (0.55 : ℝ)))))] [false, true] 1 = .ok base ∧
      waa_pastorek_2021_from_A_obs cubicSpline (List.zipWith (· -ᶠ ·)
        [.fin 50, .fin (50 + (u * R ^ v * 5 + 14 * (1 - Real.exp (-0.1 * R ^ (0.55 : ℝ)))))] base) (.fin (23 * 10 ^ 9)) "V" (.fin 5) (.fin 14)
        (.fin 0.55) (.fin 0.1) = .ok waa ∧
      calc_R_from_A cubicSpline (List.zipWith (· -ᶠ ·) (List.zipWith (· -ᶠ ·)
        [.fin 50, .fin (50 + (u * R ^ v * 5 + 14 * (1 - Real.exp (-0.1 * R ^ (0.55 : ℝ)))))] base) waa) (.fin 5) (some [.fin 23]) (some ["V"])
        none none "ITU_2005" (.fin 0) = .ok rs ∧ rs.length = 2 ∧ rs[0]? = some (.fin 0) ∧ rs[1]? = some (.fin R') ∧ R ≤ R' ∧ R' ≤ 1.6 * R := by
  obtain ⟨u, v, hab, h⟩ := C137_rain_constant 23 5 14 0.55 0.1 0 "V" (by norm_num) (by norm_num)
    (by simp [isV]) (by norm_num) (by norm_num) (by norm_num) (by norm_num) (by norm_num)
  obtain ⟨u', v', hab', hu, hv⟩ := ab_single_pos (x := 23) (p := "V") (by norm_num) (by norm_num)
    (by simp [isV]) (Or.inr rfl : "ITU_2005" = "ITU_2003" ∨ "ITU_2005" = "ITU_2005")
  rw [hab] at hab'
  simp only [Except.ok.injEq, Prod.mk.injEq, List.cons.injEq, Fl.fin.injEq, and_true] at hab'
  obtain ⟨rfl, rfl⟩ := hab'
  have hR0 : 0 < (1 / (u * 5)) ^ (1 / v) := by positivity
  have e : u * ((1 / (u * 5)) ^ (1 / v)) ^ v * 5 = 1 := by
    rw [← Real.rpow_mul (by positivity), one_div_mul_cancel hv.ne', Real.rpow_one]
    field_simp
  generalize (1 / (u * 5)) ^ (1 / v) = R at hR0 e
  refine ⟨u, v, R, hab, e, hR0, ?_⟩
  obtain ⟨base, waa, rs, h1, h2, h3, h4, h5⟩ := h [false, true] 2 1 (fun _ => 50) (fun _ => R) le_rfl (by simp)
    (by
      intro t ht
      obtain rfl : t = 0 := by omega
      simp [WetAt]) (fun _ _ _ _ _ _ => rfl) (fun _ _ _ => Or.inr ⟨hR0.le, by rw [e]; norm_num, by rw [e]; norm_num⟩)
  have es : series 2 (levelPastorek (WetAt [false, true]) u v 5 14 0.55 0.1 (fun _ => 50) fun _ => R) =
      [.fin 50, .fin (50 + (u * R ^ v * 5 + 14 * (1 - Real.exp (-0.1 * R ^ (0.55 : ℝ)))))] := by
    simp only [series, levelPastorek, List.range, List.range.loop, List.map_cons, List.map_nil]
    simp [WetAt]
  rw [es] at h1 h2 h3
  obtain ⟨R', r1, r2, r3⟩ := (h5 1 (by norm_num)).2 rfl
  rw [if_neg (by linarith)] at r3
  exact ⟨base, waa, rs, R', h1, h2, h3, h4, (h5 0 (by norm_num)).1 (by simp [WetAt]), r3, r1, r2⟩

/-- Level 0.3 dB below the baseline at one step. -/
example : waa_pastorek_2021_from_A_obs cubicSpline (List.zipWith (· -ᶠ ·) [.fin 50, .fin 52, .fin 49.7] [.fin 50, .fin 50, .fin 50])
    (.fin (23 * 10 ^ 9)) "V" (.fin 5) (.fin 14) (.fin 0.55) (.fin 0.1) = .error .valueError :=
  (C137_noise _ _ 2 49.7 50 rfl rfl (by norm_num) _ _ _ _ _ _ _ 0 0 0 0 0 0).1

end Verif.Props
