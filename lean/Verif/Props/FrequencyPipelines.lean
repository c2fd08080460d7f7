import Verif.Props.ItuSpline
import Verif.Props.WaaModels
import Verif.Props.NearbyChain
import Verif.Props.Chain

/-!
# Properties C114, C115: the functions that take frequency and polarization, for every frequency; agreement of the nearby
retrieval with `calc_R_from_A`
-/

namespace Verif.Props
open Verif Verif.KR Verif.Nearby Verif.WaaModels Verif.Baseline Verif.Waa

/-! ### C114 -/

/-- **C114** `waa_pastorek_2021_from_A_obs` for every frequency from 1 to 100 GHz and both polarizations (default table, cubic
spline between the tabulated frequencies): the statement of C16 without a hypothesis on the parameters of the power law. -/
theorem C114_pastorek (f_Hz : ℝ) (pol : String) (hf1 : 1000000000 ≤ f_Hz) (hf2 : f_Hz ≤ 100000000000)
    (hp : isH pol ∨ isV pol) {L A_max zeta d : ℝ} (hL : 0 < L) (hA : 0 < A_max) (hz : 0 < zeta) (hd : 0 < d) :
    ∃ (g : ℝ → ℝ) (top : ℝ), 1000 < top ∧ top < 1000 + A_max ∧ g 0 = 0 ∧
      (∀ x, 0 ≤ x → x ≤ top → 0 ≤ g x ∧ g x ≤ x ∧ g x < A_max) ∧
      (∀ x y, 0 ≤ x → x ≤ y → y ≤ top → g x ≤ g y ∧ x - g x ≤ y - g y) ∧
      (∀ A_obs : List (Fl ℝ), (∀ z ∈ A_obs, z = .nan ∨ ∃ x, z = .fin x ∧ 0 ≤ x ∧ x ≤ top) →
        waa_pastorek_2021_from_A_obs cubicSpline A_obs (.fin f_Hz) pol (.fin L) (.fin A_max) (.fin zeta) (.fin d) =
          .ok (A_obs.map fun z => match z with | .fin x => .fin (g x) | _ => .nan)) ∧
      (∀ A_obs : List (Fl ℝ), (∃ z ∈ A_obs, z ≠ .nan ∧ ∀ x, z = .fin x → x < 0 ∨ top < x) →
        waa_pastorek_2021_from_A_obs cubicSpline A_obs (.fin f_Hz) pol (.fin L) (.fin A_max) (.fin zeta) (.fin d) =
          .error .valueError) := by
  have e : (Fl.fin f_Hz /ᶠ PyFloat.ofInt 1000000000) = .fin (f_Hz / 1000000000) := by
    rw [Fl.pf_ofInt, Fl.pf_div_fin_ne _ _ (by norm_num)]
    norm_num
  obtain ⟨u, v, h, hu, hv⟩ := ab_single_pos (x := f_Hz / 1000000000) (p := pol) (s := "ITU_2005")
    (by rw [le_div_iff₀ (by norm_num)]; linarith) (by rw [div_le_iff₀ (by norm_num)]; linarith) hp (.inr rfl)
  obtain ⟨g, top, h1, h2, -, h4, h5, h6, h7, h8⟩ := C16_from_A_obs hu hv hL hA hz hd cubicSpline (.fin f_Hz) pol
    (by rw [e]; exact h)
  exact ⟨g, top, h1, h2, h4, h5, h6, h7, h8⟩

/-- **C114** Outside this range, and for other polarizations, it raises for every series. -/
theorem C114_pastorek_outside (f_Hz : ℝ) (pol : String) (h : f_Hz < 1000000000 ∨ 100000000000 < f_Hz ∨ ¬ (isH pol ∨ isV pol))
    (A_obs : List (Fl ℝ)) (L A_max zeta d : Fl ℝ) :
    waa_pastorek_2021_from_A_obs cubicSpline A_obs (.fin f_Hz) pol L A_max zeta d = .error .valueError := by
  have e : (Fl.fin f_Hz /ᶠ PyFloat.ofInt 1000000000) = .fin (f_Hz / 1000000000) := by
    rw [Fl.pf_ofInt, Fl.pf_div_fin_ne _ _ (by norm_num)]
    norm_num
  rw [from_A_obs_eq]
  split_ifs
  · rfl
  · have hab : a_b cubicSpline [.fin (f_Hz / 1000000000)] [pol] "ITU_2005" = .error .valueError := by
      obtain ⟨h1, h2⟩ := C25_accepts_iff cubicSpline [.fin (f_Hz / 1000000000)] [pol] "ITU_2005"
      refine h2.resolve_left fun hok => ?_
      obtain ⟨-, -, q1, q2, -⟩ := h1.mp hok
      obtain ⟨q3, q4⟩ : 1 ≤ f_Hz / 1000000000 ∧ f_Hz / 1000000000 ≤ 100 := q1 _ (List.mem_singleton.mpr rfl)
      rw [le_div_iff₀ (by norm_num)] at q3
      rw [div_le_iff₀ (by norm_num)] at q4
      rcases h with h | h | h
      · linarith
      · linarith
      · exact h (q2 _ (List.mem_singleton.mpr rfl))
    rw [e]
    simp only [calc_R_from_A, calcR, hab, bind, Except.bind]

/-- **C114** `calc_R_from_A_min_max` with a frequency from 1 to 100 GHz: the rain rate of `calc_R_from_A` for the same frequency
and polarization (default table, no cut) divided by `ln k + gamma`, then cut at `R_min`. -/
theorem C114_min_max (A : List (Fl ℝ)) (L x R_min k : ℝ) (pol : String) (h1 : 1 ≤ x) (h2 : x ≤ 100) (hp : isH pol ∨ isV pol)
    (hL : 0 < L) (hk : 0 < k) (hc : 0 < Real.log k + 0.57721566) (a b : Option (List (Fl ℝ))) :
    ∃ Rp R, callFP A L x pol "ITU_2005" 0 = .ok Rp ∧
      calc_R_from_A_min_max cubicSpline A (.fin L) (some [.fin x]) a b pol (.fin R_min) (.fin k) = .ok R ∧
      Rp.length = A.length ∧ R.length = A.length ∧
      ∀ i : Nat, (∀ y : ℝ, Rp[i]? = some (.fin y) →
          R[i]? = some (.fin (if y / (Real.log k + 0.57721566) < R_min then 0 else y / (Real.log k + 0.57721566)))) ∧
        (R[i]? = some .nan ↔ A[i]? = some .nan) := by
  obtain ⟨u, v, h, hu, hv⟩ := ab_single_pos (p := pol) (s := "ITU_2005") h1 h2 hp (.inr rfl)
  obtain ⟨Rp, R, e1, e2, e3⟩ := C24_min_max cubicSpline A L u v R_min k pol hu hv hL hk hc
  refine ⟨Rp, R, by rw [callFP_eq h, e1], ?_, e3⟩
  rw [← e2]
  have hs : a_b_str cubicSpline [.fin x] pol "ITU_2005" = .ok ([.fin u], [.fin v]) := h
  simp only [calc_R_from_A_min_max, calcRMinMax, hs]

/-- **C114** The chain `baseline_constant`, `waa_schleiss_2013`, `calc_R_from_A` for every frequency from 1 to 100 GHz: it gives rain
rates that are numbers and not negative, and zero at every step that is not wet. -/
theorem C114_chain (n : Nat) (hn : 1 ≤ n) (waaMax deltaT tau L x R_min : ℝ) (p s : String) (hw : 0 ≤ waaMax) (hdt : 0 ≤ deltaT)
    (htau : 0 < tau) (hL : 0 < L) (h1 : 1 ≤ x) (h2 : x ≤ 100) (hp : isH p ∨ isV p) (hs : s = "ITU_2003" ∨ s = "ITU_2005")
    (xs : List ℝ) (wet : List Bool) (hlen : xs.length ≤ wet.length) :
    ∃ base waa, ∃ rs : List ℝ, baselineConstant (xs.map Fl.fin) wet n = .ok base ∧
      waaSchleiss (xs.map Fl.fin) base (wet.map flagF) (.fin waaMax) (.fin deltaT) (.fin tau) = .ok waa ∧
      callFP (List.zipWith (· -ᶠ ·) (List.zipWith (· -ᶠ ·) (xs.map Fl.fin) base) waa) L x p s R_min = .ok (rs.map Fl.fin) ∧
      rs.length = xs.length ∧ (∀ r ∈ rs, 0 ≤ r) ∧
      ∀ i, i < xs.length → (i < n ∨ wet[i]? = some false) → rs[i]? = some 0 := by
  obtain ⟨u, v, h, hu, hv⟩ := ab_single_pos h1 h2 hp hs
  obtain ⟨rs, e1, e2, e3, e4⟩ := C76_nonneg_and_dry cubicSpline ⟨n, waaMax, deltaT, tau, L, u, v, R_min⟩
    ⟨hn, hw, hdt, htau, hL, hu, hv⟩ xs wet hlen
  unfold rainChain at e1
  simp only [bind, Except.bind] at e1
  cases hb : baselineConstant (xs.map Fl.fin) wet n with
  | error er => rw [hb] at e1; cases e1
  | ok base =>
    rw [hb] at e1
    simp only at e1
    cases hwaa : waaSchleiss (xs.map Fl.fin) base (wet.map flagF) (.fin waaMax) (.fin deltaT) (.fin tau) with
    | error er => rw [hwaa] at e1; cases e1
    | ok waa =>
      rw [hwaa] at e1
      exact ⟨base, waa, rs, rfl, hwaa, by rw [callFP_eq h]; exact e1, e2, e3, e4⟩

/-- **C114** `nearby_rainfall_retrival` for every frequency from 1 to 100 GHz: the result is that of C38, and dry steps after
`nearby_correct_received_signals` get no rain (C39). -/
theorem C114_nearby (pref pcmin pcmax F : List (Fl ℝ)) (L x : ℝ) (p s : String) (h1 : 1 ≤ x) (h2 : x ≤ 100)
    (hp : isH p ∨ isV p) (hs : s = "ITU_2003" ∨ s = "ITU_2005") (hL : 0 < L) (waa alpha : ℝ) (h0 : 0 ≤ alpha) (h1' : alpha ≤ 1)
    (hl1 : pcmin.length = pref.length) (hl2 : pcmax.length = pref.length) (hl3 : F.length = pref.length) (thr : Fl ℝ) :
    ∃ R, rainfall_retrival cubicSpline pref pcmin pcmax F (.fin L) (some [.fin x]) (some [p]) none none s (.fin waa)
        (.fin alpha) (some thr) = .ok R ∧ R.length = pref.length ∧
      ∀ t : Nat, ∀ (r y z : ℝ) (f : Fl ℝ), pref[t]? = some (.fin r) → pcmin[t]? = some (.fin y) →
        pcmax[t]? = some (.fin z) → F[t]? = some f →
        ((f ≤ᶠ thr) = true → R[t]? = some .nan) ∧
        ((f ≤ᶠ thr) = false → ∃ w, R[t]? = some (.fin w) ∧ 0 ≤ w ∧ (r - y ≤ waa → r - z ≤ waa → w = 0)) := by
  obtain ⟨u, v, h, hu, hv⟩ := ab_single_pos h1 h2 hp hs
  obtain ⟨R, e1, e2, e3⟩ := C38_mixture cubicSpline pref pcmin pcmax F L u v hu hv hL s waa alpha h0 h1' thr hl1 hl2 hl3
  refine ⟨R, ?_, e2, ?_⟩
  · rw [← e1]
    simp only [rainfall_retrival, retrieval, h]
  · intro t r y z f hr hy hz hf
    obtain ⟨i1, i2⟩ := e3 t r y z f hr hy hz hf
    refine ⟨i1, fun hft => ?_⟩
    obtain ⟨w, j1, -, j3, j4, -⟩ := i2 hft
    exact ⟨w, j1, j3, j4⟩

/-- **C114** Frequency and polarization only stand for the two parameters of the power law: for every frequency from 1 to 100 GHz there
are positive `u` and `v`, the result of `a_b`, such that `calc_R_from_A`, `calc_R_from_A_min_max` (default table) and
`nearby_rainfall_retrival` called with frequency and polarization return what they return with `a = u` and `b = v`. So all that is
proved for given positive parameters (C18 to C24, C38, C39, C115) holds. -/
theorem C114_parameters (x : ℝ) (p s : String) (h1 : 1 ≤ x) (h2 : x ≤ 100) (hp : isH p ∨ isV p)
    (hs : s = "ITU_2003" ∨ s = "ITU_2005") :
    ∃ u v : ℝ, 0 < u ∧ 0 < v ∧ a_b cubicSpline [.fin x] [p] s = .ok ([.fin u], [.fin v]) ∧
      (∀ (A : List (Fl ℝ)) (L R_min : Fl ℝ),
        calc_R_from_A cubicSpline A L (some [.fin x]) (some [p]) none none s R_min =
          calc_R_from_A cubicSpline A L none none (some [.fin u]) (some [.fin v]) s R_min) ∧
      (s = "ITU_2005" → ∀ (A : List (Fl ℝ)) (L R_min k : Fl ℝ),
        calc_R_from_A_min_max cubicSpline A L (some [.fin x]) none none p R_min k =
          calc_R_from_A_min_max cubicSpline A L none (some [.fin u]) (some [.fin v]) p R_min k) ∧
      ∀ (pref pcmin pcmax F : List (Fl ℝ)) (L waa alpha : Fl ℝ) (thr : Option (Fl ℝ)),
        rainfall_retrival cubicSpline pref pcmin pcmax F L (some [.fin x]) (some [p]) none none s waa alpha thr =
          rainfall_retrival cubicSpline pref pcmin pcmax F L none none (some [.fin u]) (some [.fin v]) s waa alpha thr := by
  obtain ⟨u, v, h, hu, hv⟩ := ab_single_pos h1 h2 hp hs
  refine ⟨u, v, hu, hv, h, fun A L R_min => C22_calc_R_from_frequency _ _ _ _ _ _ _ _ _ h, ?_, ?_⟩
  · rintro rfl A L R_min k
    have hs : a_b_str cubicSpline [.fin x] p "ITU_2005" = .ok ([.fin u], [.fin v]) := h
    simp only [calc_R_from_A_min_max, calcRMinMax, hs]
  · intro pref pcmin pcmax F L waa alpha thr
    simp only [rainfall_retrival, retrieval, h]

/-! ### C115 -/

/-- **C115** If minimum and maximum level are the same series (as recommended where only instantaneous data are available), the
nearby retrieval is `calc_R_from_A` of `pref - p - waa_max` with `R_min = 0`, whatever `alpha` is. -/
theorem C115_equal_levels (sp : Spline) (pref p F : List (Fl ℝ)) (L a b : ℝ) (ha : 0 < a) (hb : 0 < b) (hL : 0 < L)
    (approx : String) (waa alpha : ℝ) (hl : p.length = pref.length)
    (h1 : ∀ x ∈ pref, IsLevel x) (h2 : ∀ x ∈ p, IsLevel x) :
    rainfall_retrival sp pref p p F (.fin L) none none (some [.fin a]) (some [.fin b]) approx (.fin waa) (.fin alpha) none =
      calc_R_from_A sp (List.zipWith (fun r x => r -ᶠ x -ᶠ .fin waa) pref p) (.fin L) none none (some [.fin a]) (some [.fin b])
        approx (.fin 0) := by
  rw [retrival_scalar sp pref p p F _ _ _ approx _ _ _ hl hl (fun h => absurd rfl h)]
  have := callAB_eq sp (List.zipWith (fun r x => r -ᶠ x -ᶠ .fin waa) pref p) L a b 0
  have e : calc_R_from_A sp (List.zipWith (fun r x => r -ᶠ x -ᶠ .fin waa) pref p) (.fin L) none none (some [.fin a])
      (some [.fin b]) approx (.fin 0) = .ok ((List.zipWith (fun r x => r -ᶠ x -ᶠ .fin waa) pref p).map
        (rate (.fin a) (.fin b) (.fin L) (.fin 0))) := rainRates_scalar _ _ _ _ _
  rw [e]
  congr 1
  apply List.ext_getElem?
  intro t
  rw [List.getElem?_map, List.getElem?_map, List.getElem?_zipWith]
  by_cases ht : t < pref.length
  · have ht' : t < p.length := by omega
    have m1 := h1 _ (List.mem_of_getElem? (getElem?_eq_rd ht))
    have m2 := h2 _ (List.mem_of_getElem? (getElem?_eq_rd ht'))
    rw [List.getElem?_range ht, getElem?_eq_rd ht, getElem?_eq_rd ht']
    simp only [Option.map_some, Bool.false_eq_true, if_false, Option.some.injEq]
    unfold mixRate
    rcases m1 with m1 | ⟨r, m1⟩
    · rw [m1, oneRate_nan hb _ _ _ (.inl rfl)]
      simp [rate_nan]
    · rcases m2 with m2 | ⟨x, m2⟩
      · rw [m1, m2, oneRate_nan hb _ _ _ (.inr (.inl rfl))]
        simp [rate_nan]
      · rw [m1, m2, oneRate_fin ha hb hL, Fl.pf_sub_fin, Fl.pf_sub_fin, rate_fin ha hb hL]
        simp only [Fl.pf_ofInt, Fl.pf_sub_fin, Fl.pf_mul_fin, Fl.pf_add_fin, Int.cast_one]
        congr 1
        have : alpha * pw a b L (r - x - waa) + (1 - alpha) * pw a b L (r - x - waa) = pw a b L (r - x - waa) := by ring
        rw [this]
        by_cases hneg : r - x - waa < 0
        · rw [if_pos hneg, pw_zero hb hneg.le]
        · have hn := pw_nonneg (b := b) ha hL (r - x - waa)
          have e2 : pw a b L (r - x - waa) = ((r - x - waa) / (a * L)) ^ (1 / b) := by
            rw [pw, max_eq_left (not_lt.mp hneg)]
          rw [if_neg hneg, ← e2, if_neg (not_lt.mpr hn)]
  · rw [List.getElem?_eq_none (by simp; omega), List.getElem?_eq_none (show pref.length ≤ t by omega)]
    rfl

/-- the hypotheses can be met: -/
example : ∃ R, callFP (List.zipWith (fun r x => r -ᶠ x -ᶠ .fin 1) [.fin (-50), .nan] [.fin (-60), .fin (-55)]) 5 23 "H" "ITU_2005" 0 =
    .ok R ∧ R.length = 2 := by
  obtain ⟨R, h, hl, -⟩ := C109_total (List.zipWith (fun r x => r -ᶠ x -ᶠ .fin 1) [.fin (-50), .nan] [.fin (-60), .fin (-55)]) 5 23 0
    "H" "ITU_2005" (by norm_num) (by norm_num) (.inl (by simp [isH])) (.inr rfl) (by norm_num)
  exact ⟨R, h, hl⟩

example (sp : Spline) : rainfall_retrival sp [.fin (-50), .nan] [.fin (-60), .fin (-55)] [.fin (-60), .fin (-55)] [] (.fin 5) none none
    (some [.fin 0.1]) (some [.fin 1.1]) "ITU_2005" (.fin 2.3) (.fin 0.33) none =
    calc_R_from_A sp [.fin (-50) -ᶠ .fin (-60) -ᶠ .fin 2.3, .nan -ᶠ .fin (-55) -ᶠ .fin 2.3] (.fin 5) none none (some [.fin 0.1])
      (some [.fin 1.1]) "ITU_2005" (.fin 0) :=
  C115_equal_levels sp _ _ _ 5 0.1 1.1 (by norm_num) (by norm_num) (by norm_num) _ 2.3 0.33 rfl
    (by simp [IsLevel]) (by simp [IsLevel])

example : ∃ (g : ℝ → ℝ) (top : ℝ), 1000 < top ∧ g 0 = 0 ∧
    waa_pastorek_2021_from_A_obs cubicSpline [.fin 0, .nan] (.fin 23e9) "V" (.fin 5) (.fin 14) (.fin 0.55) (.fin 0.1) =
      .ok [.fin (g 0), .nan] := by
  obtain ⟨g, top, h1, -, h3, -, -, h6, -⟩ := C114_pastorek 23e9 "V" (by norm_num) (by norm_num) (.inr (by simp [isV]))
    (L := 5) (A_max := 14) (zeta := 0.55) (d := 0.1) (by norm_num) (by norm_num) (by norm_num) (by norm_num)
  refine ⟨g, top, h1, h3, h6 _ fun z hz => ?_⟩
  rcases List.mem_cons.mp hz with rfl | hz
  · exact .inr ⟨0, rfl, le_rfl, by linarith⟩
  · exact .inl (List.mem_singleton.mp hz)

/-- 23.5 GHz, between two tabulated frequencies -/
example : ∃ u v : ℝ, 0 < u ∧ 0 < v ∧
    calc_R_from_A cubicSpline [.fin 3, .nan] (.fin 5) (some [.fin 23.5]) (some ["V"]) none none "ITU_2005" (.fin 0.1) =
      calc_R_from_A cubicSpline [.fin 3, .nan] (.fin 5) none none (some [.fin u]) (some [.fin v]) "ITU_2005" (.fin 0.1) := by
  obtain ⟨u, v, hu, hv, _, h, _⟩ := C114_parameters 23.5 "V" "ITU_2005" (by norm_num) (by norm_num) (Or.inr (by simp [isV])) (Or.inr rfl)
  exact ⟨u, v, hu, hv, h _ _ _⟩

end Verif.Props
