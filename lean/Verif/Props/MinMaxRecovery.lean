import Verif.Props.MinMax
import Verif.Props.Recovery

/-!
# Property C139: minimum and maximum levels recover the rain up to their resolution
-/

namespace Verif.Props
open Verif Verif.MinMax Verif.KR

section exact
variable {K : Type} [Field K] [LinearOrder K] [IsStrictOrderedRing K] [FloorRing K]

/-- The levels reported for step `i`: the transmitted level is constant during the step, the received one is lower by the
loss, which takes the values `loss i` during the step; each of the four extremes is given up to half the resolution
`gT`, `gR`. -/
structure Reported (n : ℕ) (T : ℕ → K) (loss : ℕ → List K) (gT gR : K) (txMin txMax rxMin rxMax : ℕ → K) : Prop where
  txMin : ∀ i < n, |txMin i - T i| ≤ gT / 2
  txMax : ∀ i < n, |txMax i - T i| ≤ gT / 2
  rxMin : ∀ i < n, ∃ l, IsLeast {z | ∃ x ∈ loss i, z = T i - x} l ∧ |rxMin i - l| ≤ gR / 2
  rxMax : ∀ i < n, ∃ l, IsGreatest {z | ∃ x ∈ loss i, z = T i - x} l ∧ |rxMax i - l| ≤ gR / 2

omit [IsStrictOrderedRing K] in
theorem filledLevels_series (bias : K) (n : ℕ) (x y : ℕ → K) (i : ℕ) (hi : i < n) :
    (filledLevels bias (series n x) (series n y))[i]? = some (x i - y i + bias) := by
  unfold filledLevels
  rw [List.getElem?_zipWith, series_get x hi, series_get y hi]

omit [IsStrictOrderedRing K] in
theorem filledLevels_series_some (bias : K) (n : ℕ) (x y : ℕ → K) (i : ℕ) (z : K)
    (h : (filledLevels bias (series n x) (series n y))[i]? = some z) : i < n ∧ z = x i - y i + bias := by
  have hi : i < n := by
    have := (List.getElem?_eq_some_iff.mp h).1
    unfold filledLevels series at this
    simpa using this
  rw [filledLevels_series bias n x y i hi] at h
  exact ⟨hi, (Option.some.inj h).symm⟩

omit [IsStrictOrderedRing K] [FloorRing K] in
theorem validLevels_series (bias : K) (n : ℕ) (x y : ℕ → K) (hn : 0 < n) :
    validLevels bias (series n x) (series n y) ≠ [] := by
  obtain ⟨n, rfl⟩ : ∃ m, n = m + 1 := ⟨n - 1, by omega⟩
  unfold series
  rw [List.range_succ_eq_map]
  simp [validLevels]

omit [IsStrictOrderedRing K] [LinearOrder K] [FloorRing K] [Field K] in
theorem series_num (n : ℕ) (x : ℕ → K) : NumOrNan (series n x) := by
  intro v hv
  obtain ⟨i, _, rfl⟩ := List.mem_map.mp hv
  exact Or.inr ⟨_, rfl⟩

/-- **C139** `_calc_A_min_max` of minimum and maximum levels that are known up to half their resolution, transmitted level
constant within a step (not from step to step): from step `window` on the result is the largest loss of the step minus
the smallest loss of the last `window + 1` steps, or up to `2*(gT + gR)` less, but never more and never negative. -/
theorem C139_attenuation (n : ℕ) (T : ℕ → K) (loss : ℕ → List K) (gT gR : K) (txMin txMax rxMin rxMax : ℕ → K)
    (h : Reported n T loss gT gR txMin txMax rxMin rxMax) (window : ℕ) :
    ∃ out, calcAMinMax (series n txMin) (series n txMax) (series n rxMin) (series n rxMax) (.fin gT) (.fin gR) window
        = .ok out ∧ out.length = n ∧
      ∀ i, window ≤ i → i < n → ∃ x, out[i]? = some (.fin x) ∧ 0 ≤ x ∧
        ∀ hi lo, IsGreatest {z | z ∈ loss i} hi → IsLeast {z | ∃ k, i - window ≤ k ∧ k ≤ i ∧ z ∈ loss k} lo →
          x ≤ hi - lo ∧ hi - lo - 2 * (gT + gR) ≤ x := by
  have hlen : ∀ x : ℕ → K, (series n x).length = n := fun x => by simp [series]
  by_cases hn : n = 0
  · subst hn
    obtain ⟨out, h1, h2, _⟩ := C27_minmax_nonneg (series 0 txMin) (series 0 txMax) (series 0 rxMin) (series 0 rxMax)
      (.fin gT) (.fin gR) window rfl rfl rfl
    exact ⟨out, h1, h2, fun i _ hi => absurd hi (by omega)⟩
  obtain ⟨out, h1, h2⟩ := C27_minmax_value (series n txMin) (series n txMax) (series n rxMin) (series n rxMax) gT gR window
    (by simp [hlen]) (by simp [hlen]) (by simp [hlen]) (series_num _ _) (series_num _ _) (series_num _ _) (series_num _ _)
    (validLevels_series _ _ _ _ (by omega)) (validLevels_series _ _ _ _ (by omega))
  obtain ⟨out', h1', h2', _⟩ := C27_minmax_nonneg (series n txMin) (series n txMax) (series n rxMin) (series n rxMax)
      (.fin gT) (.fin gR) window (by simp [hlen]) (by simp [hlen]) (by simp [hlen])
  rw [h1] at h1'
  obtain rfl := Except.ok.inj h1'
  refine ⟨out, h1, by rw [h2', hlen], ?_⟩
  intro i hwi hi
  obtain ⟨m, ⟨⟨k0, a1, a2, a3⟩, mle⟩, ho⟩ := h2 i _ hwi (filledLevels_series _ n txMax rxMin i hi)
  refine ⟨_, ho, le_max_left _ _, ?_⟩
  intro hi' lo' hhi hlo
  obtain ⟨hk0, em⟩ := filledLevels_series_some _ _ _ _ _ _ a3
  -- the largest loss of step i
  obtain ⟨l, ⟨⟨xl, hxl, el⟩, hl2⟩, hl3⟩ := h.rxMin i hi
  have eq1 : l = T i - hi' := by
    have c1 := hhi.2 hxl
    have c2 := hl2 ⟨hi', hhi.1, rfl⟩
    linarith
  have t1 := abs_le.mp (h.txMax i hi)
  have t2 := abs_le.mp hl3
  -- lower levels
  have low : ∀ k, k < n → ∃ y ∈ loss k, y ≤ txMin k - rxMax k + (gT + gR) / 2 ∧
      txMin k - rxMax k + (gT + gR) / 2 ≤ y + (gT + gR) ∧ ∀ z ∈ loss k, y ≤ z := by
    intro k hk
    obtain ⟨g, ⟨⟨y, hy, ey⟩, hg2⟩, hg3⟩ := h.rxMax k hk
    have u1 := abs_le.mp (h.txMin k hk)
    have u2 := abs_le.mp hg3
    refine ⟨y, hy, by linarith [u1.1, u1.2, u2.1, u2.2], by linarith [u1.1, u1.2, u2.1, u2.2], ?_⟩
    intro z hz
    have := hg2 ⟨z, hz, rfl⟩
    linarith
  -- lo' is attained in some step
  obtain ⟨⟨k1, b1, b2, b3⟩, hlo2⟩ := hlo
  obtain ⟨y0, hy0, c1, c2, _⟩ := low k0 hk0
  obtain ⟨y1, hy1, d1, d2, d3⟩ := low k1 (by omega)
  have g1 : lo' ≤ y0 := hlo2 ⟨k0, a1, a2, hy0⟩
  have g2 : y1 ≤ lo' := d3 lo' b3
  have g3 : m ≤ txMin k1 - rxMax k1 + (gT + gR) / 2 :=
    mle ⟨k1, b1, b2, filledLevels_series _ n txMin rxMax k1 (by omega)⟩
  have hlh : lo' ≤ hi' := hlo2 ⟨i, by omega, le_rfl, hhi.1⟩
  refine ⟨max_le (by linarith) (by linarith), le_max_of_le_right ?_⟩
  linarith

/-- **C139** Levels rounded to the nearest multiple of the resolution meet the conditions of the other theorems. -/
theorem C139_rounded_levels (n : ℕ) (T : ℕ → K) (loss : ℕ → List K) (gT gR : K) (hgT : 0 < gT) (hgR : 0 < gR)
    (lo hi : ℕ → K) (hlo : ∀ i < n, IsLeast {z | z ∈ loss i} (lo i)) (hhi : ∀ i < n, IsGreatest {z | z ∈ loss i} (hi i)) :
    Reported n T loss gT gR (fun i => gT * round (T i / gT)) (fun i => gT * round (T i / gT))
      (fun i => gR * round ((T i - hi i) / gR)) (fun i => gR * round ((T i - lo i) / gR)) := by
  have key : ∀ g x : K, 0 < g → |g * round (x / g) - x| ≤ g / 2 := by
    intro g x hg
    have h1 := abs_sub_round (x / g)
    have h2 : g * round (x / g) - x = -(g * (x / g - round (x / g))) := by field_simp; ring
    rw [h2, abs_neg, abs_mul, abs_of_pos hg]
    calc g * |x / g - round (x / g)| ≤ g * (1 / 2) := mul_le_mul_of_nonneg_left h1 hg.le
      _ = g / 2 := by ring
  refine ⟨fun i _ => key gT _ hgT, fun i _ => key gT _ hgT, fun i h => ⟨T i - hi i, ⟨⟨hi i, (hhi i h).1, rfl⟩, ?_⟩,
    key gR _ hgR⟩, fun i h => ⟨T i - lo i, ⟨⟨lo i, (hlo i h).1, rfl⟩, ?_⟩, key gR _ hgR⟩⟩
  · rintro z ⟨x, hx, rfl⟩
    have := (hhi i h).2 hx
    linarith
  · rintro z ⟨x, hx, rfl⟩
    have := (hlo i h).2 hx
    linarith

end exact

section rain

/-- The two steps of the example below: the loss rises from 50 to 60 dB, the transmitted level is 0 dBm. -/
theorem reported_two (e : ℚ) (he : |e| ≤ 1 / 2) :
    Reported 2 (fun _ => (0 : ℚ)) (fun i => if i = 0 then [50] else [60]) 1 1 (fun _ => e) (fun _ => -e)
      (fun i => if i = 0 then -50 + e else -60 + e) (fun i => if i = 0 then -50 - e else -60 - e) := by
  refine ⟨fun i _ => by simpa using he, fun i _ => by simpa using he, fun i _ => ?_, fun i _ => ?_⟩
  · by_cases h : i = 0
    · simp only [h, if_true]
      exact ⟨-50, ⟨⟨50, by simp, by norm_num⟩, by rintro z ⟨x, hx, rfl⟩; simp at hx; rw [hx]; norm_num⟩, by simpa using he⟩
    · simp only [h, if_false]
      exact ⟨-60, ⟨⟨60, by simp, by norm_num⟩, by rintro z ⟨x, hx, rfl⟩; simp at hx; rw [hx]; norm_num⟩, by simpa using he⟩
  · by_cases h : i = 0
    · simp only [h, if_true]
      exact ⟨-50, ⟨⟨50, by simp, by norm_num⟩, by rintro z ⟨x, hx, rfl⟩; simp at hx; rw [hx]; norm_num⟩, by rw [show (-50 - e - -50 : ℚ) = -e by ring, abs_neg]; exact he⟩
    · simp only [h, if_false]
      exact ⟨-60, ⟨⟨60, by simp, by norm_num⟩, by rintro z ⟨x, hx, rfl⟩; simp at hx; rw [hx]; norm_num⟩, by rw [show (-60 - e - -60 : ℚ) = -e by ring, abs_neg]; exact he⟩

/-- **C139** Both bounds are reached: with a resolution of 1 dB a rise of the loss by 10 dB can give 10 dB or 6 dB. -/
theorem C139_sharp :
    ∃ (T : ℕ → ℚ) (loss : ℕ → List ℚ), loss 0 = [50] ∧ loss 1 = [60] ∧ ∀ y : ℚ, y = 10 ∨ y = 10 - 2 * (1 + 1) →
      ∃ txMin txMax rxMin rxMax, Reported 2 T loss 1 1 txMin txMax rxMin rxMax ∧
        calcAMinMax (series 2 txMin) (series 2 txMax) (series 2 rxMin) (series 2 rxMax) (.fin 1) (.fin 1) 1 =
          .ok [.nan, .fin y] := by
  refine ⟨fun _ => 0, fun i => if i = 0 then [50] else [60], rfl, rfl, ?_⟩
  rintro y (rfl | rfl)
  · exact ⟨_, _, _, _, reported_two (-1 / 2) (by rw [abs_le]; norm_num), by decide +kernel⟩
  · exact ⟨_, _, _, _, reported_two (1 / 2) (by rw [abs_le]; norm_num), by decide +kernel⟩

/-- **C139** From the minimum and maximum levels to rain rates: during step `i` it rains at the rates `rain i`, each rate
`R` adds the loss `a*R^b*L` to the constant dry loss, and at some moment of the last `window + 1` steps it does not
rain. Then `calc_R_from_A_min_max` of `_calc_A_min_max` is the largest rate of the step divided by `ln k + gamma`, or
less, but not below the value for a loss smaller by `2*(gT + gR)` (0 if below `R_min`). -/
theorem C139_rain (sp : Spline) (n : ℕ) (T : ℕ → ℝ) (B : ℝ) (rain : ℕ → List ℝ) (gT gR L a b R_min k : ℝ)
    (pol : String) (ha : 0 < a) (hb : 0 < b) (hL : 0 < L) (hk : 0 < k) (hc : 0 < Real.log k + 0.57721566)
    (hr : ∀ i < n, ∀ R ∈ rain i, 0 ≤ R) (txMin txMax rxMin rxMax : ℕ → ℝ) (window : ℕ)
    (h : Reported n T (fun i => (rain i).map fun R => B + a * R ^ b * L) gT gR txMin txMax rxMin rxMax) :
    ∃ A Rs, calcAMinMax (series n txMin) (series n txMax) (series n rxMin) (series n rxMax) (.fin gT) (.fin gR) window
        = .ok A ∧
      calc_R_from_A_min_max sp A (.fin L) none (some [.fin a]) (some [.fin b]) pol (.fin R_min) (.fin k) = .ok Rs ∧
      Rs.length = n ∧
      ∀ i, window ≤ i → i < n → (∃ j, i - window ≤ j ∧ j ≤ i ∧ 0 ∈ rain j) → ∀ Rmax, IsGreatest {R | R ∈ rain i} Rmax →
        ∃ r, Rs[i]? = some (.fin r) ∧ 0 ≤ r ∧ r ≤ Rmax / (Real.log k + 0.57721566) ∧
          (R_min ≤ (max 0 (a * Rmax ^ b * L - 2 * (gT + gR)) / (a * L)) ^ (1 / b) / (Real.log k + 0.57721566) →
            (max 0 (a * Rmax ^ b * L - 2 * (gT + gR)) / (a * L)) ^ (1 / b) / (Real.log k + 0.57721566) ≤ r) := by
  obtain ⟨A, hA, hAl, hAv⟩ := C139_attenuation n T (fun i => (rain i).map fun R => B + a * R ^ b * L) gT gR txMin txMax
    rxMin rxMax h window
  obtain ⟨Rp, Rs, e1, e2, e3, e4, e5⟩ := C24_min_max sp A L a b R_min k pol ha hb hL hk hc
  refine ⟨A, Rs, hA, e2, by omega, ?_⟩
  intro i hwi hi hdry Rmax hmax
  obtain ⟨x, hx, hx0, hxv⟩ := hAv i hwi hi
  have hRmax0 : 0 ≤ Rmax := hr i hi Rmax hmax.1
  have mono : ∀ p q : ℝ, 0 ≤ p → p ≤ q → B + a * p ^ b * L ≤ B + a * q ^ b * L := by
    intro p q hp hpq
    have := Real.rpow_le_rpow hp hpq hb.le
    have h2 : a * p ^ b ≤ a * q ^ b := mul_le_mul_of_nonneg_left this ha.le
    have h3 := mul_le_mul_of_nonneg_right h2 hL.le
    linarith
  have hbase : ∀ p : ℝ, 0 ≤ p → B ≤ B + a * p ^ b * L := by
    intro p hp
    have : 0 ≤ a * p ^ b * L := by positivity
    linarith
  have hv := hxv (B + a * Rmax ^ b * L) B
    ⟨List.mem_map.mpr ⟨Rmax, hmax.1, rfl⟩, by
      rintro z hz
      obtain ⟨R, hR, rfl⟩ := List.mem_map.mp hz
      exact mono R Rmax (hr i hi R hR) (hmax.2 hR)⟩
    ⟨by
      obtain ⟨j, j1, j2, j3⟩ := hdry
      refine ⟨j, j1, j2, List.mem_map.mpr ⟨0, j3, ?_⟩⟩
      rw [Real.zero_rpow hb.ne']
      ring, by
      rintro z ⟨j, _, j2, hz⟩
      obtain ⟨R, hR, rfl⟩ := List.mem_map.mp hz
      exact hbase R (hr j (by omega) R hR)⟩
  obtain ⟨v1, v2⟩ := hv
  have v1 : x ≤ a * Rmax ^ b * L := by linarith
  have v2 : a * Rmax ^ b * L - 2 * (gT + gR) ≤ x := by linarith
  have hil : i < A.length := by omega
  have hAi : A[i] = .fin x := by
    rw [List.getElem?_eq_getElem hil] at hx
    exact Option.some.inj hx
  obtain ⟨Rp', p1, p2, p3⟩ := C19_rain_rate sp A L a b 0 ha hb hL
  rw [e1] at p1
  obtain rfl := Except.ok.inj p1
  obtain ⟨_, _, _, _, _, p8⟩ := p3 i hil (by omega)
  have hRp := p8 x hAi hx0 (by positivity)
  have hRs := (e5 i).1 _ (by rw [List.getElem?_eq_getElem (by omega), hRp])
  have haL : 0 < a * L := mul_pos ha hL
  set c := Real.log k + 0.57721566 with hcdef
  have hback : (a * Rmax ^ b * L / (a * L)) ^ (1 / b) = Rmax := by
    rw [show a * Rmax ^ b * L / (a * L) = Rmax ^ b by field_simp, ← Real.rpow_mul hRmax0, mul_one_div_cancel hb.ne',
      Real.rpow_one]
  have hup : (x / (a * L)) ^ (1 / b) ≤ Rmax := by
    rw [← hback]
    exact Real.rpow_le_rpow (by positivity) (div_le_div_of_nonneg_right v1 haL.le) (by positivity)
  have hlow : (max 0 (a * Rmax ^ b * L - 2 * (gT + gR)) / (a * L)) ^ (1 / b) / c ≤ (x / (a * L)) ^ (1 / b) / c := by
    apply div_le_div_of_nonneg_right _ hc.le
    exact Real.rpow_le_rpow (by positivity) (div_le_div_of_nonneg_right (max_le hx0 v2) haL.le) (by positivity)
  have hpos : 0 ≤ (x / (a * L)) ^ (1 / b) / c := by positivity
  refine ⟨_, hRs, ?_, ?_, ?_⟩
  · split_ifs
    · exact le_rfl
    · exact hpos
  · split_ifs
    · positivity
    · exact div_le_div_of_nonneg_right hup hc.le
  · intro hcut
    rw [if_neg (by linarith)]
    exact hlow

/-- **C139** A transmitter that changes its level within a step (automatic power control) makes rain out of nothing: the
loss is 60 dB throughout, the transmitted level changes from 10 to 15 dBm and back during the last step, and the
result for this step is 10 dB. -/
theorem C139_power_control :
    ∃ (tx : ℕ → List ℚ) (txMin txMax rxMin rxMax : ℕ → ℚ),
      (∀ i < 3, IsLeast {z | z ∈ tx i} (txMin i) ∧ IsGreatest {z | z ∈ tx i} (txMax i) ∧
        IsLeast {z | ∃ x ∈ tx i, z = x - 60} (rxMin i) ∧ IsGreatest {z | ∃ x ∈ tx i, z = x - 60} (rxMax i)) ∧
      calcAMinMax (series 3 txMin) (series 3 txMax) (series 3 rxMin) (series 3 rxMax) (.fin 0) (.fin 0) 2 =
        .ok [.nan, .nan, .fin 10] := by
  refine ⟨fun i => if i = 2 then [10, 15] else [10], fun _ => 10, fun i => if i = 2 then 15 else 10, fun _ => -50,
    fun i => if i = 2 then -45 else -50, ?_, by decide +kernel⟩
  intro i hi
  by_cases h2 : i = 2
  · simp only [h2, if_true]
    refine ⟨⟨by simp, ?_⟩, ⟨by simp, ?_⟩, ⟨⟨10, by simp, by norm_num⟩, ?_⟩, ⟨⟨15, by simp, by norm_num⟩, ?_⟩⟩
    · rintro z hz
      simp at hz
      rcases hz with rfl | rfl <;> norm_num
    · rintro z hz
      simp at hz
      rcases hz with rfl | rfl <;> norm_num
    · rintro z ⟨x, hx, rfl⟩
      simp at hx
      rcases hx with rfl | rfl <;> norm_num
    · rintro z ⟨x, hx, rfl⟩
      simp at hx
      rcases hx with rfl | rfl <;> norm_num
  · simp only [h2, if_false]
    refine ⟨⟨by simp, ?_⟩, ⟨by simp, ?_⟩, ⟨⟨10, by simp, by norm_num⟩, ?_⟩, ⟨⟨10, by simp, by norm_num⟩, ?_⟩⟩
    · rintro z hz
      simp at hz
      rw [hz]
    · rintro z hz
      simp at hz
      rw [hz]
    · rintro z ⟨x, hx, rfl⟩
      simp at hx
      rw [hx]
      norm_num
    · rintro z ⟨x, hx, rfl⟩
      simp at hx
      rw [hx]
      norm_num

/-- Levels of a shower rounded to 1 dB: dry, 8 mm/h, up to 20 mm/h, dry (a = 0.1, b = 1, L = 10 km, dry loss 60 dB). -/
example : ∃ txMin txMax rxMin rxMax : ℕ → ℝ,
    Reported 4 (fun _ => (10 : ℝ)) (fun i => ((if i = 1 then [0, 8] else if i = 2 then [8, 20, 4] else [0]) : List ℝ).map
      fun R => 60 + 0.1 * R ^ (1 : ℝ) * 10) 1 1 txMin txMax rxMin rxMax := by
  refine ⟨_, _, _, _, C139_rounded_levels 4 (fun _ => (10 : ℝ)) _ 1 1 one_pos one_pos
    (fun i => if i = 2 then 64 else 60) (fun i => if i = 1 then 68 else if i = 2 then 80 else 60) ?_ ?_⟩
  · intro i hi
    interval_cases i
    all_goals
      refine ⟨by norm_num, ?_⟩
      intro z hz
      norm_num at hz ⊢
      rcases hz with rfl | rfl | rfl <;> norm_num
  · intro i hi
    interval_cases i
    all_goals
      refine ⟨by norm_num, ?_⟩
      intro z hz
      norm_num at hz ⊢
      rcases hz with rfl | rfl | rfl <;> norm_num

end rain

end Verif.Props
