import Verif.Props.Gaps
import Verif.Props.RainScores

/-!
# Property C168: scores of estimates that are never too high, and of records with gaps
-/

namespace Verif.Props
open Verif Verif.Stats Verif.Baseline Verif.Waa Verif.KR Verif.Spec

/-- **C168** An estimate that is nowhere above the reference: sum and mean are not above those of the reference (below them if it is lower
anywhere), the mean absolute error is exactly the difference of the means, and no step is falsely wet. -/
theorem C168_low (r p : List (Fl ℝ)) (t : ℝ) (e : RainError (Fl ℝ)) (he : calcRainErrorPerformanceMetrics r p (.fin t) = .ok e)
    (hr : FiniteOrNaN r) (hp : FiniteOrNaN p) (hne : validPairs r p ≠ [])
    (h : ∀ (i : ℕ) (x y : ℝ), r[i]? = some (.fin x) → p[i]? = some (.fin y) → y ≤ x) :
    ∃ mae mr mp sr sp : ℝ, e.meanAbsoluteError = .fin mae ∧ e.rMeanReference = .fin mr ∧ e.rMeanPredicted = .fin mp ∧
      e.rSumReference = .fin sr ∧ e.rSumPredicted = .fin sp ∧ mae = mr - mp ∧ mp ≤ mr ∧ sp ≤ sr ∧
      ((∃ (i : ℕ) (x y : ℝ), r[i]? = some (.fin x) ∧ p[i]? = some (.fin y) ∧ y < x) → sp < sr ∧ mp < mr) ∧
      (e.falseWetRate = .fin 0 ∨ e.falseWetRate = .nan) ∧ e.falseWetPrecipitationRate = .nan := by
  obtain ⟨ps, hps⟩ := exists_real_pairs r p hr hp
  have hne' : ps ≠ [] := by rintro rfl; exact hne hps
  have npos : (0 : ℝ) < ps.length := by exact_mod_cast List.length_pos_of_ne_nil hne'
  have hq : ∀ q ∈ ps, q.2 ≤ q.1 := by
    intro q hq
    have hm : (Fl.fin q.1, Fl.fin q.2) ∈ validPairs r p := by
      rw [hps]
      exact List.mem_map_of_mem (f := fun q : ℝ × ℝ => (Fl.fin q.1, Fl.fin q.2)) hq
    unfold validPairs at hm
    obtain ⟨i, hi⟩ := List.getElem?_of_mem (List.mem_filter.mp hm).1
    rw [List.getElem?_zip_eq_some] at hi
    exact h i q.1 q.2 hi.1 hi.2
  obtain ⟨v1, v2, v3, v4, v5, -, -⟩ := C44_values r p _ e he ps hps hne'
  have hs : (ps.map (·.2)).sum ≤ (ps.map (·.1)).sum := List.sum_le_sum hq
  have ha : (ps.map fun q : ℝ × ℝ => |q.2 - q.1|).sum = (ps.map (·.1)).sum - (ps.map (·.2)).sum := by
    have e1 : (ps.map fun q : ℝ × ℝ => |q.2 - q.1|) = ps.map fun q => q.1 - q.2 :=
      List.map_congr_left fun q h' => by rw [abs_sub_comm, abs_of_nonneg (by linarith [hq q h'])]
    rw [e1]
    exact S_sub ps (·.1) (·.2)
  refine ⟨_, _, _, _, _, v5, v3, v4, v1, v2, by rw [ha, sub_div], div_le_div_of_nonneg_right hs npos.le, hs, ?_, ?_⟩
  · rintro ⟨i, x, y, i1, i2, i3⟩
    have hm : ((x, y) : ℝ × ℝ) ∈ ps := by
      have : (Fl.fin x, Fl.fin y) ∈ validPairs r p := by
        unfold validPairs
        refine List.mem_filter.mpr ⟨List.mem_of_getElem? (i := i) (List.getElem?_zip_eq_some.mpr ⟨i1, i2⟩), by simp [okPair]⟩
      rw [hps] at this
      obtain ⟨q, q1, q2⟩ := List.mem_map.mp this
      simp only [Prod.mk.injEq, Fl.fin.injEq] at q2
      obtain ⟨rfl, rfl⟩ := q2
      exact q1
    have : (ps.map (·.2)).sum < (ps.map (·.1)).sum := List.sum_lt_sum _ _ hq ⟨_, hm, i3⟩
    exact ⟨this, div_lt_div_of_pos_right this npos⟩
  · obtain ⟨d0, d1, -, -, f0, -, -, -⟩ := C45_rates r p (.fin t) e he
    rw [hps] at d0 d1 f0
    have ef : ((ps.map fun q => (Fl.fin q.1, Fl.fin q.2)).filter fun z : Fl ℝ × Fl ℝ => !(Fl.fin t <ᶠ z.1)).filter
        (fun z => Fl.fin t <ᶠ z.2) = [] := by
      rw [List.filter_filter, List.filter_eq_nil_iff]
      intro z hz
      obtain ⟨q, q1, rfl⟩ := List.mem_map.mp hz
      have := hq q q1
      simp only [Fl.pf_lt_fin, Bool.and_eq_true, decide_eq_true_eq, Bool.not_eq_true', decide_eq_false_iff_not, not_and, not_not]
      intro h'
      linarith
    refine ⟨?_, f0 ef⟩
    by_cases hd : ((ps.map fun q => (Fl.fin q.1, Fl.fin q.2)).filter fun z : Fl ℝ × Fl ℝ => !(Fl.fin t <ᶠ z.1)) = []
    · exact Or.inr (d0 hd)
    · obtain ⟨x, e1, -, -, e2⟩ := d1 hd
      left
      rw [e1]
      have hl : ((((ps.map fun q => (Fl.fin q.1, Fl.fin q.2)).filter fun z : Fl ℝ × Fl ℝ => !(Fl.fin t <ᶠ z.1)).length : ℕ) : ℝ) ≠ 0 := by
        simpa using hd
      rw [ef] at e2
      simp only [List.length_nil, Nat.cast_zero, mul_eq_zero] at e2
      rw [e2.resolve_right hl]

open Classical in
/-- What is said of the scores `e` of a record of `T` steps of which those at `miss` have no rate, against the rain that fell. -/
def GapScores (p : ChainParams) (wet : List Bool) (T : ℕ) (gap miss : ℕ → Prop) (R : ℕ → ℝ) (e : RainError (Fl ℝ)) : Prop :=
  e.nAllPairs = T ∧ e.nNanReferenceOnly = 0 ∧
  e.nNanPairs = (List.range T).countP (fun t => decide (miss t)) ∧ e.nNanPredictedOnly = (List.range T).countP (fun t => decide (miss t)) ∧
  ∃ rmse mae mr mp sr sp : ℝ, e.rootMeanSquareError = .fin rmse ∧ e.meanAbsoluteError = .fin mae ∧ e.rMeanReference = .fin mr ∧
    e.rMeanPredicted = .fin mp ∧ e.rSumReference = .fin sr ∧ e.rSumPredicted = .fin sp ∧
    -- the reference counts only at the steps that have a rate
    sr = (((List.range T).filter fun t => ¬ miss t).map (rainFell wet R)).sum ∧
    -- the estimate is never too high, and too low if there is rain right after a gap while the antennas get wet
    mp ≤ mr ∧ sp ≤ sr ∧ mae = mr - mp ∧
    ((∃ t < T, ¬ miss t ∧ WetAt wet t ∧ WetAt wet (t - 1) ∧ gap (t - 1) ∧ 0 < R t ∧
      filmAt (WetAt wet) p.waaMax (3 * p.deltaT / p.tau) t < p.waaMax) → sp < sr ∧ mp < mr) ∧
    (e.falseWetRate = .fin 0 ∨ e.falseWetRate = .nan) ∧ e.falseWetPrecipitationRate = .nan ∧
    -- the scores of a record without gaps inside events are those of a perfect estimate
    ((∀ t < T, ¬ miss t → WetAt wet t → p.Rmin ≤ R t ∧ ∀ k < t, (∀ j, k ≤ j → j ≤ t → WetAt wet j) → ¬ gap k) → rmse = 0)

theorem gap_scores (p : ChainParams) (wet : List Bool) (T : ℕ) (gap miss : ℕ → Prop) (R ρ : ℕ → ℝ) (thr : ℝ)
    (hR : ∀ t < T, WetAt wet t → 0 ≤ R t) (hg : ∀ t < T, ¬ miss t → GapRates p wet gap R ρ t) (hex : ∃ t < T, ¬ miss t) :
    ∃ e, calcRainErrorPerformanceMetrics (series T (rainFell wet R)) (gapSeries T miss fun t => if ρ t < p.Rmin then 0 else ρ t) (.fin thr) =
      .ok e ∧ GapScores p wet T gap miss R e := by
  classical
  set cut : ℕ → ℝ := fun t => if ρ t < p.Rmin then 0 else ρ t with hcut
  obtain ⟨e, he, c1, c2, c3, c4, -⟩ := (C44_counts (series T (rainFell wet R)) (gapSeries T miss cut) (.fin thr)).2
    (by rw [series_length, gapSeries_length])
  refine ⟨e, he, ?_⟩
  have hz : (series T (rainFell wet R)).zip (gapSeries T miss cut) =
      (List.range T).map fun t => (Fl.fin (rainFell wet R t), if miss t then .nan else .fin (cut t)) := by
    unfold series gapSeries
    rw [List.zip_map']
  have hps : validPairs (series T (rainFell wet R)) (gapSeries T miss cut) =
      (((List.range T).filter fun t => ¬ miss t).map fun t => (rainFell wet R t, cut t)).map fun q => (Fl.fin q.1, Fl.fin q.2) := by
    unfold validPairs
    rw [hz, List.filter_map, List.map_map]
    have e1 : ((fun z : Fl ℝ × Fl ℝ => okPair z.1 z.2) ∘ fun t => (Fl.fin (rainFell wet R t), if miss t then .nan else .fin (cut t))) =
        fun t => decide (¬ miss t) := by
      funext t
      by_cases m : miss t <;> simp [m, okPair]
    rw [e1]
    refine List.map_congr_left fun t ht => ?_
    have m := of_decide_eq_true (List.mem_filter.mp ht).2
    simp [m]
  have hr : FiniteOrNaN (series T (rainFell wet R)) := by
    intro x hx
    obtain ⟨t, -, rfl⟩ := List.mem_map.mp hx
    exact .inr ⟨_, rfl⟩
  have hp : FiniteOrNaN (gapSeries T miss cut) := by
    intro x hx
    obtain ⟨t, -, rfl⟩ := List.mem_map.mp hx
    by_cases m : miss t
    · exact .inl (if_pos m)
    · exact .inr ⟨_, if_neg m⟩
  have hne : validPairs (series T (rainFell wet R)) (gapSeries T miss cut) ≠ [] := by
    obtain ⟨t, ht, m⟩ := hex
    rw [hps, List.map_map, Ne, List.map_eq_nil_iff]
    exact List.ne_nil_of_mem (List.mem_filter.mpr ⟨List.mem_range.mpr ht, by simpa using m⟩)
  have step : ∀ (i : ℕ) (x y : ℝ), (series T (rainFell wet R))[i]? = some (.fin x) → (gapSeries T miss cut)[i]? = some (.fin y) →
      i < T ∧ ¬ miss i ∧ x = rainFell wet R i ∧ y = cut i := by
    intro i x y h1 h2
    have hi : i < T := by simpa [series_length] using (List.getElem?_eq_some_iff.mp h1).1
    rw [series_get _ hi] at h1
    rw [gapSeries_get _ _ hi] at h2
    by_cases m : miss i
    · simp [m] at h2
    · simp only [m, if_false, Option.some.injEq, Fl.fin.injEq] at h1 h2
      exact ⟨hi, m, h1.symm, h2.symm⟩
  have low : ∀ t < T, ¬ miss t → cut t ≤ rainFell wet R t := by
    intro t ht m
    obtain ⟨g1, g2⟩ := hg t ht m
    by_cases w : WetAt wet t
    · obtain ⟨⟨-, g3⟩, -⟩ := g2 w
      simp only [hcut, rainFell, if_pos w]
      split_ifs
      · exact hR t ht w
      · exact g3
    · simp [hcut, rainFell, w, g1 w]
  obtain ⟨mae, mr, mp, sr, sp, v1, v2, v3, v4, v5, v6, v7, v8, v9, v10, v11⟩ := C168_low _ _ thr e he hr hp hne (by
    intro i x y h1 h2
    obtain ⟨hi, m, rfl, rfl⟩ := step i x y h1 h2
    exact low i hi m)
  obtain ⟨rmse, -, -, -, u1, -, -, -, -, -, u2, -⟩ := C44_inequalities _ _ _ e he hr hp hne
  refine ⟨by rw [c1, series_length], ?_, ?_, ?_, rmse, mae, mr, mp, sr, sp, u1, v1, v2, v3, v4, v5, ?_, v7, v8, v6, ?_, v10, v11, ?_⟩
  · rw [c3, List.countP_eq_zero]
    intro x hx
    obtain ⟨t, -, rfl⟩ := List.mem_map.mp hx
    simp
  · rw [c2, hz, List.countP_map]
    refine List.countP_congr fun t _ => ?_
    by_cases m : miss t <;> simp [m]
  · rw [c4]
    unfold gapSeries
    rw [List.countP_map]
    refine List.countP_congr fun t _ => ?_
    by_cases m : miss t <;> simp [m]
  · have := (C44_values _ _ _ e he _ hps (by
      rintro h0
      rw [h0] at hps
      exact hne hps)).1
    rw [v4] at this
    injection this with this
    rw [this, List.map_map]
    rfl
  · rintro ⟨t, ht, m, w, w', g, r0, f⟩
    refine v9 ⟨t, _, _, series_get _ ht, by rw [gapSeries_get _ _ ht, if_neg m], ?_⟩
    obtain ⟨g3, g4⟩ := ((hg t ht m).2 w).2.2.1 w' g
    have := g4 r0 f
    simp only [hcut, rainFell, if_pos w]
    split_ifs
    · exact r0
    · exact this
  · intro hall
    refine u2.mpr fun z hz' => ?_
    rw [hps, List.map_map] at hz'
    obtain ⟨t, ht, rfl⟩ := List.mem_map.mp hz'
    obtain ⟨ht, m⟩ := List.mem_filter.mp ht
    have ht := List.mem_range.mp ht
    have m := of_decide_eq_true m
    show Fl.fin (rainFell wet R t) = Fl.fin (cut t)
    obtain ⟨g1, g2⟩ := hg t ht m
    by_cases w : WetAt wet t
    · obtain ⟨a1, a2⟩ := hall t ht m w
      have := (g2 w).2.1 a2
      simp only [hcut, rainFell, if_pos w, this, if_neg (not_lt.mpr a1)]
    · simp [hcut, rainFell, w, g1 w]

/-- **C168** Scores of a record with gaps (levels as in C166, constant baseline) against the rain that fell, in exact arithmetic: the steps without
level or baseline are the pairs left out, the reference sum is that of the other steps, and the estimate is biased low. -/
theorem C168_constant (sp : Spline) (p : ChainParams) (hp : p.Ok) (h3 : 3 * p.deltaT ≤ p.tau) (wet : List Bool) (T : ℕ)
    (gap : ℕ → Prop) (dryLevel R : ℕ → ℝ) (hT : T ≤ wet.length) (hR : ∀ t < T, WetAt wet t → 0 ≤ R t)
    (h1 : ∀ t < p.n, ¬ WetAt wet t) (h2 : ∀ t < T, WetAt wet t → ∀ s, s < t → t ≤ s + p.n → dryLevel s = dryLevel t)
    (hex : ∃ t < T, ¬ (gap t ∨ NoBase wet gap p.n t)) (thr : ℝ) :
    ∃ rates e, rainChain sp p (gapSeries T gap
          (levelAt (WetAt wet) p.waaMax (3 * p.deltaT / p.tau) dryLevel fun t => p.a * R t ^ p.b * p.L)) wet = .ok rates ∧
      calcRainErrorPerformanceMetrics (series T (rainFell wet R)) rates (.fin thr) = .ok e ∧
      GapScores p wet T gap (fun t => gap t ∨ NoBase wet gap p.n t) R e := by
  obtain ⟨ρ, h, hg⟩ := C166_gaps sp p hp h3 wet T gap dryLevel R hT hR h1 h2
  obtain ⟨e, he, hs⟩ := gap_scores p wet T gap (fun t => gap t ∨ NoBase wet gap p.n t) R ρ thr hR
    (fun t ht m => hg t ht (fun g => m (.inl g)) fun b => m (.inr b)) hex
  exact ⟨_, e, h, he, hs⟩

/-- **C168** The same with `baseline_linear`. -/
theorem C168_linear (sp : Spline) (p : ChainParams) (hp : p.Ok) (h3 : 3 * p.deltaT ≤ p.tau) (wet : List Bool) (T : ℕ)
    (gap : ℕ → Prop) (dryLevel R : ℕ → ℝ) (ignoreNan : Bool) (hT0 : 0 < T) (hT : T ≤ wet.length) (hR : ∀ t < T, WetAt wet t → 0 ≤ R t)
    (hfirst : ¬ WetAt wet 0) (hlast : ¬ WetAt wet (T - 1))
    (hlin : ∀ p i q, p < i → i < q → q < T → ¬ WetAt wet p → ¬ WetAt wet q → (∀ k, p < k → k < q → WetAt wet k) →
      dryLevel i = dryLevel p + ((i : ℝ) - p) * ((dryLevel q - dryLevel p) / ((q : ℝ) - p)))
    (hex : ∃ t < T, ¬ (gap t ∨ NoBaseLin wet gap T t)) (thr : ℝ) :
    let levels := gapSeries T gap (levelAt (WetAt wet) p.waaMax (3 * p.deltaT / p.tau) dryLevel fun t => p.a * R t ^ p.b * p.L)
    ∃ base waa rates e, baselineLinear levels (wet.map flagF) ignoreNan = .ok base ∧
      waaSchleiss levels base (wet.map flagF) (.fin p.waaMax) (.fin p.deltaT) (.fin p.tau) = .ok waa ∧
      calc_R_from_A sp (List.zipWith (· -ᶠ ·) (List.zipWith (· -ᶠ ·) levels base) waa)
        (.fin p.L) none none (some [.fin p.a]) (some [.fin p.b]) "ITU_2005" (.fin p.Rmin) = .ok rates ∧
      calcRainErrorPerformanceMetrics (series T (rainFell wet R)) rates (.fin thr) = .ok e ∧
      GapScores p wet T gap (fun t => gap t ∨ NoBaseLin wet gap T t) R e := by
  obtain ⟨base, waa, ρ, hb, hw, h, hg⟩ := C166_gaps_linear sp p hp h3 wet T gap dryLevel R ignoreNan hT0 hT hR hfirst hlast hlin
  obtain ⟨e, he, hs⟩ := gap_scores p wet T gap (fun t => gap t ∨ NoBaseLin wet gap T t) R ρ thr hR
    (fun t ht m => hg t ht (fun g => m (.inl g)) fun b => m (.inr b)) hex
  exact ⟨base, waa, _, e, hb, hw, h, he, hs⟩

/-- an estimate that misses the second of two showers: mean absolute error 1/2 as the difference of the means, no false wet steps -/
example : ∃ (e : RainError (Fl ℝ)) (mae mr mp : ℝ), calcRainErrorPerformanceMetrics [.fin 2, .fin 1, .nan] [.fin 2, .fin 0, .fin 7] (.fin (1 / 2)) = .ok e ∧
    e.meanAbsoluteError = .fin mae ∧ e.rMeanReference = .fin mr ∧ e.rMeanPredicted = .fin mp ∧ mae = mr - mp ∧ mp < mr ∧
    e.falseWetPrecipitationRate = .nan := by
  obtain ⟨e, he, -⟩ := (C44_counts [.fin 2, .fin 1, .nan] [.fin 2, .fin 0, .fin 7] (.fin (1 / 2))).2 rfl
  obtain ⟨mae, mr, mp, sr, sp, v1, v2, v3, -, -, v6, -, -, v9, -, v11⟩ := C168_low _ _ _ e he
    (by intro x hx; simp at hx; rcases hx with rfl | rfl | rfl <;> simp) (by intro x hx; simp at hx; rcases hx with rfl | rfl | rfl <;> simp)
    (by simp [validPairs, okPair]) (by
      intro i x y h1 h2
      match i with
      | 0 => simp at h1 h2; linarith
      | 1 => simp at h1 h2; linarith
      | 2 => simp at h1
      | i + 3 => simp at h1)
  exact ⟨e, mae, mr, mp, he, v1, v2, v3, v6, (v9 ⟨1, 1, 0, rfl, rfl, by norm_num⟩).2, v11⟩

/-- The record of the example of C166: rain of 5, 5 and 3 mm/h with a gap at the second step, and an event whose reference is missing. Three of the
six steps have no rate; of the 8 mm/h at the other steps less is reported. -/
example (sp : Spline) : ∃ rates e s, rainChain sp ⟨1, 2, 1, 15, 10, 1/10, 1, 1/10⟩
      [.fin 50, .fin (50 + (5 + 2/5)), .nan, .fin (50 + (3 + 122/125)), .nan, .fin (50 + (5 + 2/5))]
      [false, true, true, true, false, true] = .ok rates ∧
    calcRainErrorPerformanceMetrics [.fin 0, .fin 5, .fin 5, .fin 3, .fin 0, .fin 5] rates (.fin (1/2)) = .ok e ∧
    e.nNanPairs = 3 ∧ e.rSumReference = .fin 8 ∧ e.rSumPredicted = .fin s ∧ s < 8 := by
  classical
  have w1 : WetAt [false, true, true, true, false, true] 1 := rfl
  have w2 : WetAt [false, true, true, true, false, true] 2 := rfl
  have w3 : WetAt [false, true, true, true, false, true] 3 := rfl
  have w5 : WetAt [false, true, true, true, false, true] 5 := rfl
  have d0 : ¬ WetAt [false, true, true, true, false, true] 0 := by simp [WetAt]
  have d4 : ¬ WetAt [false, true, true, true, false, true] 4 := by simp [WetAt]
  have hl : 6 ≤ [false, true, true, true, false, true].length := by simp
  generalize hwet : [false, true, true, true, false, true] = wet at *
  obtain ⟨gap, g⟩ : ∃ gap : ℕ → Prop, ∀ t, gap t ↔ t = 2 ∨ t = 4 := ⟨fun t => t = 2 ∨ t = 4, fun _ => Iff.rfl⟩
  have n0 : ¬ NoBase wet gap 1 0 := by rw [noBase_dry d0, g]; omega
  have n1 : ¬ NoBase wet gap 1 1 := by
    rw [noBase_first w1 d0]
    rintro ⟨k, k1, k2, k3⟩
    obtain rfl : k = 0 := by omega
    exact n0 k3
  have n2 : ¬ NoBase wet gap 1 2 := by rwa [noBase_next (by omega) w2 w1]
  have n3 : ¬ NoBase wet gap 1 3 := by rwa [noBase_next (by omega) w3 w2]
  have n5 : NoBase wet gap 1 5 := .event (s := 5) (k := 4) (by omega) (by omega) le_rfl d4
    (fun j j1 j2 => by obtain rfl : j = 5 := by omega
                       exact w5) (.dry d4 (by rw [g]; omega))
  obtain ⟨rates, e, h, he, -, -, c, -, rmse, mae, mr, mp, sr, s, -, -, -, -, v1, v2, v3, -, -, -, v4, -⟩ :=
    C168_constant sp ⟨1, 2, 1, 15, 10, 1/10, 1, 1/10⟩ (by constructor <;> norm_num) (by norm_num)
    wet 6 gap (fun _ => 50) (fun t => if t = 3 then 3 else 5) hl (fun t _ _ => by split_ifs <;> norm_num) (by
      intro t ht
      obtain rfl : t = 0 := by simpa using ht
      exact d0) (by intros; rfl) ⟨0, by omega, by rw [g]; rintro (h | h); (· omega); exact n0 h⟩ (1/2)
  have v4' := (v4 ⟨3, by omega, by show ¬ (gap 3 ∨ _); rw [g]; rintro (h | h); (· omega); exact n3 h, w3, w2, by rw [g]; omega, by norm_num, by
    simp only [filmAt, if_pos w1, if_pos w2, if_pos w3]; norm_num⟩).1
  simp only [g, n0, n1, n3, n5, List.range, List.range.loop, List.filter, List.countP, List.countP.go] at v3 c
  norm_num [n0, n1, n3, n5] at v3 c
  simp only [rainFell, if_pos w1, if_pos w3, if_neg d0] at v3
  norm_num at v3
  refine ⟨rates, e, s, ?_, ?_, c, by rw [v1, v3], v2, by linarith⟩
  · rw [← h]
    simp only [gapSeries, levelAt, filmAt, g, if_pos w1, if_pos w2, if_pos w3, if_pos w5, if_neg d0, if_neg d4, List.range, List.range.loop,
      List.map_cons, List.map_nil]
    norm_num
  · rw [← he]
    simp only [series, rainFell, if_pos w1, if_pos w2, if_pos w3, if_pos w5, if_neg d0, if_neg d4, List.range, List.range.loop,
      List.map_cons, List.map_nil]
    norm_num

/-- with `baseline_linear`: the step after the gap is underestimated, so that less than the 8 mm/h at the four steps with a rate is reported -/
example (sp : Spline) : ∃ base waa rates e s,
    baselineLinear [.fin 50, .fin (50 + (5 + 2/5)), .nan, .fin (50 + (3 + 122/125)), .fin 50] ([false, true, true, true, false].map flagF)
      false = .ok base ∧
    waaSchleiss [.fin 50, .fin (50 + (5 + 2/5)), .nan, .fin (50 + (3 + 122/125)), .fin 50] base ([false, true, true, true, false].map flagF)
      (.fin 2) (.fin 1) (.fin 15) = .ok waa ∧
    calc_R_from_A sp (List.zipWith (· -ᶠ ·) (List.zipWith (· -ᶠ ·)
        [.fin 50, .fin (50 + (5 + 2/5)), .nan, .fin (50 + (3 + 122/125)), .fin 50] base) waa)
      (.fin 10) none none (some [.fin (1/10)]) (some [.fin 1]) "ITU_2005" (.fin (1/10)) = .ok rates ∧
    calcRainErrorPerformanceMetrics [.fin 0, .fin 5, .fin 5, .fin 3, .fin 0] rates (.fin (1/2)) = .ok e ∧
    e.nNanPairs = 1 ∧ e.rSumReference = .fin 8 ∧ e.rSumPredicted = .fin s ∧ s < 8 := by
  classical
  have w1 : WetAt [false, true, true, true, false] 1 := rfl
  have w2 : WetAt [false, true, true, true, false] 2 := rfl
  have w3 : WetAt [false, true, true, true, false] 3 := rfl
  have d0 : ¬ WetAt [false, true, true, true, false] 0 := by simp [WetAt]
  have d4 : ¬ WetAt [false, true, true, true, false] 4 := by simp [WetAt]
  have hl : 5 ≤ [false, true, true, true, false].length := by simp
  generalize hwet : [false, true, true, true, false] = wet at *
  obtain ⟨gap, g⟩ : ∃ gap : ℕ → Prop, ∀ t, gap t ↔ t = 2 := ⟨fun t => t = 2, fun _ => Iff.rfl⟩
  have n : ∀ t, ¬ NoBaseLin wet gap 5 t := by
    rintro t (⟨k1, k2⟩ | ⟨p, q, -, -, -, -, h5, h6, -, h | h⟩)
    · rw [(g t).mp k2] at k1; exact k1 w2
    · rw [(g p).mp h] at h5; exact h5 w2
    · rw [(g q).mp h] at h6; exact h6 w2
  obtain ⟨base, waa, rates, e, hb, hw, h, he, -, -, c, -, rmse, mae, mr, mp, sr, s, -, -, -, -, v1, v2, v3, -, -, -, v4, -⟩ :=
    C168_linear sp ⟨1, 2, 1, 15, 10, 1/10, 1, 1/10⟩ (by constructor <;> norm_num) (by norm_num)
    wet 5 gap (fun _ => 50) (fun t => if t = 3 then 3 else 5) false (by norm_num) hl (fun t _ _ => by split_ifs <;> norm_num) d0 d4
    (by intros; simp) ⟨0, by omega, by rw [g]; rintro (h | h); (· omega); exact n _ h⟩ (1/2)
  have v4' := (v4 ⟨3, by omega, by show ¬ (gap 3 ∨ _); rw [g]; rintro (h | h); (· omega); exact n _ h, w3, w2, by rw [g], by norm_num, by
    simp only [filmAt, if_pos w1, if_pos w2, if_pos w3]; norm_num⟩).1
  simp only [g, n, List.range, List.range.loop, List.filter, List.countP, List.countP.go] at v3 c
  norm_num at v3 c
  simp only [rainFell, if_pos w1, if_pos w3, if_neg d0, if_neg d4] at v3
  norm_num at v3
  have el : gapSeries 5 gap (levelAt (WetAt wet) (2 : ℝ) (3 * 1 / 15) (fun _ => 50) fun t => 1 / 10 * (if t = 3 then 3 else 5 : ℝ) ^ (1 : ℝ) * 10) =
      [.fin 50, .fin (50 + (5 + 2/5)), .nan, .fin (50 + (3 + 122/125)), .fin 50] := by
    simp only [gapSeries, levelAt, filmAt, g, if_pos w1, if_pos w2, if_pos w3, if_neg d0, if_neg d4, List.range, List.range.loop,
      List.map_cons, List.map_nil]
    norm_num
  simp only [el] at hb hw h
  refine ⟨base, waa, rates, e, s, hb, hw, h, ?_, c, by rw [v1, v3], v2, by linarith⟩
  rw [← he]
  simp only [series, rainFell, if_pos w1, if_pos w2, if_pos w3, if_neg d0, if_neg d4, List.range, List.range.loop,
    List.map_cons, List.map_nil]
  norm_num

end Verif.Props
