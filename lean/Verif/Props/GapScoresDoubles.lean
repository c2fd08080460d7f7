import Verif.Props.GapScores
import Verif.Props.GapsDoubles

/-!
# Property C169: scores of records with gaps processed in doubles
-/

namespace Verif.Props
open Verif Verif.Stats Verif.Baseline Verif.Waa Verif.KR Verif.Spec

/-- **C169** An estimate that is nowhere more than `D` above the reference: so are its sum (`D` per pair) and mean, the mean absolute error is
the difference of the means up to `2 D`, and without references in `(t - D, t]` no step is falsely wet. -/
theorem C169_low (r p : List (Fl ℝ)) (t D : ℝ) (e : RainError (Fl ℝ)) (he : calcRainErrorPerformanceMetrics r p (.fin t) = .ok e)
    (hr : FiniteOrNaN r) (hp : FiniteOrNaN p) (hne : validPairs r p ≠ []) (hD : 0 ≤ D)
    (h : ∀ (i : ℕ) (x y : ℝ), r[i]? = some (.fin x) → p[i]? = some (.fin y) → y ≤ x + D) :
    ∃ mae mr mp sr sp : ℝ, e.meanAbsoluteError = .fin mae ∧ e.rMeanReference = .fin mr ∧ e.rMeanPredicted = .fin mp ∧
      e.rSumReference = .fin sr ∧ e.rSumPredicted = .fin sp ∧ mr - mp ≤ mae ∧ mae ≤ mr - mp + 2 * D ∧ mp ≤ mr + D ∧
      sp ≤ sr + (validPairs r p).length * D ∧
      ((∀ (i : ℕ) (x : ℝ), r[i]? = some (.fin x) → ¬ (t - D < x ∧ x ≤ t)) →
        (e.falseWetRate = .fin 0 ∨ e.falseWetRate = .nan) ∧ e.falseWetPrecipitationRate = .nan) := by
  obtain ⟨ps, hps⟩ := exists_real_pairs r p hr hp
  have hne' : ps ≠ [] := by rintro rfl; exact hne hps
  have npos : (0 : ℝ) < ps.length := by exact_mod_cast List.length_pos_of_ne_nil hne'
  have at' : ∀ q ∈ ps, ∃ i : ℕ, r[i]? = some (.fin q.1) ∧ p[i]? = some (.fin q.2) := by
    intro q hq
    have hm : (Fl.fin q.1, Fl.fin q.2) ∈ validPairs r p := by
      rw [hps]
      exact List.mem_map_of_mem (f := fun q : ℝ × ℝ => (Fl.fin q.1, Fl.fin q.2)) hq
    unfold validPairs at hm
    obtain ⟨i, hi⟩ := List.getElem?_of_mem (List.mem_filter.mp hm).1
    rw [List.getElem?_zip_eq_some] at hi
    exact ⟨i, hi⟩
  have hq : ∀ q ∈ ps, q.2 ≤ q.1 + D := fun q hq => by
    obtain ⟨i, i1, i2⟩ := at' q hq
    exact h i q.1 q.2 i1 i2
  obtain ⟨v1, v2, v3, v4, v5, -, -⟩ := C44_values r p _ e he ps hps hne'
  have hl : (validPairs r p).length = ps.length := by rw [hps, List.length_map]
  have hs : (ps.map (·.2)).sum ≤ (ps.map (·.1)).sum + ps.length * D := by
    have := S_mono ps (·.2) (fun q => q.1 + D) hq
    have e1 : S ps (fun q => q.1 + D) = S ps (·.1) + S ps fun _ => D := S_add ps (·.1) fun _ => D
    rw [e1, S_const] at this
    exact this
  have a1 : (ps.map (·.1)).sum - (ps.map (·.2)).sum ≤ (ps.map fun q : ℝ × ℝ => |q.2 - q.1|).sum := by
    have := S_mono ps (fun q => q.1 - q.2) (fun q => |q.2 - q.1|) fun q _ => by rw [abs_sub_comm]; exact le_abs_self _
    rw [S_sub] at this
    exact this
  have a2 : (ps.map fun q : ℝ × ℝ => |q.2 - q.1|).sum ≤ (ps.map (·.1)).sum - (ps.map (·.2)).sum + ps.length * (2 * D) := by
    have := S_mono ps (fun q => |q.2 - q.1|) (fun q => (q.1 - q.2) + 2 * D) fun q h' => by
      have := hq q h'
      rw [abs_le]
      constructor <;> linarith
    have e1 : S ps (fun q => (q.1 - q.2) + 2 * D) = S ps (fun q => q.1 - q.2) + S ps fun _ => 2 * D := S_add ps (fun q => q.1 - q.2) fun _ => 2 * D
    rw [e1, S_const, S_sub] at this
    exact this
  refine ⟨_, _, _, _, _, v5, v3, v4, v1, v2, ?_, ?_, ?_, by rw [hl]; exact hs, ?_⟩
  · rw [← sub_div]
    exact div_le_div_of_nonneg_right a1 npos.le
  · rw [← sub_div, div_add' _ _ _ npos.ne']
    exact div_le_div_of_nonneg_right (by linarith) npos.le
  · rw [div_add' _ _ _ npos.ne']
    exact div_le_div_of_nonneg_right (by linarith) npos.le
  · intro hgap
    obtain ⟨d0, d1, -, -, f0, -, -, -⟩ := C45_rates r p (.fin t) e he
    rw [hps] at d0 d1 f0
    have ef : ((ps.map fun q => (Fl.fin q.1, Fl.fin q.2)).filter fun z : Fl ℝ × Fl ℝ => !(Fl.fin t <ᶠ z.1)).filter
        (fun z => Fl.fin t <ᶠ z.2) = [] := by
      rw [List.filter_filter, List.filter_eq_nil_iff]
      intro z hz
      obtain ⟨q, q1, rfl⟩ := List.mem_map.mp hz
      have k := hq q q1
      obtain ⟨i, i1, -⟩ := at' q q1
      have g := hgap i q.1 i1
      simp only [Fl.pf_lt_fin, Bool.and_eq_true, decide_eq_true_eq, Bool.not_eq_true', decide_eq_false_iff_not, not_and, not_not]
      intro h'
      by_contra hc
      exact g ⟨by linarith, not_lt.mp hc⟩
    refine ⟨?_, f0 ef⟩
    by_cases hd : ((ps.map fun q => (Fl.fin q.1, Fl.fin q.2)).filter fun z : Fl ℝ × Fl ℝ => !(Fl.fin t <ᶠ z.1)) = []
    · exact Or.inr (d0 hd)
    · obtain ⟨x, e1, -, -, e2⟩ := d1 hd
      left
      rw [e1]
      have hl : ((((ps.map fun q => (Fl.fin q.1, Fl.fin q.2)).filter fun z : Fl ℝ × Fl ℝ => !(Fl.fin t <ᶠ z.1)).length : ℕ) : ℝ) ≠ 0 := by
        simpa using hd
      rw [ef] at e2
      simp only [List.length_nil, Nat.cast_zero, mul_eq_zero] at e2
      rw [e2.resolve_right hl]

open Classical in
/-- Which pairs of a series and one that is missing at `miss` are scored. -/
theorem gap_pairs (T : ℕ) (miss : ℕ → Prop) (f cut : ℕ → ℝ) (thr : ℝ) (hex : ∃ t < T, ¬ miss t) :
    ∃ e, calcRainErrorPerformanceMetrics (series T f) (gapSeries T miss cut) (.fin thr) = .ok e ∧
      e.nAllPairs = T ∧ e.nNanReferenceOnly = 0 ∧ e.nNanPairs = (List.range T).countP (fun t => decide (miss t)) ∧
      e.nNanPredictedOnly = (List.range T).countP (fun t => decide (miss t)) ∧
      e.rSumReference = .fin (((List.range T).filter fun t => ¬ miss t).map f).sum ∧
      FiniteOrNaN (series T f) ∧ FiniteOrNaN (gapSeries T miss cut) ∧ validPairs (series T f) (gapSeries T miss cut) ≠ [] ∧
      (validPairs (series T f) (gapSeries T miss cut)).length = (List.range T).countP (fun t => decide (¬ miss t)) ∧
      ∀ (i : ℕ) (x y : ℝ), (series T f)[i]? = some (.fin x) → (gapSeries T miss cut)[i]? = some (.fin y) →
        i < T ∧ ¬ miss i ∧ x = f i ∧ y = cut i := by
  obtain ⟨e, he, c1, c2, c3, c4, -⟩ := (C44_counts (series T f) (gapSeries T miss cut) (.fin thr)).2
    (by rw [series_length, gapSeries_length])
  have hz : (series T f).zip (gapSeries T miss cut) =
      (List.range T).map fun t => (Fl.fin (f t), if miss t then .nan else .fin (cut t)) := by
    unfold series gapSeries
    rw [List.zip_map']
  have hps : validPairs (series T f) (gapSeries T miss cut) =
      (((List.range T).filter fun t => ¬ miss t).map fun t => (f t, cut t)).map fun q => (Fl.fin q.1, Fl.fin q.2) := by
    unfold validPairs
    rw [hz, List.filter_map, List.map_map]
    have e1 : ((fun z : Fl ℝ × Fl ℝ => okPair z.1 z.2) ∘ fun t => (Fl.fin (f t), if miss t then .nan else .fin (cut t))) =
        fun t => decide (¬ miss t) := by
      funext t
      by_cases m : miss t <;> simp [m, okPair]
    rw [e1]
    refine List.map_congr_left fun t ht => ?_
    have m := of_decide_eq_true (List.mem_filter.mp ht).2
    simp [m]
  have hne : validPairs (series T f) (gapSeries T miss cut) ≠ [] := by
    obtain ⟨t, ht, m⟩ := hex
    rw [hps, List.map_map, Ne, List.map_eq_nil_iff]
    exact List.ne_nil_of_mem (List.mem_filter.mpr ⟨List.mem_range.mpr ht, by simpa using m⟩)
  refine ⟨e, he, by rw [c1, series_length], ?_, ?_, ?_, ?_, ?_, ?_, hne, ?_, ?_⟩
  · rw [c3, List.countP_eq_zero]
    intro x hx
    obtain ⟨t, -, rfl⟩ := List.mem_map.mp hx
    simp
  · rw [c2, hz, List.countP_map]
    refine List.countP_congr fun t _ => ?_
    by_cases m : miss t <;> simp [m]
  · rw [c4]
    unfold gapSeries
    rw [List.countP_map]
    refine List.countP_congr fun t _ => ?_
    by_cases m : miss t <;> simp [m]
  · have := (C44_values _ _ _ e he _ hps (by
      rintro h0
      rw [h0] at hps
      exact hne hps)).1
    rw [this, List.map_map]
    rfl
  · intro x hx
    obtain ⟨t, -, rfl⟩ := List.mem_map.mp hx
    exact .inr ⟨_, rfl⟩
  · intro x hx
    obtain ⟨t, -, rfl⟩ := List.mem_map.mp hx
    by_cases m : miss t
    · exact .inl (if_pos m)
    · exact .inr ⟨_, if_neg m⟩
  · rw [hps, List.length_map, List.length_map, List.countP_eq_length_filter]
  · intro i x y h1 h2
    have hi : i < T := by simpa [series_length] using (List.getElem?_eq_some_iff.mp h1).1
    rw [series_get _ hi] at h1
    rw [gapSeries_get _ _ hi] at h2
    by_cases m : miss i
    · simp [m] at h2
    · simp only [m, if_false, Option.some.injEq, Fl.fin.injEq] at h1 h2
      exact ⟨hi, m, h1.symm, h2.symm⟩

open Classical in
/-- What is said of the scores `e` of a record of `T` steps, of which those at `miss` have no rate, whose rates are in doubles. -/
def GapScoresUpTo (D rm : ℝ) (wet : List Bool) (T : ℕ) (gap miss : ℕ → Prop) (R : ℕ → ℝ) (thr : ℝ) (e : RainError (Fl ℝ)) : Prop :=
  e.nAllPairs = T ∧ e.nNanReferenceOnly = 0 ∧
  e.nNanPairs = (List.range T).countP (fun t => decide (miss t)) ∧ e.nNanPredictedOnly = (List.range T).countP (fun t => decide (miss t)) ∧
  ∃ rmse mae mr mp sr sp : ℝ, e.rootMeanSquareError = .fin rmse ∧ e.meanAbsoluteError = .fin mae ∧ e.rMeanReference = .fin mr ∧
    e.rMeanPredicted = .fin mp ∧ e.rSumReference = .fin sr ∧ e.rSumPredicted = .fin sp ∧
    -- the reference counts only at the steps that have a rate
    sr = (((List.range T).filter fun t => ¬ miss t).map (rainFell wet R)).sum ∧
    -- the estimate is too high by `D` at most
    mp ≤ mr + D ∧ sp ≤ sr + (List.range T).countP (fun t => decide (¬ miss t)) * D ∧ mr - mp ≤ mae ∧ mae ≤ mr - mp + 2 * D ∧
    ((∀ t < T, ¬ (thr - D < rainFell wet R t ∧ rainFell wet R t ≤ thr)) →
      (e.falseWetRate = .fin 0 ∨ e.falseWetRate = .nan) ∧ e.falseWetPrecipitationRate = .nan) ∧
    -- without gaps inside events all errors are bounded
    ((∀ t < T, ¬ miss t → WetAt wet t → ∀ k < t, (∀ j, k ≤ j → j ≤ t → WetAt wet j) → ¬ gap k) →
      rmse ≤ D + rm ∧ mae ≤ D + rm ∧ |mp - mr| ≤ D + rm)

/-- Rates and scores of a record with gaps whose rates are in the band around those of the attenuation left after a gap. -/
theorem gap_scores_of_band {α β l Rmax e E D rm M c : ℝ} (hα : 0 < α) (hβ : 0 < β) (hl : 0 < l) (he : 0 ≤ e) (hrm : 0 ≤ rm) (hRm0 : 0 ≤ Rmax)
    (hE : 1 ≤ β ∧ (e / (α * l)) ^ (1 / β) ≤ E ∨ β ≤ 1 ∧ 1 / β * (Rmax ^ β + e / (α * l)) ^ (1 / β - 1) * (e / (α * l)) ≤ E)
    (hD : D = (1 + 2 ^ (-46 : ℤ)) * E + 2 ^ (-46 : ℤ) * Rmax + 2 ^ (-99 : ℤ))
    (T : ℕ) (wet : List Bool) (gap miss : ℕ → Prop) (R est : ℕ → ℝ) (hR : ∀ s < T, WetAt wet s → 0 ≤ R s ∧ R s ≤ Rmax) (rs : List DblR)
    (hT : rs.length = T)
    (h : ∀ s r, rs[s]? = some r → (miss s → isNaN r = true) ∧ (¬ miss s → GapAtt wet gap M c (fun s => α * R s ^ β * l) est s ∧
      ∃ ρ, r.val = .fin (if ρ < rm then 0 else ρ) ∧ 0 ≤ ρ ∧
        (1 - 2 ^ (-46 : ℤ)) * lawRate α β l (est s - e) - 2 ^ (-99 : ℤ) ≤ ρ ∧
        ρ ≤ (1 + 2 ^ (-46 : ℤ)) * lawRate α β l (est s + e) + 2 ^ (-99 : ℤ))) :
    (∀ s r, rs[s]? = some r → ¬ miss s → ∃ y, r.val = .fin y ∧ 0 ≤ y ∧ y ≤ rainFell wet R s + D ∧
      ((WetAt wet s → ∀ k < s, (∀ j, k ≤ j → j ≤ s → WetAt wet j) → ¬ gap k) → |y - rainFell wet R s| ≤ D + rm) ∧
      (WetAt wet s → WetAt wet (s - 1) → gap (s - 1) →
        y ≤ lawRate α β l (α * R s ^ β * l - (M - filmAt (WetAt wet) M c s)) + D)) ∧
    ((∃ s < T, ¬ miss s) → ∀ thr : ℝ, ∃ q, calcRainErrorPerformanceMetrics (series T (rainFell wet R)) (rs.map (·.val)) (.fin thr) = .ok q ∧
      GapScoresUpTo D rm wet T gap miss R thr q) := by
  classical
  have αl : 0 < α * l := mul_pos hα hl
  have each : ∀ s r, rs[s]? = some r → ¬ miss s → ∃ y, r.val = .fin y ∧ 0 ≤ y ∧ y ≤ rainFell wet R s + D ∧
      ((WetAt wet s → ∀ k < s, (∀ j, k ≤ j → j ≤ s → WetAt wet j) → ¬ gap k) → |y - rainFell wet R s| ≤ D + rm) ∧
      (WetAt wet s → WetAt wet (s - 1) → gap (s - 1) →
        y ≤ lawRate α β l (α * R s ^ β * l - (M - filmAt (WetAt wet) M c s)) + D) := by
    intro s r hs hm
    have hsT : s < T := by rw [← hT]; exact (List.getElem?_eq_some_iff.mp hs).1
    obtain ⟨⟨g1, g2⟩, ρ, hρ, ρ0, ρ1, ρ2⟩ := (h s r hs).2 hm
    -- the rate of the attenuation left
    have hq : ∀ x, 0 ≤ x → α * lawRate α β l x ^ β * l = x := by
      intro x x0
      unfold lawRate
      rw [max_eq_right x0, ← Real.rpow_mul (div_nonneg x0 αl.le), one_div_mul_cancel hβ.ne', Real.rpow_one]
      field_simp
    have inv : ∀ x, 0 ≤ x → lawRate α β l (α * x ^ β * l) = x := by
      intro x x0
      unfold lawRate
      have : 0 ≤ x ^ β := Real.rpow_nonneg x0 β
      rw [max_eq_right (by positivity), show α * x ^ β * l / (α * l) = x ^ β by field_simp, ← Real.rpow_mul x0, mul_one_div_cancel hβ.ne',
        Real.rpow_one]
    have mono : ∀ x y, x ≤ y → lawRate α β l x ≤ lawRate α β l y := by
      intro x y hxy
      unfold lawRate
      exact Real.rpow_le_rpow (div_nonneg (le_max_left _ _) αl.le) (div_le_div_of_nonneg_right (max_le_max le_rfl hxy) αl.le)
        (one_div_pos.mpr hβ).le
    have l0 : ∀ x, 0 ≤ lawRate α β l x := fun x => Real.rpow_nonneg (div_nonneg (le_max_left _ _) αl.le) _
    have es : 0 ≤ est s ∧ lawRate α β l (est s) ≤ rainFell wet R s ∧ rainFell wet R s ≤ Rmax ∧ 0 ≤ rainFell wet R s := by
      unfold rainFell
      by_cases w : WetAt wet s
      · obtain ⟨⟨a1, a2⟩, -⟩ := g2 w
        rw [if_pos w]
        refine ⟨(le_max_left _ _).trans a1, ?_, (hR s hsT w).2, (hR s hsT w).1⟩
        have := mono _ _ a2
        rwa [inv _ (hR s hsT w).1] at this
      · rw [if_neg w, g1 w]
        refine ⟨le_rfl, ?_, hRm0, le_rfl⟩
        unfold lawRate
        rw [max_self, zero_div, Real.zero_rpow (one_div_pos.mpr hβ).ne']
    obtain ⟨e0, e1, e2, e3⟩ := es
    rw [← hq _ e0] at ρ1 ρ2
    have k := rate_error hα hβ hl (l0 _) (e1.trans e2) he hE ρ1 ρ2
    rw [← hD] at k
    obtain ⟨k1, k2⟩ := abs_le.mp k
    have D0 : 0 ≤ D := (abs_nonneg _).trans k
    have cl : (WetAt wet s → ∀ k < s, (∀ j, k ≤ j → j ≤ s → WetAt wet j) → ¬ gap k) → lawRate α β l (est s) = rainFell wet R s := by
      intro hg
      unfold rainFell
      by_cases w : WetAt wet s
      · rw [if_pos w, (g2 w).2.1 (hg w)]
        exact inv _ (hR s hsT w).1
      · rw [if_neg w, g1 w]
        unfold lawRate
        rw [max_self, zero_div, Real.zero_rpow (one_div_pos.mpr hβ).ne']
    have gp : WetAt wet s → WetAt wet (s - 1) → gap (s - 1) →
        lawRate α β l (est s) = lawRate α β l (α * R s ^ β * l - (M - filmAt (WetAt wet) M c s)) := by
      intro w w' g
      rw [(g2 w).2.2.1 w' g]
      unfold lawRate
      rw [← max_assoc, max_self]
    by_cases hc : ρ < rm
    · rw [if_pos hc] at hρ
      refine ⟨0, hρ, le_rfl, by linarith, fun hg => ?_, fun w w' g => by linarith [l0 (α * R s ^ β * l - (M - filmAt (WetAt wet) M c s))]⟩
      rw [cl hg] at k1 k2
      rw [abs_le]; constructor <;> linarith
    · rw [if_neg hc] at hρ
      refine ⟨ρ, hρ, ρ0, by linarith, fun hg => ?_, fun w w' g => by rw [← gp w w' g]; linarith⟩
      rw [cl hg] at k
      linarith
  refine ⟨each, fun hex thr => ?_⟩
  have hch : ∀ s, ∃ y, s < T → ¬ miss s → (rd rs s).val = .fin y ∧ y ≤ rainFell wet R s + D ∧
      ((WetAt wet s → ∀ k < s, (∀ j, k ≤ j → j ≤ s → WetAt wet j) → ¬ gap k) → |y - rainFell wet R s| ≤ D + rm) := by
    intro s
    by_cases hs : s < T
    · by_cases m : miss s
      · exact ⟨0, fun _ h' => absurd m h'⟩
      · obtain ⟨y, y1, -, y2, y3, -⟩ := each s (rd rs s) (getElem?_eq_rd (by omega)) m
        exact ⟨y, fun _ _ => ⟨y1, y2, y3⟩⟩
    · exact ⟨0, fun h' => absurd h' hs⟩
  choose cut hcut using hch
  have hrs : rs.map (·.val) = gapSeries T miss cut := by
    apply List.ext_getElem?
    intro s
    by_cases hs : s < T
    · rw [gapSeries_get _ _ hs, List.getElem?_map, getElem?_eq_rd (by omega), Option.map_some]
      congr 1
      by_cases m : miss s
      · rw [if_pos m]
        have := (h s (rd rs s) (getElem?_eq_rd (by omega))).1 m
        exact (Fl.isNaN_iff _).mp this
      · rw [if_neg m]
        exact (hcut s hs m).1
    · rw [List.getElem?_eq_none (by simp; omega), List.getElem?_eq_none (by rw [gapSeries_length]; omega)]
  obtain ⟨q, hq, c1, c2, c3, c4, c5, f1, f2, hne, hlen, step⟩ := gap_pairs T miss (rainFell wet R) cut thr hex
  have D0 : 0 ≤ D := by
    have E0 : 0 ≤ E := by
      have d0 : 0 ≤ e / (α * l) := div_nonneg he αl.le
      rcases hE with ⟨-, h⟩ | ⟨-, h⟩
      · exact (Real.rpow_nonneg d0 _).trans h
      · refine le_trans ?_ h
        have := Real.rpow_nonneg hRm0 β
        positivity
    rw [hD]
    positivity
  rw [hrs]
  refine ⟨q, hq, c1, c2, c3, c4, ?_⟩
  obtain ⟨mae, mr, mp, sr, sp, v1, v2, v3, v4, v5, v6, v7, v8, v9, v10⟩ := C169_low _ _ thr D q hq f1 f2 hne D0 (by
    intro i x y h1 h2
    obtain ⟨hi, m, rfl, rfl⟩ := step i x y h1 h2
    exact (hcut i hi m).2.1)
  obtain ⟨rmse, -, -, -, u1, -⟩ := C44_inequalities _ _ _ q hq f1 f2 hne
  refine ⟨rmse, mae, mr, mp, sr, sp, u1, v1, v2, v3, v4, v5, ?_, v8, by rw [hlen] at v9; exact v9, v6, v7, fun hg => v10 ?_, fun hg => ?_⟩
  · rw [v4] at c5
    injection c5
  · intro i x hx
    have hi : i < T := by simpa [series_length] using (List.getElem?_eq_some_iff.mp hx).1
    rw [series_get _ hi] at hx
    simp only [Option.some.injEq, Fl.fin.injEq] at hx
    rw [← hx]
    exact hg i hi
  · obtain ⟨rmse', mae', mr', mp', -, -, w1, w2, w3, w4, -, -, -, w8, w9, w10, -⟩ := C153_errors _ _ _ q hq f1 f2 hne (D + rm) (by
      intro i x y h1 h2
      obtain ⟨hi, m, rfl, rfl⟩ := step i x y h1 h2
      exact (hcut i hi m).2.2 (hg i hi m))
    rw [u1] at w1; injection w1 with w1
    rw [v1] at w2; injection w2 with w2
    rw [v2] at w3; injection w3 with w3
    rw [v3] at w4; injection w4 with w4
    subst w1 w2 w3 w4
    exact ⟨w9, w8.trans w9, w10⟩

/-- **C169** Constant baseline, in doubles, levels with gaps as in C167: with `e`, `E` and `D` as in C165, no rate is more than `D` above the rain
that fell; before the first gap of an event (and outside events) it is within `D + R_min` of it; right after a gap it is at most `D` above the
rate of the attenuation that is left with fully wet antennas. The scores against the rain that fell are those of `GapScoresUpTo`. -/
theorem C169_constant [PyPow DblR] (hacc : PowClose) (trsl : List DblR) (wet : List Bool) (n : ℕ) (waaMax deltaT tau L a b Rmin : DblR)
    (M d t B m l α β rm : ℝ) (hn : 1 ≤ n) (hn2 : n ≤ 2 ^ 25) (hlen : trsl.length ≤ wet.length)
    (hM : waaMax.val = .fin M) (hd : deltaT.val = .fin d) (ht : tau.val = .fin t) (hr : RateRange L a b l α β) (hrm : Rmin.val = .fin rm)
    (hd0 : 0 ≤ d) (h3 : 3 * d ≤ t) (ht1 : (2 : ℝ) ^ (-100 : ℤ) ≤ t) (hd2 : d ≤ 2 ^ (500 : ℤ)) (hM0 : 0 ≤ M) (hMB : M ≤ B)
    (hB1 : (2 : ℝ) ^ (-900 : ℤ) ≤ B) (hB2 : B ≤ 2 ^ (290 : ℤ)) (hT : (8 * B / (α * l)) ^ (1 / β) ≤ 2 ^ (64 : ℤ))
    (hm : (trsl.length : ℝ) ≤ m ∨ t ≤ 3 * d * m) (hm2 : m ≤ 2 ^ 47)
    (gap : ℕ → Prop) (dryLevel R : ℕ → ℝ) (δ : ℝ) (hδ : 0 ≤ δ) (hR : ∀ s < trsl.length, WetAt wet s → 0 ≤ R s)
    (h1 : ∀ s < n, ¬ WetAt wet s) (h2 : ∀ s < trsl.length, WetAt wet s → ∀ k, k < s → s ≤ k + n → dryLevel k = dryLevel s)
    (hx : ∀ s x, trsl[s]? = some x → (gap s ∧ x.val = .nan) ∨ (¬ gap s ∧ ∃ y, x.val = .fin y ∧ |y| ≤ B ∧
      |y - levelAt (WetAt wet) M (3 * d / t) dryLevel (fun s => α * R s ^ β * l) s| ≤ δ))
    (hrm0 : 0 ≤ rm) (Rmax e E D : ℝ) (hRm0 : 0 ≤ Rmax) (hRm : ∀ s < trsl.length, WetAt wet s → R s ≤ Rmax)
    (he : e = 4 * δ + (10 * (n * n) + 48 * m + 11) * (2 ^ (-53 : ℤ) * B))
    (hE : 1 ≤ β ∧ (e / (α * l)) ^ (1 / β) ≤ E ∨ β ≤ 1 ∧ 1 / β * (Rmax ^ β + e / (α * l)) ^ (1 / β - 1) * (e / (α * l)) ≤ E)
    (hD : D = (1 + 2 ^ (-46 : ℤ)) * E + 2 ^ (-46 : ℤ) * Rmax + 2 ^ (-99 : ℤ)) :
    ∃ rs, rainChainF n waaMax deltaT tau L a b Rmin trsl wet = .ok rs ∧ rs.length = trsl.length ∧
      (∀ s r, rs[s]? = some r → (gap s ∨ NoBase wet gap n s → isNaN r = true) ∧
        (¬ (gap s ∨ NoBase wet gap n s) → ∃ y, r.val = .fin y ∧ 0 ≤ y ∧ y ≤ rainFell wet R s + D ∧
          ((WetAt wet s → ∀ k < s, (∀ j, k ≤ j → j ≤ s → WetAt wet j) → ¬ gap k) → |y - rainFell wet R s| ≤ D + rm) ∧
          (WetAt wet s → WetAt wet (s - 1) → gap (s - 1) →
            y ≤ lawRate α β l (α * R s ^ β * l - (M - filmAt (WetAt wet) M (3 * d / t) s)) + D))) ∧
      ((∃ s < trsl.length, ¬ (gap s ∨ NoBase wet gap n s)) → ∀ thr : ℝ,
        ∃ q, calcRainErrorPerformanceMetrics (series trsl.length (rainFell wet R)) (rs.map (·.val)) (.fin thr) = .ok q ∧
          GapScoresUpTo D rm wet trsl.length gap (fun s => gap s ∨ NoBase wet gap n s) R thr q) := by
  have B0 : 0 ≤ B := hM0.trans hMB
  have p300 : (0 : ℝ) < 2 ^ (-300 : ℤ) := by positivity
  have m0 : 0 ≤ m := by
    rcases hm with h | h
    · exact le_trans (Nat.cast_nonneg _) h
    · by_contra hc
      have t0 : 0 < t := lt_of_lt_of_le (by positivity) ht1
      have := mul_nonpos_of_nonneg_of_nonpos (by linarith : 0 ≤ 3 * d) (not_le.mp hc).le
      linarith
  have e0 : 0 ≤ e := by rw [he]; positivity
  obtain ⟨rs, est, g1, g2, g3⟩ := C167_constant hacc trsl wet n waaMax deltaT tau L a b Rmin M d t B m l α β rm hn hn2 hlen hM hd ht hr hrm hd0 h3
    ht1 hd2 hM0 hMB hB1 hB2 hT hm hm2 gap dryLevel R δ hδ hR h1 h2 hx
  rw [← he] at g3
  obtain ⟨k1, k2⟩ := gap_scores_of_band (p300.trans_le hr.α1) (by have := hr.β1; linarith) (p300.trans_le hr.l1) e0 hrm0 hRm0 hE hD trsl.length wet
    gap (fun s => gap s ∨ NoBase wet gap n s) R est (fun s hs hw => ⟨hR s hs hw, hRm s hs hw⟩) rs g2
    (fun s r hs => ⟨(g3 s r hs).1, fun hm => (g3 s r hs).2 (fun g => hm (.inl g)) fun b => hm (.inr b)⟩)
  exact ⟨rs, g1, g2, fun s r hs => ⟨(g3 s r hs).1, k1 s r hs⟩, k2⟩

/-- **C169** Linear baseline: the same with the error `e` of the attenuation for that chain. -/
theorem C169_linear [PyPow DblR] (hacc : PowClose) (trsl : List DblR) (wet : List Bool) (ignoreNan : Bool)
    (waaMax deltaT tau L a b Rmin : DblR)
    (M d t B m l α β rm : ℝ) (hN : 0 < trsl.length) (hN2 : trsl.length ≤ 2 ^ 53) (hlen : trsl.length ≤ wet.length)
    (hM : waaMax.val = .fin M) (hd : deltaT.val = .fin d) (ht : tau.val = .fin t) (hr : RateRange L a b l α β) (hrm : Rmin.val = .fin rm)
    (hd0 : 0 ≤ d) (h3 : 3 * d ≤ t) (ht1 : (2 : ℝ) ^ (-100 : ℤ) ≤ t) (hd2 : d ≤ 2 ^ (500 : ℤ)) (hM0 : 0 ≤ M) (hMB : M ≤ B)
    (hB1 : (2 : ℝ) ^ (-900 : ℤ) ≤ B) (hB2 : B ≤ 2 ^ (290 : ℤ)) (hT : (8 * B / (α * l)) ^ (1 / β) ≤ 2 ^ (64 : ℤ))
    (hm : (trsl.length : ℝ) ≤ m ∨ t ≤ 3 * d * m) (hm2 : m ≤ 2 ^ 47)
    (gap : ℕ → Prop) (dryLevel R : ℕ → ℝ) (δ : ℝ) (hδ : 0 ≤ δ) (hR : ∀ s < trsl.length, WetAt wet s → 0 ≤ R s)
    (hfirst : ¬ WetAt wet 0) (hlast : ¬ WetAt wet (trsl.length - 1))
    (hlin : ∀ p i q, p < i → i < q → q < trsl.length → ¬ WetAt wet p → ¬ WetAt wet q → (∀ k, p < k → k < q → WetAt wet k) →
      dryLevel i = dryLevel p + ((i : ℝ) - p) * ((dryLevel q - dryLevel p) / ((q : ℝ) - p)))
    (hx : ∀ s x, trsl[s]? = some x → (gap s ∧ x.val = .nan) ∨ (¬ gap s ∧ ∃ y, x.val = .fin y ∧ |y| ≤ B ∧
      |y - levelAt (WetAt wet) M (3 * d / t) dryLevel (fun s => α * R s ^ β * l) s| ≤ δ))
    (hrm0 : 0 ≤ rm) (Rmax e E D : ℝ) (hRm0 : 0 ≤ Rmax) (hRm : ∀ s < trsl.length, WetAt wet s → R s ≤ Rmax)
    (he : e = 4 * δ + (48 * m + 35) * (2 ^ (-53 : ℤ) * B))
    (hE : 1 ≤ β ∧ (e / (α * l)) ^ (1 / β) ≤ E ∨ β ≤ 1 ∧ 1 / β * (Rmax ^ β + e / (α * l)) ^ (1 / β - 1) * (e / (α * l)) ≤ E)
    (hD : D = (1 + 2 ^ (-46 : ℤ)) * E + 2 ^ (-46 : ℤ) * Rmax + 2 ^ (-99 : ℤ)) :
    ∃ rs, rainChainLinF ignoreNan waaMax deltaT tau L a b Rmin trsl (wet.map flagF) = .ok rs ∧ rs.length = trsl.length ∧
      (∀ s r, rs[s]? = some r → (gap s ∨ NoBaseLin wet gap trsl.length s → isNaN r = true) ∧
        (¬ (gap s ∨ NoBaseLin wet gap trsl.length s) → ∃ y, r.val = .fin y ∧ 0 ≤ y ∧ y ≤ rainFell wet R s + D ∧
          ((WetAt wet s → ∀ k < s, (∀ j, k ≤ j → j ≤ s → WetAt wet j) → ¬ gap k) → |y - rainFell wet R s| ≤ D + rm) ∧
          (WetAt wet s → WetAt wet (s - 1) → gap (s - 1) →
            y ≤ lawRate α β l (α * R s ^ β * l - (M - filmAt (WetAt wet) M (3 * d / t) s)) + D))) ∧
      ((∃ s < trsl.length, ¬ (gap s ∨ NoBaseLin wet gap trsl.length s)) → ∀ thr : ℝ,
        ∃ q, calcRainErrorPerformanceMetrics (series trsl.length (rainFell wet R)) (rs.map (·.val)) (.fin thr) = .ok q ∧
          GapScoresUpTo D rm wet trsl.length gap (fun s => gap s ∨ NoBaseLin wet gap trsl.length s) R thr q) := by
  have B0 : 0 ≤ B := hM0.trans hMB
  have p300 : (0 : ℝ) < 2 ^ (-300 : ℤ) := by positivity
  have m0 : 0 ≤ m := by
    rcases hm with h | h
    · exact le_trans (Nat.cast_nonneg _) h
    · by_contra hc
      have t0 : 0 < t := lt_of_lt_of_le (by positivity) ht1
      have := mul_nonpos_of_nonneg_of_nonpos (by linarith : 0 ≤ 3 * d) (not_le.mp hc).le
      linarith
  have e0 : 0 ≤ e := by rw [he]; positivity
  obtain ⟨rs, est, g1, g2, g3⟩ := C167_linear hacc trsl wet ignoreNan waaMax deltaT tau L a b Rmin M d t B m l α β rm hN hN2 hlen hM hd ht hr hrm
    hd0 h3 ht1 hd2 hM0 hMB hB1 hB2 hT hm hm2 gap dryLevel R δ hδ hR hfirst hlast hlin hx
  rw [← he] at g3
  obtain ⟨k1, k2⟩ := gap_scores_of_band (p300.trans_le hr.α1) (by have := hr.β1; linarith) (p300.trans_le hr.l1) e0 hrm0 hRm0 hE hD trsl.length wet
    gap (fun s => gap s ∨ NoBaseLin wet gap trsl.length s) R est (fun s hs hw => ⟨hR s hs hw, hRm s hs hw⟩) rs g2
    (fun s r hs => ⟨(g3 s r hs).1, fun hm => (g3 s r hs).2 (fun g => hm (.inl g)) fun b => hm (.inr b)⟩)
  exact ⟨rs, g1, g2, fun s r hs => ⟨(g3 s r hs).1, k1 s r hs⟩, k2⟩

/-- rates of 2.1 and 0 mm/h where 2 and 1 fell: with `D = 1/10` the mean is not above that of the reference by more than that -/
example : ∃ (e : RainError (Fl ℝ)) (mae mr mp : ℝ), calcRainErrorPerformanceMetrics [.fin 2, .fin 1, .nan] [.fin (21 / 10), .fin 0, .fin 7] (.fin (1 / 2)) = .ok e ∧
    e.meanAbsoluteError = .fin mae ∧ e.rMeanReference = .fin mr ∧ e.rMeanPredicted = .fin mp ∧ mae ≤ mr - mp + 2 / 10 ∧ mp ≤ mr + 1 / 10 ∧
    e.falseWetPrecipitationRate = .nan := by
  obtain ⟨e, he, -⟩ := (C44_counts [.fin 2, .fin 1, .nan] [.fin (21 / 10), .fin 0, .fin 7] (.fin (1 / 2))).2 rfl
  obtain ⟨mae, mr, mp, sr, sp, v1, v2, v3, -, -, -, v7, v8, -, v10⟩ := C169_low _ _ _ (1 / 10) e he
    (by intro x hx; simp at hx; rcases hx with rfl | rfl | rfl <;> simp) (by intro x hx; simp at hx; rcases hx with rfl | rfl | rfl <;> simp)
    (by simp [validPairs, okPair]) (by norm_num) (by
      intro i x y h1 h2
      match i with
      | 0 => simp at h1 h2; linarith
      | 1 => simp at h1 h2; linarith
      | 2 => simp at h1
      | i + 3 => simp at h1)
  refine ⟨e, mae, mr, mp, he, v1, v2, v3, by linarith, v8, (v10 ?_).2⟩
  rintro i x h ⟨h1, h2⟩
  match i with
  | 0 => simp at h; linarith
  | 1 => simp at h; linarith
  | 2 => simp at h
  | i + 3 => simp at h

/-- Levels 50, 60, missing, 60 with the rain of the example of C167: one pair is left out, the mean rate is not above that of the rain that fell by more
than 10^-9 mm/h and the rate before the gap is right up to that. -/
example : letI := correctPow (Bin.binary64 (K := ℝ))
    let D : ℕ → DblR := fun k => PyFloat.ofInt k
    ∃ rs q r ρ mr mp, rainChainF 1 (D 2) (D 1) (D 15) (D 10) (D 1) (D 1) (D 0) [D 50, D 60, PyFloat.nan, D 60] [false, true, true, true] = .ok rs ∧
      calcRainErrorPerformanceMetrics (series 4 (rainFell [false, true, true, true] fun s => if s = 1 then 96 / 100 else 9024 / 10000)) (rs.map (·.val)) (.fin (1 / 2)) = .ok q ∧
      q.nAllPairs = 4 ∧ q.nNanPairs = 1 ∧ q.rMeanReference = .fin mr ∧ q.rMeanPredicted = .fin mp ∧ mp ≤ mr + 1 / 10 ^ 9 ∧
      rs[1]? = some r ∧ r.val = .fin ρ ∧ |ρ - 96 / 100| ≤ 1 / 10 ^ 9 := by
  let _ := correctPow (Bin.binary64 (K := ℝ))
  intro D
  have v : ∀ k : ℕ, k ≤ 60 → (D k).val = .fin (k : ℝ) := fun k hk => val_ofNat_b64 k (hk.trans (by norm_num))
  have lo : ∀ (x : ℝ) (j : ℤ), 1 ≤ x → j ≤ 0 → (2 : ℝ) ^ j ≤ x := fun x j hx hj =>
    le_trans (zpow_le_one_of_nonpos₀ (by norm_num) hj) hx
  have hi : ∀ (x : ℝ) (j : ℤ), x ≤ 2 ^ (10 : ℤ) → 10 ≤ j → x ≤ 2 ^ j := fun x j hx hj =>
    le_trans hx (zpow_le_zpow_right₀ (by norm_num) hj)
  have hr : RateRange (D 10) (D 1) (D 1) 10 1 1 :=
    ⟨by simpa using v 10 (by norm_num), by simpa using v 1 (by norm_num), by simpa using v 1 (by norm_num),
      lo _ _ (by norm_num) (by norm_num), hi _ _ (by norm_num) (by norm_num), lo _ _ (by norm_num) (by norm_num),
      hi _ _ (by norm_num) (by norm_num), by norm_num, by norm_num⟩
  have d0 : ¬ WetAt [false, true, true, true] 0 := by simp [WetAt]
  have w1 : WetAt [false, true, true, true] 1 := rfl
  have w2 : WetAt [false, true, true, true] 2 := rfl
  have w3 : WetAt [false, true, true, true] 3 := rfl
  obtain ⟨rs, hrs, hl, h, hsc⟩ := C169_constant correctPow_close [D 50, D 60, PyFloat.nan, D 60] [false, true, true, true] 1
    (D 2) (D 1) (D 15) (D 10) (D 1) (D 1) (D 0) 2 1 15 64 4 10 1 1 0 (by norm_num) (by norm_num) (by simp)
    (by simpa using v 2 (by norm_num)) (by simpa using v 1 (by norm_num)) (by simpa using v 15 (by norm_num)) hr
    (by simpa using v 0 (by norm_num)) (by norm_num) (by norm_num) (lo _ _ (by norm_num) (by norm_num))
    (hi _ _ (by norm_num) (by norm_num)) (by norm_num) (by norm_num) (lo _ _ (by norm_num) (by norm_num))
    (hi _ _ (by norm_num) (by norm_num)) (by norm_num) (.inl (by norm_num)) (by norm_num)
    (fun s => s = 2) (fun _ => 50) (fun s => if s = 1 then 96 / 100 else 9024 / 10000) 0 le_rfl
    (by intro s _ _; split_ifs <;> norm_num) (by
      intro s hs
      obtain rfl : s = 0 := by omega
      exact d0) (fun _ _ _ _ _ _ => rfl) (by
      intro s x hs
      have hlt : s < 4 := by simpa using (List.getElem?_eq_some_iff.mp hs).1
      have : s = 0 ∨ s = 1 ∨ s = 2 ∨ s = 3 := by omega
      rcases this with rfl | rfl | rfl | rfl <;> simp only [List.getElem?_cons_zero, List.getElem?_cons_succ, Option.some.injEq] at hs <;>
        subst hs
      · refine .inr ⟨by omega, _, v 50 (by norm_num), by norm_num, ?_⟩
        unfold levelAt
        rw [if_neg d0]; norm_num
      · refine .inr ⟨by omega, _, v 60 (by norm_num), by norm_num, ?_⟩
        unfold levelAt
        rw [if_pos w1]
        simp only [filmAt, if_pos w1]
        norm_num [Real.rpow_one]
      · exact .inl ⟨rfl, rfl⟩
      · refine .inr ⟨by omega, _, v 60 (by norm_num), by norm_num, ?_⟩
        unfold levelAt
        rw [if_pos w3]
        simp only [filmAt, if_pos w1, if_pos w2, if_pos w3]
        norm_num [Real.rpow_one])
    le_rfl 1 _ ((4 * 0 + (10 * ((1 : ℕ) * (1 : ℕ)) + 48 * 4 + 11) * (2 ^ (-53 : ℤ) * 64)) / (1 * 10)) _ (by norm_num) (by intro s _ _; split_ifs <;> norm_num) rfl
    (.inl ⟨le_rfl, by rw [show (1 : ℝ) / 1 = 1 by norm_num, Real.rpow_one]⟩) rfl
  have n0 : ¬ NoBase [false, true, true, true] (fun s => s = 2) 1 0 := by rw [noBase_dry d0]; omega
  have n1 : ¬ NoBase [false, true, true, true] (fun s => s = 2) 1 1 := by
    rw [noBase_first w1 d0]
    rintro ⟨k, k1, k2, k3⟩
    obtain rfl : k = 0 := by omega
    exact n0 k3
  have n2 : ¬ NoBase [false, true, true, true] (fun s => s = 2) 1 2 := by rwa [noBase_next (by omega) w2 w1]
  have n3 : ¬ NoBase [false, true, true, true] (fun s => s = 2) 1 3 := by rwa [noBase_next (by omega) w3 w2]
  obtain ⟨q, hq, c1, -, c3, -, rmse, mae, mr, mp, sr, sp, -, -, q3, q4, -, -, -, q8, -⟩ := hsc ⟨0, by simp, fun h => h.elim (by omega) n0⟩ (1 / 2)
  have hl1 : 1 < rs.length := by rw [hl]; simp
  obtain ⟨ρ, g1, -, -, g2, -⟩ := (h 1 _ (getElem?_eq_rd hl1)).2 fun h => h.elim (by omega) n1
  have g3 := g2 fun _ k k1 k2 => by omega
  unfold rainFell at g3
  simp only [if_pos w1, if_true] at g3
  refine ⟨rs, q, rd rs 1, ρ, mr, mp, hrs, hq, c1, ?_, q3, q4, q8.trans (by norm_num), getElem?_eq_rd hl1, g1, g3.trans (by norm_num)⟩
  rw [c3]
  simp only [List.length_cons, List.length_nil, List.range_succ, List.range_zero, List.countP_append, List.countP_cons, List.countP_nil]
  simp [n0, n1, n3]

/-- the same with `baseline_linear` and a dry step at the end -/
example : letI := correctPow (Bin.binary64 (K := ℝ))
    let D : ℕ → DblR := fun k => PyFloat.ofInt k
    ∃ rs q r ρ mr mp, rainChainLinF false (D 2) (D 1) (D 15) (D 10) (D 1) (D 1) (D 0) [D 50, D 60, PyFloat.nan, D 60, D 50] ([false, true, true, true, false].map flagF) = .ok rs ∧
      calcRainErrorPerformanceMetrics (series 5 (rainFell [false, true, true, true, false] fun s => if s = 1 then 96 / 100 else 9024 / 10000)) (rs.map (·.val)) (.fin (1 / 2)) = .ok q ∧
      q.nAllPairs = 5 ∧ q.nNanPairs = 1 ∧ q.rMeanReference = .fin mr ∧ q.rMeanPredicted = .fin mp ∧ mp ≤ mr + 1 / 10 ^ 9 ∧
      rs[1]? = some r ∧ r.val = .fin ρ ∧ |ρ - 96 / 100| ≤ 1 / 10 ^ 9 := by
  let _ := correctPow (Bin.binary64 (K := ℝ))
  intro D
  have v : ∀ k : ℕ, k ≤ 60 → (D k).val = .fin (k : ℝ) := fun k hk => val_ofNat_b64 k (hk.trans (by norm_num))
  have lo : ∀ (x : ℝ) (j : ℤ), 1 ≤ x → j ≤ 0 → (2 : ℝ) ^ j ≤ x := fun x j hx hj =>
    le_trans (zpow_le_one_of_nonpos₀ (by norm_num) hj) hx
  have hi : ∀ (x : ℝ) (j : ℤ), x ≤ 2 ^ (10 : ℤ) → 10 ≤ j → x ≤ 2 ^ j := fun x j hx hj =>
    le_trans hx (zpow_le_zpow_right₀ (by norm_num) hj)
  have hr : RateRange (D 10) (D 1) (D 1) 10 1 1 :=
    ⟨by simpa using v 10 (by norm_num), by simpa using v 1 (by norm_num), by simpa using v 1 (by norm_num),
      lo _ _ (by norm_num) (by norm_num), hi _ _ (by norm_num) (by norm_num), lo _ _ (by norm_num) (by norm_num),
      hi _ _ (by norm_num) (by norm_num), by norm_num, by norm_num⟩
  have d0 : ¬ WetAt [false, true, true, true, false] 0 := by simp [WetAt]
  have w1 : WetAt [false, true, true, true, false] 1 := rfl
  have w2 : WetAt [false, true, true, true, false] 2 := rfl
  have w3 : WetAt [false, true, true, true, false] 3 := rfl
  have d4 : ¬ WetAt [false, true, true, true, false] 4 := by simp [WetAt]
  obtain ⟨rs, hrs, hl, h, hsc⟩ := C169_linear correctPow_close [D 50, D 60, PyFloat.nan, D 60, D 50] [false, true, true, true, false] false
    (D 2) (D 1) (D 15) (D 10) (D 1) (D 1) (D 0) 2 1 15 64 5 10 1 1 0 (by norm_num) (by norm_num) (by simp)
    (by simpa using v 2 (by norm_num)) (by simpa using v 1 (by norm_num)) (by simpa using v 15 (by norm_num)) hr
    (by simpa using v 0 (by norm_num)) (by norm_num) (by norm_num) (lo _ _ (by norm_num) (by norm_num))
    (hi _ _ (by norm_num) (by norm_num)) (by norm_num) (by norm_num) (lo _ _ (by norm_num) (by norm_num))
    (hi _ _ (by norm_num) (by norm_num)) (by norm_num) (.inl (by norm_num)) (by norm_num)
    (fun s => s = 2) (fun _ => 50) (fun s => if s = 1 then 96 / 100 else 9024 / 10000) 0 le_rfl
    (by intro s _ _; split_ifs <;> norm_num) d0 d4 (by intros; simp) (by
      intro s x hs
      have hlt : s < 5 := by simpa using (List.getElem?_eq_some_iff.mp hs).1
      have : s = 0 ∨ s = 1 ∨ s = 2 ∨ s = 3 ∨ s = 4 := by omega
      rcases this with rfl | rfl | rfl | rfl | rfl <;> simp only [List.getElem?_cons_zero, List.getElem?_cons_succ, Option.some.injEq] at hs <;>
        subst hs
      · refine .inr ⟨by omega, _, v 50 (by norm_num), by norm_num, ?_⟩
        unfold levelAt
        rw [if_neg d0]; norm_num
      · refine .inr ⟨by omega, _, v 60 (by norm_num), by norm_num, ?_⟩
        unfold levelAt
        rw [if_pos w1]
        simp only [filmAt, if_pos w1]
        norm_num [Real.rpow_one]
      · exact .inl ⟨rfl, rfl⟩
      · refine .inr ⟨by omega, _, v 60 (by norm_num), by norm_num, ?_⟩
        unfold levelAt
        rw [if_pos w3]
        simp only [filmAt, if_pos w1, if_pos w2, if_pos w3]
        norm_num [Real.rpow_one]
      · refine .inr ⟨by omega, _, v 50 (by norm_num), by norm_num, ?_⟩
        unfold levelAt
        rw [if_neg d4]; norm_num)
    le_rfl 1 _ ((4 * 0 + (48 * 5 + 35) * (2 ^ (-53 : ℤ) * 64)) / (1 * 10)) _ (by norm_num) (by intro s _ _; split_ifs <;> norm_num) rfl
    (.inl ⟨le_rfl, by rw [show (1 : ℝ) / 1 = 1 by norm_num, Real.rpow_one]⟩) rfl
  have nb : ∀ s, s ≠ 2 → ¬ NoBaseLin [false, true, true, true, false] (fun s => s = 2) 5 s := by
    rintro s hs (⟨-, k1⟩ | ⟨p, q, -, -, -, -, h5, h6, -, rfl | rfl⟩)
    · exact hs k1
    · exact h5 w2
    · exact h6 w2
  have n0 := nb 0 (by omega)
  have n1 := nb 1 (by omega)
  obtain ⟨q, hq, c1, -, c3, -, rmse, mae, mr, mp, sr, sp, -, -, q3, q4, -, -, -, q8, -⟩ := hsc ⟨0, by simp, fun h => h.elim (by omega) n0⟩ (1 / 2)
  have hl1 : 1 < rs.length := by rw [hl]; simp
  obtain ⟨ρ, g1, -, -, g2, -⟩ := (h 1 _ (getElem?_eq_rd hl1)).2 fun h => h.elim (by omega) n1
  have g3 := g2 fun _ k k1 k2 => by omega
  unfold rainFell at g3
  simp only [if_pos w1, if_true] at g3
  refine ⟨rs, q, rd rs 1, ρ, mr, mp, hrs, hq, c1, ?_, q3, q4, q8.trans (by norm_num), getElem?_eq_rd hl1, g1, g3.trans (by norm_num)⟩
  rw [c3]
  simp only [List.length_cons, List.length_nil, List.range_succ, List.range_zero, List.countP_append, List.countP_cons, List.countP_nil]
  have n3 := nb 3 (by omega)
  have n4 := nb 4 (by omega)
  simp [n0, n1, n3, n4]

end Verif.Props
