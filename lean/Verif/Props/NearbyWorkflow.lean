import Verif.Model.NearbyWorkflow
import Verif.Props.HourlyMap
import Verif.Props.NearbyDetects
import Verif.Props.StftDry

/-!
The documented nearby link workflow: from levels of single steps to minimum and maximum levels of intervals, wet flags and rain rates.  Exact arithmetic.
-/

namespace Verif.Props

open Verif Verif.Nearby Verif.NearbyWorkflow Verif.HourlyMap Verif.KR

/-- the values of interval `t`, `m` steps each, that are not missing -/
def valuesIn (m : ℕ) (gap : ℕ → Prop) (x : ℕ → ℝ) (t : ℕ) : Set ℝ := {y | ∃ k < m, ¬ gap (m * t + k) ∧ y = x (m * t + k)}

theorem foldl_npMaximum (r : List ℝ) : ∀ z : ℝ, ∃ v, (r.map Fl.fin).foldl npMaximum (.fin z) = .fin v ∧ v ∈ z :: r ∧ ∀ y ∈ z :: r, y ≤ v := by
  induction r with
  | nil => intro z; exact ⟨z, rfl, by simp, by simp⟩
  | cons a r ih =>
    intro z
    have e : npMaximum (Fl.fin z) (.fin a) = .fin (max z a) := by
      unfold npMaximum
      simp only [Fl.pf_isNaN_fin, Bool.false_eq_true, if_false, Fl.pf_lt_fin, decide_eq_true_eq]
      split
      · next h => rw [max_eq_right h.le]
      · next h => rw [max_eq_left (not_lt.mp h)]
    obtain ⟨v, h1, h2, h3⟩ := ih (max z a)
    refine ⟨v, by rw [List.map_cons, List.foldl_cons, e, h1], ?_, ?_⟩
    · rcases List.mem_cons.mp h2 with h | h
      · rcases max_choice z a with h' | h' <;> rw [h, h'] <;> simp
      · simp [h]
    · intro y hy
      have hm := h3 (max z a) (by simp)
      rcases List.mem_cons.mp hy with rfl | hy
      · exact (le_max_left _ _).trans hm
      · rcases List.mem_cons.mp hy with rfl | hy
        · exact (le_max_right _ _).trans hm
        · exact h3 y (List.mem_cons_of_mem _ hy)

theorem foldl_npMinimum (r : List ℝ) : ∀ z : ℝ, ∃ v, (r.map Fl.fin).foldl npMinimum (.fin z) = .fin v ∧ v ∈ z :: r ∧ ∀ y ∈ z :: r, v ≤ y := by
  induction r with
  | nil => intro z; exact ⟨z, rfl, by simp, by simp⟩
  | cons a r ih =>
    intro z
    obtain ⟨v, h1, h2, h3⟩ := ih (min z a)
    refine ⟨v, by rw [List.map_cons, List.foldl_cons, npMinimum_fin, h1], ?_, ?_⟩
    · rcases List.mem_cons.mp h2 with h | h
      · rcases min_choice z a with h' | h' <;> rw [h, h'] <;> simp
      · simp [h]
    · intro y hy
      have hm := h3 (min z a) (by simp)
      rcases List.mem_cons.mp hy with rfl | hy
      · exact hm.trans (min_le_left _ _)
      · rcases List.mem_cons.mp hy with rfl | hy
        · exact hm.trans (min_le_right _ _)
        · exact h3 y (List.mem_cons_of_mem _ hy)

theorem blocks_record {m : ℕ} (hm : 0 < m) (T : ℕ) (ρ : ℕ → Option ℝ) :
    blocks m (rateRecord (m * T) ρ) = (List.range T).map fun h => ((List.range m).map fun k => ρ (m * h + k)).map optF := by
  unfold blocks
  have e : ((rateRecord (m * T) ρ).length + m - 1) / m = T := by
    have : (rateRecord (m * T) ρ).length = m * T := by simp [rateRecord]
    rw [this, Nat.add_sub_assoc (by omega), Nat.mul_add_div hm, Nat.div_eq_of_lt (by omega)]
    rfl
  rw [e]
  exact List.map_congr_left fun h hh => block_get m T ρ h (List.mem_range.mp hh)

open Classical in
theorem gapSeries_record (T : ℕ) (gap : ℕ → Prop) (x : ℕ → ℝ) :
    gapSeries T gap x = rateRecord T fun t => if gap t then none else some (x t) := by
  unfold gapSeries rateRecord
  refine List.map_congr_left fun t _ => ?_
  by_cases h : gap t
  · simp only [if_pos h, optF]
  · simp only [if_neg h, optF]

open Classical in
theorem mem_present (m : ℕ) (gap : ℕ → Prop) (x : ℕ → ℝ) (t : ℕ) (y : ℝ) :
    y ∈ (((List.range m).map fun k => if gap (m * t + k) then none else some (x (m * t + k))).filterMap id) ↔ y ∈ valuesIn m gap x t := by
  simp only [List.mem_filterMap, List.mem_map, List.mem_range, id, valuesIn, Set.mem_ofPred_eq]
  constructor
  · rintro ⟨o, ⟨k, hk, rfl⟩, ho⟩
    by_cases hg : gap (m * t + k)
    · rw [if_pos hg] at ho; cases ho
    · rw [if_neg hg] at ho
      exact ⟨k, hk, hg, (Option.some.inj ho).symm⟩
  · rintro ⟨k, hk, hg, rfl⟩
    exact ⟨_, ⟨k, hk, rfl⟩, by rw [if_neg hg]⟩

/-- **C179** The minimum and maximum of an interval are the smallest and largest of its levels that are not missing, NaN if all are. -/
theorem C179_levels {m : ℕ} (hm : 0 < m) (T : ℕ) (gap : ℕ → Prop) (x : ℕ → ℝ) :
    (resampleMin m (gapSeries (m * T) gap x)).length = T ∧ (resampleMax m (gapSeries (m * T) gap x)).length = T ∧ ∀ t < T,
      ((∀ k < m, gap (m * t + k)) → (resampleMin m (gapSeries (m * T) gap x))[t]? = some .nan ∧
        (resampleMax m (gapSeries (m * T) gap x))[t]? = some .nan) ∧
      ((∃ k < m, ¬ gap (m * t + k)) → ∃ lo hi, (resampleMin m (gapSeries (m * T) gap x))[t]? = some (.fin lo) ∧
        (resampleMax m (gapSeries (m * T) gap x))[t]? = some (.fin hi) ∧
        IsLeast {y | ∃ k < m, ¬ gap (m * t + k) ∧ y = x (m * t + k)} lo ∧ IsGreatest {y | ∃ k < m, ¬ gap (m * t + k) ∧ y = x (m * t + k)} hi) := by
  classical
  unfold resampleMin resampleMax
  rw [gapSeries_record, blocks_record hm]
  refine ⟨by simp, by simp, fun t ht => ?_⟩
  rw [List.getElem?_map, List.getElem?_map, List.getElem?_map, List.getElem?_map, List.getElem?_range ht]
  simp only [Option.map_some, Option.some.injEq]
  unfold Stft.npNanmin npNanmax
  rw [optF_filter]
  have hmem := mem_present m gap x t
  cases hl : (((List.range m).map fun k => if gap (m * t + k) then none else some (x (m * t + k))).filterMap id) with
  | nil =>
    rw [hl] at hmem
    refine ⟨fun _ => ⟨rfl, rfl⟩, ?_⟩
    rintro ⟨k, hk, hg⟩
    have := (hmem (x (m * t + k))).mpr ⟨k, hk, hg, rfl⟩
    simp at this
  | cons z r =>
    rw [hl] at hmem
    refine ⟨fun ha => ?_, fun _ => ?_⟩
    · obtain ⟨k, hk, hg, -⟩ := (hmem z).mp (by simp)
      exact absurd (ha k hk) hg
    · obtain ⟨lo, a1, a2, a3⟩ := foldl_npMinimum r z
      obtain ⟨hi, b1, b2, b3⟩ := foldl_npMaximum r z
      exact ⟨lo, hi, a1, b1, ⟨(hmem lo).mp a2, fun y hy => a3 y ((hmem y).mpr hy)⟩, ⟨(hmem hi).mp b2, fun y hy => b3 y ((hmem y).mpr hy)⟩⟩

theorem resample_series {m : ℕ} (hm : 0 < m) (T : ℕ) (gap : ℕ → Prop) (x : ℕ → ℝ) (hex : ∀ t < T, ∃ k < m, ¬ gap (m * t + k)) :
    ∃ lo hi : ℕ → ℝ, resampleMin m (gapSeries (m * T) gap x) = series T lo ∧ resampleMax m (gapSeries (m * T) gap x) = series T hi ∧
      ∀ t < T, IsLeast (valuesIn m gap x t) (lo t) ∧ IsGreatest (valuesIn m gap x t) (hi t) := by
  obtain ⟨l1, l2, h⟩ := C179_levels hm T gap x
  have : ∀ t, ∃ v : ℝ × ℝ, t < T → (resampleMin m (gapSeries (m * T) gap x))[t]? = some (.fin v.1) ∧
        (resampleMax m (gapSeries (m * T) gap x))[t]? = some (.fin v.2) ∧ IsLeast (valuesIn m gap x t) v.1 ∧ IsGreatest (valuesIn m gap x t) v.2 := by
    intro t
    by_cases ht : t < T
    · obtain ⟨lo, hi, e⟩ := (h t ht).2 (hex t ht)
      exact ⟨(lo, hi), fun _ => e⟩
    · exact ⟨0, fun h => absurd h ht⟩
  choose v hv using this
  refine ⟨fun t => (v t).1, fun t => (v t).2, ?_, ?_, fun t ht => (hv t ht).2.2⟩
  · apply List.ext_getElem?
    intro t
    by_cases ht : t < T
    · rw [(hv t ht).1, series_get _ ht]
    · rw [List.getElem?_eq_none (by omega), List.getElem?_eq_none (by rw [series_length]; omega)]
  · apply List.ext_getElem?
    intro t
    by_cases ht : t < T
    · rw [(hv t ht).2.1, series_get _ ht]
    · rw [List.getElem?_eq_none (by omega), List.getElem?_eq_none (by rw [series_length]; omega)]

theorem numOrNan_resample {m : ℕ} (hm : 0 < m) (T : ℕ) (gap : ℕ → Prop) (x : ℕ → ℝ) : NumOrNan (resampleMin m (gapSeries (m * T) gap x)) := by
  obtain ⟨l1, l2, h⟩ := C179_levels hm T gap x
  intro y hy
  obtain ⟨t, ht, rfl⟩ := List.mem_iff_getElem.mp hy
  have e := List.getElem?_eq_getElem ht
  rw [l1] at ht
  by_cases hg : ∀ k < m, gap (m * t + k)
  · have := ((h t ht).1 hg).1
    rw [e] at this
    exact .inl (Option.some.inj this)
  · push Not at hg
    obtain ⟨lo, hi, a, -⟩ := (h t ht).2 hg
    rw [e] at a
    exact .inr ⟨lo, Option.some.inj a⟩

open Classical in
/-- **C179** The documented nearby link workflow, from the levels of single steps (minutes) to rain rates of intervals. Let all records have levels at the steps without `gap`, and the links within the
radius of link `i` at least one per interval. Let the level of these links be constant, and lowered by `B j s >= 0` in the rainy intervals, for more than half of these links at some step by more than `thresh_median_P` and
for more than half by more than `thresh_median_PL` times the length; and let each rainy interval have a dry one in its look-back period. Let the levels of link `i` be lowered by `waa_max` and the attenuation of the rain at the
step. Then the rate of a rainy interval is `alpha` times the largest plus `1 - alpha` times the smallest rate at the steps with a level, that of the others is 0, as soon as `min_hours` of data have
passed and at least `min_periods` of the last `n_average_dry` intervals are dry and not next to rain or to the ends of the series. If no level is missing in the interval, it differs from the mean rate by at most
the larger of `alpha` and `1 - alpha` times the range of the rates, and is exact for steady rain. -/
theorem C179_rain (sp : Spline) {Id : Type} [DecidableEq Id] (m T : ℕ) (hm : 0 < m) (hT : 0 < T) (ids : List Id) (len : List (Fl ℝ)) (levels : List (List (Fl ℝ)))
    {d : Nearby.Dist (Fl ℝ) Id} {p : Params (Fl ℝ)} {ℓ : ℕ → ℝ} {δP δL : ℝ} (q : RetrievalParams)
    (h : Consistent (minuteNet m ids len levels) d p) (hℓ : HasLengths (minuteNet m ids len levels) ℓ) (hP : p.threshP = .fin (-δP)) (hδ : 0 ≤ δP)
    (hL : p.threshPL = .fin (-δL)) (gap : ℕ → ℕ → Prop) (x : ℕ → ℕ → ℝ) (hlev : ∀ j < ids.length, levels[j]? = some (gapSeries (m * T) (gap j) (x j)))
    (i : ℕ) (hi : i < ids.length) (hml : p.minLinks < (nbrs (minuteNet m ids len levels) d p i).length)
    (a b : ℕ → ℝ) (waa alpha : ℝ) (ha : 0 < a i) (hb : 0 < b i) (h0 : 0 ≤ waa) (hmp : 1 ≤ q.minPeriods) (hav : 0 < q.nAverageDry)
    (hq : ∀ j, q.f_GHz j = none ∧ q.pol j = none ∧ q.a j = some [.fin (a j)] ∧ q.b j = some [.fin (b j)])
    (hq2 : q.waaMax = .fin waa ∧ q.alpha = .fin alpha ∧ q.threshold = none)
    (rainy : ℕ → Prop) (D : ℕ → ℝ) (B : ℕ → ℕ → ℝ) (R : ℕ → ℝ)
    (hpres : ∀ j ∈ nbrs (minuteNet m ids len levels) d p i, ∀ t < T, ∃ k < m, ¬ gap j (m * t + k))
    (hx : ∀ j ∈ nbrs (minuteNet m ids len levels) d p i, ∀ s, x j s = D j - B j s)
    (hB : ∀ j ∈ nbrs (minuteNet m ids len levels) d p i, ∀ t < T, ∀ k < m, 0 ≤ B j (m * t + k) ∧ (¬ rainy t → B j (m * t + k) = 0))
    (hrain : ∀ t < T, rainy t →
      (nbrs (minuteNet m ids len levels) d p i).length <
        2 * (nbrs (minuteNet m ids len levels) d p i).countP (fun j => decide (∃ k < m, ¬ gap j (m * t + k) ∧ δP < B j (m * t + k))) ∧
      (nbrs (minuteNet m ids len levels) d p i).length <
        2 * (nbrs (minuteNet m ids len levels) d p i).countP (fun j => decide (∃ k < m, ¬ gap j (m * t + k) ∧ δL * ℓ j < B j (m * t + k))))
    (hprev : ∀ t < T, rainy t → ∃ s, s ≤ t ∧ t < s + p.timeperiod * 60 / p.interval ∧ ¬ rainy s)
    (hown : ∀ t < T, rainy t → ∀ k < m, 0 ≤ R (m * t + k) ∧ B i (m * t + k) = waa + a i * R (m * t + k) ^ b i * ℓ i) :
    ∃ Rs rates, nearbyChain sp (minuteNet m ids len levels) (levels.map (resampleMax m)) d p q = .ok Rs ∧ Rs[i]? = some rates ∧ rates.length = T ∧
      ∀ t < T, p.minHours * 60 / p.interval ≤ t + 1 →
        q.minPeriods ≤ (List.range (t + 1)).countP (fun s => decide (t < s + q.nAverageDry ∧
          p.minHours * 60 / p.interval ≤ s + 1 ∧ 0 < s ∧ s + 2 < T ∧ ¬ rainy (s - 1) ∧ ¬ rainy s ∧ ¬ rainy (s + 1) ∧ ¬ rainy (s + 2))) →
        (¬ rainy t → rates[t]? = some (.fin 0)) ∧
        (rainy t → ∀ lo hi, IsLeast {y | ∃ k < m, ¬ gap i (m * t + k) ∧ y = R (m * t + k)} lo →
          IsGreatest {y | ∃ k < m, ¬ gap i (m * t + k) ∧ y = R (m * t + k)} hi →
          rates[t]? = some (.fin (alpha * hi + (1 - alpha) * lo)) ∧
          (0 ≤ alpha → alpha ≤ 1 → (∀ k < m, ¬ gap i (m * t + k)) →
            |alpha * hi + (1 - alpha) * lo - (∑ k ∈ Finset.range m, R (m * t + k)) / m| ≤ max alpha (1 - alpha) * (hi - lo))) := by
  set N := minuteNet m ids len levels with hN
  have hids : N.ids.length = ids.length := rfl
  have hpm : N.pmin = levels.map (resampleMin m) := rfl
  have hnb : ∀ j ∈ nbrs N d p i, j < ids.length := fun j hj => List.mem_range.mp (List.mem_filter.mp hj).1
  have hii : i ∈ nbrs N d p i := List.mem_filter.mpr ⟨List.mem_range.mpr hi, h.own i hi⟩
  have hget : ∀ j < ids.length, N.pmin.getD j [] = resampleMin m (gapSeries (m * T) (gap j) (x j)) := by
    intro j hj
    rw [hpm, List.getD_eq_getElem?_getD, List.getElem?_map, hlev j hj]
    rfl
  have hgetx : ∀ j < ids.length, (levels.map (resampleMax m)).getD j [] = resampleMax m (gapSeries (m * T) (gap j) (x j)) := by
    intro j hj
    rw [List.getD_eq_getElem?_getD, List.getElem?_map, hlev j hj]
    rfl
  have hNT : N.T = T := by
    rw [← h.times (resampleMin m (gapSeries (m * T) (gap i) (x i))) (by
      rw [hpm]
      exact List.mem_map.mpr ⟨_, List.mem_of_getElem? (hlev i hi), rfl⟩)]
    exact (C179_levels hm T _ _).1
  have hll : levels.length = ids.length := by
    have := h.pmin
    rw [hpm, List.length_map] at this
    exact this
  -- the extremes of the links within the radius
  have hext : ∀ j, ∃ v : (ℕ → ℝ) × (ℕ → ℝ), j ∈ nbrs N d p i → resampleMin m (gapSeries (m * T) (gap j) (x j)) = series T v.1 ∧
      resampleMax m (gapSeries (m * T) (gap j) (x j)) = series T v.2 ∧
      ∀ t < T, IsLeast (valuesIn m (gap j) (x j) t) (v.1 t) ∧ IsGreatest (valuesIn m (gap j) (x j) t) (v.2 t) := by
    intro j
    by_cases hj : j ∈ nbrs N d p i
    · obtain ⟨lo, hi, e⟩ := resample_series hm T (gap j) (x j) (hpres j hj)
      exact ⟨(lo, hi), fun _ => e⟩
    · exact ⟨(fun _ => 0, fun _ => 0), fun h => absurd h hj⟩
  choose v hv using hext
  -- extremes of the rain
  have hR : ∀ t, ∃ w : ℝ × ℝ, t < T → rainy t → 0 ≤ w.1 ∧ w.1 ≤ w.2 ∧ (v i).1 t = D i - (waa + a i * w.2 ^ b i * ℓ i) ∧
      (v i).2 t = D i - (waa + a i * w.1 ^ b i * ℓ i) ∧ IsLeast (valuesIn m (gap i) R t) w.1 ∧ IsGreatest (valuesIn m (gap i) R t) w.2 := by
    intro t
    by_cases ht : t < T ∧ rainy t
    · obtain ⟨ht, hr⟩ := ht
      obtain ⟨⟨⟨k1, hk1, hg1, e1⟩, lb⟩, ⟨⟨k2, hk2, hg2, e2⟩, ub⟩⟩ := (hv i hii).2.2 t ht
      have key : ∀ k < m, ∀ k' < m, x i (m * t + k) ≤ x i (m * t + k') → R (m * t + k') ≤ R (m * t + k) := by
        intro k hk k' hk' hle
        rw [hx i hii, hx i hii, (hown t ht hr k hk).2, (hown t ht hr k' hk').2] at hle
        by_contra hc
        push Not at hc
        have := Real.rpow_lt_rpow (hown t ht hr k hk).1 hc hb
        have h2 := mul_lt_mul_of_pos_right (mul_lt_mul_of_pos_left this ha) (hℓ i hi).1
        linarith
      refine ⟨(R (m * t + k2), R (m * t + k1)), fun _ _ => ⟨(hown t ht hr k2 hk2).1, ?_, ?_, ?_, ⟨⟨k2, hk2, hg2, rfl⟩, ?_⟩, ⟨⟨k1, hk1, hg1, rfl⟩, ?_⟩⟩⟩
      · refine key k1 hk1 k2 hk2 ?_
        rw [← e1]
        exact lb ⟨k2, hk2, hg2, rfl⟩
      · rw [e1, hx i hii, (hown t ht hr k1 hk1).2]
      · rw [e2, hx i hii, (hown t ht hr k2 hk2).2]
      · rintro y ⟨k, hk, hg, rfl⟩
        refine key k hk k2 hk2 ?_
        rw [← e2]
        exact ub ⟨k, hk, hg, rfl⟩
      · rintro y ⟨k, hk, hg, rfl⟩
        refine key k1 hk1 k hk ?_
        rw [← e1]
        exact lb ⟨k, hk, hg, rfl⟩
    · exact ⟨0, fun h1 h2 => absurd ⟨h1, h2⟩ ht⟩
  choose w hw using hR
  have hdry : ∀ j ∈ nbrs N d p i, ∀ t < T, ¬ rainy t → (v j).1 t = D j ∧ (v j).2 t = D j := by
    intro j hj t ht hr
    obtain ⟨⟨⟨k1, hk1, -, e1⟩, -⟩, ⟨⟨k2, hk2, -, e2⟩, -⟩⟩ := (hv j hj).2.2 t ht
    rw [e1, e2, hx j hj, hx j hj, (hB j hj t ht k1 hk1).2 hr, (hB j hj t ht k2 hk2).2 hr, sub_zero]
    exact ⟨rfl, rfl⟩
  have hbig : ∀ j ∈ nbrs N d p i, ∀ t < T, ∀ δ, (∃ k < m, ¬ gap j (m * t + k) ∧ δ < B j (m * t + k)) → δ < D j - (v j).1 t := by
    rintro j hj t ht δ ⟨k, hk, hg, hd⟩
    have := ((hv j hj).2.2 t ht).1.2 ⟨k, hk, hg, rfl⟩
    rw [hx j hj] at this
    linarith
  obtain ⟨Rs, rates, r1, r2, r3, r4⟩ := C140_rain sp q (levels.map (resampleMax m)) h h.need h.need_le hℓ (fun j hj => by
      rw [hget j hj]
      exact numOrNan_resample hm T _ _) hP hδ hL i hi hml a b waa alpha ha hb h0 hmp hav (by omega) hq hq2
    ⟨by rw [List.length_map, hll]; rfl, by
      intro xs hxs
      obtain ⟨l, hl, rfl⟩ := List.mem_map.mp hxs
      obtain ⟨j, hj, rfl⟩ := List.mem_iff_getElem.mp hl
      have := hlev j (by omega)
      rw [List.getElem?_eq_getElem hj] at this
      rw [Option.some.inj this, hNT]
      exact (C179_levels hm T _ _).2.1⟩
    rainy D (fun j t => D j - (v j).1 t) (fun t => (w t).2) (fun t => (w t).1)
    (by
      intro j hj
      rw [hget j (hnb j hj), (hv j hj).1, hNT]
      congr 1
      funext t
      ring)
    (by
      rw [hNT]
      intro j hj t ht
      obtain ⟨k1, hk1, -, e1⟩ := ((hv j hj).2.2 t ht).1.1
      refine ⟨?_, fun hr => by rw [(hdry j hj t ht hr).1, sub_self]⟩
      rw [e1, hx j hj]
      linarith [(hB j hj t ht k1 hk1).1])
    (by
      rw [hNT]
      intro t ht hr
      obtain ⟨c1, c2⟩ := hrain t ht hr
      refine ⟨lt_of_lt_of_le c1 (Nat.mul_le_mul_left 2 (List.countP_mono_left fun j hj hd => ?_)),
        lt_of_lt_of_le c2 (Nat.mul_le_mul_left 2 (List.countP_mono_left fun j hj hd => ?_))⟩
      · simp only [decide_eq_true_eq] at hd ⊢
        exact hbig j hj t ht _ hd
      · simp only [decide_eq_true_eq] at hd ⊢
        exact hbig j hj t ht _ hd)
    (by rw [hNT]; exact hprev)
    (by
      rw [hNT]
      intro t ht hr
      obtain ⟨g1, g2, g3, -⟩ := hw t ht hr
      refine ⟨g1, g2, ?_⟩
      rw [g3]
      ring)
    (by
      rw [hgetx i hi, (hv i hii).2.1, hNT]
      unfold series
      refine List.map_congr_left fun t ht => ?_
      have ht := List.mem_range.mp ht
      congr 1
      beta_reduce
      by_cases hr : rainy t
      · rw [if_pos hr, (hw t ht hr).2.2.2.1]
      · rw [if_neg hr, (hdry i hii t ht hr).2, sub_zero])
  rw [hNT] at r3 r4
  refine ⟨Rs, rates, r1, r2, r3, fun t ht hn hc => ?_⟩
  have e := r4 t ht hn hc
  refine ⟨fun hr => by rw [e, if_neg hr], fun hr lo hi hlo hhi => ?_⟩
  obtain ⟨-, -, -, -, g5, g6⟩ := hw t ht hr
  have el : (w t).1 = lo := IsLeast.unique g5 hlo
  have eh : (w t).2 = hi := IsGreatest.unique g6 hhi
  refine ⟨by rw [e, if_pos hr, el, eh], fun q0 q1 hall => ?_⟩
  have hmR : (0 : ℝ) < m := by exact_mod_cast hm
  have s1 := Finset.card_nsmul_le_sum (Finset.range m) (fun k => R (m * t + k)) lo
    fun k hk => hlo.2 ⟨k, Finset.mem_range.mp hk, hall k (Finset.mem_range.mp hk), rfl⟩
  have s2 := Finset.sum_le_card_nsmul (Finset.range m) (fun k => R (m * t + k)) hi
    fun k hk => hhi.2 ⟨k, Finset.mem_range.mp hk, hall k (Finset.mem_range.mp hk), rfl⟩
  rw [Finset.card_range, nsmul_eq_mul] at s1 s2
  have t1 : lo ≤ (∑ k ∈ Finset.range m, R (m * t + k)) / m := (le_div_iff₀' hmR).mpr s1
  have t2 : (∑ k ∈ Finset.range m, R (m * t + k)) / m ≤ hi := (div_le_iff₀' hmR).mpr s2
  have hd : 0 ≤ hi - lo := by linarith
  have m1 := mul_le_mul_of_nonneg_right (le_max_left alpha (1 - alpha)) hd
  have m2 := mul_le_mul_of_nonneg_right (le_max_right alpha (1 - alpha)) hd
  rw [abs_le]
  constructor <;> nlinarith

/-! An example: the three links of C140, now with two levels per interval, one of them missing. -/

/-- rain of 20 mm/h in the first and 10 mm/h in the second half of interval 4 -/
noncomputable def trioRain (s : ℕ) : ℝ := if s = 8 then 20 else 10

/-- attenuation of three links in this rain; the third one does not see it -/
noncomputable def trioB (j s : ℕ) : ℝ := if s / 2 = 4 ∧ j < 2 then 1 + 1 / 10 * trioRain s ^ (1 : ℝ) * 2 else 0

/-- the second link lacks a level -/
def trioGap (j s : ℕ) : Prop := j = 1 ∧ s = 9

noncomputable def trioLevels : List (List (Fl ℝ)) := (List.range 3).map fun j => gapSeries (2 * 9) (trioGap j) fun s => -50 - trioB j s

theorem trioB_nonneg (j s : ℕ) : 0 ≤ trioB j s := by
  unfold trioB trioRain
  split_ifs <;> norm_num

theorem trioM_T : (minuteNet 2 [0, 1, 2] [.fin 2, .fin 2, .fin 2] trioLevels : Net (Fl ℝ) ℕ).T = 9 := by
  unfold Net.T minuteNet trioLevels
  exact (C179_levels (by norm_num) 9 _ _).1

theorem trioM_consistent : Consistent (minuteNet 2 [0, 1, 2] [.fin 2, .fin 2, .fin 2] trioLevels) trioDist trioParams where
  nodup := trio_consistent.nodup
  same := rfl
  aa := trio_consistent.aa
  ab := trio_consistent.ab
  ba := trio_consistent.ba
  bb := trio_consistent.bb
  pmin := by simp [minuteNet, trioLevels]
  len := rfl
  times := by
    intro xs hxs
    rw [trioM_T]
    obtain ⟨l, hl, rfl⟩ := List.mem_map.mp hxs
    obtain ⟨j, -, rfl⟩ := List.mem_map.mp hl
    exact (C179_levels (by norm_num) 9 _ _).1
  own := fun i hi => trio_near i i hi hi
  interval := by decide
  need := by decide
  need_le := by decide
  period_le := by rw [trioM_T]; decide
  F_le := by rw [trioM_T]; decide

theorem trioM_nbrs : nbrs (minuteNet 2 [0, 1, 2] [.fin 2, .fin 2, .fin 2] trioLevels) trioDist trioParams 0 = [0, 1, 2] := trio_nbrs

/-- a quarter of 20 mm/h plus three quarters of 10 mm/h -/
example (sp : Spline) : ∃ Rs R, nearbyChain sp (minuteNet 2 [0, 1, 2] [.fin 2, .fin 2, .fin 2] trioLevels) (trioLevels.map (resampleMax 2)) trioDist trioParams
    ⟨9, 1, fun _ => none, fun _ => none, fun _ => some [.fin (1/10)], fun _ => some [.fin 1], "ITU_2005", .fin 1, .fin (1/4), none⟩ =
      .ok Rs ∧ Rs[0]? = some R ∧ R[4]? = some (.fin (25/2)) ∧ R[5]? = some (.fin 0) := by
  obtain ⟨Rs, R, r1, r2, -, r3⟩ := C179_rain sp 2 9 (by norm_num) (by norm_num) [0, 1, 2] [.fin 2, .fin 2, .fin 2] trioLevels (d := trioDist) (p := trioParams)
    (ℓ := fun _ => 2) (δP := 7/5) (δL := 7/10)
    ⟨9, 1, fun _ => none, fun _ => none, fun _ => some [.fin (1/10)], fun _ => some [.fin 1], "ITU_2005", .fin 1, .fin (1/4), none⟩
    trioM_consistent (by
      intro j hj
      have : j < 3 := hj
      refine ⟨by norm_num, ?_⟩
      interval_cases j <;> rfl) rfl (by norm_num) rfl trioGap (fun j s => -50 - trioB j s) (by
      intro j hj
      have : j < 3 := hj
      unfold trioLevels
      rw [List.getElem?_map, List.getElem?_range this]
      rfl) 0 (by decide) (by rw [trioM_nbrs]; decide) (fun _ => 1/10) (fun _ => 1) 1 (1/4) (by norm_num) (by norm_num) (by norm_num)
    le_rfl (by decide) (fun _ => ⟨rfl, rfl, rfl, rfl⟩) ⟨rfl, rfl, rfl⟩ (fun t => t = 4) (fun _ => -50) trioB trioRain
    (by
      intro j _ t _
      refine ⟨0, by norm_num, ?_⟩
      rintro ⟨-, h⟩
      omega)
    (fun _ _ _ => rfl)
    (by
      intro j _ t _ k hk
      refine ⟨trioB_nonneg _ _, fun h => ?_⟩
      unfold trioB
      rw [if_neg]
      rintro ⟨h', -⟩
      omega)
    (by
      rintro t - rfl
      rw [trioM_nbrs]
      have e : ∀ j, j < 2 → ∃ k < 2, ¬ trioGap j (2 * 4 + k) ∧ 5 ≤ trioB j (2 * 4 + k) := by
        intro j hj
        refine ⟨0, by norm_num, ?_, ?_⟩
        · rintro ⟨-, h⟩
          omega
        · unfold trioB trioRain
          rw [if_pos ⟨by norm_num, hj⟩]
          norm_num
      have c : ∀ (P : ℕ → Prop) {_ : DecidablePred P}, P 0 → P 1 → 3 < 2 * ([0, 1, 2] : List ℕ).countP (fun j => decide (P j)) := by
        intro P _ h0 h1
        simp only [List.countP_cons, List.countP_nil, h0, h1, decide_true, if_true]
        omega
      constructor
      · refine c _ ?_ ?_
        · obtain ⟨k, h1, h2, h3⟩ := e 0 (by norm_num)
          exact ⟨k, h1, h2, by linarith⟩
        · obtain ⟨k, h1, h2, h3⟩ := e 1 (by norm_num)
          exact ⟨k, h1, h2, by linarith⟩
      · refine c _ ?_ ?_
        · obtain ⟨k, h1, h2, h3⟩ := e 0 (by norm_num)
          exact ⟨k, h1, h2, by linarith⟩
        · obtain ⟨k, h1, h2, h3⟩ := e 1 (by norm_num)
          exact ⟨k, h1, h2, by linarith⟩)
    (by
      rintro t - rfl
      exact ⟨3, by decide, by decide, by decide⟩)
    (by
      rintro t - rfl k hk
      constructor
      · unfold trioRain
        split_ifs <;> norm_num
      · unfold trioB
        rw [if_pos ⟨by omega, by norm_num⟩])
  have cnt : ∀ t, t = 4 ∨ t = 5 → 1 ≤ (List.range (t + 1)).countP (fun s => decide (t < s + 9 ∧
      trioParams.minHours * 60 / trioParams.interval ≤ s + 1 ∧ 0 < s ∧ s + 2 < 9 ∧ ¬ (s - 1 = 4) ∧ ¬ (s = 4) ∧ ¬ (s + 1 = 4) ∧ ¬ (s + 2 = 4))) := by
    intro t ht
    rw [Nat.succ_le_iff, List.countP_pos_iff]
    refine ⟨1, List.mem_range.mpr (by omega), ?_⟩
    simp only [decide_eq_true_eq]
    refine ⟨by omega, by decide, by norm_num, by norm_num, by norm_num, by norm_num, by norm_num, by norm_num⟩
  refine ⟨Rs, R, r1, r2, ?_, ?_⟩
  · have := (r3 4 (by norm_num) (by decide) (by convert cnt 4 (.inl rfl))).2 rfl 10 20
      ⟨⟨1, by norm_num, by rintro ⟨h, -⟩; omega, by norm_num [trioRain]⟩, by
        rintro y ⟨k, hk, -, rfl⟩
        unfold trioRain
        split_ifs <;> norm_num⟩
      ⟨⟨0, by norm_num, by rintro ⟨h, -⟩; omega, by norm_num [trioRain]⟩, by
        rintro y ⟨k, hk, -, rfl⟩
        unfold trioRain
        split_ifs <;> norm_num⟩
    rw [this.1]
    norm_num
  · exact (r3 5 (by norm_num) (by decide) (by convert cnt 5 (.inr rfl))).1 (by norm_num)

end Verif.Props
