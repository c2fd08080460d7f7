import Verif.Props.StatsRain

/-!
# C131: metrics of combined, exchanged and rescaled data
-/

namespace Verif.Props

open Verif.Stats

section counts
variable {F : Type} [PyFloat F] [PySqrt F]

omit [PyFloat F] [PySqrt F] in
theorem nPairs_append (r₁ p₁ r₂ p₂ : List F) (h₁ : r₁.length = p₁.length) (P : F → F → Bool) :
    nPairs (r₁ ++ r₂) (p₁ ++ p₂) P = nPairs r₁ p₁ P + nPairs r₂ p₂ P := by
  unfold nPairs
  rw [List.zip_append h₁, List.countP_append]

/-- C131: every count of the wet/dry metrics of a combined data set is the sum of the counts of its
parts (so rates and MCC of the whole follow from the counts of the parts). -/
theorem C131_wetdry_counts_add (isInf : F → Bool) (r₁ p₁ r₂ p₂ : List F)
    (h₁ : r₁.length = p₁.length) (h₂ : r₂.length = p₂.length) :
    ∃ e₁ e₂ e, calcWetDryPerformanceMetrics isInf r₁ p₁ = .ok e₁ ∧
      calcWetDryPerformanceMetrics isInf r₂ p₂ = .ok e₂ ∧
      calcWetDryPerformanceMetrics isInf (r₁ ++ r₂) (p₁ ++ p₂) = .ok e ∧
      e.counts.nAllPairs = e₁.counts.nAllPairs + e₂.counts.nAllPairs ∧
      e.counts.nNanPairs = e₁.counts.nNanPairs + e₂.counts.nNanPairs ∧
      e.counts.nNanReferenceOnly = e₁.counts.nNanReferenceOnly + e₂.counts.nNanReferenceOnly ∧
      e.counts.nNanPredictedOnly = e₁.counts.nNanPredictedOnly + e₂.counts.nNanPredictedOnly ∧
      e.counts.nTp = e₁.counts.nTp + e₂.counts.nTp ∧
      e.counts.nTn = e₁.counts.nTn + e₂.counts.nTn ∧
      e.counts.nFp = e₁.counts.nFp + e₂.counts.nFp ∧
      e.counts.nFn = e₁.counts.nFn + e₂.counts.nFn ∧
      e.counts.nWetReference = e₁.counts.nWetReference + e₂.counts.nWetReference ∧
      e.counts.nDryReference = e₁.counts.nDryReference + e₂.counts.nDryReference ∧
      e.trueWetRate = divNat (e₁.counts.nTp + e₂.counts.nTp)
        (e₁.counts.nWetReference + e₂.counts.nWetReference) ∧
      e.missedWetRate = divNat (e₁.counts.nFn + e₂.counts.nFn)
        (e₁.counts.nWetReference + e₂.counts.nWetReference) ∧
      e.trueDryRate = divNat (e₁.counts.nTn + e₂.counts.nTn)
        (e₁.counts.nDryReference + e₂.counts.nDryReference) ∧
      e.falseWetRate = divNat (e₁.counts.nFp + e₂.counts.nFp)
        (e₁.counts.nDryReference + e₂.counts.nDryReference) := by
  obtain ⟨e₁, he₁, a1, a2, a3, a4, a5, a6, a7, a8, a9, a10⟩ :=
    C40_counts_are_counts isInf r₁ p₁ h₁
  obtain ⟨e₂, he₂, b1, b2, b3, b4, b5, b6, b7, b8, b9, b10⟩ :=
    C40_counts_are_counts isInf r₂ p₂ h₂
  obtain ⟨e, he, c1, c2, c3, c4, c5, c6, c7, c8, c9, c10⟩ :=
    C40_counts_are_counts isInf (r₁ ++ r₂) (p₁ ++ p₂) (by simp [h₁, h₂])
  have hrates : e.trueWetRate = divNat e.counts.nTp e.counts.nWetReference ∧
      e.missedWetRate = divNat e.counts.nFn e.counts.nWetReference ∧
      e.trueDryRate = divNat e.counts.nTn e.counts.nDryReference ∧
      e.falseWetRate = divNat e.counts.nFp e.counts.nDryReference := by
    have he' := he
    rw [calcWetDry_eq] at he'
    cases hc : wetDryCounts (r₁ ++ r₂) (p₁ ++ p₂) with
    | error _ => rw [hc] at he'; cases he'
    | ok c =>
      rw [hc] at he'
      injection he' with he'
      subst he'
      exact ⟨rfl, rfl, rfl, rfl⟩
  rw [nPairs_append _ _ _ _ h₁] at c2 c5 c6 c7 c8 c9 c10
  rw [← a2, ← b2] at c2
  rw [← a5, ← b5] at c5
  rw [← a6, ← b6] at c6
  rw [← a7, ← b7] at c7
  rw [← a8, ← b8] at c8
  rw [← a9, ← b9] at c9
  rw [← a10, ← b10] at c10
  rw [List.length_append, ← a1, ← b1] at c1
  rw [List.countP_append, ← a3, ← b3] at c3
  rw [List.countP_append, ← a4, ← b4] at c4
  obtain ⟨d1, d2, d3, d4⟩ := hrates
  rw [c5, c9] at d1
  rw [c8, c9] at d2
  rw [c6, c10] at d3
  rw [c7, c10] at d4
  exact ⟨e₁, e₂, e, he₁, he₂, he, c1, c2, c3, c4, c5, c6, c7, c8, c9, c10, d1, d2, d3, d4⟩

end counts

/-- Concrete case: two records of two pairs. -/
example : ([.fin 1, .nan] : List (Fl ℝ)).length = ([.fin 0, .fin 1] : List (Fl ℝ)).length ∧
    ([.fin 0, .fin 2] : List (Fl ℝ)).length = ([.fin 3, .fin 0] : List (Fl ℝ)).length := by
  exact ⟨rfl, rfl⟩

theorem validPairs_append (r₁ p₁ r₂ p₂ : List (Fl ℝ)) (h₁ : r₁.length = p₁.length) :
    validPairs (r₁ ++ r₂) (p₁ ++ p₂) = validPairs r₁ p₁ ++ validPairs r₂ p₂ := by
  unfold validPairs
  rw [List.zip_append h₁, List.filter_append]

theorem S_append {α : Type} (l l' : List α) (f : α → ℝ) : S (l ++ l') f = S l f + S l' f := by
  simp [S]

/-- C131: the rain metrics of a combined data set. Sums add up; means and mean absolute error are the means of
the parts' values weighted by the numbers of valid pairs, the squared RMSE as well; the rates of false wet and
missed wet pairs are weighted by the numbers of dry and wet reference values. -/
theorem C131_rain_pooled (r₁ p₁ r₂ p₂ : List (Fl ℝ)) (thr : Fl ℝ) (e₁ e₂ e : RainError (Fl ℝ))
    (he₁ : calcRainErrorPerformanceMetrics r₁ p₁ thr = .ok e₁)
    (he₂ : calcRainErrorPerformanceMetrics r₂ p₂ thr = .ok e₂)
    (he : calcRainErrorPerformanceMetrics (r₁ ++ r₂) (p₁ ++ p₂) thr = .ok e)
    (hr₁ : FiniteOrNaN r₁) (hp₁ : FiniteOrNaN p₁) (hr₂ : FiniteOrNaN r₂) (hp₂ : FiniteOrNaN p₂)
    (hne₁ : validPairs r₁ p₁ ≠ []) (hne₂ : validPairs r₂ p₂ ≠ []) :
    let n₁ : ℝ := (validPairs r₁ p₁).length
    let n₂ : ℝ := (validPairs r₂ p₂).length
    let dry := fun r p => ((validPairs r p).countP fun z => !(thr <ᶠ z.1) : ℕ)
    let wet := fun r p => ((validPairs r p).countP fun z => thr <ᶠ z.1 : ℕ)
    e.rSumReference = e₁.rSumReference +ᶠ e₂.rSumReference ∧
    e.rSumPredicted = e₁.rSumPredicted +ᶠ e₂.rSumPredicted ∧
    (∃ x₁ x₂, e₁.rMeanReference = .fin x₁ ∧ e₂.rMeanReference = .fin x₂ ∧
      e.rMeanReference = .fin ((n₁ * x₁ + n₂ * x₂) / (n₁ + n₂))) ∧
    (∃ x₁ x₂, e₁.rMeanPredicted = .fin x₁ ∧ e₂.rMeanPredicted = .fin x₂ ∧
      e.rMeanPredicted = .fin ((n₁ * x₁ + n₂ * x₂) / (n₁ + n₂))) ∧
    (∃ x₁ x₂, e₁.meanAbsoluteError = .fin x₁ ∧ e₂.meanAbsoluteError = .fin x₂ ∧
      e.meanAbsoluteError = .fin ((n₁ * x₁ + n₂ * x₂) / (n₁ + n₂))) ∧
    (∃ x₁ x₂, e₁.rootMeanSquareError = .fin x₁ ∧ e₂.rootMeanSquareError = .fin x₂ ∧
      e.rootMeanSquareError = .fin (Real.sqrt ((n₁ * x₁ ^ 2 + n₂ * x₂ ^ 2) / (n₁ + n₂)))) ∧
    (∀ x₁ x₂, e₁.falseWetRate = .fin x₁ → e₂.falseWetRate = .fin x₂ →
      e.falseWetRate = .fin ((dry r₁ p₁ * x₁ + dry r₂ p₂ * x₂) / (dry r₁ p₁ + dry r₂ p₂))) ∧
    (e₁.falseWetRate = .nan → e.falseWetRate = e₂.falseWetRate) ∧
    (e₂.falseWetRate = .nan → e.falseWetRate = e₁.falseWetRate) ∧
    (∀ x₁ x₂, e₁.missedWetRate = .fin x₁ → e₂.missedWetRate = .fin x₂ →
      e.missedWetRate = .fin ((wet r₁ p₁ * x₁ + wet r₂ p₂ * x₂) / (wet r₁ p₁ + wet r₂ p₂))) ∧
    (e₁.missedWetRate = .nan → e.missedWetRate = e₂.missedWetRate) ∧
    (e₂.missedWetRate = .nan → e.missedWetRate = e₁.missedWetRate) := by
  intro n₁ n₂ dry wet
  have hl₁ := rain_lengths he₁
  obtain ⟨ps₁, hps₁⟩ := exists_real_pairs r₁ p₁ hr₁ hp₁
  obtain ⟨ps₂, hps₂⟩ := exists_real_pairs r₂ p₂ hr₂ hp₂
  have hn₁ : ps₁ ≠ [] := by rintro rfl; exact hne₁ hps₁
  have hn₂ : ps₂ ≠ [] := by rintro rfl; exact hne₂ hps₂
  have hv := validPairs_append r₁ p₁ r₂ p₂ hl₁
  have hps : validPairs (r₁ ++ r₂) (p₁ ++ p₂) =
      (ps₁ ++ ps₂).map fun q => ((Fl.fin q.1 : Fl ℝ), (Fl.fin q.2 : Fl ℝ)) := by
    rw [hv, hps₁, hps₂, List.map_append]
  have l₁ : n₁ = ps₁.length := by show ((validPairs r₁ p₁).length : ℝ) = _; rw [hps₁, List.length_map]
  have l₂ : n₂ = ps₂.length := by show ((validPairs r₂ p₂).length : ℝ) = _; rw [hps₂, List.length_map]
  have np₁ : 0 < n₁ := by rw [l₁]; exact_mod_cast List.length_pos_of_ne_nil hn₁
  have np₂ : 0 < n₂ := by rw [l₂]; exact_mod_cast List.length_pos_of_ne_nil hn₂
  obtain ⟨a1, a2, a3, a4, a5, a6, -⟩ := C44_values r₁ p₁ thr e₁ he₁ ps₁ hps₁ hn₁
  obtain ⟨b1, b2, b3, b4, b5, b6, -⟩ := C44_values r₂ p₂ thr e₂ he₂ ps₂ hps₂ hn₂
  obtain ⟨c1, c2, c3, c4, c5, c6, -⟩ := C44_values _ _ thr e he (ps₁ ++ ps₂) hps (by simp [hn₁])
  dsimp only at a1 a2 a3 a4 a5 a6 b1 b2 b3 b4 b5 b6 c1 c2 c3 c4 c5 c6
  rw [List.map_append, List.sum_append] at c1 c2 c3 c4 c5 c6
  rw [List.length_append, Nat.cast_add] at c3 c4 c5 c6
  rw [← l₁, ← l₂] at c3 c4 c5 c6
  rw [← l₁] at a3 a4 a5 a6
  rw [← l₂] at b3 b4 b5 b6
  obtain ⟨f1, f2, f3, f4, -⟩ := C45_rates r₁ p₁ thr e₁ he₁
  obtain ⟨g1, g2, g3, g4, -⟩ := C45_rates r₂ p₂ thr e₂ he₂
  obtain ⟨k1, k2, k3, k4, -⟩ := C45_rates _ _ thr e he
  rw [hv] at k1 k2 k3 k4
  have rate : ∀ (P Q : Fl ℝ × Fl ℝ → Bool) (y₁ y₂ y : Fl ℝ) (A B : List (Fl ℝ × Fl ℝ)),
      (A.filter P = [] → y₁ = .nan) →
      (A.filter P ≠ [] → ∃ x : ℝ, y₁ = .fin x ∧ 0 ≤ x ∧ x ≤ 1 ∧
        x * (A.filter P).length = ((A.filter P).filter Q).length) →
      (B.filter P = [] → y₂ = .nan) →
      (B.filter P ≠ [] → ∃ x : ℝ, y₂ = .fin x ∧ 0 ≤ x ∧ x ≤ 1 ∧
        x * (B.filter P).length = ((B.filter P).filter Q).length) →
      ((A ++ B).filter P = [] → y = .nan) →
      ((A ++ B).filter P ≠ [] → ∃ x : ℝ, y = .fin x ∧ 0 ≤ x ∧ x ≤ 1 ∧
        x * ((A ++ B).filter P).length = (((A ++ B).filter P).filter Q).length) →
      (∀ x₁ x₂, y₁ = .fin x₁ → y₂ = .fin x₂ →
        y = .fin ((A.countP P * x₁ + B.countP P * x₂) / (A.countP P + B.countP P))) ∧
      (y₁ = .nan → y = y₂) ∧ (y₂ = .nan → y = y₁) := by
    intro P Q y₁ y₂ y A B u1 u2 v1 v2 w1 w2
    rw [List.filter_append] at w1 w2
    simp only [List.filter_append, List.length_append, Nat.cast_add] at w2
    rw [List.countP_eq_length_filter, List.countP_eq_length_filter]
    generalize A.filter P = A' at *
    generalize B.filter P = B' at *
    by_cases hA : A' = []
    · have := u1 hA
      subst this
      subst hA
      refine ⟨fun _ _ h => by simp at h, fun _ => ?_, fun h => ?_⟩
      · by_cases hB : B' = []
        · rw [w1 (by simp [hB]), v1 hB]
        · obtain ⟨x, hx, -, -, h1⟩ := w2 (by simpa using hB)
          obtain ⟨x', hx', -, -, h2⟩ := v2 hB
          have hp : (0 : ℝ) < B'.length := by exact_mod_cast List.length_pos_of_ne_nil hB
          rw [hx, hx']
          congr 1
          simp only [List.length_nil, List.filter_nil, Nat.cast_zero, zero_add] at h1
          rw [← h2] at h1
          exact mul_right_cancel₀ hp.ne' h1
      · by_cases hB : B' = []
        · rw [w1 (by simp [hB])]
        · obtain ⟨x', hx', -⟩ := v2 hB
          rw [hx'] at h
          cases h
    · obtain ⟨xa, hxa, -, -, ha⟩ := u2 hA
      subst hxa
      have pa : (0 : ℝ) < A'.length := by exact_mod_cast List.length_pos_of_ne_nil hA
      obtain ⟨x, hx, -, -, hh⟩ := w2 (by simp [hA])
      subst hx
      by_cases hB : B' = []
      · have := v1 hB
        subst this
        subst hB
        refine ⟨fun _ _ _ h => by (cases h), fun h => by (cases h), fun _ => ?_⟩
        congr 1
        simp only [List.length_nil, List.filter_nil, Nat.cast_zero, add_zero] at hh
        rw [← ha] at hh
        exact mul_right_cancel₀ pa.ne' hh
      · obtain ⟨xb, hxb, -, -, hb⟩ := v2 hB
        subst hxb
        have pb : (0 : ℝ) < B'.length := by exact_mod_cast List.length_pos_of_ne_nil hB
        refine ⟨fun x₁ x₂ h₁ h₂ => ?_, fun h => by (cases h), fun h => by (cases h)⟩
        injection h₁ with h₁
        injection h₂ with h₂
        subst h₁
        subst h₂
        congr 1
        rw [eq_div_iff (by positivity), hh, ← ha, ← hb]
        ring
  obtain ⟨R1, R2, R3⟩ := rate (fun z => !(thr <ᶠ z.1)) (fun z => thr <ᶠ z.2) _ _ _ _ _
    f1 f2 g1 g2 k1 k2
  obtain ⟨M1, M2, M3⟩ := rate (fun z => thr <ᶠ z.1) (fun z => !(thr <ᶠ z.2)) _ _ _ _ _
    f3 f4 g3 g4 k3 k4
  refine ⟨?_, ?_, ⟨_, _, a3, b3, ?_⟩, ⟨_, _, a4, b4, ?_⟩, ⟨_, _, a5, b5, ?_⟩, ⟨_, _, a6, b6, ?_⟩,
    R1, R2, R3, M1, M2, M3⟩
  · rw [a1, b1, c1, Fl.pf_add_fin]
  · rw [a2, b2, c2, Fl.pf_add_fin]
  · rw [c3, mul_div_cancel₀ _ np₁.ne', mul_div_cancel₀ _ np₂.ne']
  · rw [c4, mul_div_cancel₀ _ np₁.ne', mul_div_cancel₀ _ np₂.ne']
  · rw [c5, mul_div_cancel₀ _ np₁.ne', mul_div_cancel₀ _ np₂.ne']
  · rw [Real.sq_sqrt, Real.sq_sqrt, mul_div_cancel₀ _ np₁.ne', mul_div_cancel₀ _ np₂.ne', c6]
    · exact div_nonneg (S_nonneg _ _ fun _ _ => mul_self_nonneg _) np₂.le
    · exact div_nonneg (S_nonneg _ _ fun _ _ => mul_self_nonneg _) np₁.le

/-- Concrete case: two records with two valid pairs each, one with a NaN pair. -/
example : ∃ e₁ e₂ e, calcRainErrorPerformanceMetrics
      [.fin 1, .nan, .fin 2] [.fin 3, .fin 1, (.fin 2 : Fl ℝ)] (.fin 0) = .ok e₁ ∧
    calcRainErrorPerformanceMetrics [.fin 0, .fin 2] [.fin 3, (.fin 2 : Fl ℝ)] (.fin 0) = .ok e₂ ∧
    calcRainErrorPerformanceMetrics ([.fin 1, .nan, .fin 2] ++ [.fin 0, .fin 2])
      ([.fin 3, .fin 1, (.fin 2 : Fl ℝ)] ++ [.fin 3, .fin 2]) (.fin 0) = .ok e ∧
    FiniteOrNaN [.fin 1, .nan, .fin 2] ∧ FiniteOrNaN [.fin 3, .fin 1, .fin 2] ∧
    FiniteOrNaN [.fin 0, .fin 2] ∧ FiniteOrNaN [.fin 3, .fin 2] ∧
    validPairs [.fin 1, .nan, .fin 2] [.fin 3, .fin 1, .fin 2] ≠ [] ∧
    validPairs [.fin 0, .fin 2] [.fin 3, .fin 2] ≠ [] := by
  refine ⟨_, _, _, rfl, rfl, rfl, ?_, ?_, ?_, ?_, ?_, ?_⟩
  · intro x hx; simp at hx; rcases hx with rfl | rfl | rfl <;> simp
  · intro x hx; simp at hx; rcases hx with rfl | rfl | rfl <;> simp
  · intro x hx; simp at hx; rcases hx with rfl | rfl <;> simp
  · intro x hx; simp at hx; rcases hx with rfl | rfl <;> simp
  · simp [validPairs, okPair]
  · simp [validPairs, okPair]

/-- C131: a correlation of a combined data set does not follow from those of the parts: both parts can
be perfectly correlated and the whole negatively. -/
theorem C131_pearson_not_pooled :
    ∃ (r₁ p₁ r₂ p₂ : List (Fl ℝ)) (e₁ e₂ e : RainError (Fl ℝ)),
      calcRainErrorPerformanceMetrics r₁ p₁ (.fin 0) = .ok e₁ ∧
      calcRainErrorPerformanceMetrics r₂ p₂ (.fin 0) = .ok e₂ ∧
      calcRainErrorPerformanceMetrics (r₁ ++ r₂) (p₁ ++ p₂) (.fin 0) = .ok e ∧
      e₁.pearsonCorrelation = .fin 1 ∧ e₂.pearsonCorrelation = .fin 1 ∧
      ∃ ρ : ℝ, e.pearsonCorrelation = .fin ρ ∧ ρ < 0 := by
  refine ⟨[.fin 0, .fin 1], [.fin 5, .fin 6], [.fin 5, .fin 6], [.fin 0, .fin 1], _, _, _,
    rfl, rfl, rfl, ?_, ?_, ?_⟩
  · obtain ⟨-, h⟩ := C44_pearson _ _ _ _ (rfl : calcRainErrorPerformanceMetrics
      [.fin 0, .fin 1] [.fin 5, (.fin 6 : Fl ℝ)] (.fin 0) = .ok _) [(0, 5), (1, 6)]
      (by simp [validPairs, okPair]) (by simp)
    obtain ⟨ρ, hρ, -, -, hv⟩ := h (by simp)
    rw [hρ, hv]
    congr 1
    have : (centered [(0, 5), (1, 6)] (·.1) (·.2)) = 1 / 2 := by norm_num [centered]
    rw [this]
    have : (centered [(0, 5), (1, 6)] (·.1) (·.1)) = 1 / 2 := by norm_num [centered]
    rw [this]
    have : (centered [(0, 5), (1, 6)] (·.2) (·.2)) = 1 / 2 := by norm_num [centered]
    rw [this, Real.sqrt_mul_self (by norm_num)]
    norm_num
  · obtain ⟨-, h⟩ := C44_pearson _ _ _ _ (rfl : calcRainErrorPerformanceMetrics
      [.fin 5, .fin 6] [.fin 0, (.fin 1 : Fl ℝ)] (.fin 0) = .ok _) [(5, 0), (6, 1)]
      (by simp [validPairs, okPair]) (by simp)
    obtain ⟨ρ, hρ, -, -, hv⟩ := h (by simp)
    rw [hρ, hv]
    congr 1
    have : (centered [(5, 0), (6, 1)] (·.1) (·.2)) = 1 / 2 := by norm_num [centered]
    rw [this]
    have : (centered [(5, 0), (6, 1)] (·.1) (·.1)) = 1 / 2 := by norm_num [centered]
    rw [this]
    have : (centered [(5, 0), (6, 1)] (·.2) (·.2)) = 1 / 2 := by norm_num [centered]
    rw [this, Real.sqrt_mul_self (by norm_num)]
    norm_num
  · obtain ⟨-, h⟩ := C44_pearson _ _ _ _ (rfl : calcRainErrorPerformanceMetrics
      ([.fin 0, .fin 1] ++ [.fin 5, .fin 6]) ([.fin 5, .fin 6] ++ [.fin 0, (.fin 1 : Fl ℝ)])
      (.fin 0) = .ok _) [(0, 5), (1, 6), (5, 0), (6, 1)] (by simp [validPairs, okPair]) (by simp)
    obtain ⟨ρ, hρ, -, -, hv⟩ := h (by simp)
    refine ⟨ρ, hρ, ?_⟩
    rw [hv]
    have : (centered [(0, 5), (1, 6), (5, 0), (6, 1)] (·.1) (·.2)) = -24 := by norm_num [centered]
    rw [this]
    have : (centered [(0, 5), (1, 6), (5, 0), (6, 1)] (·.1) (·.1)) = 26 := by norm_num [centered]
    rw [this]
    have : (centered [(0, 5), (1, 6), (5, 0), (6, 1)] (·.2) (·.2)) = 26 := by norm_num [centered]
    rw [this, Real.sqrt_mul_self (by norm_num)]
    norm_num

theorem validPairs_swap (r p : List (Fl ℝ)) :
    validPairs p r = (validPairs r p).map Prod.swap := by
  unfold validPairs
  rw [← List.zip_swap, List.filter_map]
  refine congrArg (List.map _) (List.filter_congr fun z _ => ?_)
  simp [okPair, Bool.and_comm]

/-- C131: exchanging reference and prediction exchanges sums, means and NaN counts, and leaves RMSE, mean absolute
error and correlation as they are. -/
theorem C131_rain_exchange (r p : List (Fl ℝ)) (thr : Fl ℝ) (e e' : RainError (Fl ℝ))
    (he : calcRainErrorPerformanceMetrics r p thr = .ok e)
    (he' : calcRainErrorPerformanceMetrics p r thr = .ok e')
    (hr : FiniteOrNaN r) (hp : FiniteOrNaN p) (hne : validPairs r p ≠ []) :
    e'.rSumReference = e.rSumPredicted ∧ e'.rSumPredicted = e.rSumReference ∧
    e'.rMeanReference = e.rMeanPredicted ∧ e'.rMeanPredicted = e.rMeanReference ∧
    e'.meanAbsoluteError = e.meanAbsoluteError ∧
    e'.rootMeanSquareError = e.rootMeanSquareError ∧
    e'.pearsonCorrelation = e.pearsonCorrelation ∧
    e'.nNanReferenceOnly = e.nNanPredictedOnly ∧ e'.nNanPredictedOnly = e.nNanReferenceOnly ∧ e'.nNanPairs = e.nNanPairs := by
  have hlen : r.length = p.length := by
    by_contra h
    rw [(C44_counts r p thr).1 h] at he
    cases he
  have hcnt : e'.nNanReferenceOnly = e.nNanPredictedOnly ∧ e'.nNanPredictedOnly = e.nNanReferenceOnly ∧
      e'.nNanPairs = e.nNanPairs := by
    obtain ⟨f, hf, -, c1, c2, c3, -⟩ := (C44_counts r p thr).2 hlen
    obtain ⟨f', hf', -, d1, d2, d3, -⟩ := (C44_counts p r thr).2 hlen.symm
    rw [he] at hf
    rw [he'] at hf'
    cases hf
    cases hf'
    refine ⟨d2.trans c3.symm, d3.trans c2.symm, ?_⟩
    rw [d1, c1, ← List.zip_swap, List.countP_map]
    refine List.countP_congr fun z _ => ?_
    simp [or_comm]
  obtain ⟨ps, hps⟩ := exists_real_pairs r p hr hp
  have hn : ps ≠ [] := by rintro rfl; exact hne hps
  have hps' : validPairs p r =
      (ps.map Prod.swap).map fun q => ((Fl.fin q.1 : Fl ℝ), (Fl.fin q.2 : Fl ℝ)) := by
    rw [validPairs_swap, hps, List.map_map, List.map_map]
    rfl
  obtain ⟨a1, a2, a3, a4, a5, a6, -⟩ := C44_values r p thr e he ps hps hn
  obtain ⟨b1, b2, b3, b4, b5, b6, -⟩ := C44_values p r thr e' he' _ hps' (by simpa using hn)
  obtain ⟨p1, p2⟩ := C44_pearson r p thr e he ps hps hn
  obtain ⟨q1, q2⟩ := C44_pearson p r thr e' he' _ hps' (by simpa using hn)
  have cen : ∀ f g : ℝ × ℝ → ℝ, centered (ps.map Prod.swap) f g =
      centered ps (fun q => f q.swap) (fun q => g q.swap) := by
    intro f g
    simp [centered, List.map_map, Function.comp_def]
  simp only [List.map_map, Function.comp_def, Prod.fst_swap, Prod.snd_swap, List.length_map] at b1 b2 b3 b4 b5 b6
  refine ⟨b1.trans a2.symm, b2.trans a1.symm, b3.trans a4.symm, b4.trans a3.symm, ?_, ?_, ?_, hcnt⟩
  · rw [b5, a5]
    simp only [abs_sub_comm]
  · rw [b6, a6]
    congr 4
    refine List.map_congr_left fun q _ => by ring
  · have hiff : ((∀ q ∈ ps.map Prod.swap, ∀ q' ∈ ps.map Prod.swap, q.1 = q'.1) ∨
        (∀ q ∈ ps.map Prod.swap, ∀ q' ∈ ps.map Prod.swap, q.2 = q'.2)) ↔
        ((∀ q ∈ ps, ∀ q' ∈ ps, q.1 = q'.1) ∨ (∀ q ∈ ps, ∀ q' ∈ ps, q.2 = q'.2)) := by
      simp only [List.forall_mem_map, Prod.fst_swap, Prod.snd_swap]
      exact or_comm
    by_cases hc : (∀ q ∈ ps, ∀ q' ∈ ps, q.1 = q'.1) ∨ (∀ q ∈ ps, ∀ q' ∈ ps, q.2 = q'.2)
    · rw [p1 hc, q1 (hiff.mpr hc)]
    · obtain ⟨ρ, h1, -, -, h2⟩ := p2 hc
      obtain ⟨ρ', h1', -, -, h2'⟩ := q2 (fun h => hc (hiff.mp h))
      rw [h1, h1', h2, h2', cen, cen, cen]
      congr 1
      rw [mul_comm (centered ps (fun q => q.swap.1) fun q => q.swap.1)]
      simp only [Prod.fst_swap, Prod.snd_swap]
      congr 1
      unfold centered
      refine congrArg List.sum (List.map_congr_left fun q _ => mul_comm _ _)

/-- `s * x + c` in the arithmetic of the arrays -/
noncomputable def affineF (s c : ℝ) (x : Fl ℝ) : Fl ℝ := (Fl.fin s *ᶠ x) +ᶠ Fl.fin c

theorem affineF_fin (s c x : ℝ) : affineF s c (.fin x) = .fin (s * x + c) := by
  simp [affineF, Fl.pf_mul_fin, Fl.pf_add_fin]

theorem affineF_nan (s c : ℝ) : affineF s c .nan = .nan := rfl

theorem validPairs_affine (s c : ℝ) (r p : List (Fl ℝ)) (hr : FiniteOrNaN r) (hp : FiniteOrNaN p) :
    validPairs (r.map (affineF s c)) (p.map (affineF s c)) =
      (validPairs r p).map fun z => (affineF s c z.1, affineF s c z.2) := by
  unfold validPairs
  rw [List.zip_map, List.filter_map]
  refine congrArg (List.map _) (List.filter_congr fun z hz => ?_)
  have hz1 := hr z.1 (List.of_mem_zip (a := z.1) (b := z.2) hz).1
  have hz2 := hp z.2 (List.of_mem_zip (a := z.1) (b := z.2) hz).2
  have key : ∀ x : Fl ℝ, (x = .nan ∨ ∃ v : ℝ, x = .fin v) → isNaN (affineF s c x) = isNaN x := by
    rintro x (rfl | ⟨v, rfl⟩)
    · rfl
    · rw [affineF_fin]; simp
  simp only [Function.comp_apply, Prod.map_fst, Prod.map_snd, okPair, key _ hz1, key _ hz2]

/-- C131: measuring rain in other units (and from another zero): replacing every value and the threshold `x` by
`s x + c` with `s > 0` multiplies RMSE and mean absolute error by `s`, changes the means and the
precipitation rates like the values, and leaves correlation, false wet and missed wet rate as they are; without
offset the coefficient of variation does not change either. -/
theorem C131_rain_units (s c : ℝ) (hs : 0 < s) (r p : List (Fl ℝ)) (t : ℝ) (e e' : RainError (Fl ℝ))
    (he : calcRainErrorPerformanceMetrics r p (.fin t) = .ok e)
    (he' : calcRainErrorPerformanceMetrics (r.map (affineF s c)) (p.map (affineF s c))
      (.fin (s * t + c)) = .ok e')
    (hr : FiniteOrNaN r) (hp : FiniteOrNaN p) (hne : validPairs r p ≠ []) :
    (∃ x, e.rootMeanSquareError = .fin x ∧ e'.rootMeanSquareError = .fin (s * x)) ∧
    (∃ x, e.meanAbsoluteError = .fin x ∧ e'.meanAbsoluteError = .fin (s * x)) ∧
    (∃ x, e.rMeanReference = .fin x ∧ e'.rMeanReference = .fin (s * x + c)) ∧
    (∃ x, e.rMeanPredicted = .fin x ∧ e'.rMeanPredicted = .fin (s * x + c)) ∧
    (∃ x, e.rSumReference = .fin x ∧
      e'.rSumReference = .fin (s * x + (validPairs r p).length * c)) ∧
    (∃ x, e.rSumPredicted = .fin x ∧
      e'.rSumPredicted = .fin (s * x + (validPairs r p).length * c)) ∧
    e'.pearsonCorrelation = e.pearsonCorrelation ∧
    e'.falseWetRate = e.falseWetRate ∧ e'.missedWetRate = e.missedWetRate ∧
    e'.falseWetPrecipitationRate = affineF s c e.falseWetPrecipitationRate ∧
    e'.missedWetPrecipitationRate = affineF s c e.missedWetPrecipitationRate ∧
    (c = 0 → e'.coefficientOfVariation = e.coefficientOfVariation) := by
  obtain ⟨ps, hps⟩ := exists_real_pairs r p hr hp
  have hn : ps ≠ [] := by rintro rfl; exact hne hps
  set σ : ℝ × ℝ → ℝ × ℝ := fun q => (s * q.1 + c, s * q.2 + c) with hσ
  have hps' : validPairs (r.map (affineF s c)) (p.map (affineF s c)) =
      (ps.map σ).map fun q => ((Fl.fin q.1 : Fl ℝ), (Fl.fin q.2 : Fl ℝ)) := by
    rw [validPairs_affine s c r p hr hp, hps, List.map_map, List.map_map]
    refine List.map_congr_left fun q _ => ?_
    simp only [Function.comp_apply, affineF_fin, hσ]
  have hn' : ps.map σ ≠ [] := by simpa using hn
  have hlen : (validPairs r p).length = ps.length := by rw [hps, List.length_map]
  have npos : (0 : ℝ) < ps.length := by exact_mod_cast List.length_pos_of_ne_nil hn
  obtain ⟨a1, a2, a3, a4, a5, a6, a7⟩ := C44_values r p _ e he ps hps hn
  obtain ⟨b1, b2, b3, b4, b5, b6, b7⟩ := C44_values _ _ _ e' he' _ hps' hn'
  obtain ⟨p1, p2⟩ := C44_pearson r p _ e he ps hps hn
  obtain ⟨q1, q2⟩ := C44_pearson _ _ _ e' he' _ hps' hn'
  have saff : ∀ (l : List (ℝ × ℝ)) (f : ℝ × ℝ → ℝ),
      (l.map fun q => s * f q + c).sum = s * (l.map f).sum + l.length * c := by
    intro l f
    show S l _ = s * S l f + _
    rw [S_add, S_mul, S_const]
  have smul : ∀ (l : List (ℝ × ℝ)) (k : ℝ) (f : ℝ × ℝ → ℝ),
      (l.map fun q => k * f q).sum = k * (l.map f).sum := fun l k f => S_mul l k f
  have cen : ∀ f g f' g' : ℝ × ℝ → ℝ, (∀ q, f' (σ q) = s * f q + c) →
      (∀ q, g' (σ q) = s * g q + c) → centered (ps.map σ) f' g' = s ^ 2 * centered ps f g := by
    intro f g f' g' hf hg
    unfold centered
    simp only [List.map_map, Function.comp_def, hf, hg, List.length_map, saff]
    rw [← smul ps (s ^ 2)]
    refine congrArg (List.sum (α := ℝ)) (List.map_congr_left fun q _ => ?_)
    field_simp
    ring
  simp only [List.map_map, Function.comp_def, List.length_map, hσ, saff] at b1 b2 b3 b4
  simp only [List.map_map, Function.comp_def, List.length_map] at b5 b6 b7
  have hd : ∀ q, (σ q).2 - (σ q).1 = s * (q.2 - q.1) := fun q => by simp only [hσ]; ring
  have hc1 : ∀ q, (σ q).1 = s * q.1 + c := fun q => rfl
  simp only [hd, abs_mul, abs_of_pos hs, smul] at b5
  simp only [hd] at b6 b7
  have e1 : ∀ q : ℝ × ℝ, s * (q.2 - q.1) * (s * (q.2 - q.1)) = s ^ 2 * ((q.2 - q.1) * (q.2 - q.1)) :=
    fun q => by ring
  simp only [e1, smul] at b6
  rw [smul] at b7
  have lt1 : ∀ q : ℝ × ℝ, ((Fl.fin (s * t + c) : Fl ℝ) <ᶠ .fin (σ q).1) =
      ((Fl.fin t : Fl ℝ) <ᶠ .fin q.1) := by
    intro q
    simp only [Fl.pf_lt_fin, hσ]
    rw [decide_eq_decide, add_lt_add_iff_right, mul_lt_mul_iff_right₀ hs]
  have lt2 : ∀ q : ℝ × ℝ, ((Fl.fin (s * t + c) : Fl ℝ) <ᶠ .fin (σ q).2) =
      ((Fl.fin t : Fl ℝ) <ᶠ .fin q.2) := by
    intro q
    simp only [Fl.pf_lt_fin, hσ]
    rw [decide_eq_decide, add_lt_add_iff_right, mul_lt_mul_iff_right₀ hs]
  obtain ⟨f1, f2, f3, f4, f5, -, f7, -⟩ := C45_rates r p _ e he
  obtain ⟨g1, g2, g3, g4, g5, -, g7, -⟩ := C45_rates _ _ _ e' he'
  obtain ⟨u1, u2⟩ := C45_precipitation_rates r p t e he ps hps
  obtain ⟨v1, v2⟩ := C45_precipitation_rates _ _ _ e' he' _ hps'
  simp only [List.filter_map, Function.comp_def, hσ, add_le_add_iff_right, add_lt_add_iff_right,
    mul_le_mul_iff_right₀ hs, mul_lt_mul_iff_right₀ hs, List.map_map, List.length_map,
    List.map_eq_nil_iff, ne_eq, saff] at v1 v2
  rw [hps] at f1 f2 f3 f4 f5 f7
  rw [hps'] at g1 g2 g3 g4 g5 g7
  simp only [List.filter_map, Function.comp_def, lt1, lt2, List.length_map, List.map_eq_nil_iff,
    ne_eq] at f1 f2 f3 f4 f5 f7 g1 g2 g3 g4 g5 g7
  have rate : ∀ (y y' : Fl ℝ) (A B : List (ℝ × ℝ)), (A = [] → y = .nan) →
      (¬ A = [] → ∃ x : ℝ, y = .fin x ∧ 0 ≤ x ∧ x ≤ 1 ∧ x * A.length = B.length) →
      (A = [] → y' = .nan) →
      (¬ A = [] → ∃ x : ℝ, y' = .fin x ∧ 0 ≤ x ∧ x ≤ 1 ∧ x * A.length = B.length) → y' = y := by
    intro y y' A B h1 h2 h3 h4
    by_cases hA : A = []
    · rw [h1 hA, h3 hA]
    · obtain ⟨x, hx, -, -, k1⟩ := h2 hA
      obtain ⟨x', hx', -, -, k2⟩ := h4 hA
      have pa : (0 : ℝ) < A.length := by exact_mod_cast List.length_pos_of_ne_nil hA
      rw [hx, hx', mul_right_cancel₀ pa.ne' (k2.trans k1.symm)]
  refine ⟨⟨_, a6, ?_⟩, ⟨_, a5, ?_⟩, ⟨_, a3, ?_⟩, ⟨_, a4, ?_⟩, ⟨_, a1, ?_⟩, ⟨_, a2, ?_⟩, ?_, ?_, ?_,
    ?_, ?_, ?_⟩
  · rw [b6, mul_div_assoc, Real.sqrt_mul (sq_nonneg s), Real.sqrt_sq hs.le]
  · rw [b5, mul_div_assoc]
  · rw [b3]; congr 1; field_simp
  · rw [b4]; congr 1; field_simp
  · rw [b1, hlen]
  · rw [b2, hlen]
  · have hiff : ((∀ q ∈ ps.map σ, ∀ q' ∈ ps.map σ, q.1 = q'.1) ∨
        (∀ q ∈ ps.map σ, ∀ q' ∈ ps.map σ, q.2 = q'.2)) ↔
        ((∀ q ∈ ps, ∀ q' ∈ ps, q.1 = q'.1) ∨ (∀ q ∈ ps, ∀ q' ∈ ps, q.2 = q'.2)) := by
      simp only [List.forall_mem_map, hσ, add_left_inj, mul_right_inj' hs.ne']
    by_cases hc : (∀ q ∈ ps, ∀ q' ∈ ps, q.1 = q'.1) ∨ (∀ q ∈ ps, ∀ q' ∈ ps, q.2 = q'.2)
    · rw [p1 hc, q1 (hiff.mpr hc)]
    · obtain ⟨ρ, h1, -, -, h2⟩ := p2 hc
      obtain ⟨ρ', h1', -, -, h2'⟩ := q2 (fun h => hc (hiff.mp h))
      rw [h1, h1', h2, h2', cen (·.1) (·.2) _ _ (fun _ => rfl) (fun _ => rfl),
        cen (·.1) (·.1) _ _ (fun _ => rfl) (fun _ => rfl),
        cen (·.2) (·.2) _ _ (fun _ => rfl) (fun _ => rfl)]
      congr 1
      have : s ^ 2 * centered ps (·.1) (·.1) * (s ^ 2 * centered ps (·.2) (·.2)) =
          (s ^ 2) ^ 2 * (centered ps (·.1) (·.1) * centered ps (·.2) (·.2)) := by ring
      rw [this, Real.sqrt_mul (sq_nonneg _), Real.sqrt_sq (sq_nonneg _),
        mul_div_mul_left _ _ (pow_ne_zero 2 hs.ne')]
  · exact rate _ _ _ _ f1 f2 g1 g2
  · exact rate _ _ _ _ f3 f4 g3 g4
  · have hl : (((ps.filter fun q => !((Fl.fin t : Fl ℝ) <ᶠ .fin q.1)).filter
        fun q => (Fl.fin t : Fl ℝ) <ᶠ .fin q.2)) =
        ps.filter fun q => decide (q.1 ≤ t ∧ t < q.2) := by
      rw [List.filter_filter]
      refine List.filter_congr fun q _ => ?_
      simp only [Fl.pf_lt_fin, ← decide_not, not_lt, ← Bool.decide_and, and_comm]
    rw [hl] at f5 g5
    by_cases hA : (ps.filter fun q => decide (q.1 ≤ t ∧ t < q.2)) = []
    · rw [f5 hA, g5 hA]; rfl
    · rw [u1 hA, v1 hA, affineF_fin]
      have pa : (0 : ℝ) < (ps.filter fun q => decide (q.1 ≤ t ∧ t < q.2)).length := by
        exact_mod_cast List.length_pos_of_ne_nil hA
      congr 1
      field_simp
  · have hl : (((ps.filter fun q => ((Fl.fin t : Fl ℝ) <ᶠ .fin q.1)).filter
        fun q => !((Fl.fin t : Fl ℝ) <ᶠ .fin q.2))) =
        ps.filter fun q => decide (t < q.1 ∧ q.2 ≤ t) := by
      rw [List.filter_filter]
      refine List.filter_congr fun q _ => ?_
      simp only [Fl.pf_lt_fin, ← decide_not, not_lt, ← Bool.decide_and, and_comm]
    rw [hl] at f7 g7
    by_cases hA : (ps.filter fun q => decide (t < q.1 ∧ q.2 ≤ t)) = []
    · rw [f7 hA, g7 hA]; rfl
    · rw [u2 hA, v2 hA, affineF_fin]
      have pa : (0 : ℝ) < (ps.filter fun q => decide (t < q.1 ∧ q.2 ≤ t)).length := by
        exact_mod_cast List.length_pos_of_ne_nil hA
      congr 1
      field_simp
  · intro hc0
    subst hc0
    rw [a7, b7]
    simp only [hc1, add_zero]
    rw [smul ps s (·.1)]
    have e2 : ∀ q : ℝ × ℝ, (s * (q.2 - q.1) - s * (ps.map fun q => q.2 - q.1).sum / ps.length) *
        (s * (q.2 - q.1) - s * (ps.map fun q => q.2 - q.1).sum / ps.length) =
        s ^ 2 * ((q.2 - q.1 - (ps.map fun q => q.2 - q.1).sum / ps.length) *
          (q.2 - q.1 - (ps.map fun q => q.2 - q.1).sum / ps.length)) := fun q => by ring
    simp only [e2]
    rw [smul ps (s ^ 2), mul_div_assoc, mul_div_assoc, Real.sqrt_mul (sq_nonneg s), Real.sqrt_sq hs.le]
    generalize Real.sqrt _ = x
    generalize (ps.map (·.1)).sum / (ps.length : ℝ) = y
    rw [Fl.pf_div_fin, Fl.pf_div_fin]
    by_cases hy : y = 0
    · rw [if_pos hy, if_pos (by rw [hy, mul_zero])]
      unfold Fl.infSign
      have h2 : s * x < 0 ↔ x < 0 := by
        rw [← not_le, ← not_le, mul_nonneg_iff_of_pos_left hs]
      simp only [mul_pos_iff_of_pos_left hs, h2]
    · rw [if_neg hy, if_neg (mul_ne_zero hs.ne' hy), mul_div_mul_left _ _ hs.ne']

/-- Concrete case for exchange and units: millimetres to tenths of millimetres with an offset. -/
example : ∃ e e' e'', calcRainErrorPerformanceMetrics
      [.fin 1, .nan, .fin 2] [.fin 3, .fin 1, (.fin 2 : Fl ℝ)] (.fin 0) = .ok e ∧
    calcRainErrorPerformanceMetrics
      [.fin 3, .fin 1, (.fin 2 : Fl ℝ)] [.fin 1, .nan, .fin 2] (.fin 0) = .ok e' ∧
    calcRainErrorPerformanceMetrics ([.fin 1, .nan, .fin 2].map (affineF 10 3))
      ([.fin 3, .fin 1, (.fin 2 : Fl ℝ)].map (affineF 10 3)) (.fin (10 * 0 + 3)) = .ok e'' ∧
    FiniteOrNaN [.fin 1, .nan, .fin 2] ∧ FiniteOrNaN [.fin 3, .fin 1, .fin 2] ∧
    validPairs [.fin 1, .nan, .fin 2] [.fin 3, .fin 1, .fin 2] ≠ [] := by
  refine ⟨_, _, _, rfl, rfl, rfl, ?_, ?_, ?_⟩
  · intro x hx; simp at hx; rcases hx with rfl | rfl | rfl <;> simp
  · intro x hx; simp at hx; rcases hx with rfl | rfl | rfl <;> simp
  · simp [validPairs, okPair]

end Verif.Props
