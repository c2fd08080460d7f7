import Verif.Lemmas.StatsRain
import Verif.Props.StatsWetDry

/-!
# C43 (rain part), C44, C45: `calc_rain_error_performance_metrics`
-/

namespace Verif.Props

open Verif.Stats

/-- the arrays are finite except for NaN -/
def FiniteOrNaN (l : List (Fl ℝ)) : Prop := ∀ x ∈ l, x = .nan ∨ ∃ v : ℝ, x = .fin v

theorem rain_lengths {r p : List (Fl ℝ)} {thr : Fl ℝ} {e : RainError (Fl ℝ)}
    (he : calcRainErrorPerformanceMetrics r p thr = .ok e) : r.length = p.length := by
  by_contra hc
  unfold calcRainErrorPerformanceMetrics rainErrorArr at he
  rw [if_pos (by simpa [Arr.of] using hc)] at he
  cases he

theorem validPair_eq : (fun z : Fl ℝ × Fl ℝ => okPair z.1 z.2) = validPair := by
  funext z
  simp only [okPair, validPair]
  cases isNaN z.1 <;> cases isNaN z.2 <;> rfl

/-- finite valid pairs as pairs of reals -/
theorem exists_real_pairs (r p : List (Fl ℝ)) (hr : FiniteOrNaN r) (hp : FiniteOrNaN p) :
    ∃ ps : List (ℝ × ℝ), validPairs r p = ps.map fun q => (Fl.fin q.1, Fl.fin q.2) := by
  have h : ∀ z ∈ validPairs r p, ∃ q : ℝ × ℝ, z = (Fl.fin q.1, Fl.fin q.2) := by
    rintro ⟨x, y⟩ hz
    unfold validPairs at hz
    rw [List.mem_filter] at hz
    obtain ⟨hz, hv⟩ := hz
    have hx := hr x (List.of_mem_zip hz).1
    have hy := hp y (List.of_mem_zip hz).2
    rcases hx with rfl | ⟨v, rfl⟩
    · simp [okPair] at hv
    · rcases hy with rfl | ⟨w, rfl⟩
      · simp [okPair] at hv
      · exact ⟨(v, w), rfl⟩
  generalize validPairs r p = l at h
  induction l with
  | nil => exact ⟨[], rfl⟩
  | cons z l ih =>
    obtain ⟨ps, rfl⟩ := ih fun z hz => h z (by simp [hz])
    obtain ⟨q, rfl⟩ := h z (by simp)
    exact ⟨q :: ps, rfl⟩

theorem fabs_fin (x : ℝ) : fabs (Fl.fin x) = .fin |x| := by
  unfold fabs
  simp only [Fl.pf_ofInt, Fl.pf_lt_fin, decide_eq_true_eq, Fl.pf_sub_fin]
  push_cast
  split_ifs with h
  · rw [abs_of_neg h, zero_sub]
  · rw [abs_of_nonneg (not_lt.mp h)]

/-- C44: the textbook formulas, for valid pairs `(x, y)` = (reference, predicted). -/
theorem C44_values (r p : List (Fl ℝ)) (thr : Fl ℝ) (e : RainError (Fl ℝ))
    (he : calcRainErrorPerformanceMetrics r p thr = .ok e) (ps : List (ℝ × ℝ))
    (hps : validPairs r p = ps.map fun q => (Fl.fin q.1, Fl.fin q.2)) (hne : ps ≠ []) :
    let n : ℝ := ps.length
    let d : ℝ × ℝ → ℝ := fun q => q.2 - q.1
    e.rSumReference = .fin (ps.map (·.1)).sum ∧
    e.rSumPredicted = .fin (ps.map (·.2)).sum ∧
    e.rMeanReference = .fin ((ps.map (·.1)).sum / n) ∧
    e.rMeanPredicted = .fin ((ps.map (·.2)).sum / n) ∧
    e.meanAbsoluteError = .fin ((ps.map fun q => |d q|).sum / n) ∧
    e.rootMeanSquareError = .fin (Real.sqrt ((ps.map fun q => d q * d q).sum / n)) ∧
    e.coefficientOfVariation =
      Fl.fin (Real.sqrt ((ps.map fun q =>
        (d q - (ps.map d).sum / n) * (d q - (ps.map d).sum / n)).sum / n)) /ᶠ
      Fl.fin ((ps.map (·.1)).sum / n) := by
  obtain ⟨hr, hp⟩ := exists_pairs (rain_lengths he)
  unfold validPairs at hps
  rw [validPair_eq] at hps
  generalize r.zip p = zs at hr hp hps
  rw [hr, hp, rain_pairs] at he
  injection he with he
  subst he
  dsimp only
  rw [hps]
  simp only [List.map_map, Function.comp_def, Fl.pf_sub_fin, Fl.pf_mul_fin, fabs_fin]
  have n0 : (0 : ℝ) ≤ ps.length := Nat.cast_nonneg _
  refine ⟨fsum_fin ps _, fsum_fin ps _, npMean_fin ps hne _, npMean_fin ps hne _,
    npMean_fin ps hne _, ?_, ?_⟩
  · rw [npMean_fin ps hne (fun q => (q.2 - q.1) * (q.2 - q.1)), Fl.sqrt_fin]
    · rfl
    · exact div_nonneg (S_nonneg _ _ fun _ _ => mul_self_nonneg _) n0
  · rw [npMean_fin ps hne (fun q => q.1)]
    congr 1
    unfold npStd npStdBy
    simp only [meanBy_fsum]
    rw [npMean_fin ps hne (fun q => q.2 - q.1), List.map_map]
    simp only [Function.comp_def, Fl.pf_sub_fin, Fl.pf_mul_fin]
    rw [npMean_fin ps hne (fun q => (q.2 - q.1 - S ps (fun q => q.2 - q.1) / ps.length) *
        (q.2 - q.1 - S ps (fun q => q.2 - q.1) / ps.length)), Fl.sqrt_fin]
    · rfl
    · exact div_nonneg (S_nonneg _ _ fun _ _ => mul_self_nonneg _) n0

/-- C44: inequalities between the error measures. -/
theorem C44_inequalities (r p : List (Fl ℝ)) (thr : Fl ℝ) (e : RainError (Fl ℝ))
    (he : calcRainErrorPerformanceMetrics r p thr = .ok e)
    (hr : FiniteOrNaN r) (hp : FiniteOrNaN p) (hne : validPairs r p ≠ []) :
    ∃ rmse mae mr mp : ℝ,
      e.rootMeanSquareError = .fin rmse ∧ e.meanAbsoluteError = .fin mae ∧
      e.rMeanReference = .fin mr ∧ e.rMeanPredicted = .fin mp ∧
      |mp - mr| ≤ mae ∧ mae ≤ rmse ∧
      (rmse = 0 ↔ ∀ z ∈ validPairs r p, z.1 = z.2) ∧
      (mr ≠ 0 → ∃ cv : ℝ, e.coefficientOfVariation = .fin cv ∧
        rmse ^ 2 = (mp - mr) ^ 2 + (cv * mr) ^ 2) ∧
      e.rSumReference = .fin ((validPairs r p).length * mr) ∧
      e.rSumPredicted = .fin ((validPairs r p).length * mp) := by
  obtain ⟨ps, hps⟩ := exists_real_pairs r p hr hp
  have hne' : ps ≠ [] := by rintro rfl; exact hne hps
  obtain ⟨v1, v2, v3, v4, v5, v6, v7⟩ := C44_values r p thr e he ps hps hne'
  change e.rSumReference = .fin (S ps (·.1)) at v1
  change e.rSumPredicted = .fin (S ps (·.2)) at v2
  change e.rMeanReference = .fin (S ps (·.1) / ps.length) at v3
  change e.rMeanPredicted = .fin (S ps (·.2) / ps.length) at v4
  change e.meanAbsoluteError = .fin (S ps (fun q => |q.2 - q.1|) / ps.length) at v5
  change e.rootMeanSquareError =
    .fin (Real.sqrt (S ps (fun q => (q.2 - q.1) * (q.2 - q.1)) / ps.length)) at v6
  change e.coefficientOfVariation =
    Fl.fin (Real.sqrt (S ps (fun q => (q.2 - q.1 - S ps (fun q => q.2 - q.1) / ps.length) *
      (q.2 - q.1 - S ps (fun q => q.2 - q.1) / ps.length)) / ps.length)) /ᶠ
    Fl.fin (S ps (·.1) / ps.length) at v7
  have npos : (0 : ℝ) < ps.length := by
    exact_mod_cast List.length_pos_of_ne_nil hne'
  have hlen : (validPairs r p).length = ps.length := by rw [hps, List.length_map]
  have hd : S ps (fun q => q.2 - q.1) = S ps (·.2) - S ps (·.1) := S_sub _ _ _
  have hsq0 : 0 ≤ S ps (fun q => (q.2 - q.1) * (q.2 - q.1)) :=
    S_nonneg _ _ fun _ _ => mul_self_nonneg _
  refine ⟨_, _, _, _, v6, v5, v3, v4, ?_, ?_, ?_, ?_, ?_, ?_⟩
  · rw [← sub_div, ← hd, abs_div, abs_of_pos npos]
    exact div_le_div_of_nonneg_right (S_abs_le _ _) npos.le
  · apply Real.le_sqrt_of_sq_le
    have := S_sq_le ps hne' (fun q => |q.2 - q.1|)
    simp only [abs_mul_abs_self] at this
    exact this
  · rw [Real.sqrt_eq_zero (div_nonneg hsq0 npos.le), div_eq_zero_iff, or_iff_left npos.ne',
      S_eq_zero _ _ fun _ _ => mul_self_nonneg _, hps]
    constructor
    · intro h z hz
      obtain ⟨q, hq, rfl⟩ := List.mem_map.mp hz
      have := mul_self_eq_zero.mp (h q hq)
      show Fl.fin q.1 = Fl.fin q.2
      rw [sub_eq_zero.mp this]
    · intro h q hq
      have := h _ (List.mem_map_of_mem hq)
      injection this with this
      rw [this, sub_self, zero_mul]
  · intro hm
    rw [Fl.pf_div_fin_ne _ _ hm] at v7
    refine ⟨_, v7, ?_⟩
    rw [div_mul_cancel₀ _ hm, Real.sq_sqrt (div_nonneg hsq0 npos.le), Real.sq_sqrt]
    · rw [S_var ps hne' (fun q => q.2 - q.1), ← sub_div]
      rw [← hd]
      field_simp
      ring
    · exact div_nonneg (S_nonneg ps _ fun _ _ => mul_self_nonneg _) npos.le
  · rw [v1, hlen]
    congr 1
    field_simp
  · rw [v2, hlen]
    congr 1
    field_simp

/-- centered sum of products -/
noncomputable def centered (ps : List (ℝ × ℝ)) (f g : ℝ × ℝ → ℝ) : ℝ :=
  (ps.map fun q => (f q - (ps.map f).sum / ps.length) * (g q - (ps.map g).sum / ps.length)).sum

theorem npCov_fin (ps : List (ℝ × ℝ)) (hne : ps ≠ []) (f g : ℝ × ℝ → ℝ) :
    npCov (ps.map fun q => (Fl.fin (f q) : Fl ℝ)) (ps.map fun q => (Fl.fin (g q) : Fl ℝ)) =
      Fl.fin (centered ps f g) *ᶠ (Fl.fin 1 /ᶠ Fl.fin ((ps.length - 1 : Nat) : ℝ)) := by
  unfold npCov npCovBy vmul
  simp only [meanBy_fsum]
  rw [npMean_fin ps hne, npMean_fin ps hne]
  simp only [List.map_map, Function.comp_def, Fl.pf_sub_fin, List.zipWith_map, List.zipWith_self,
    Fl.pf_mul_fin, List.length_map, Fl.pf_ofInt]
  rw [fsum_fin]
  congr 2
  simp

theorem centered_self_nonneg (ps : List (ℝ × ℝ)) (f : ℝ × ℝ → ℝ) : 0 ≤ centered ps f f :=
  S_nonneg ps _ fun _ _ => mul_self_nonneg _

theorem centered_self_zero (ps : List (ℝ × ℝ)) (hne : ps ≠ []) (f : ℝ × ℝ → ℝ) :
    centered ps f f = 0 ↔ ∀ q ∈ ps, ∀ q' ∈ ps, f q = f q' := by
  have npos : (0 : ℝ) < ps.length := by
    exact_mod_cast List.length_pos_of_ne_nil hne
  unfold centered
  show S ps _ = 0 ↔ _
  rw [S_eq_zero ps _ fun _ _ => mul_self_nonneg _]
  constructor
  · intro h q hq q' hq'
    have a := mul_self_eq_zero.mp (h q hq)
    have b := mul_self_eq_zero.mp (h q' hq')
    linarith
  · intro h q hq
    have : (ps.map f).sum = ps.length * f q := by
      rw [← S_const ps (f q)]
      show _ = (ps.map fun _ => f q).sum
      rw [List.map_congr_left fun q' hq' => h q' hq' q hq]
    rw [this, mul_div_cancel_left₀ _ npos.ne', sub_self, zero_mul]

/-- C44: Pearson correlation. It is NaN exactly if the valid reference values or the valid
predicted values are all equal; otherwise it is the textbook coefficient, in [-1, 1]. -/
theorem C44_pearson (r p : List (Fl ℝ)) (thr : Fl ℝ) (e : RainError (Fl ℝ))
    (he : calcRainErrorPerformanceMetrics r p thr = .ok e) (ps : List (ℝ × ℝ))
    (hps : validPairs r p = ps.map fun q => (Fl.fin q.1, Fl.fin q.2)) (hne : ps ≠ []) :
    ((∀ q ∈ ps, ∀ q' ∈ ps, q.1 = q'.1) ∨ (∀ q ∈ ps, ∀ q' ∈ ps, q.2 = q'.2) →
      e.pearsonCorrelation = .nan) ∧
    (¬ ((∀ q ∈ ps, ∀ q' ∈ ps, q.1 = q'.1) ∨ (∀ q ∈ ps, ∀ q' ∈ ps, q.2 = q'.2)) →
      ∃ ρ : ℝ, e.pearsonCorrelation = .fin ρ ∧ -1 ≤ ρ ∧ ρ ≤ 1 ∧
        ρ = centered ps (·.1) (·.2) /
          Real.sqrt (centered ps (·.1) (·.1) * centered ps (·.2) (·.2))) := by
  have hval : e.pearsonCorrelation = npCorrcoef (ps.map fun q => (Fl.fin q.1 : Fl ℝ))
      (ps.map fun q => (Fl.fin q.2 : Fl ℝ)) := by
    obtain ⟨hr, hp⟩ := exists_pairs (rain_lengths he)
    unfold validPairs at hps
    rw [validPair_eq] at hps
    generalize r.zip p = zs at hr hp hps
    rw [hr, hp, rain_pairs] at he
    injection he with he
    subst he
    dsimp only
    rw [hps]
    simp only [List.map_map, Function.comp_def]
  rw [hval]
  unfold npCorrcoef npCorrcoefBy
  simp only [npCov_def]
  rw [npCov_fin ps hne, npCov_fin ps hne, npCov_fin ps hne]
  have x0 := centered_self_zero ps hne (·.1)
  have y0 := centered_self_zero ps hne (·.2)
  have xn := centered_self_nonneg ps (·.1)
  have yn := centered_self_nonneg ps (·.2)
  have cs : centered ps (·.1) (·.2) ^ 2 ≤ centered ps (·.1) (·.1) * centered ps (·.2) (·.2) :=
    S_cs ps _ _
  rw [← x0, ← y0]
  generalize centered ps (·.1) (·.1) = X at *
  generalize centered ps (·.2) (·.2) = Y at *
  generalize centered ps (·.1) (·.2) = C at *
  by_cases h1 : ps.length = 1
  · -- one pair: both constant
    have hX : X = 0 := by
      rw [x0]
      obtain ⟨q, rfl⟩ := List.length_eq_one_iff.mp h1
      intro a ha b hb
      rw [List.mem_singleton.mp ha, List.mem_singleton.mp hb]
    refine ⟨fun _ => ?_, fun h => absurd (Or.inl hX) h⟩
    have hC : C = 0 := by
      rw [hX, zero_mul] at cs
      exact pow_eq_zero_iff (two_ne_zero) |>.mp (le_antisymm cs (sq_nonneg _))
    rw [h1, hC]
    have : (Fl.fin 0 *ᶠ (Fl.fin 1 /ᶠ Fl.fin ((1 - 1 : Nat) : ℝ)) : Fl ℝ) = .nan := by
      rw [Fl.pf_div_fin]
      simp only [Nat.sub_self, Nat.cast_zero, if_true]
      show Fl.mul (Fl.fin 0) (Fl.infSign 1) = _
      simp [Fl.infSign, Fl.mul]
    rw [this]
    simp [clip1]
  · have hpos : (0 : ℝ) < ((ps.length - 1 : Nat) : ℝ) := by
      have := List.length_pos_of_ne_nil hne
      have h2 : 0 < ps.length - 1 := by omega
      exact_mod_cast h2
    rw [Fl.pf_div_fin_ne _ _ hpos.ne', Fl.pf_mul_fin, Fl.pf_mul_fin, Fl.pf_mul_fin]
    set k : ℝ := 1 / ((ps.length - 1 : Nat) : ℝ) with hk
    have kpos : 0 < k := by rw [hk]; positivity
    rw [Fl.sqrt_fin (mul_nonneg xn kpos.le), Fl.sqrt_fin (mul_nonneg yn kpos.le)]
    by_cases hX : X = 0
    · refine ⟨fun _ => ?_, fun h => absurd (Or.inl hX) h⟩
      have hC : C = 0 := by
        rw [hX, zero_mul] at cs
        exact pow_eq_zero_iff (two_ne_zero) |>.mp (le_antisymm cs (sq_nonneg _))
      rw [hX, hC, zero_mul, Real.sqrt_zero, Fl.pf_div_fin, if_pos rfl]
      simp [Fl.infSign, clip1]
    · have Xp : 0 < X := lt_of_le_of_ne xn (Ne.symm hX)
      have sx : 0 < Real.sqrt (X * k) := Real.sqrt_pos.mpr (mul_pos Xp kpos)
      by_cases hY : Y = 0
      · refine ⟨fun _ => ?_, fun h => absurd (Or.inr hY) h⟩
        have hC : C = 0 := by
          rw [hY, mul_zero] at cs
          exact pow_eq_zero_iff (two_ne_zero) |>.mp (le_antisymm cs (sq_nonneg _))
        rw [hY, hC, zero_mul, Real.sqrt_zero, Fl.pf_div_fin_ne _ _ sx.ne', zero_div,
          Fl.pf_div_fin, if_pos rfl]
        simp [Fl.infSign, clip1]
      · have Yp : 0 < Y := lt_of_le_of_ne yn (Ne.symm hY)
        have sy : 0 < Real.sqrt (Y * k) := Real.sqrt_pos.mpr (mul_pos Yp kpos)
        refine ⟨fun h => absurd h (by tauto), fun _ => ?_⟩
        rw [Fl.pf_div_fin_ne _ _ sx.ne', Fl.pf_div_fin_ne _ _ sy.ne']
        have hval : C * k / Real.sqrt (X * k) / Real.sqrt (Y * k) = C / Real.sqrt (X * Y) := by
          rw [div_div, ← Real.sqrt_mul (mul_nonneg xn kpos.le)]
          have : X * k * (Y * k) = (X * Y) * k ^ 2 := by ring
          rw [this, Real.sqrt_mul (mul_nonneg xn yn), Real.sqrt_sq kpos.le]
          rw [mul_div_mul_right _ _ kpos.ne']
        rw [hval]
        have sp : 0 < Real.sqrt (X * Y) := Real.sqrt_pos.mpr (mul_pos Xp Yp)
        have hab := abs_le.mp (Real.abs_le_sqrt cs)
        have lo : -1 ≤ C / Real.sqrt (X * Y) := by
          rw [le_div_iff₀ sp]; linarith [hab.1]
        have hi : C / Real.sqrt (X * Y) ≤ 1 := by
          rw [div_le_one sp]; exact hab.2
        refine ⟨_, ?_, lo, hi, rfl⟩
        unfold clip1
        simp only [Fl.pf_ofInt, Fl.pf_lt_fin, decide_eq_true_eq]
        rw [if_neg, if_neg]
        · push_cast; exact not_lt.mpr hi
        · push_cast; exact not_lt.mpr lo

/-- Concrete case for C44: a NaN pair and two finite pairs. -/
example : ∃ e, calcRainErrorPerformanceMetrics
      [.fin 1, .nan, .fin 2] [.fin 3, .fin 1, (.fin 2 : Fl ℝ)] (.fin 0) = .ok e ∧
    FiniteOrNaN [.fin 1, .nan, .fin 2] ∧ FiniteOrNaN [.fin 3, .fin 1, .fin 2] ∧
    validPairs [.fin 1, .nan, .fin 2] [.fin 3, .fin 1, .fin 2] =
      ([(1, 3), (2, 2)] : List (ℝ × ℝ)).map fun q => (Fl.fin q.1, Fl.fin q.2) := by
  refine ⟨_, rfl, ?_, ?_, ?_⟩
  · intro x hx; simp at hx; rcases hx with rfl | rfl | rfl <;> simp
  · intro x hx; simp at hx; rcases hx with rfl | rfl | rfl <;> simp
  · simp [validPairs, okPair]

/-- C44: the numbers of pairs in the result are what they claim to be, and the threshold is passed on. -/
theorem C44_counts (r p : List (Fl ℝ)) (thr : Fl ℝ) :
    (r.length ≠ p.length → calcRainErrorPerformanceMetrics r p thr = .error .assertionError) ∧
    (r.length = p.length → ∃ e, calcRainErrorPerformanceMetrics r p thr = .ok e ∧
      e.nAllPairs = r.length ∧
      e.nNanPairs = (r.zip p).countP (fun z => decide (z.1 = .nan ∨ z.2 = .nan)) ∧
      e.nNanReferenceOnly = r.countP (fun x => decide (x = .nan)) ∧
      e.nNanPredictedOnly = p.countP (fun x => decide (x = .nan)) ∧
      e.rainfallThresholdWet = thr) := by
  constructor
  · intro h
    unfold calcRainErrorPerformanceMetrics rainErrorArr
    rw [if_pos (by simpa [Arr.of] using h)]
  · intro h
    obtain ⟨zs, rfl, rfl⟩ : ∃ zs : List (Fl ℝ × Fl ℝ), r = zs.map (·.1) ∧ p = zs.map (·.2) :=
      ⟨_, exists_pairs h⟩
    have key : ∀ x : Fl ℝ, isNaN x = decide (x = .nan) := by
      intro x; cases x <;> simp
    have hz : (zs.map (·.1)).zip (zs.map (·.2)) = zs := by
      rw [List.zip_map', List.map_id']
    refine ⟨_, rain_pairs zs thr, ?_, ?_, ?_, ?_, rfl⟩
    · rw [List.length_map]
    · rw [hz]; simp only [key, Bool.decide_or]
    · rw [List.countP_map]; simp only [key]; rfl
    · rw [List.countP_map]; simp only [key]; rfl

/-! ### C43 -/

/-- C43: all rain metrics only depend on the multiset of valid pairs. -/
theorem C43_rain_multiset (r p r' p' : List (Fl ℝ)) (thr : Fl ℝ) (e e' : RainError (Fl ℝ))
    (he : calcRainErrorPerformanceMetrics r p thr = .ok e)
    (he' : calcRainErrorPerformanceMetrics r' p' thr = .ok e')
    (h : (validPairs r p).Perm (validPairs r' p')) :
    { e with nAllPairs := 0, nNanPairs := 0, nNanReferenceOnly := 0, nNanPredictedOnly := 0 } =
    { e' with nAllPairs := 0, nNanPairs := 0, nNanReferenceOnly := 0, nNanPredictedOnly := 0 } := by
  obtain ⟨hr, hp⟩ := exists_pairs (rain_lengths he)
  obtain ⟨hr', hp'⟩ := exists_pairs (rain_lengths he')
  unfold validPairs at h
  rw [validPair_eq] at h
  generalize r.zip p = zs at *
  generalize r'.zip p' = zs' at *
  rw [hr, hp, rain_pairs] at he
  rw [hr', hp', rain_pairs] at he'
  injection he with he
  injection he' with he'
  subst he
  subst he'
  dsimp only
  have hc : ∀ P : Fl ℝ × Fl ℝ → Bool, (zs.filter validPair).countP P =
      (zs'.filter validPair).countP P := fun P => h.countP_eq P
  have hm : ∀ f : Fl ℝ × Fl ℝ → Fl ℝ, npMean ((zs.filter validPair).map f) =
      npMean ((zs'.filter validPair).map f) := fun f => npMean_perm (h.map f)
  have hs : ∀ f : Fl ℝ × Fl ℝ → Fl ℝ, fsum ((zs.filter validPair).map f) =
      fsum ((zs'.filter validPair).map f) := fun f => fsum_perm (h.map f)
  have hf : ∀ (P : Fl ℝ × Fl ℝ → Bool) (f : Fl ℝ × Fl ℝ → Fl ℝ),
      npMean (((zs.filter validPair).filter P).map f) =
      npMean (((zs'.filter validPair).filter P).map f) :=
    fun P f => npMean_perm ((h.filter P).map f)
  simp only [hc, hm, hs, hf, npCorrcoef_perm h, npStd_perm (h.map _)]

/-- C43: permuting the pairs jointly changes nothing at all. -/
theorem C43_rain_perm (r p r' p' : List (Fl ℝ)) (thr : Fl ℝ) (hl : r.length = p.length)
    (hl' : r'.length = p'.length) (h : (r.zip p).Perm (r'.zip p')) :
    calcRainErrorPerformanceMetrics r p thr = calcRainErrorPerformanceMetrics r' p' thr := by
  obtain ⟨hr, hp⟩ := exists_pairs hl
  obtain ⟨hr', hp'⟩ := exists_pairs hl'
  have hv : (validPairs r p).Perm (validPairs r' p') := h.filter _
  have a : ∃ e, calcRainErrorPerformanceMetrics r p thr = .ok e := by
    unfold calcRainErrorPerformanceMetrics rainErrorArr; rw [if_neg (by simpa [Arr.of] using hl)]; exact ⟨_, rfl⟩
  have b : ∃ e, calcRainErrorPerformanceMetrics r' p' thr = .ok e := by
    unfold calcRainErrorPerformanceMetrics rainErrorArr; rw [if_neg (by simpa [Arr.of] using hl')]; exact ⟨_, rfl⟩
  obtain ⟨e, he⟩ := a
  obtain ⟨e', he'⟩ := b
  have key := C43_rain_multiset r p r' p' thr e e' he he' hv
  rw [he, he']
  congr 1
  generalize r.zip p = zs at *
  generalize r'.zip p' = zs' at *
  rw [hr, hp, rain_pairs] at he
  rw [hr', hp', rain_pairs] at he'
  injection he with he
  injection he' with he'
  have hc : ∀ P : Fl ℝ × Fl ℝ → Bool, zs.countP P = zs'.countP P := fun P => h.countP_eq P
  have n1 : e.nAllPairs = e'.nAllPairs := by rw [← he, ← he']; exact h.length_eq
  have n2 : e.nNanPairs = e'.nNanPairs := by rw [← he, ← he']; exact hc _
  have n3 : e.nNanReferenceOnly = e'.nNanReferenceOnly := by rw [← he, ← he']; exact hc _
  have n4 : e.nNanPredictedOnly = e'.nNanPredictedOnly := by rw [← he, ← he']; exact hc _
  clear he he'
  cases e
  cases e'
  simp only [RainError.mk.injEq] at key n1 n2 n3 n4 ⊢
  tauto

/-! ### C45 -/

theorem fsum_pos_inf {l : List (Fl ℝ)} (h : ∀ x ∈ l, x ≠ .nan ∧ x ≠ .ninf) :
    (∃ ys : List ℝ, l = ys.map Fl.fin) ∨ fsum l = .pinf := by
  have gen : ∀ (l : List (Fl ℝ)), (∀ x ∈ l, x ≠ .nan ∧ x ≠ .ninf) → ∀ a : Fl ℝ,
      (∃ v : ℝ, a = .fin v) ∨ a = .pinf →
      (l.foldl (· +ᶠ ·) a = .pinf) ∨ ((∃ ys : List ℝ, l = ys.map Fl.fin) ∧ ∃ v : ℝ, a = .fin v) := by
    intro l
    induction l with
    | nil =>
      rintro - a (⟨v, rfl⟩ | rfl)
      · exact Or.inr ⟨⟨[], rfl⟩, v, rfl⟩
      · exact Or.inl rfl
    | cons x l ih =>
      intro h a ha
      have hx := h x (by simp)
      have ih' := ih fun y hy => h y (by simp [hy])
      rw [List.foldl_cons]
      cases x with
      | nan => exact absurd rfl hx.1
      | ninf => exact absurd rfl hx.2
      | pinf =>
        have : a +ᶠ Fl.pinf = .pinf := by rcases ha with ⟨v, rfl⟩ | rfl <;> rfl
        rw [this]
        rcases ih' .pinf (Or.inr rfl) with h | ⟨_, v, hv⟩
        · exact Or.inl h
        · cases hv
      | fin w =>
        rcases ha with ⟨v, rfl⟩ | rfl
        · rcases ih' (.fin (v + w)) (Or.inl ⟨_, rfl⟩) with h | ⟨⟨ys, rfl⟩, -⟩
          · exact Or.inl h
          · exact Or.inr ⟨⟨w :: ys, rfl⟩, v, rfl⟩
        · rcases ih' .pinf (Or.inr rfl) with h | ⟨_, v, hv⟩
          · exact Or.inl h
          · cases hv
  rcases gen l h (.fin 0) (Or.inl ⟨0, rfl⟩) with h | h
  · right
    unfold fsum
    simpa using h
  · exact Or.inl h.1

/-- the mean of values above a threshold is above it -/
theorem lt_npMean {l : List (Fl ℝ)} {thr : Fl ℝ} (hne : l ≠ []) (h : ∀ x ∈ l, thr <ᶠ x) :
    thr <ᶠ npMean l := by
  have hn : ∀ x ∈ l, x ≠ .nan ∧ x ≠ .ninf := by
    intro x hx
    have := h x hx
    constructor
    · rintro rfl; simp at this
    · rintro rfl; cases thr <;> cases this
  have npos : (0 : ℝ) < l.length := by exact_mod_cast List.length_pos_of_ne_nil hne
  rcases fsum_pos_inf hn with ⟨ys, rfl⟩ | hinf
  · have hy : ys ≠ [] := by rintro rfl; exact hne rfl
    rw [List.length_map] at npos
    have hmean : npMean (ys.map Fl.fin) = .fin (ys.sum / ys.length) := by
      have := npMean_fin ys hy id
      simpa [S] using this
    rw [hmean]
    cases thr with
    | nan =>
      obtain ⟨y, hy⟩ := List.exists_mem_of_ne_nil _ hne
      have := h y hy
      simp at this
    | pinf =>
      obtain ⟨y, hy⟩ := List.exists_mem_of_ne_nil _ hne
      have := h y hy
      cases y <;> cases this
    | ninf => rfl
    | fin t =>
      have ht : ∀ y ∈ ys, t < y := fun y hy => by
        have := h (.fin y) (List.mem_map_of_mem hy)
        simpa using this
      rw [Fl.pf_lt_fin, decide_eq_true_eq, lt_div_iff₀ npos]
      have hs : ∀ zs : List ℝ, zs ≠ [] → (∀ y ∈ zs, t < y) → t * zs.length < zs.sum := by
        intro zs
        induction zs with
        | nil => intro h; exact absurd rfl h
        | cons z zs ih =>
          intro _ hz
          rw [List.sum_cons, List.length_cons]
          push_cast
          have h1 := hz z (by simp)
          by_cases hzs : zs = []
          · subst hzs; simp; linarith
          · have := ih hzs fun y hy => hz y (by simp [hy])
            linarith
      exact hs ys hy ht
  · have : npMean l = .pinf := by
      unfold npMean
      rw [hinf, Fl.pf_ofInt]
      show (if _ then Fl.ninf else Fl.pinf) = _
      rw [if_neg]
      push_cast
      exact not_lt.mpr npos.le
    rw [this]
    obtain ⟨y, hy⟩ := List.exists_mem_of_ne_nil _ hne
    have := h y hy
    cases thr with
    | nan => simp at this
    | pinf => cases y <;> cases this
    | ninf => rfl
    | fin t => rfl

/-- C45: rates and precipitation rates. A valid value counts as wet exactly if it is strictly
above the threshold. -/
theorem C45_rates (r p : List (Fl ℝ)) (thr : Fl ℝ) (e : RainError (Fl ℝ))
    (he : calcRainErrorPerformanceMetrics r p thr = .ok e) :
    let dry := (validPairs r p).filter fun z => !(thr <ᶠ z.1)
    let wet := (validPairs r p).filter fun z => thr <ᶠ z.1
    let falseWet := dry.filter fun z => thr <ᶠ z.2
    let missedWet := wet.filter fun z => !(thr <ᶠ z.2)
    (dry = [] → e.falseWetRate = .nan) ∧
    (dry ≠ [] → ∃ x : ℝ, e.falseWetRate = .fin x ∧ 0 ≤ x ∧ x ≤ 1 ∧
      x * dry.length = falseWet.length) ∧
    (wet = [] → e.missedWetRate = .nan) ∧
    (wet ≠ [] → ∃ x : ℝ, e.missedWetRate = .fin x ∧ 0 ≤ x ∧ x ≤ 1 ∧
      x * wet.length = missedWet.length) ∧
    (falseWet = [] → e.falseWetPrecipitationRate = .nan) ∧
    (falseWet ≠ [] → e.falseWetPrecipitationRate = npMean (falseWet.map (·.2)) ∧
      thr <ᶠ e.falseWetPrecipitationRate) ∧
    (missedWet = [] → e.missedWetPrecipitationRate = .nan) ∧
    (missedWet ≠ [] → e.missedWetPrecipitationRate = npMean (missedWet.map (·.1)) ∧
      thr <ᶠ e.missedWetPrecipitationRate) := by
  obtain ⟨hr, hp⟩ := exists_pairs (rain_lengths he)
  unfold validPairs
  rw [validPair_eq]
  generalize r.zip p = zs at hr hp
  rw [hr, hp, rain_pairs] at he
  injection he with he
  subst he
  dsimp only
  generalize zs.filter validPair = vs
  have ff : ∀ P Q : Fl ℝ × Fl ℝ → Bool, vs.filter (fun z => P z && Q z) =
      (vs.filter P).filter Q := by
    intro P Q
    rw [List.filter_filter]
    congr 1
    funext z
    exact Bool.and_comm _ _
  have cc : ∀ P Q : Fl ℝ × Fl ℝ → Bool, vs.countP (fun z => P z && Q z) =
      ((vs.filter P).filter Q).length := by
    intro P Q
    rw [List.countP_eq_length_filter, ff]
  have rate : ∀ P Q : Fl ℝ × Fl ℝ → Bool,
      (vs.filter P = [] →
        (divNat (vs.countP fun z => P z && Q z) (vs.countP P) : Fl ℝ) = .nan) ∧
      (vs.filter P ≠ [] → ∃ x : ℝ,
        (divNat (vs.countP fun z => P z && Q z) (vs.countP P) : Fl ℝ) = .fin x ∧
        0 ≤ x ∧ x ≤ 1 ∧ x * (vs.filter P).length = ((vs.filter P).filter Q).length) := by
    intro P Q
    rw [cc, List.countP_eq_length_filter]
    constructor
    · intro h
      rw [h]
      exact divNat_zero_zero
    · intro h
      have npos : (0 : ℝ) < (vs.filter P).length := by
        exact_mod_cast List.length_pos_of_ne_nil h
      refine ⟨_, divNat_pos _ _ (by simpa using h), ?_, ?_, ?_⟩
      · positivity
      · rw [div_le_one npos]
        exact_mod_cast List.length_filter_le _ _
      · field_simp
  obtain ⟨a1, a2⟩ := rate (fun z => !(thr <ᶠ z.1)) (fun z => thr <ᶠ z.2)
  obtain ⟨b1, b2⟩ := rate (fun z => thr <ᶠ z.1) (fun z => !(thr <ᶠ z.2))
  refine ⟨a1, a2, b1, b2, ?_, ?_, ?_, ?_⟩
  · intro h
    rw [ff, h]
    exact npMean_nil
  · intro h
    rw [ff]
    refine ⟨rfl, lt_npMean (by simpa using h) ?_⟩
    intro x hx
    obtain ⟨z, hz, rfl⟩ := List.mem_map.mp hx
    exact (List.mem_filter.mp hz).2
  · intro h
    rw [ff, h]
    exact npMean_nil
  · intro h
    rw [ff]
    refine ⟨rfl, lt_npMean (by simpa using h) ?_⟩
    intro x hx
    obtain ⟨z, hz, rfl⟩ := List.mem_map.mp hx
    have := (List.mem_filter.mp hz).1
    exact (List.mem_filter.mp this).2

/-- C45: the precipitation rates are means: of the predicted values of the false wet pairs and of
the reference values of the missed wet pairs. -/
theorem C45_precipitation_rates (r p : List (Fl ℝ)) (t : ℝ) (e : RainError (Fl ℝ))
    (he : calcRainErrorPerformanceMetrics r p (.fin t) = .ok e) (ps : List (ℝ × ℝ))
    (hps : validPairs r p = ps.map fun q => (Fl.fin q.1, Fl.fin q.2)) :
    let falseWet := ps.filter fun q => decide (q.1 ≤ t ∧ t < q.2)
    let missedWet := ps.filter fun q => decide (t < q.1 ∧ q.2 ≤ t)
    (falseWet ≠ [] → e.falseWetPrecipitationRate =
      .fin ((falseWet.map Prod.snd).sum / falseWet.length)) ∧
    (missedWet ≠ [] → e.missedWetPrecipitationRate =
      .fin ((missedWet.map Prod.fst).sum / missedWet.length)) := by
  obtain ⟨-, -, -, -, -, h6, -, h8⟩ := C45_rates r p (.fin t) e he
  rw [hps] at h6 h8
  have e1 : (((ps.map fun q => ((Fl.fin q.1 : Fl ℝ), (Fl.fin q.2 : Fl ℝ))).filter
      fun z => !((Fl.fin t : Fl ℝ) <ᶠ z.1)).filter fun z => (Fl.fin t : Fl ℝ) <ᶠ z.2) =
      (ps.filter fun q => decide (q.1 ≤ t ∧ t < q.2)).map
        fun q => ((Fl.fin q.1 : Fl ℝ), (Fl.fin q.2 : Fl ℝ)) := by
    rw [List.filter_filter, List.filter_map]
    refine congrArg (List.map _) (List.filter_congr fun q _ => ?_)
    simp only [Function.comp_apply, Fl.pf_lt_fin, ← decide_not, not_lt, ← Bool.decide_and, and_comm]
  have e2 : (((ps.map fun q => ((Fl.fin q.1 : Fl ℝ), (Fl.fin q.2 : Fl ℝ))).filter
      fun z => (Fl.fin t : Fl ℝ) <ᶠ z.1).filter fun z => !((Fl.fin t : Fl ℝ) <ᶠ z.2)) =
      (ps.filter fun q => decide (t < q.1 ∧ q.2 ≤ t)).map
        fun q => ((Fl.fin q.1 : Fl ℝ), (Fl.fin q.2 : Fl ℝ)) := by
    rw [List.filter_filter, List.filter_map]
    refine congrArg (List.map _) (List.filter_congr fun q _ => ?_)
    simp only [Function.comp_apply, Fl.pf_lt_fin, ← decide_not, not_lt, ← Bool.decide_and, and_comm]
  rw [e1] at h6
  rw [e2] at h8
  dsimp only
  constructor
  · intro hne
    rw [(h6 (by simpa using hne)).1, List.map_map]
    exact npMean_fin _ hne fun q : ℝ × ℝ => q.2
  · intro hne
    rw [(h8 (by simpa using hne)).1, List.map_map]
    exact npMean_fin _ hne fun q : ℝ × ℝ => q.1

/-- C45: a reference equal to the threshold is not wet, against the docstring
("`wet` if value >= threshold", stats.py L248-L249): no pair counts as wet. -/
theorem C45_threshold_value_is_dry (t : ℝ) (r p : List (Fl ℝ)) (e : RainError (Fl ℝ))
    (he : calcRainErrorPerformanceMetrics r p (.fin t) = .ok e)
    (hr : ∀ x ∈ r, x = .fin t) :
    e.missedWetRate = .nan ∧ e.missedWetPrecipitationRate = .nan := by
  obtain ⟨-, -, h3, -, -, -, h7, -⟩ := C45_rates r p (.fin t) e he
  have hw : ((validPairs r p).filter fun z => (Fl.fin t : Fl ℝ) <ᶠ z.1) = [] := by
    rw [List.filter_eq_nil_iff]
    intro z hz
    unfold validPairs at hz
    have hm := (List.mem_filter.mp hz).1
    rw [hr z.1 (List.of_mem_zip (a := z.1) (b := z.2) hm).1]
    simp
  exact ⟨h3 hw, h7 (by rw [hw]; rfl)⟩

/-- Concrete case: threshold 1, reference 1 and 1, prediction 0 and 2. -/
example : ∃ e, calcRainErrorPerformanceMetrics
      [.fin 1, .fin 1] [.fin 0, (.fin 2 : Fl ℝ)] (.fin 1) = .ok e ∧
    ((validPairs [.fin 1, .fin 1] [.fin 0, .fin 2]).filter
      fun z => !((Fl.fin 1 : Fl ℝ) <ᶠ z.1)).length = 2 := by
  refine ⟨_, rfl, ?_⟩
  simp [validPairs, okPair]

end Verif.Props
