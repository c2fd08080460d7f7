import Verif.Props.StatsRain
import Verif.Props.DatasetRecovery

/-!
# C153: scores of an estimate whose errors are bounded
-/

namespace Verif.Props

open Verif.Stats

/-- wherever both series have a value they differ by at most `E` -/
def WithinOf (E : ℝ) (r p : List (Fl ℝ)) : Prop :=
  ∀ (i : ℕ) (x y : ℝ), r[i]? = some (.fin x) → p[i]? = some (.fin y) → |y - x| ≤ E

theorem withinOf_pairs {E : ℝ} {r p : List (Fl ℝ)} (h : WithinOf E r p) {ps : List (ℝ × ℝ)}
    (hps : validPairs r p = ps.map fun q => (Fl.fin q.1, Fl.fin q.2)) : ∀ q ∈ ps, |q.2 - q.1| ≤ E := by
  intro q hq
  have hm : (Fl.fin q.1, Fl.fin q.2) ∈ validPairs r p := by
    rw [hps]
    exact List.mem_map_of_mem (f := fun q : ℝ × ℝ => (Fl.fin q.1, Fl.fin q.2)) hq
  unfold validPairs at hm
  obtain ⟨i, hi⟩ := List.getElem?_of_mem (List.mem_filter.mp hm).1
  rw [List.getElem?_zip_eq_some] at hi
  exact h i q.1 q.2 hi.1 hi.2

/-- **C153** If estimate and reference differ by at most `E` wherever both have a value (and they have one somewhere in common), then
RMSE, mean absolute error and the difference of the means are at most `E`, the difference of the sums at most `E` per used pair, and
the coefficient of variation times the mean rain at most `E`. -/
theorem C153_errors (r p : List (Fl ℝ)) (thr : Fl ℝ) (e : RainError (Fl ℝ)) (he : calcRainErrorPerformanceMetrics r p thr = .ok e)
    (hr : FiniteOrNaN r) (hp : FiniteOrNaN p) (hne : validPairs r p ≠ []) (E : ℝ) (h : WithinOf E r p) :
    ∃ rmse mae mr mp sr sp : ℝ,
      e.rootMeanSquareError = .fin rmse ∧ e.meanAbsoluteError = .fin mae ∧
      e.rMeanReference = .fin mr ∧ e.rMeanPredicted = .fin mp ∧ e.rSumReference = .fin sr ∧ e.rSumPredicted = .fin sp ∧
      0 ≤ mae ∧ mae ≤ rmse ∧ rmse ≤ E ∧ |mp - mr| ≤ E ∧ |sp - sr| ≤ (validPairs r p).length * E ∧
      (mr ≠ 0 → ∃ cv : ℝ, e.coefficientOfVariation = .fin cv ∧ |cv * mr| ≤ E) := by
  obtain ⟨rmse, mae, mr, mp, h1, h2, h3, h4, h5, h6, -, h8, h9, h10⟩ := C44_inequalities r p thr e he hr hp hne
  obtain ⟨ps, hps⟩ := exists_real_pairs r p hr hp
  have hne' : ps ≠ [] := by rintro rfl; exact hne hps
  have hq := withinOf_pairs h hps
  have hE : 0 ≤ E := by
    obtain ⟨q, hq'⟩ := List.exists_mem_of_ne_nil _ hne'
    exact (abs_nonneg _).trans (hq q hq')
  have v := (C44_values r p thr e he ps hps hne').2.2.2.2.2.1
  rw [h1] at v
  injection v with v
  have npos : (0 : ℝ) < ps.length := by exact_mod_cast List.length_pos_of_ne_nil hne'
  have hrm : rmse ≤ E := by
    rw [v]
    apply Real.sqrt_le_iff.mpr
    refine ⟨hE, ?_⟩
    rw [div_le_iff₀ npos]
    have := S_mono ps (fun q => (q.2 - q.1) * (q.2 - q.1)) (fun _ => E ^ 2) fun q hq' => by
      have := abs_le.mp (hq q hq')
      nlinarith [this.1, this.2]
    rw [S_const] at this
    rw [mul_comm]
    exact this
  have hb : |mp - mr| ≤ E := h5.trans (h6.trans hrm)
  refine ⟨rmse, mae, mr, mp, _, _, h1, h2, h3, h4, h9, h10, (abs_nonneg _).trans h5, h6, hrm, hb, ?_, ?_⟩
  · rw [← mul_sub, abs_mul, Nat.abs_cast]
    exact mul_le_mul_of_nonneg_left hb (Nat.cast_nonneg _)
  · intro hm
    obtain ⟨cv, hcv, hs⟩ := h8 hm
    refine ⟨cv, hcv, abs_le_of_sq_le_sq ?_ hE⟩
    have hr0 : 0 ≤ rmse := (abs_nonneg _).trans (h5.trans h6)
    nlinarith [sq_nonneg (mp - mr)]

/-- **C153** A pair can be false wet or missed wet only if its reference is within `E` of the threshold: without references in
`(t - E, t]` (in `(t, t + E]`) the false (missed) wet rate is 0 or, if no reference is dry (wet), NaN. The rain of missed and
false wet pairs exceeds the threshold by at most `E` in the mean. -/
theorem C153_rates (r p : List (Fl ℝ)) (t : ℝ) (e : RainError (Fl ℝ)) (he : calcRainErrorPerformanceMetrics r p (.fin t) = .ok e)
    (hr : FiniteOrNaN r) (hp : FiniteOrNaN p) (E : ℝ) (h : WithinOf E r p) :
    ((∀ x : ℝ, Fl.fin x ∈ r → ¬ (t - E < x ∧ x ≤ t)) →
      (e.falseWetRate = .fin 0 ∨ e.falseWetRate = .nan) ∧ e.falseWetPrecipitationRate = .nan) ∧
    ((∀ x : ℝ, Fl.fin x ∈ r → ¬ (t < x ∧ x ≤ t + E)) →
      (e.missedWetRate = .fin 0 ∨ e.missedWetRate = .nan) ∧ e.missedWetPrecipitationRate = .nan) ∧
    (e.falseWetPrecipitationRate = .nan ∨ ∃ x : ℝ, e.falseWetPrecipitationRate = .fin x ∧ t < x ∧ x ≤ t + E) ∧
    (e.missedWetPrecipitationRate = .nan ∨ ∃ x : ℝ, e.missedWetPrecipitationRate = .fin x ∧ t < x ∧ x ≤ t + E) := by
  obtain ⟨ps, hps⟩ := exists_real_pairs r p hr hp
  have hq := withinOf_pairs h hps
  have hmem : ∀ q ∈ ps, Fl.fin q.1 ∈ r := by
    intro q hq'
    have hm : (Fl.fin q.1, Fl.fin q.2) ∈ validPairs r p := by
      rw [hps]
      exact List.mem_map_of_mem (f := fun q : ℝ × ℝ => (Fl.fin q.1, Fl.fin q.2)) hq'
    unfold validPairs at hm
    exact (List.of_mem_zip (List.mem_filter.mp hm).1).1
  obtain ⟨d0, d1, w0, w1, f0, -, m0, -⟩ := C45_rates r p (.fin t) e he
  obtain ⟨f1, m1⟩ := C45_precipitation_rates r p t e he ps hps
  rw [hps] at d0 d1 w0 w1 f0 m0
  have mean_bounds : ∀ (l : List (ℝ × ℝ)) (g : ℝ × ℝ → ℝ), l ≠ [] → (∀ q ∈ l, t < g q ∧ g q ≤ t + E) →
      t < (l.map g).sum / l.length ∧ (l.map g).sum / l.length ≤ t + E := by
    intro l g hl hg
    have npos : (0 : ℝ) < l.length := by exact_mod_cast List.length_pos_of_ne_nil hl
    constructor
    · rw [lt_div_iff₀ npos]
      have h0 := S_nonneg l (fun q => g q - t) fun q hq => by linarith [(hg q hq).1]
      have h1 : S l (fun q => g q - t) ≠ 0 := by
        rw [Ne, S_eq_zero l _ fun q hq => by linarith [(hg q hq).1]]
        intro hz
        obtain ⟨q, hq⟩ := List.exists_mem_of_ne_nil _ hl
        linarith [hz q hq, (hg q hq).1]
      have h2 := lt_of_le_of_ne h0 (Ne.symm h1)
      rw [S_sub, S_const] at h2
      have : S l g = (l.map g).sum := rfl
      linarith
    · rw [div_le_iff₀ npos]
      have := S_mono l g (fun _ => t + E) fun q hq => (hg q hq).2
      rw [S_const] at this
      have e' : S l g = (l.map g).sum := rfl
      linarith
  -- false wet and missed wet pairs as pairs of reals
  have ef : ((ps.map fun q => (Fl.fin q.1, Fl.fin q.2)).filter fun z : Fl ℝ × Fl ℝ => !(Fl.fin t <ᶠ z.1)).filter
      (fun z => Fl.fin t <ᶠ z.2) =
      (ps.filter fun q => decide (q.1 ≤ t ∧ t < q.2)).map fun q => (Fl.fin q.1, Fl.fin q.2) := by
    rw [List.filter_filter, List.filter_map]
    congr 1
    apply List.filter_congr
    intro q _
    simp only [Function.comp_def, Fl.pf_lt_fin]
    by_cases a : t < q.1 <;> by_cases b : t < q.2 <;> simp [a, b, not_le.mpr, not_lt.mp]
  have em : ((ps.map fun q => (Fl.fin q.1, Fl.fin q.2)).filter fun z : Fl ℝ × Fl ℝ => Fl.fin t <ᶠ z.1).filter
      (fun z => !(Fl.fin t <ᶠ z.2)) =
      (ps.filter fun q => decide (t < q.1 ∧ q.2 ≤ t)).map fun q => (Fl.fin q.1, Fl.fin q.2) := by
    rw [List.filter_filter, List.filter_map]
    congr 1
    apply List.filter_congr
    intro q _
    simp only [Function.comp_def, Fl.pf_lt_fin]
    by_cases a : t < q.1 <;> by_cases b : t < q.2 <;> simp [a, b, not_le.mpr, not_lt.mp]
  rw [ef] at d1 f0
  rw [em] at w1 m0
  refine ⟨fun hx => ?_, fun hx => ?_, ?_, ?_⟩
  · have hnil : (ps.filter fun q => decide (q.1 ≤ t ∧ t < q.2)) = [] := by
      rw [List.filter_eq_nil_iff]
      intro q hq' hc
      have hc := of_decide_eq_true hc
      have := abs_le.mp (hq q hq')
      exact hx q.1 (hmem q hq') ⟨by linarith [this.2, hc.2], hc.1⟩
    rw [hnil] at d1 f0
    refine ⟨?_, f0 rfl⟩
    by_cases hd : ((ps.map fun q => (Fl.fin q.1, Fl.fin q.2)).filter fun z : Fl ℝ × Fl ℝ => !(Fl.fin t <ᶠ z.1)) = []
    · exact Or.inr (d0 hd)
    · obtain ⟨x, e1, -, -, e2⟩ := d1 hd
      left
      rw [e1]
      have hl : ((((ps.map fun q => (Fl.fin q.1, Fl.fin q.2)).filter fun z : Fl ℝ × Fl ℝ => !(Fl.fin t <ᶠ z.1)).length : ℕ) : ℝ) ≠ 0 := by
        simpa using hd
      simp only [List.map_nil, List.length_nil, Nat.cast_zero, mul_eq_zero] at e2
      rw [e2.resolve_right hl]
  · have hnil : (ps.filter fun q => decide (t < q.1 ∧ q.2 ≤ t)) = [] := by
      rw [List.filter_eq_nil_iff]
      intro q hq' hc
      have hc := of_decide_eq_true hc
      have := abs_le.mp (hq q hq')
      exact hx q.1 (hmem q hq') ⟨hc.1, by linarith [this.1, hc.2]⟩
    rw [hnil] at w1 m0
    refine ⟨?_, m0 rfl⟩
    by_cases hd : ((ps.map fun q => (Fl.fin q.1, Fl.fin q.2)).filter fun z : Fl ℝ × Fl ℝ => Fl.fin t <ᶠ z.1) = []
    · exact Or.inr (w0 hd)
    · obtain ⟨x, e1, -, -, e2⟩ := w1 hd
      left
      rw [e1]
      have hl : ((((ps.map fun q => (Fl.fin q.1, Fl.fin q.2)).filter fun z : Fl ℝ × Fl ℝ => Fl.fin t <ᶠ z.1).length : ℕ) : ℝ) ≠ 0 := by
        simpa using hd
      simp only [List.map_nil, List.length_nil, Nat.cast_zero, mul_eq_zero] at e2
      rw [e2.resolve_right hl]
  · by_cases hf : (ps.filter fun q => decide (q.1 ≤ t ∧ t < q.2)) = []
    · left; exact f0 (by rw [hf]; rfl)
    · right
      refine ⟨_, f1 hf, mean_bounds _ Prod.snd hf fun q hq' => ?_⟩
      obtain ⟨hq1, hq2⟩ := List.mem_filter.mp hq'
      have hc := of_decide_eq_true hq2
      have := abs_le.mp (hq q hq1)
      exact ⟨hc.2, by linarith [this.2, hc.1]⟩
  · by_cases hf : (ps.filter fun q => decide (t < q.1 ∧ q.2 ≤ t)) = []
    · left; exact m0 (by rw [hf]; rfl)
    · right
      refine ⟨_, m1 hf, mean_bounds _ Prod.fst hf fun q hq' => ?_⟩
      obtain ⟨hq1, hq2⟩ := List.mem_filter.mp hq'
      have hc := of_decide_eq_true hq2
      have := abs_le.mp (hq q hq1)
      exact ⟨hc.1, by linarith [this.1, hc.2]⟩

/-- **C153** An estimate equal to the reference wherever both have a value: RMSE and mean absolute error 0, equal sums and means,
correlation 1 unless the used references are all equal (then NaN), false and missed wet rate 0 or NaN. -/
theorem C153_perfect (r p : List (Fl ℝ)) (t : ℝ) (e : RainError (Fl ℝ)) (he : calcRainErrorPerformanceMetrics r p (.fin t) = .ok e)
    (hr : FiniteOrNaN r) (hp : FiniteOrNaN p) (hne : validPairs r p ≠ [])
    (h : ∀ (i : ℕ) (x y : ℝ), r[i]? = some (.fin x) → p[i]? = some (.fin y) → y = x) :
    e.rootMeanSquareError = .fin 0 ∧ e.meanAbsoluteError = .fin 0 ∧
    e.rSumPredicted = e.rSumReference ∧ e.rMeanPredicted = e.rMeanReference ∧
    (e.pearsonCorrelation = .fin 1 ∨
      e.pearsonCorrelation = .nan ∧ ∀ z ∈ validPairs r p, ∀ z' ∈ validPairs r p, z.1 = z'.1) ∧
    (e.falseWetRate = .fin 0 ∨ e.falseWetRate = .nan) ∧ e.falseWetPrecipitationRate = .nan ∧
    (e.missedWetRate = .fin 0 ∨ e.missedWetRate = .nan) ∧ e.missedWetPrecipitationRate = .nan := by
  have hw : WithinOf 0 r p := fun i x y a b => by rw [h i x y a b]; simp
  obtain ⟨rmse, mae, mr, mp, sr, sp, h1, h2, h3, h4, h5, h6, h7, h8, h9, h10, h11, -⟩ := C153_errors r p _ e he hr hp hne 0 hw
  obtain ⟨a, b, -, -⟩ := C153_rates r p t e he hr hp 0 hw
  have a' := a fun x _ hx => by linarith [hx.1, hx.2]
  have b' := b fun x _ hx => by linarith [hx.1, hx.2]
  have z1 : rmse = 0 := le_antisymm h9 (h7.trans h8)
  have z2 : mae = 0 := le_antisymm (h8.trans h9) h7
  have z3 : mp = mr := sub_eq_zero.mp (abs_nonpos_iff.mp h10)
  rw [mul_zero] at h11
  have z4 : sp = sr := sub_eq_zero.mp (abs_nonpos_iff.mp h11)
  obtain ⟨ps, hps⟩ := exists_real_pairs r p hr hp
  have hne' : ps ≠ [] := by rintro rfl; exact hne hps
  have hq : ∀ q ∈ ps, q.2 = q.1 := fun q hq => sub_eq_zero.mp (abs_nonpos_iff.mp (withinOf_pairs hw hps q hq))
  refine ⟨by rw [h1, z1], by rw [h2, z2], by rw [h5, h6, z4], by rw [h3, h4, z3], ?_, a'.1, a'.2, b'.1, b'.2⟩
  obtain ⟨c0, c1⟩ := C44_pearson r p _ e he ps hps hne'
  by_cases hc : ∀ q ∈ ps, ∀ q' ∈ ps, q.1 = q'.1
  · right
    refine ⟨c0 (Or.inl hc), ?_⟩
    rw [hps]
    intro z hz z' hz'
    obtain ⟨q, hq1, rfl⟩ := List.mem_map.mp hz
    obtain ⟨q', hq2, rfl⟩ := List.mem_map.mp hz'
    exact congrArg Fl.fin (hc q hq1 q' hq2)
  · left
    have hc2 : ¬ ∀ q ∈ ps, ∀ q' ∈ ps, q.2 = q'.2 := fun h2 => hc fun q hq1 q' hq2 => by
      rw [← hq q hq1, ← hq q' hq2]; exact h2 q hq1 q' hq2
    obtain ⟨ρ, e1, -, -, e2⟩ := c1 (not_or.mpr ⟨hc, hc2⟩)
    have m : ps.map (fun q : ℝ × ℝ => q.2) = ps.map fun q => q.1 := List.map_congr_left hq
    have k1 : centered ps (·.1) (·.2) = centered ps (·.1) (·.1) := by
      unfold centered
      rw [m]
      exact congrArg List.sum (List.map_congr_left fun q hq' => by dsimp only; rw [hq q hq'])
    have k2 : centered ps (·.2) (·.2) = centered ps (·.1) (·.1) := by
      unfold centered
      rw [m]
      exact congrArg List.sum (List.map_congr_left fun q hq' => by dsimp only; rw [hq q hq'])
    have k0 : centered ps (·.1) (·.1) ≠ 0 := fun k => hc ((centered_self_zero ps hne' (·.1)).mp k)
    rw [e1, e2, k1, k2, Real.sqrt_mul_self (centered_self_nonneg ps _), div_self k0]

/-- **C153** The bounds are attained: an estimate that is too high by `E` everywhere has RMSE, mean absolute error and difference of
means `E`. -/
theorem C153_sharp (x : List ℝ) (hx : x ≠ []) (thr : Fl ℝ) (E : ℝ) (hE : 0 ≤ E) :
    ∃ e, calcRainErrorPerformanceMetrics (x.map Fl.fin) (x.map fun v => Fl.fin (v + E)) thr = .ok e ∧
      e.rootMeanSquareError = .fin E ∧ e.meanAbsoluteError = .fin E ∧
      ∃ m : ℝ, e.rMeanReference = .fin m ∧ e.rMeanPredicted = .fin (m + E) := by
  obtain ⟨e, he, -⟩ := (C44_counts (x.map Fl.fin) (x.map fun v => Fl.fin (v + E)) thr).2 (by simp)
  have hps : validPairs (x.map Fl.fin) (x.map fun v => Fl.fin (v + E)) =
      (x.map fun v => (v, v + E)).map fun q => (Fl.fin q.1, Fl.fin q.2) := by
    unfold validPairs
    rw [List.zip_map', List.map_map, List.filter_eq_self.mpr]
    · rfl
    · intro z hz
      obtain ⟨v, -, rfl⟩ := List.mem_map.mp hz
      simp [okPair]
  obtain ⟨-, -, v3, v4, v5, v6, -⟩ := C44_values _ _ thr e he _ hps (by simpa using hx)
  have npos : (0 : ℝ) < x.length := by exact_mod_cast List.length_pos_of_ne_nil hx
  have hc : ∀ c : ℝ, (x.map fun _ => c).sum = x.length * c := fun c => S_const x c
  have ha : (x.map fun v => v + E).sum = x.sum + x.length * E := by
    have := S_add x (fun v => v) (fun _ => E)
    rw [S_const] at this
    simpa [S] using this
  simp only [List.map_map, Function.comp_def, List.length_map, add_sub_cancel_left] at v3 v4 v5 v6
  refine ⟨e, he, ?_, ?_, _, v3, ?_⟩
  · rw [v6, hc, mul_div_cancel_left₀ _ npos.ne', Real.sqrt_mul_self hE]
  · rw [v5, hc, mul_div_cancel_left₀ _ npos.ne', abs_of_nonneg hE]
  · rw [v4, ha]
    congr 1
    simp only [List.map_id']
    field_simp

section dataset
open Verif Verif.Wrapper Verif.Labels Verif.KR

/-- the rain of a channel: its rate at wet steps and 0 at dry steps -/
noncomputable def Channel.trueRain (q : Channel) (t : ℕ) : ℝ := if WetAt q.wet t then q.R t else 0

/-- **C153** A dataset whose levels are exactly those of dry level, rain and film of water (C148): scored against the rain of the
channel, every channel of the result has an RMSE and mean absolute error of at most 0.1 mm/h (0 if no wet step has less than
0.1 mm/h), and with 0.1 mm/h as threshold no step is false wet or missed wet. -/
theorem C153_dataset {Lb : Type} [DecidableEq Lb] {trsl wet : LArr Lb} {n waa_max delta_t tau L_km f_GHz pol : LArg Lb}
    (hlab : SameLabels [.named trsl, .named wet, n, waa_max, delta_t, tau, L_km, f_GHz, pol])
    (hsize : ∀ u ∈ [.named trsl, .named wet, n, waa_max, delta_t, tau, L_km, f_GHz, pol],
      ∀ v ∈ [.named trsl, .named wet, n, waa_max, delta_t, tau, L_km, f_GHz, pol],
      ∀ p ∈ dimNames (strip u), ∀ q ∈ dimNames (strip v), p.1 = q.1 → p.2 = q.2)
    (hpos : ∀ u ∈ [.named trsl, .named wet, n, waa_max, delta_t, tau, L_km, f_GHz, pol],
      ∀ p ∈ dimNames (strip u), p.1 ≠ "time" → 0 < p.2)
    (ch : Coords → Channel) (a b : Coords → ℝ)
    (hch : ∀ c : Coords, (∀ u ∈ [.named trsl, .named wet, n, waa_max, delta_t, tau, L_km, f_GHz, pol],
        ∀ p ∈ dimNames (strip u), p.1 ≠ "time" → c p.1 < p.2) →
      (ch c).At trsl.arr wet.arr (strip n) (strip waa_max) (strip delta_t) (strip tau) (strip L_km) (strip f_GHz) (strip pol) c ∧
      (ch c).Ok (a c) (b c) 0) :
    ∃ r, processDatasetL cubicSpline trsl wet n waa_max delta_t tau L_km f_GHz pol = .ok r ∧
      ∀ c : Coords, InArray r.arr c → (ch c).wet ≠ [] → ∃ (est : List (Fl ℝ)) (e : RainError (Fl ℝ)) (rmse mae : ℝ),
        SeriesAt r.arr c est ∧
        calcRainErrorPerformanceMetrics (series (ch c).wet.length (ch c).trueRain) est (.fin (1 / 10)) = .ok e ∧
        e.rootMeanSquareError = .fin rmse ∧ e.meanAbsoluteError = .fin mae ∧ 0 ≤ mae ∧ mae ≤ rmse ∧ rmse ≤ 1 / 10 ∧
        ((∀ t < (ch c).wet.length, WetAt (ch c).wet t → 1 / 10 ≤ (ch c).R t) → rmse = 0) ∧
        (e.falseWetRate = .fin 0 ∨ e.falseWetRate = .nan) ∧ (e.missedWetRate = .fin 0 ∨ e.missedWetRate = .nan) := by
  obtain ⟨r, hok, -, hdims, hser⟩ := C148_recovery hlab hsize hpos ch a b hch
  refine ⟨r, hok, fun c hc hw => ?_⟩
  have hOk : (ch c).Ok (a c) (b c) 0 := (hch c fun u hu p hp hn => hc p ((hdims p).mpr ⟨u, hu, hp⟩) hn).2
  have hs := hser c hc
  clear hser
  generalize ch c = q at hOk hs hw ⊢
  set N := q.wet.length with hN
  set f : ℕ → ℝ := fun t => if WetAt q.wet t ∧ 1 / 10 ≤ q.R t then q.R t else 0 with hf
  obtain ⟨e, he, -⟩ := (C44_counts (series N q.trueRain) (series N f) (.fin (1 / 10))).2 (by simp [series])
  have fin : ∀ g : ℕ → ℝ, FiniteOrNaN (series N g) := by
    intro g x hx
    obtain ⟨t, -, rfl⟩ := List.mem_map.mp hx
    exact Or.inr ⟨_, rfl⟩
  have hps : validPairs (series N q.trueRain) (series N f) =
      ((List.range N).map fun t => (q.trueRain t, f t)).map fun q => (Fl.fin q.1, Fl.fin q.2) := by
    unfold validPairs series
    rw [List.zip_map', List.map_map, List.filter_eq_self.mpr]
    · rfl
    · intro z hz
      obtain ⟨v, -, rfl⟩ := List.mem_map.mp hz
      simp [okPair]
  have hN0 : N ≠ 0 := by simpa [hN] using hw
  have hne : validPairs (series N q.trueRain) (series N f) ≠ [] := by
    rw [hps]
    simpa using hN0
  have get : ∀ (g : ℕ → ℝ) (i : ℕ) (x : ℝ), (series N g)[i]? = some (.fin x) → i < N ∧ x = g i := by
    intro g i x hx
    have hi : i < N := by
      have := (List.getElem?_eq_some_iff.mp hx).1
      rwa [series_length] at this
    rw [series_get g hi] at hx
    injection hx with hx
    injection hx with hx
    exact ⟨hi, hx.symm⟩
  have hclose : ∀ t < N, |f t - q.trueRain t| ≤ 1 / 10 := by
    intro t ht
    simp only [hf, Channel.trueRain]
    by_cases h1 : WetAt q.wet t
    · have := hOk.rain t ht h1
      by_cases h2 : 1 / 10 ≤ q.R t
      · rw [if_pos ⟨h1, h2⟩, if_pos h1, sub_self, abs_zero]; norm_num
      · rw [if_neg (fun h => h2 h.2), if_pos h1, zero_sub, abs_neg, abs_of_nonneg this]
        exact (not_le.mp h2).le
    · simp [h1]
  have hw1 : WithinOf (1 / 10) (series N q.trueRain) (series N f) := by
    intro i x y hx hy
    obtain ⟨hi, rfl⟩ := get _ i x hx
    obtain ⟨-, rfl⟩ := get _ i y hy
    exact hclose i hi
  obtain ⟨rmse, mae, mr, mp, sr, sp, h1, h2, -, -, -, -, h7, h8, h9, -⟩ := C153_errors _ _ _ e he (fin _) (fin _) hne _ hw1
  refine ⟨series N f, e, rmse, mae, hs, he, h1, h2, h7, h8, h9, ?_, ?_, ?_⟩
  · intro hR
    have hw0 : WithinOf 0 (series N q.trueRain) (series N f) := by
      intro i x y hx hy
      obtain ⟨hi, rfl⟩ := get _ i x hx
      obtain ⟨-, rfl⟩ := get _ i y hy
      simp only [hf, Channel.trueRain]
      by_cases h1 : WetAt q.wet i
      · rw [if_pos ⟨h1, hR i hi h1⟩, if_pos h1, sub_self, abs_zero]
      · simp [h1]
    obtain ⟨rmse', _, _, _, _, _, k1, -, -, -, -, -, k7, k8, k9, -⟩ := C153_errors _ _ _ e he (fin _) (fin _) hne _ hw0
    rw [h1] at k1
    injection k1 with k1
    rw [k1]
    exact le_antisymm k9 (k7.trans k8)
  all_goals
    obtain ⟨d0, d1, w0, w1, -⟩ := C45_rates _ _ _ e he
    rw [hps] at d0 d1 w0 w1
  · by_cases hd : (((List.range N).map fun t => (q.trueRain t, f t)).map fun q => (Fl.fin q.1, Fl.fin q.2)).filter
        (fun z : Fl ℝ × Fl ℝ => !(Fl.fin (1 / 10) <ᶠ z.1)) = []
    · exact Or.inr (d0 hd)
    · obtain ⟨x, e1, -, -, e2⟩ := d1 hd
      left
      rw [e1]
      have hnil : ((((List.range N).map fun t => (q.trueRain t, f t)).map fun q => (Fl.fin q.1, Fl.fin q.2)).filter
          (fun z : Fl ℝ × Fl ℝ => !(Fl.fin (1 / 10) <ᶠ z.1))).filter (fun z => Fl.fin (1 / 10) <ᶠ z.2) = [] := by
        rw [List.filter_eq_nil_iff]
        intro z hz hc
        obtain ⟨hz1, hz2⟩ := List.mem_filter.mp hz
        rw [List.map_map] at hz1
        obtain ⟨t, -, rfl⟩ := List.mem_map.mp hz1
        simp only [Function.comp_def, Fl.pf_lt_fin, Bool.not_eq_true', decide_eq_false_iff_not, decide_eq_true_eq] at hz2 hc
        simp only [hf, Channel.trueRain] at hz2 hc
        split_ifs at hz2 hc <;> first | linarith | tauto
      rw [hnil] at e2
      simp only [List.length_nil, Nat.cast_zero, mul_eq_zero, Nat.cast_eq_zero, List.length_eq_zero_iff] at e2
      rw [e2.resolve_right hd]
  · by_cases hd : (((List.range N).map fun t => (q.trueRain t, f t)).map fun q => (Fl.fin q.1, Fl.fin q.2)).filter
        (fun z : Fl ℝ × Fl ℝ => Fl.fin (1 / 10) <ᶠ z.1) = []
    · exact Or.inr (w0 hd)
    · obtain ⟨x, e1, -, -, e2⟩ := w1 hd
      left
      rw [e1]
      have hnil : ((((List.range N).map fun t => (q.trueRain t, f t)).map fun q => (Fl.fin q.1, Fl.fin q.2)).filter
          (fun z : Fl ℝ × Fl ℝ => Fl.fin (1 / 10) <ᶠ z.1)).filter (fun z => !(Fl.fin (1 / 10) <ᶠ z.2)) = [] := by
        rw [List.filter_eq_nil_iff]
        intro z hz hc
        obtain ⟨hz1, hz2⟩ := List.mem_filter.mp hz
        rw [List.map_map] at hz1
        obtain ⟨t, -, rfl⟩ := List.mem_map.mp hz1
        simp only [Function.comp_def, Fl.pf_lt_fin, Bool.not_eq_true', decide_eq_false_iff_not, decide_eq_true_eq] at hz2 hc
        simp only [hf, Channel.trueRain] at hz2 hc
        split_ifs at hz2 hc <;> first | linarith | (exfalso; rename_i g1 g2; exact g2 ⟨g1, hz2.le⟩) | tauto
      rw [hnil] at e2
      simp only [List.length_nil, Nat.cast_zero, mul_eq_zero, Nat.cast_eq_zero, List.length_eq_zero_iff] at e2
      rw [e2.resolve_right hd]

end dataset

/-- Concrete case for C153: a missing value, an estimate half a millimetre too high and one too low. -/
example : ∃ e, calcRainErrorPerformanceMetrics [.fin 1, .nan, .fin 2] [.fin (3 / 2), .fin 1, (.fin (7 / 4) : Fl ℝ)] (.fin 0) = .ok e ∧
    FiniteOrNaN [.fin 1, .nan, .fin 2] ∧ FiniteOrNaN [.fin (3 / 2), .fin 1, .fin (7 / 4)] ∧
    validPairs [.fin 1, .nan, .fin 2] [.fin (3 / 2), .fin 1, .fin (7 / 4)] ≠ [] ∧
    WithinOf (1 / 2) [.fin 1, .nan, .fin 2] [.fin (3 / 2), .fin 1, .fin (7 / 4)] := by
  refine ⟨_, rfl, ?_, ?_, ?_, ?_⟩
  · intro x hx; simp at hx; rcases hx with rfl | rfl | rfl <;> simp
  · intro x hx; simp at hx; rcases hx with rfl | rfl | rfl <;> simp
  · simp [validPairs, okPair]
  · intro i x y hx hy
    match i with
    | 0 => simp at hx hy; rw [← hx, ← hy]; norm_num
    | 1 => simp at hx
    | 2 => simp at hx hy; rw [← hx, ← hy, abs_le]; constructor <;> norm_num
    | i + 3 => simp at hx

end Verif.Props
