import Verif.Model.Preprocess
import Verif.Props.RollingStdDoubles

/-!
# Property C177: short gaps filled by linear interpolation
-/

namespace Verif.Props
open Verif Verif.Preprocess Verif.Rsd Verif.Baseline Verif.Waa Verif.KR Verif.Bin

theorem gapSeries_rd {T i : ℕ} (miss : ℕ → Prop) (y : ℕ → ℝ) (hi : i < T) :
    (miss i → rd (gapSeries T miss y) i = .nan) ∧ (¬ miss i → rd (gapSeries T miss y) i = .fin (y i)) := by
  classical
  have h := rd_of_getElem? (gapSeries_get miss y hi)
  exact ⟨fun hm => by rw [h, if_pos hm], fun hm => by rw [h, if_neg hm]⟩

theorem gapSeries_isNaN {T i : ℕ} (miss : ℕ → Prop) (y : ℕ → ℝ) (hi : i < T) :
    isNaN (rd (gapSeries T miss y) i) = true ↔ miss i := by
  by_cases hm : miss i
  · rw [(gapSeries_rd miss y hi).1 hm]; exact ⟨fun _ => hm, fun _ => rfl⟩
  · rw [(gapSeries_rd miss y hi).2 hm]; exact ⟨fun h => absurd h (by simp), fun h => absurd h hm⟩

theorem lastValid_some {T i p : ℕ} (miss : ℕ → Prop) (y : ℕ → ℝ) (hi : i < T) (hp : p < i) (hv : ¬ miss p)
    (hm : ∀ k, p < k → k < i → miss k) : lastValid (gapSeries T miss y) i = some p := by
  unfold lastValid
  obtain ⟨m, rfl⟩ : ∃ m, i = p + 1 + m := ⟨i - p - 1, by omega⟩
  rw [List.range_add, List.filter_append, List.range_succ, List.filter_append]
  have h1 : List.filter (fun j => !(isNaN (rd (gapSeries T miss y) j))) [p] = [p] := by
    rw [List.filter_singleton]
    have : isNaN (rd (gapSeries T miss y) p) = false := by
      rw [← Bool.not_eq_true, gapSeries_isNaN miss y (by omega)]; exact hv
    simp [this]
  have h2 : List.filter (fun j => !(isNaN (rd (gapSeries T miss y) j))) (List.map (fun x => p + 1 + x) (List.range m)) = [] := by
    rw [List.filter_eq_nil_iff]
    intro j hj
    obtain ⟨x, hx, rfl⟩ := List.mem_map.mp hj
    have hx' := List.mem_range.mp hx
    have := (gapSeries_isNaN miss y (i := p + 1 + x) (T := T) (by omega)).mpr (hm _ (by omega) (by omega))
    simp [this]
  rw [h1, h2]
  simp

theorem lastValid_none {T i : ℕ} (miss : ℕ → Prop) (y : ℕ → ℝ) (hi : i < T) (hm : ∀ k, k < i → miss k) :
    lastValid (gapSeries T miss y) i = none := by
  unfold lastValid
  rw [List.getLast?_eq_none_iff, List.filter_eq_nil_iff]
  intro j hj
  have hj' := List.mem_range.mp hj
  have := (gapSeries_isNaN miss y (i := j) (T := T) (by omega)).mpr (hm _ hj')
  simp [this]

theorem nextValid_some {T i q : ℕ} (miss : ℕ → Prop) (y : ℕ → ℝ) (hq : q < T) (hi : i < q) (hv : ¬ miss q)
    (hm : ∀ k, i < k → k < q → miss k) : nextValid (gapSeries T miss y) i = some q := by
  unfold nextValid
  rw [gapSeries_length, List.find?_range_eq_some]
  refine ⟨?_, List.mem_range.mpr hq, fun j hj => ?_⟩
  · have : isNaN (rd (gapSeries T miss y) q) = false := by
      rw [← Bool.not_eq_true, gapSeries_isNaN miss y hq]; exact hv
    simp [this, hi]
  · by_cases hij : i < j
    · have := (gapSeries_isNaN miss y (i := j) (T := T) (by omega)).mpr (hm _ hij hj)
      simp [this]
    · simp [hij]

theorem nextValid_none {T i : ℕ} (miss : ℕ → Prop) (y : ℕ → ℝ) (hm : ∀ k, i < k → k < T → miss k) :
    nextValid (gapSeries T miss y) i = none := by
  unfold nextValid
  rw [gapSeries_length, List.find?_eq_none]
  intro j hj
  have hj' := List.mem_range.mp hj
  by_cases hij : i < j
  · have := (gapSeries_isNaN miss y (i := j) (T := T) hj').mpr (hm _ hij hj')
    simp [this]
  · simp [hij]

/-- **C177** Recorded values stay; a gap of at most `g` steps from the value before to the value after it is filled with the line between these; longer gaps and those at the
ends of the record stay NaN. -/
theorem C177_fill (T g : ℕ) (miss : ℕ → Prop) (y : ℕ → ℝ) :
    (interpolateNa (gapSeries T miss y) g).length = T ∧ ∀ i < T,
      (¬ miss i → (interpolateNa (gapSeries T miss y) g)[i]? = some (.fin (y i))) ∧
      (∀ p q, p < i → i < q → q < T → ¬ miss p → ¬ miss q → (∀ k, p < k → k < q → miss k) →
        (interpolateNa (gapSeries T miss y) g)[i]? =
          some (if q ≤ p + g then .fin (y p + (y q - y p) * (((i : ℝ) - p) / ((q : ℝ) - p))) else .nan)) ∧
      ((∀ k ≤ i, miss k) → (interpolateNa (gapSeries T miss y) g)[i]? = some .nan) ∧
      ((∀ k, i ≤ k → k < T → miss k) → (interpolateNa (gapSeries T miss y) g)[i]? = some .nan) := by
  refine ⟨by simp [interpolateNa, gapSeries_length], fun i hi => ?_⟩
  have hget : (interpolateNa (gapSeries T miss y) g)[i]? = some (
      if isNaN (rd (gapSeries T miss y) i) then
        match lastValid (gapSeries T miss y) i, nextValid (gapSeries T miss y) i with
        | some p, some q =>
          if q - p ≤ g then
            ((rd (gapSeries T miss y) q -ᶠ rd (gapSeries T miss y) p) /ᶠ PyFloat.ofInt ((q : Int) - p)) *ᶠ PyFloat.ofInt ((i : Int) - p) +ᶠ
              rd (gapSeries T miss y) p
          else PyFloat.nan
        | _, _ => PyFloat.nan
      else rd (gapSeries T miss y) i) := by
    unfold interpolateNa
    rw [List.getElem?_map, List.getElem?_range (by rw [gapSeries_length]; exact hi)]
    rfl
  rw [hget]
  refine ⟨fun hv => ?_, fun p q hpi hiq hqT hp hq hm => ?_, fun hm => ?_, fun hm => ?_⟩
  · rw [if_neg (by rw [gapSeries_isNaN miss y hi]; exact hv), (gapSeries_rd miss y hi).2 hv]
  · rw [if_pos ((gapSeries_isNaN miss y hi).mpr (hm i hpi hiq)), lastValid_some miss y hi hpi hp fun k k1 k2 => hm k k1 (by omega),
      nextValid_some miss y hqT hiq hq fun k k1 k2 => hm k (by omega) k2]
    dsimp only
    by_cases hg : q ≤ p + g
    · rw [if_pos hg, if_pos (by omega), (gapSeries_rd miss y (by omega)).2 hp, (gapSeries_rd miss y hqT).2 hq]
      have hne : (((q : Int) - p : Int) : ℝ) ≠ 0 := by
        have : (p : ℝ) < q := by exact_mod_cast hpi.trans hiq
        push_cast
        exact (sub_pos.mpr this).ne'
      rw [Fl.pf_sub_fin, Fl.pf_ofInt, Fl.pf_ofInt, Fl.pf_div_fin_ne _ _ hne, Fl.pf_mul_fin, Fl.pf_add_fin]
      congr 2
      push_cast
      ring
    · rw [if_neg hg, if_neg (by omega)]
      rfl
  · rw [if_pos ((gapSeries_isNaN miss y hi).mpr (hm i le_rfl)), lastValid_none miss y hi fun k hk => hm k hk.le]
    rfl
  · rw [if_pos ((gapSeries_isNaN miss y hi).mpr (hm i le_rfl hi)), nextValid_none miss y fun k k1 k2 => hm k k1.le k2]
    cases lastValid (gapSeries T miss y) i <;> rfl

/-- **C177** From the values of the logger: where neither `tsl` nor `rsl` has its default value, the difference is kept; elsewhere it counts as missing. -/
theorem C177_defaults (T g : ℕ) (dt dr : ℝ) (x z : ℕ → ℝ) :
    preprocess (.fin dt) (.fin dr) (series T x) (series T z) g =
      interpolateNa (gapSeries T (fun t => x t = dt ∨ z t = dr) fun t => x t - z t) g := by
  classical
  unfold preprocess
  congr 1
  apply List.ext_getElem?
  intro i
  by_cases hi : i < T
  · rw [gapSeries_get _ _ hi, List.getElem?_zipWith, whereNot, whereNot, List.getElem?_map, List.getElem?_map, series_get _ hi, series_get _ hi]
    simp only [Option.map_some]
    by_cases h1 : x i = dt <;> by_cases h2 : z i = dr <;> simp [h1, h2]
  · rw [List.getElem?_eq_none (by simp [whereNot, series_length]; omega), List.getElem?_eq_none (by rw [gapSeries_length]; omega)]

/-- **C177** Error of filled values: if the recorded values are within `δ` of a level `Λ` that changes by at most `Δ` per step where values are missing, a value filled in between steps `p` and `q` is
within `δ + 2 Δ (i - p) (q - i) / (q - p)`, hence within `δ + Δ g / 2`, of the level. -/
theorem C177_error (T g : ℕ) (miss : ℕ → Prop) (y Λ : ℕ → ℝ) (δ Δ : ℝ) (hy : ∀ t < T, ¬ miss t → |y t - Λ t| ≤ δ)
    (hΛ : ∀ t, t + 1 < T → miss t ∨ miss (t + 1) → |Λ (t + 1) - Λ t| ≤ Δ) (i p q : ℕ) (hpi : p < i) (hiq : i < q) (hqT : q < T) (hp : ¬ miss p) (hq : ¬ miss q)
    (hm : ∀ k, p < k → k < q → miss k) (hg : q ≤ p + g) :
    ∃ v, (interpolateNa (gapSeries T miss y) g)[i]? = some (.fin v) ∧
      |v - Λ i| ≤ δ + 2 * Δ * (((i : ℝ) - p) * ((q : ℝ) - i) / ((q : ℝ) - p)) ∧ |v - Λ i| ≤ δ + Δ * g / 2 := by
  have h := ((C177_fill T g miss y).2 i (by omega)).2.1 p q hpi hiq hqT hp hq hm
  rw [if_pos hg] at h
  refine ⟨_, h, ?_⟩
  have lip : ∀ m s, p ≤ s → s + m ≤ q → |Λ (s + m) - Λ s| ≤ Δ * m := by
    intro m
    induction m with
    | zero => intro s _ _; simp
    | succ m ih =>
      intro s hs0 hs
      have e1 := ih s hs0 (by omega)
      have e2 := hΛ (s + m) (by omega) (by
        rcases Nat.lt_or_ge p (s + m) with h | h
        · exact .inl (hm _ h (by omega))
        · exact .inr (hm _ (by omega) (by omega)))
      have e3 := abs_add_le (Λ (s + m + 1) - Λ (s + m)) (Λ (s + m) - Λ s)
      rw [show Λ (s + m + 1) - Λ (s + m) + (Λ (s + m) - Λ s) = Λ (s + (m + 1)) - Λ s by rw [← add_assoc]; ring] at e3
      push_cast
      linarith
  have l1 := lip (i - p) p le_rfl (by omega)
  have l2 := lip (q - i) i hpi.le (by omega)
  rw [show p + (i - p) = i by omega, Nat.cast_sub hpi.le] at l1
  rw [show i + (q - i) = q by omega, Nat.cast_sub hiq.le] at l2
  have hΔ : 0 ≤ Δ := (abs_nonneg _).trans (hΛ p (by omega) (.inr (hm _ (by omega) (by omega))))
  have c1 : (p : ℝ) < i := by exact_mod_cast hpi
  have c2 : (i : ℝ) < q := by exact_mod_cast hiq
  have c3 : (q : ℝ) ≤ p + g := by exact_mod_cast hg
  obtain ⟨θ, hθ⟩ : ∃ θ : ℝ, θ = ((i : ℝ) - p) / ((q : ℝ) - p) := ⟨_, rfl⟩
  have hqp : (0 : ℝ) < (q : ℝ) - p := by linarith
  have t0 : 0 ≤ θ := by rw [hθ]; exact div_nonneg (by linarith) hqp.le
  have t1 : θ ≤ 1 := by rw [hθ, div_le_one hqp]; linarith
  have ei : (i : ℝ) - p = θ * (q - p) := by rw [hθ]; field_simp
  have eq : (q : ℝ) - i = (1 - θ) * (q - p) := by linarith
  have main : |y p + (y q - y p) * (((i : ℝ) - p) / ((q : ℝ) - p)) - Λ i| ≤ δ + 2 * Δ * (θ * (1 - θ) * (q - p)) := by
    rw [← hθ]
    have a1 := abs_le.mp (hy p (by omega) hp)
    have a2 := abs_le.mp (hy q hqT hq)
    have a3 := abs_le.mp l1
    have a4 := abs_le.mp l2
    rw [ei] at a3
    rw [eq] at a4
    have u : 0 ≤ 1 - θ := by linarith
    rw [abs_le]
    constructor <;> nlinarith [mul_le_mul_of_nonneg_left a1.1 u, mul_le_mul_of_nonneg_left a1.2 u, mul_le_mul_of_nonneg_left a2.1 t0,
      mul_le_mul_of_nonneg_left a2.2 t0, mul_le_mul_of_nonneg_left a3.1 u, mul_le_mul_of_nonneg_left a3.2 u,
      mul_le_mul_of_nonneg_left a4.1 t0, mul_le_mul_of_nonneg_left a4.2 t0]
  refine ⟨main.trans (le_of_eq ?_), main.trans ?_⟩
  · rw [ei, eq]
    field_simp
  · have : θ * (1 - θ) ≤ 1 / 4 := by nlinarith [sq_nonneg (θ - 1 / 2)]
    have h5 : θ * (1 - θ) * (q - p) ≤ 1 / 4 * g := mul_le_mul this (by linarith) hqp.le (by norm_num)
    nlinarith

/-- **C177** If every gap lies inside the record and is not longer than `g`, the filled record is complete, and every value of it, stored with an error up to
`η`, is within `δ + Δ g / 2 + η` of the level. -/
theorem C177_levels (T g : ℕ) (miss : ℕ → Prop) (y Λ : ℕ → ℝ) (δ Δ : ℝ) (hΔ : 0 ≤ Δ) (hy : ∀ t < T, ¬ miss t → |y t - Λ t| ≤ δ)
    (hΛ : ∀ t, t + 1 < T → miss t ∨ miss (t + 1) → |Λ (t + 1) - Λ t| ≤ Δ)
    (hgap : ∀ i < T, miss i → ∃ p q, p < i ∧ i < q ∧ q < T ∧ ¬ miss p ∧ ¬ miss q ∧ (∀ k, p < k → k < q → miss k) ∧ q ≤ p + g) :
    ∃ v : ℕ → ℝ, interpolateNa (gapSeries T miss y) g = series T v ∧ (∀ t < T, ¬ miss t → v t = y t) ∧
      ∀ t < T, ∀ u η : ℝ, |u - v t| ≤ η → |u - Λ t| ≤ δ + Δ * g / 2 + η := by
  have hex : ∀ t : ℕ, ∃ v : ℝ, t < T → (interpolateNa (gapSeries T miss y) g)[t]? = some (.fin v) ∧ (¬ miss t → v = y t) ∧
      |v - Λ t| ≤ δ + Δ * g / 2 := by
    intro t
    by_cases ht : t < T
    · by_cases hm : miss t
      · obtain ⟨p, q, h1, h2, h3, h4, h5, h6, h7⟩ := hgap t ht hm
        obtain ⟨v, hv, -, he⟩ := C177_error T g miss y Λ δ Δ hy hΛ t p q h1 h2 h3 h4 h5 h6 h7
        exact ⟨v, fun _ => ⟨hv, fun h => absurd hm h, he⟩⟩
      · refine ⟨y t, fun _ => ⟨((C177_fill T g miss y).2 t ht).1 hm, fun _ => rfl, (hy t ht hm).trans ?_⟩⟩
        have : 0 ≤ Δ * g / 2 := by positivity
        linarith
    · exact ⟨0, fun h => absurd h ht⟩
  choose v hv using hex
  refine ⟨v, ?_, fun t ht => (hv t ht).2.1, fun t ht u η hu => ?_⟩
  · apply List.ext_getElem?
    intro t
    by_cases ht : t < T
    · rw [(hv t ht).1, series_get _ ht]
    · rw [List.getElem?_eq_none (by rw [(C177_fill T g miss y).1]; omega), List.getElem?_eq_none (by rw [series_length]; omega)]
  · have := (hv t ht).2.2
    rw [abs_le] at *
    constructor <;> linarith [this.1, this.2, hu.1, hu.2]

/-- **C177** The whole documented workflow: recorded levels with errors up to `δ` and short gaps, filled by linear interpolation (stored with errors up to `η`), wet flags by
rolling standard deviation (errors up to `ε`), `baseline_constant`, `waa_schleiss_2013` and `calc_R_from_A` in IEEE doubles. The bounds of C176 hold with
`δ + Δ g / 2 + η` for the level error, `Δ` being the largest change of the level per step where values are missing. -/
theorem C177_rain [PyPow DblR] (hacc : PowClose) (trsl : List DblR) (rain wet : List Bool) (n w g : ℕ)
    (waaMax deltaT tau L a b Rmin : DblR)
    (M d t B m l α β rm D thr ε A0 δ Δ η e : ℝ) (hn : 1 ≤ n) (hn2 : n ≤ 2 ^ 25)
    (hM : waaMax.val = .fin M) (hd : deltaT.val = .fin d) (ht : tau.val = .fin t) (hr : RateRange L a b l α β) (hrm : Rmin.val = .fin rm)
    (hd0 : 0 ≤ d) (h3 : 3 * d ≤ t) (ht1 : (2 : ℝ) ^ (-100 : ℤ) ≤ t) (hd2 : d ≤ 2 ^ (500 : ℤ)) (hM0 : 0 ≤ M) (hMB : M ≤ B)
    (hB1 : (2 : ℝ) ^ (-900 : ℤ) ≤ B) (hB2 : B ≤ 2 ^ (290 : ℤ)) (hT : (8 * B / (α * l)) ^ (1 / β) ≤ 2 ^ (64 : ℤ))
    (hm : (trsl.length : ℝ) ≤ m ∨ t ≤ 3 * d * m) (hm2 : m ≤ 2 ^ 47)
    (R y z : ℕ → ℝ) (miss : ℕ → Prop) (hδ : 0 ≤ δ) (hΔ : 0 ≤ Δ) (hη : 0 ≤ η) (hR : ∀ s < trsl.length, WetAt rain s → 0 ≤ R s)
    (h1 : ∀ s < n, ¬ WetAt rain s)
    (hlev : ∀ s < trsl.length, ¬ miss s → |y s - levelAt (WetAt rain) M (3 * d / t) (fun _ => D) (fun s => α * R s ^ β * l) s| ≤ δ)
    (hΛ : ∀ s, s + 1 < trsl.length → miss s ∨ miss (s + 1) → |levelAt (WetAt rain) M (3 * d / t) (fun _ => D) (fun s => α * R s ^ β * l) (s + 1) -
      levelAt (WetAt rain) M (3 * d / t) (fun _ => D) (fun s => α * R s ^ β * l) s| ≤ Δ)
    (hgap : ∀ i < trsl.length, miss i → ∃ p q, p < i ∧ i < q ∧ q < trsl.length ∧ ¬ miss p ∧ ¬ miss q ∧ (∀ k, p < k → k < q → miss k) ∧
      q ≤ p + g)
    (hz : trsl.map RFl.val = series trsl.length z) (hB : ∀ s < trsl.length, |z s| ≤ B)
    (hstore : ∀ s < trsl.length, ∀ v, (interpolateNa (gapSeries trsl.length miss y) g)[s]? = some (.fin v) → |z s - v| ≤ η)
    (he : e = 4 * (δ + Δ * g / 2 + η) + (10 * (n * n) + 48 * m + 11) * (2 ^ (-53 : ℤ) * B))
    (hw : 1 ≤ w) (hε : 0 ≤ thr + ε) (hflags : RsdFlags wet trsl.length w thr ε z)
    (hA : ∀ s < trsl.length, WetAt rain s → A0 ≤ α * R s ^ β * l) (hA0 : 2 * (δ + Δ * g / 2 + η) < A0)
    (hthr : (w : ℝ) ^ 2 * (thr + ε) ^ 2 < (w - 1) * (A0 - 2 * (δ + Δ * g / 2 + η)) ^ 2)
    (hwin : ∀ s < trsl.length, WetAt rain s → w / 2 ≤ s ∧ s + (w - 1) / 2 < trsl.length ∧
      ∃ k, s - w / 2 ≤ k ∧ k ≤ s + (w - 1) / 2 ∧ ¬ WetAt rain k) :
    ∃ rs, rainChainF n waaMax deltaT tau L a b Rmin trsl wet = .ok rs ∧ rs.length = trsl.length ∧
      ∀ s r, rs[s]? = some r → ∃ ρ, r.val = .fin (if ρ < rm then 0 else ρ) ∧ 0 ≤ ρ ∧
        (¬ WetAt rain s → ρ ≤ (1 + 2 ^ (-46 : ℤ)) * lawRate α β l e + 2 ^ (-99 : ℤ)) ∧
        (WetAt rain s → (1 - 2 ^ (-46 : ℤ)) * lawRate α β l (α * R s ^ β * l - e) - 2 ^ (-99 : ℤ) ≤ ρ ∧
          ρ ≤ (1 + 2 ^ (-46 : ℤ)) * lawRate α β l (α * R s ^ β * l + e) + 2 ^ (-99 : ℤ)) := by
  obtain ⟨v, hv, -, hlv⟩ := C177_levels trsl.length g miss y (levelAt (WetAt rain) M (3 * d / t) (fun _ => D) (fun s => α * R s ^ β * l)) δ Δ hΔ hlev
    hΛ hgap
  subst he
  have hpos : 0 ≤ δ + Δ * g / 2 + η := by positivity
  exact C176_doubles hacc trsl rain wet n w waaMax deltaT tau L a b Rmin M d t B m l α β rm D thr ε A0 (δ + Δ * g / 2 + η) hn hn2 hM hd ht hr hrm hd0 h3
    ht1 hd2 hM0 hMB hB1 hB2 hT hm hm2 R z hpos hR h1 hz hB
    (fun s hs => hlv s hs (z s) η (hstore s hs (v s) (by rw [hv, series_get _ hs]))) hw hε hflags hA hA0 hthr hwin

/-- Levels 50, -, 54, -, -, - with at most two steps between values: the first gap is filled, the one at the end is not. -/
example : interpolateNa (F := Fl ℚ) [.fin (50 : ℚ), .nan, .fin 54, .nan, .nan, .nan] 2 = [.fin 50, .fin 52, .fin 54, .nan, .nan, .nan] ∧
    interpolateNa (F := Fl ℚ) [.fin (50 : ℚ), .nan, .nan, .fin 56] 2 = [.fin 50, .nan, .nan, .fin 56] ∧
    preprocess (F := Fl ℚ) (.fin (255 : ℚ)) (.fin (-99)) [.fin 10, .fin 255, .fin 10, .fin 10] [.fin (-50), .fin (-50), .fin (-99), .fin (-47)] 3 =
      [.fin 60, .fin 59, .fin 58, .fin 57] := by
  decide +kernel

/-- Dry level 50.1 dB, rain of 0.96 and 0.928 mm/h at steps 3 and 4 of 7, film of water as `waa_max = 2`, `delta_t = 1`, `tau = 15` give; levels recorded in whole dB,
that of step 1 missing. With a window of three steps and threshold 0.8 dB the workflow in doubles gives between 0.91 and 1.01 mm/h at step 3. -/
example : letI := correctPow (binary64 (K := ℝ))
    let D : ℕ → DblR := fun k => PyFloat.ofInt k
    ∃ wet, wetRsd (series 7 fun s => if s = 3 ∨ s = 4 then (60 : ℝ) else 50) 3 (.fin 0.8) = .ok wet ∧
      ∃ rs r ρ, rainChainF 2 (D 2) (D 1) (D 15) (D 10) (D 1) (D 1) (D 0) [D 50, D 50, D 50, D 60, D 60, D 50, D 50] wet = .ok rs ∧
        rs[3]? = some r ∧ r.val = .fin ρ ∧ 91 / 100 ≤ ρ ∧ ρ ≤ 101 / 100 := by
  let _ := correctPow (binary64 (K := ℝ))
  intro D
  have v : ∀ k : ℕ, k ≤ 60 → (D k).val = .fin (k : ℝ) := fun k hk => val_ofNat_b64 k (hk.trans (by norm_num))
  have lo : ∀ (x : ℝ) (j : ℤ), 1 ≤ x → j ≤ 0 → (2 : ℝ) ^ j ≤ x := fun x j hx hj =>
    le_trans (zpow_le_one_of_nonpos₀ (by norm_num) hj) hx
  have hi : ∀ (x : ℝ) (j : ℤ), x ≤ 2 ^ (10 : ℤ) → 10 ≤ j → x ≤ 2 ^ j := fun x j hx hj =>
    le_trans hx (zpow_le_zpow_right₀ (by norm_num) hj)
  have hr : RateRange (D 10) (D 1) (D 1) 10 1 1 :=
    ⟨by simpa using v 10 (by norm_num), by simpa using v 1 (by norm_num), by simpa using v 1 (by norm_num),
      lo _ _ (by norm_num) (by norm_num), hi _ _ (by norm_num) (by norm_num), lo _ _ (by norm_num) (by norm_num),
      hi _ _ (by norm_num) (by norm_num), by norm_num, by norm_num⟩
  obtain ⟨rain, hrain⟩ : ∃ rain : List Bool, rain = [false, false, false, true, true, false, false] := ⟨_, rfl⟩
  have wcase : ∀ s, WetAt rain s ↔ s = 3 ∨ s = 4 := by
    intro s
    by_cases hs : s < 7
    · have : s = 0 ∨ s = 1 ∨ s = 2 ∨ s = 3 ∨ s = 4 ∨ s = 5 ∨ s = 6 := by omega
      rcases this with rfl | rfl | rfl | rfl | rfl | rfl | rfl <;> simp [WetAt, hrain]
    · have : rain[s]? = none := List.getElem?_eq_none (by simp [hrain]; omega)
      simp [WetAt, this]
      omega
  obtain ⟨wet, hwet, hflags⟩ := C176_exact 7 3 (by norm_num) (by norm_num) 0.8 (by norm_num) fun s => if s = 3 ∨ s = 4 then (60 : ℝ) else 50
  refine ⟨wet, hwet, ?_⟩
  have lev : ∀ s < 7, |(if s = 3 ∨ s = 4 then (60 : ℝ) else 50) - levelAt (WetAt rain) 2 (3 * 1 / 15) (fun _ => 50 + 1 / 10)
      (fun s => 1 * (if s = 3 then 96 / 100 else 928 / 1000 : ℝ) ^ (1 : ℝ) * 10) s| ≤ 1 / 10 := by
    intro s hs
    have n1 : ¬ WetAt rain 2 := by rw [wcase]; omega
    have n2 : WetAt rain 3 := by rw [wcase]; omega
    have n3 : WetAt rain 4 := by rw [wcase]; omega
    unfold levelAt
    by_cases h3 : s = 3
    · subst h3
      rw [if_pos n2]
      simp only [filmAt, if_pos n2, if_neg n1]
      norm_num [Real.rpow_one]
    by_cases h4 : s = 4
    · subst h4
      rw [if_pos n3]
      simp only [filmAt, if_pos n2, if_pos n3, if_neg n1]
      norm_num [Real.rpow_one]
    · rw [if_neg (show ¬ WetAt rain s by rw [wcase]; omega), if_neg (by omega)]
      norm_num
  obtain ⟨rs, hrs, hl, h⟩ := C177_rain correctPow_close [D 50, D 50, D 50, D 60, D 60, D 50, D 50] rain wet 2 3 2
    (D 2) (D 1) (D 15) (D 10) (D 1) (D 1) (D 0) 2 1 15 64 7 10 1 1 0 (50 + 1 / 10) 0.8 0 9 (1 / 10) 0 0 _ (by norm_num) (by norm_num)
    (by simpa using v 2 (by norm_num)) (by simpa using v 1 (by norm_num)) (by simpa using v 15 (by norm_num)) hr
    (by simpa using v 0 (by norm_num)) (by norm_num) (by norm_num) (lo _ _ (by norm_num) (by norm_num))
    (hi _ _ (by norm_num) (by norm_num)) (by norm_num) (by norm_num) (lo _ _ (by norm_num) (by norm_num))
    (hi _ _ (by norm_num) (by norm_num)) (by norm_num) (.inl (by norm_num)) (by norm_num)
    (fun s => if s = 3 then 96 / 100 else 928 / 1000) (fun s => if s = 3 ∨ s = 4 then (60 : ℝ) else 50)
    (fun s => if s = 3 ∨ s = 4 then (60 : ℝ) else 50) (fun s => s = 1) (by norm_num) le_rfl le_rfl
    (by intro s _ _; split_ifs <;> norm_num)
    (by
      intro s hs h
      rcases (wcase s).mp h with h | h <;> omega)
    (fun s hs _ => lev s (by simpa using hs))
    (by
      intro s _ hs
      have h1 : ¬ WetAt rain s := by rw [wcase]; omega
      have h2 : ¬ WetAt rain (s + 1) := by rw [wcase]; omega
      unfold levelAt
      rw [if_neg h1, if_neg h2]
      norm_num)
    (by
      rintro i _ rfl
      exact ⟨0, 2, by norm_num, by norm_num, by norm_num, by norm_num, by norm_num, fun k h1 h2 => by omega, by norm_num⟩)
    (by
      have h5 := v 50 (by norm_num)
      have h6 := v 60 (by norm_num)
      simp [series, List.range_succ, h5, h6])
    (by intro s _; split_ifs <;> norm_num)
    (by
      intro s hs u hu
      simp only [List.length_cons, List.length_nil, Nat.zero_add, Nat.reduceAdd] at hu
      have hf := (C177_fill 7 2 (fun s => s = 1) fun s => if s = 3 ∨ s = 4 then (60 : ℝ) else 50).2 s (by simpa using hs)
      by_cases h1 : s = 1
      · have := hf.2.1 0 2 (by omega) (by omega) (by omega) (by omega) (by omega) fun k _ _ => by omega
        rw [this] at hu
        norm_num at hu
        rw [← hu, h1]
        norm_num
      · rw [hf.1 h1] at hu
        norm_num at hu
        rw [← hu]
        norm_num) rfl
    (by norm_num) (by norm_num) hflags
    (by intro s _ _; rw [Real.rpow_one]; split_ifs <;> norm_num) (by norm_num) (by norm_num)
    (by
      intro s _ h
      rcases (wcase s).mp h with rfl | rfl
      · exact ⟨by norm_num, by norm_num, 2, by norm_num, by norm_num, by rw [wcase]; omega⟩
      · exact ⟨by norm_num, by norm_num, 5, by norm_num, by norm_num, by rw [wcase]; omega⟩)
  have hlr : 3 < rs.length := by rw [hl]; simp
  obtain ⟨ρ, g1, g2, -, g4⟩ := h 3 _ (getElem?_eq_rd hlr)
  obtain ⟨g5, g6⟩ := g4 ((wcase 3).mpr (.inl rfl))
  refine ⟨rs, rd rs 3, ρ, hrs, getElem?_eq_rd hlr, by rw [g1, if_neg (by linarith)], ?_, ?_⟩
  · unfold lawRate at g5
    rw [show (1 : ℝ) / 1 = 1 by norm_num] at g5
    simp only [Real.rpow_one] at g5
    rw [max_eq_right (by norm_num)] at g5
    norm_num at g5
    linarith
  · unfold lawRate at g6
    rw [show (1 : ℝ) / 1 = 1 by norm_num] at g6
    simp only [Real.rpow_one] at g6
    rw [max_eq_right (by norm_num)] at g6
    norm_num at g6
    linarith

end Verif.Props
