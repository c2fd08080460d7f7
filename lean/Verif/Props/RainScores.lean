import Verif.Props.LevelsToRain
import Verif.Props.ScoreBounds
import Verif.Props.Temporal
import Mathlib.Analysis.Convex.SpecificFunctions.Basic
import Mathlib.Analysis.MeanInequalitiesPow

/-!
# Property C165: errors of the rain rates in mm/h, and scores, of a record processed in doubles
-/

namespace Verif.Props
open Verif Verif.Baseline Verif.Waa Verif.Bin Verif.KR Verif.Stats

/-- how far powers with exponent at most 1 can be apart -/
theorem rpow_diff_small {p x y d : ℝ} (p0 : 0 < p) (p1 : p ≤ 1) (y0 : 0 ≤ y) (hyx : y ≤ x) (hd : x - y ≤ d) : x ^ p - y ^ p ≤ d ^ p := by
  have h := Real.rpow_add_le_add_rpow y0 (sub_nonneg.mpr hyx) p0.le p1
  rw [add_sub_cancel] at h
  have := Real.rpow_le_rpow (sub_nonneg.mpr hyx) hd p0.le
  linarith

/-- how far powers with exponent at least 1 can be apart -/
theorem rpow_diff_large {p x y d X : ℝ} (p1 : 1 ≤ p) (y0 : 0 ≤ y) (hyx : y ≤ x) (hd : x - y ≤ d) (hX : x ≤ X) :
    x ^ p - y ^ p ≤ p * X ^ (p - 1) * d := by
  have d0 : 0 ≤ d := (sub_nonneg.mpr hyx).trans hd
  rcases (y0.trans hyx).eq_or_lt with h0 | x0
  · have : y = 0 := le_antisymm (by linarith) y0
    rw [← h0, this, sub_self]
    have : 0 ≤ X := by linarith
    positivity
  · have hb := one_add_mul_self_le_rpow_one_add (by have := div_nonneg y0 x0.le; linarith : -1 ≤ y / x - 1) p1
    rw [add_sub_cancel, Real.div_rpow y0 x0.le] at hb
    have hxp : 0 < x ^ p := Real.rpow_pos_of_pos x0 p
    have e : x ^ p = x ^ (p - 1) * x := by
      rw [← Real.rpow_add_one x0.ne', sub_add_cancel]
    have h1 : x ^ p * (1 + p * (y / x - 1)) ≤ y ^ p := by
      have := mul_le_mul_of_nonneg_left hb hxp.le
      rwa [mul_div_cancel₀ _ hxp.ne'] at this
    have h2 : x ^ p * (1 + p * (y / x - 1)) = x ^ p - p * x ^ (p - 1) * (x - y) := by
      rw [e]
      field_simp
      ring
    have h3 : p * x ^ (p - 1) * (x - y) ≤ p * X ^ (p - 1) * d := by
      have := Real.rpow_le_rpow x0.le hX (by linarith : 0 ≤ p - 1)
      exact mul_le_mul (mul_le_mul_of_nonneg_left this (by linarith)) hd (sub_nonneg.mpr hyx)
        (by have := Real.rpow_nonneg (x0.le.trans hX) (p - 1); positivity)
    linarith

/-- Error in mm/h of a rain rate in the band around the one of the attenuation. -/
theorem rate_error {α β l R Rmax e E ρ : ℝ} (hα : 0 < α) (hβ : 0 < β) (hl : 0 < l) (hR : 0 ≤ R) (hRm : R ≤ Rmax) (he : 0 ≤ e)
    (hE : 1 ≤ β ∧ (e / (α * l)) ^ (1 / β) ≤ E ∨ β ≤ 1 ∧ 1 / β * (Rmax ^ β + e / (α * l)) ^ (1 / β - 1) * (e / (α * l)) ≤ E)
    (h1 : (1 - 2 ^ (-46 : ℤ)) * lawRate α β l (α * R ^ β * l - e) - 2 ^ (-99 : ℤ) ≤ ρ)
    (h2 : ρ ≤ (1 + 2 ^ (-46 : ℤ)) * lawRate α β l (α * R ^ β * l + e) + 2 ^ (-99 : ℤ)) :
    |ρ - R| ≤ (1 + 2 ^ (-46 : ℤ)) * E + 2 ^ (-46 : ℤ) * Rmax + 2 ^ (-99 : ℤ) := by
  have αl : 0 < α * l := mul_pos hα hl
  have p0 : 0 < 1 / β := one_div_pos.mpr hβ
  have q0 : 0 ≤ R ^ β := Real.rpow_nonneg hR β
  have eR : (R ^ β) ^ (1 / β) = R := by rw [← Real.rpow_mul hR, mul_one_div_cancel hβ.ne', Real.rpow_one]
  set d := e / (α * l) with hd
  have d0 : 0 ≤ d := div_nonneg he αl.le
  have e1 : lawRate α β l (α * R ^ β * l + e) = (R ^ β + d) ^ (1 / β) := by
    unfold lawRate
    rw [max_eq_right (by positivity), hd]
    congr 1
    field_simp
  have e2 : lawRate α β l (α * R ^ β * l - e) = (max 0 (R ^ β - d)) ^ (1 / β) := by
    unfold lawRate
    congr 1
    rw [← max_div_div_right αl.le, zero_div, hd]
    congr 1
    field_simp
  have key : (R ^ β + d) ^ (1 / β) - R ≤ E ∧ R - (max 0 (R ^ β - d)) ^ (1 / β) ≤ E := by
    have m1 : max 0 (R ^ β - d) ≤ R ^ β := max_le q0 (by linarith)
    have m2 : R ^ β - max 0 (R ^ β - d) ≤ d := by linarith [le_max_right 0 (R ^ β - d)]
    rcases hE with ⟨b1, h⟩ | ⟨b1, h⟩
    · have p1 : 1 / β ≤ 1 := by rw [div_le_one hβ]; exact b1
      have k1 := rpow_diff_small p0 p1 q0 (by linarith : R ^ β ≤ R ^ β + d) (by linarith : R ^ β + d - R ^ β ≤ d)
      have k2 := rpow_diff_small p0 p1 (le_max_left 0 (R ^ β - d)) m1 m2
      rw [eR] at k1 k2
      constructor <;> linarith
    · have p1 : 1 ≤ 1 / β := by rw [le_div_iff₀ hβ]; linarith
      have mx : R ^ β + d ≤ Rmax ^ β + d := by linarith [Real.rpow_le_rpow hR hRm hβ.le]
      have k1 := rpow_diff_large p1 q0 (by linarith : R ^ β ≤ R ^ β + d) (by linarith : R ^ β + d - R ^ β ≤ d) mx
      have k2 := rpow_diff_large p1 (le_max_left 0 (R ^ β - d)) m1 m2 (by linarith : R ^ β ≤ Rmax ^ β + d)
      rw [eR] at k1 k2
      constructor <;> linarith
  obtain ⟨k1, k2⟩ := key
  rw [e1] at h2
  rw [e2] at h1
  generalize (R ^ β + d) ^ (1 / β) = U at k1 h2
  generalize (max 0 (R ^ β - d)) ^ (1 / β) = V at k2 h1
  have E0 : 0 ≤ E := by
    rcases hE with ⟨-, h⟩ | ⟨-, h⟩
    · exact (Real.rpow_nonneg d0 _).trans h
    · refine le_trans ?_ h
      have := Real.rpow_nonneg (hR.trans hRm) β
      positivity
  have t0 : (0 : ℝ) ≤ 2 ^ (-46 : ℤ) := by positivity
  have t1 : (2 : ℝ) ^ (-46 : ℤ) ≤ 1 := by norm_num
  generalize (2 : ℝ) ^ (-46 : ℤ) = t at *
  generalize (2 : ℝ) ^ (-99 : ℤ) = s at *
  have a1 := mul_le_mul_of_nonneg_left (by linarith : U ≤ R + E) (by linarith : 0 ≤ 1 + t)
  have a2 := mul_le_mul_of_nonneg_left (by linarith : R - E ≤ V) (by linarith : 0 ≤ 1 - t)
  have a3 := mul_le_mul_of_nonneg_left hRm t0
  have a4 := mul_nonneg t0 E0
  rw [abs_le]
  constructor <;> nlinarith only [h1, h2, a1, a2, a3, a4]

/-- The rain that fell: none at dry steps. -/
noncomputable def rainFell (wet : List Bool) (R : ℕ → ℝ) (s : ℕ) : ℝ := if WetAt wet s then R s else 0

/-- Errors and scores of a series of rates that are in the band around the true ones. -/
theorem scores_of_band {α β l Rmax e E rm : ℝ} (hα : 0 < α) (hβ : 0 < β) (hl : 0 < l) (he : 0 ≤ e) (hrm : 0 ≤ rm) (hRm0 : 0 ≤ Rmax)
    (hE : 1 ≤ β ∧ (e / (α * l)) ^ (1 / β) ≤ E ∨ β ≤ 1 ∧ 1 / β * (Rmax ^ β + e / (α * l)) ^ (1 / β - 1) * (e / (α * l)) ≤ E)
    {D : ℝ} (hD : D = (1 + 2 ^ (-46 : ℤ)) * E + 2 ^ (-46 : ℤ) * Rmax + 2 ^ (-99 : ℤ))
    (N : ℕ) (wet : List Bool) (R : ℕ → ℝ) (hR : ∀ s < N, WetAt wet s → 0 ≤ R s ∧ R s ≤ Rmax) (rs : List DblR) (hN : rs.length = N)
    (h : ∀ s r, rs[s]? = some r → ∃ ρ, r.val = .fin (if ρ < rm then 0 else ρ) ∧ 0 ≤ ρ ∧
      (1 - 2 ^ (-46 : ℤ)) * lawRate α β l (rainAtt wet α β l R s - e) - 2 ^ (-99 : ℤ) ≤ ρ ∧
      ρ ≤ (1 + 2 ^ (-46 : ℤ)) * lawRate α β l (rainAtt wet α β l R s + e) + 2 ^ (-99 : ℤ)) :
    (∀ s r, rs[s]? = some r → ∃ y, r.val = .fin y ∧ 0 ≤ y ∧ |y - rainFell wet R s| ≤ D + rm ∧
      (rm + D ≤ rainFell wet R s → |y - rainFell wet R s| ≤ D) ∧ (rainFell wet R s < rm - D → y = 0)) ∧
    (0 < N → ∀ thr : ℝ, ∃ (m : RainError (Fl ℝ)) (rmse mae mr mp : ℝ),
      calcRainErrorPerformanceMetrics (series N (rainFell wet R)) (rs.map (·.val)) (.fin thr) = .ok m ∧
      m.rootMeanSquareError = .fin rmse ∧ m.meanAbsoluteError = .fin mae ∧ m.rMeanReference = .fin mr ∧ m.rMeanPredicted = .fin mp ∧
      0 ≤ mae ∧ mae ≤ rmse ∧ rmse ≤ D + rm ∧ |mp - mr| ≤ D + rm ∧
      ((∀ s < N, rainFell wet R s ≤ thr - (D + rm) ∨ thr + (D + rm) < rainFell wet R s) →
        (m.falseWetRate = .fin 0 ∨ m.falseWetRate = .nan) ∧ (m.missedWetRate = .fin 0 ∨ m.missedWetRate = .nan))) := by
  have each : ∀ s r, rs[s]? = some r → ∃ y, r.val = .fin y ∧ 0 ≤ y ∧ |y - rainFell wet R s| ≤ D + rm ∧
      (rm + D ≤ rainFell wet R s → |y - rainFell wet R s| ≤ D) ∧ (rainFell wet R s < rm - D → y = 0) := by
    intro s r hs
    obtain ⟨ρ, hρ, ρ0, ρ1, ρ2⟩ := h s r hs
    have hsN : s < N := by rw [← hN]; exact (List.getElem?_eq_some_iff.mp hs).1
    have tr : 0 ≤ rainFell wet R s ∧ rainFell wet R s ≤ Rmax ∧ rainAtt wet α β l R s = α * rainFell wet R s ^ β * l := by
      unfold rainFell rainAtt
      by_cases hw : WetAt wet s
      · simp only [if_pos hw]; exact ⟨(hR s hsN hw).1, (hR s hsN hw).2, trivial⟩
      · simp only [if_neg hw]; exact ⟨le_rfl, hRm0, by rw [Real.zero_rpow hβ.ne']; ring⟩
    obtain ⟨t0, t1, t2⟩ := tr
    rw [t2] at ρ1 ρ2
    have k := rate_error hα hβ hl t0 t1 he hE ρ1 ρ2
    rw [← hD] at k
    obtain ⟨k1, k2⟩ := abs_le.mp k
    have D0 : 0 ≤ D := (abs_nonneg _).trans k
    by_cases hc : ρ < rm
    · rw [if_pos hc] at hρ
      refine ⟨0, hρ, le_rfl, ?_, fun h => ?_, fun _ => rfl⟩
      · rw [abs_le]; constructor <;> linarith
      · rw [abs_le]; constructor <;> linarith
    · rw [if_neg hc] at hρ
      exact ⟨ρ, hρ, ρ0, k.trans (by linarith), fun _ => k, fun h => by linarith [not_lt.mp hc]⟩
  refine ⟨each, fun N0 thr => ?_⟩
  have get : ∀ (g : ℕ → ℝ) (i : ℕ) (x : ℝ), (series N g)[i]? = some (.fin x) → i < N ∧ x = g i := by
    intro g i x hx
    have hi : i < N := by
      have := (List.getElem?_eq_some_iff.mp hx).1
      rwa [series_length] at this
    rw [series_get g hi] at hx
    injection hx with hx
    injection hx with hx
    exact ⟨hi, hx.symm⟩
  have f1 : FiniteOrNaN (series N (rainFell wet R)) := by
    intro x hx
    obtain ⟨t, -, rfl⟩ := List.mem_map.mp hx
    exact Or.inr ⟨_, rfl⟩
  have f2 : FiniteOrNaN (rs.map (·.val)) := by
    intro x hx
    obtain ⟨r, hr, rfl⟩ := List.mem_map.mp hx
    obtain ⟨s, hs, rfl⟩ := List.mem_iff_getElem.mp hr
    obtain ⟨y, hy, -⟩ := each s _ (List.getElem?_eq_getElem hs)
    exact Or.inr ⟨y, hy⟩
  have hw : WithinOf (D + rm) (series N (rainFell wet R)) (rs.map (·.val)) := by
    intro i x y hx hy
    obtain ⟨hi, rfl⟩ := get _ i x hx
    rw [List.getElem?_map, Option.map_eq_some_iff] at hy
    obtain ⟨r, hr, hr2⟩ := hy
    obtain ⟨y', hy', -, k, -⟩ := each i r hr
    rw [hr2] at hy'
    cases hy'
    exact k
  have hne : validPairs (series N (rainFell wet R)) (rs.map (·.val)) ≠ [] := by
    obtain ⟨y, hy, -⟩ := each 0 _ (List.getElem?_eq_getElem (by omega : 0 < rs.length))
    have hm : (Fl.fin (rainFell wet R 0), Fl.fin y) ∈ (series N (rainFell wet R)).zip (rs.map (·.val)) := by
      refine List.mem_iff_getElem?.mpr ⟨0, ?_⟩
      rw [List.getElem?_zip_eq_some]
      refine ⟨series_get _ N0, ?_⟩
      rw [List.getElem?_map, List.getElem?_eq_getElem (by omega : 0 < rs.length), Option.map_some, hy]
    refine List.ne_nil_of_mem (a := (Fl.fin (rainFell wet R 0), Fl.fin y)) ?_
    unfold validPairs
    exact List.mem_filter.mpr ⟨hm, by simp [okPair]⟩
  obtain ⟨m, hm, -⟩ := (C44_counts (series N (rainFell wet R)) (rs.map (·.val)) (.fin thr)).2 (by simp [hN, series_length])
  obtain ⟨rmse, mae, mr, mp, sr, sp, h1, h2, h3, h4, -, -, h7, h8, h9, h10, -⟩ := C153_errors _ _ _ m hm f1 f2 hne _ hw
  refine ⟨m, rmse, mae, mr, mp, hm, h1, h2, h3, h4, h7, h8, h9, h10, fun hgap => ?_⟩
  obtain ⟨r1, r2, -⟩ := C153_rates _ _ thr m hm f1 f2 _ hw
  have hmem : ∀ x : ℝ, Fl.fin x ∈ series N (rainFell wet R) → x ≤ thr - (D + rm) ∨ thr + (D + rm) < x := by
    intro x hx
    obtain ⟨i, hi⟩ := List.mem_iff_getElem?.mp hx
    obtain ⟨hiN, rfl⟩ := get _ i x hi
    exact hgap i hiN
  have D0 : 0 ≤ D + rm := by
    obtain ⟨y, hy, -, k, -⟩ := each 0 _ (List.getElem?_eq_getElem (by omega : 0 < rs.length))
    exact (abs_nonneg _).trans k
  refine ⟨(r1 fun x hx ⟨a, b⟩ => ?_).1, (r2 fun x hx ⟨a, b⟩ => ?_).1⟩ <;> rcases hmem x hx with k | k <;> linarith

/-- **C165** Constant baseline, in doubles, levels within `δ` of those that dry level, rain and film give (as in C157): with `e` the error of the
attenuation and `E = (e / (a L))^(1/b)` for `b ≥ 1`, `E = (1/b) (Rmax^b + e / (a L))^(1/b - 1) e / (a L)` for `b ≤ 1`, every rate is within
`D + R_min` of the rain that fell, where `D = (1 + 2^-46) E + 2^-46 Rmax + 2^-99` (within `D` from `R_min + D` on, and 0 below `R_min - D`);
RMSE, mean absolute error and bias of the record against the rain that fell are at most `D + R_min`, and without rain that close to the
threshold no step is false or missed wet. -/
theorem C165_constant [PyPow DblR] (hacc : PowClose) (trsl : List DblR) (wet : List Bool) (n : ℕ) (waaMax deltaT tau L a b Rmin : DblR)
    (M d t B m l α β rm : ℝ) (hn : 1 ≤ n) (hn2 : n ≤ 2 ^ 25) (hlen : trsl.length ≤ wet.length)
    (hM : waaMax.val = .fin M) (hd : deltaT.val = .fin d) (ht : tau.val = .fin t) (hr : RateRange L a b l α β) (hrm : Rmin.val = .fin rm)
    (hd0 : 0 ≤ d) (h3 : 3 * d ≤ t) (ht1 : (2 : ℝ) ^ (-100 : ℤ) ≤ t) (hd2 : d ≤ 2 ^ (500 : ℤ)) (hM0 : 0 ≤ M) (hMB : M ≤ B)
    (hB1 : (2 : ℝ) ^ (-900 : ℤ) ≤ B) (hB2 : B ≤ 2 ^ (290 : ℤ)) (hT : (8 * B / (α * l)) ^ (1 / β) ≤ 2 ^ (64 : ℤ))
    (hm : (trsl.length : ℝ) ≤ m ∨ t ≤ 3 * d * m) (hm2 : m ≤ 2 ^ 47)
    (dryLevel R : ℕ → ℝ) (δ : ℝ) (hδ : 0 ≤ δ) (hR : ∀ s < trsl.length, WetAt wet s → 0 ≤ R s) (h1 : ∀ s < n, ¬ WetAt wet s)
    (h2 : ∀ s < trsl.length, WetAt wet s → ∀ k, k < s → s ≤ k + n → dryLevel k = dryLevel s)
    (hx : ∀ s x, trsl[s]? = some x → ∃ y, x.val = .fin y ∧ |y| ≤ B ∧
      |y - levelAt (WetAt wet) M (3 * d / t) dryLevel (fun s => α * R s ^ β * l) s| ≤ δ)
    (hrm0 : 0 ≤ rm) (Rmax e E D : ℝ) (hRm0 : 0 ≤ Rmax) (hRm : ∀ s < trsl.length, WetAt wet s → R s ≤ Rmax)
    (he : e = 4 * δ + (10 * (n * n) + 48 * m + 11) * (2 ^ (-53 : ℤ) * B))
    (hE : 1 ≤ β ∧ (e / (α * l)) ^ (1 / β) ≤ E ∨ β ≤ 1 ∧ 1 / β * (Rmax ^ β + e / (α * l)) ^ (1 / β - 1) * (e / (α * l)) ≤ E)
    (hD : D = (1 + 2 ^ (-46 : ℤ)) * E + 2 ^ (-46 : ℤ) * Rmax + 2 ^ (-99 : ℤ)) :
    ∃ rs, rainChainF n waaMax deltaT tau L a b Rmin trsl wet = .ok rs ∧ rs.length = trsl.length ∧
      (∀ s r, rs[s]? = some r → ∃ y, r.val = .fin y ∧ 0 ≤ y ∧ |y - rainFell wet R s| ≤ D + rm ∧
        (rm + D ≤ rainFell wet R s → |y - rainFell wet R s| ≤ D) ∧ (rainFell wet R s < rm - D → y = 0)) ∧
      (0 < trsl.length → ∀ thr : ℝ, ∃ (q : RainError (Fl ℝ)) (rmse mae mr mp : ℝ),
        calcRainErrorPerformanceMetrics (series trsl.length (rainFell wet R)) (rs.map (·.val)) (.fin thr) = .ok q ∧
        q.rootMeanSquareError = .fin rmse ∧ q.meanAbsoluteError = .fin mae ∧ q.rMeanReference = .fin mr ∧ q.rMeanPredicted = .fin mp ∧
        0 ≤ mae ∧ mae ≤ rmse ∧ rmse ≤ D + rm ∧ |mp - mr| ≤ D + rm ∧
        ((∀ s < trsl.length, rainFell wet R s ≤ thr - (D + rm) ∨ thr + (D + rm) < rainFell wet R s) →
          (q.falseWetRate = .fin 0 ∨ q.falseWetRate = .nan) ∧ (q.missedWetRate = .fin 0 ∨ q.missedWetRate = .nan))) := by
  have B0 : 0 ≤ B := hM0.trans hMB
  have p300 : (0 : ℝ) < 2 ^ (-300 : ℤ) := by positivity
  have m0 : 0 ≤ m := by
    rcases hm with h | h
    · exact le_trans (Nat.cast_nonneg _) h
    · by_contra hc
      have t0 : 0 < t := lt_of_lt_of_le (by positivity) ht1
      have := mul_nonpos_of_nonneg_of_nonpos (by linarith : 0 ≤ 3 * d) (not_le.mp hc).le
      linarith
  obtain ⟨rs, h1', h2', h3'⟩ := C157_constant hacc trsl wet n waaMax deltaT tau L a b Rmin M d t B m l α β rm hn hn2 hlen hM hd ht hr hrm hd0 h3 ht1
    hd2 hM0 hMB hB1 hB2 hT hm hm2 dryLevel R δ hδ hR h1 h2 hx
  rw [← he] at h3'
  refine ⟨rs, h1', h2', ?_⟩
  refine scores_of_band (p300.trans_le hr.α1) (by have := hr.β1; linarith) (p300.trans_le hr.l1) ?_ hrm0 hRm0 hE hD trsl.length wet R
    (fun s hs hw => ⟨hR s hs hw, hRm s hs hw⟩) rs h2' h3'
  rw [he]
  positivity

/-- **C165** Linear baseline: the same with the error `e` of the attenuation for that chain. -/
theorem C165_linear [PyPow DblR] (hacc : PowClose) (trsl : List DblR) (wet : List Bool) (ignoreNan : Bool)
    (waaMax deltaT tau L a b Rmin : DblR)
    (M d t B m l α β rm : ℝ) (hN : 0 < trsl.length) (hN2 : trsl.length ≤ 2 ^ 53) (hlen : trsl.length ≤ wet.length)
    (hM : waaMax.val = .fin M) (hd : deltaT.val = .fin d) (ht : tau.val = .fin t) (hr : RateRange L a b l α β) (hrm : Rmin.val = .fin rm)
    (hd0 : 0 ≤ d) (h3 : 3 * d ≤ t) (ht1 : (2 : ℝ) ^ (-100 : ℤ) ≤ t) (hd2 : d ≤ 2 ^ (500 : ℤ)) (hM0 : 0 ≤ M) (hMB : M ≤ B)
    (hB1 : (2 : ℝ) ^ (-900 : ℤ) ≤ B) (hB2 : B ≤ 2 ^ (290 : ℤ)) (hT : (8 * B / (α * l)) ^ (1 / β) ≤ 2 ^ (64 : ℤ))
    (hm : (trsl.length : ℝ) ≤ m ∨ t ≤ 3 * d * m) (hm2 : m ≤ 2 ^ 47)
    (dryLevel R : ℕ → ℝ) (δ : ℝ) (hδ : 0 ≤ δ) (hR : ∀ s < trsl.length, WetAt wet s → 0 ≤ R s)
    (hfirst : ¬ WetAt wet 0) (hlast : ¬ WetAt wet (trsl.length - 1))
    (hlin : ∀ p i q, p < i → i < q → q < trsl.length → ¬ WetAt wet p → ¬ WetAt wet q → (∀ k, p < k → k < q → WetAt wet k) →
      dryLevel i = dryLevel p + ((i : ℝ) - p) * ((dryLevel q - dryLevel p) / ((q : ℝ) - p)))
    (hx : ∀ s x, trsl[s]? = some x → ∃ y, x.val = .fin y ∧ |y| ≤ B ∧
      |y - levelAt (WetAt wet) M (3 * d / t) dryLevel (fun s => α * R s ^ β * l) s| ≤ δ)
    (hrm0 : 0 ≤ rm) (Rmax e E D : ℝ) (hRm0 : 0 ≤ Rmax) (hRm : ∀ s < trsl.length, WetAt wet s → R s ≤ Rmax)
    (he : e = 4 * δ + (48 * m + 35) * (2 ^ (-53 : ℤ) * B))
    (hE : 1 ≤ β ∧ (e / (α * l)) ^ (1 / β) ≤ E ∨ β ≤ 1 ∧ 1 / β * (Rmax ^ β + e / (α * l)) ^ (1 / β - 1) * (e / (α * l)) ≤ E)
    (hD : D = (1 + 2 ^ (-46 : ℤ)) * E + 2 ^ (-46 : ℤ) * Rmax + 2 ^ (-99 : ℤ)) :
    ∃ rs, rainChainLinF ignoreNan waaMax deltaT tau L a b Rmin trsl (wet.map flagF) = .ok rs ∧ rs.length = trsl.length ∧
      (∀ s r, rs[s]? = some r → ∃ y, r.val = .fin y ∧ 0 ≤ y ∧ |y - rainFell wet R s| ≤ D + rm ∧
        (rm + D ≤ rainFell wet R s → |y - rainFell wet R s| ≤ D) ∧ (rainFell wet R s < rm - D → y = 0)) ∧
      (0 < trsl.length → ∀ thr : ℝ, ∃ (q : RainError (Fl ℝ)) (rmse mae mr mp : ℝ),
        calcRainErrorPerformanceMetrics (series trsl.length (rainFell wet R)) (rs.map (·.val)) (.fin thr) = .ok q ∧
        q.rootMeanSquareError = .fin rmse ∧ q.meanAbsoluteError = .fin mae ∧ q.rMeanReference = .fin mr ∧ q.rMeanPredicted = .fin mp ∧
        0 ≤ mae ∧ mae ≤ rmse ∧ rmse ≤ D + rm ∧ |mp - mr| ≤ D + rm ∧
        ((∀ s < trsl.length, rainFell wet R s ≤ thr - (D + rm) ∨ thr + (D + rm) < rainFell wet R s) →
          (q.falseWetRate = .fin 0 ∨ q.falseWetRate = .nan) ∧ (q.missedWetRate = .fin 0 ∨ q.missedWetRate = .nan))) := by
  have B0 : 0 ≤ B := hM0.trans hMB
  have p300 : (0 : ℝ) < 2 ^ (-300 : ℤ) := by positivity
  have m0 : 0 ≤ m := by
    rcases hm with h | h
    · exact le_trans (Nat.cast_nonneg _) h
    · by_contra hc
      have t0 : 0 < t := lt_of_lt_of_le (by positivity) ht1
      have := mul_nonpos_of_nonneg_of_nonpos (by linarith : 0 ≤ 3 * d) (not_le.mp hc).le
      linarith
  obtain ⟨rs, h1', h2', h3'⟩ := C157_linear hacc trsl wet ignoreNan waaMax deltaT tau L a b Rmin M d t B m l α β rm hN hN2 hlen hM hd ht hr hrm hd0 h3
    ht1 hd2 hM0 hMB hB1 hB2 hT hm hm2 dryLevel R δ hδ hR hfirst hlast hlin hx
  rw [← he] at h3'
  refine ⟨rs, h1', h2', ?_⟩
  refine scores_of_band (p300.trans_le hr.α1) (by have := hr.β1; linarith) (p300.trans_le hr.l1) ?_ hrm0 hRm0 hE hD trsl.length wet R
    (fun s hs hw => ⟨hR s hs hw, hRm s hs hw⟩) rs h2' h3'
  rw [he]
  positivity

/-- Levels 50, 50, 60, 60 recorded with an error of 0.1 on a path of 10 km with `a = b = 1`: the RMSE of the rain rates, which are about 0.9 mm/h, is at
most 0.041 mm/h. -/
example : letI := correctPow (binary64 (K := ℝ))
    let D : ℕ → DblR := fun k => PyFloat.ofInt k
    ∃ rs q rmse, rainChainF 2 (D 2) (D 1) (D 15) (D 10) (D 1) (D 1) (D 0) [D 50, D 50, D 60, D 60] [false, false, true, true] = .ok rs ∧
      calcRainErrorPerformanceMetrics
        (series 4 (rainFell [false, false, true, true] fun s => if s = 2 then 96 / 100 else 928 / 1000)) (rs.map (·.val)) (.fin (1 / 2))
        = .ok q ∧ q.rootMeanSquareError = .fin rmse ∧ rmse ≤ 41 / 1000 := by
  let _ := correctPow (binary64 (K := ℝ))
  intro D
  have v : ∀ k : ℕ, k ≤ 60 → (D k).val = .fin (k : ℝ) := fun k hk => val_ofNat_b64 k (hk.trans (by norm_num))
  have lo : ∀ (x : ℝ) (j : ℤ), 1 ≤ x → j ≤ 0 → (2 : ℝ) ^ j ≤ x := fun x j hx hj =>
    le_trans (zpow_le_one_of_nonpos₀ (by norm_num) hj) hx
  have hi : ∀ (x : ℝ) (j : ℤ), x ≤ 2 ^ (10 : ℤ) → 10 ≤ j → x ≤ 2 ^ j := fun x j hx hj =>
    le_trans hx (zpow_le_zpow_right₀ (by norm_num) hj)
  have hr : RateRange (D 10) (D 1) (D 1) 10 1 1 :=
    ⟨by simpa using v 10 (by norm_num), by simpa using v 1 (by norm_num), by simpa using v 1 (by norm_num),
      lo _ _ (by norm_num) (by norm_num), hi _ _ (by norm_num) (by norm_num), lo _ _ (by norm_num) (by norm_num),
      hi _ _ (by norm_num) (by norm_num), by norm_num, by norm_num⟩
  have w0 : ¬ WetAt [false, false, true, true] 0 := by simp [WetAt]
  have w1 : ¬ WetAt [false, false, true, true] 1 := by simp [WetAt]
  have w2 : WetAt [false, false, true, true] 2 := by simp [WetAt]
  have w3 : WetAt [false, false, true, true] 3 := by simp [WetAt]
  obtain ⟨rs, hrs, hl, h, hs⟩ := C165_constant correctPow_close [D 50, D 50, D 60, D 60] [false, false, true, true] 2
    (D 2) (D 1) (D 15) (D 10) (D 1) (D 1) (D 0) 2 1 15 64 4 10 1 1 0 (by norm_num) (by norm_num) (by simp)
    (by simpa using v 2 (by norm_num)) (by simpa using v 1 (by norm_num)) (by simpa using v 15 (by norm_num)) hr
    (by simpa using v 0 (by norm_num)) (by norm_num) (by norm_num) (lo _ _ (by norm_num) (by norm_num))
    (hi _ _ (by norm_num) (by norm_num)) (by norm_num) (by norm_num) (lo _ _ (by norm_num) (by norm_num))
    (hi _ _ (by norm_num) (by norm_num)) (by norm_num) (.inl (by norm_num)) (by norm_num)
    (fun _ => 50 + 1 / 10) (fun s => if s = 2 then 96 / 100 else 928 / 1000) (1 / 10) (by norm_num)
    (by intro s _ _; split_ifs <;> norm_num)
    (by
      intro s hs
      have : s = 0 ∨ s = 1 := by omega
      rcases this with rfl | rfl
      · exact w0
      · exact w1) (fun _ _ _ _ _ _ => rfl) (by
      intro s x hs
      have hlt : s < 4 := by simpa using (List.getElem?_eq_some_iff.mp hs).1
      have : s = 0 ∨ s = 1 ∨ s = 2 ∨ s = 3 := by omega
      rcases this with rfl | rfl | rfl | rfl <;> simp only [List.getElem?_cons_zero, List.getElem?_cons_succ, Option.some.injEq] at hs <;>
        subst hs
      · refine ⟨_, v 50 (by norm_num), by norm_num, ?_⟩
        unfold levelAt
        rw [if_neg w0]; norm_num
      · refine ⟨_, v 50 (by norm_num), by norm_num, ?_⟩
        unfold levelAt
        rw [if_neg w1]; norm_num
      · refine ⟨_, v 60 (by norm_num), by norm_num, ?_⟩
        unfold levelAt
        rw [if_pos w2]
        simp only [filmAt, if_pos w2, if_neg w1]
        norm_num [Real.rpow_one]
      · refine ⟨_, v 60 (by norm_num), by norm_num, ?_⟩
        unfold levelAt
        rw [if_pos w3]
        simp only [filmAt, if_pos w2, if_pos w3, if_neg w1]
        norm_num [Real.rpow_one])
    le_rfl 1 _ _ _ (by norm_num) (by intro s _ _; split_ifs <;> norm_num) rfl (.inl ⟨le_rfl, le_rfl⟩) rfl
  obtain ⟨q, rmse, mae, mr, mp, k1, k2, -, -, -, -, -, k3, -⟩ := hs (by simp) (1 / 2)
  refine ⟨rs, q, rmse, hrs, k1, k2, k3.trans ?_⟩
  rw [show (1 : ℝ) / 1 = 1 by norm_num, Real.rpow_one]
  norm_num

/-- every aggregation is an aggregation of the groups -/
theorem groupbyAgg_groups {V R : Type} (rows : List (Option Int × V)) (m : List V → R) :
    Temporal.groupbyAgg rows m = (Temporal.groupbyAgg rows id).map fun r => (r.1, m r.2) := by
  unfold Temporal.groupbyAgg
  simp only [List.map_map]
  rfl

theorem groupbyAgg_mapVal {V W R : Type} (g : V → W) (rows : List (Option Int × V)) (m : List W → R) :
    Temporal.groupbyAgg (rows.map fun r => (r.1, g r.2)) m = Temporal.groupbyAgg rows fun l => m (l.map g) := by
  unfold Temporal.groupbyAgg
  have e : (rows.map fun r => (r.1, g r.2)).filterMap Prod.fst = rows.filterMap Prod.fst := by
    rw [List.filterMap_map]; rfl
  simp only [e]
  refine List.map_congr_left fun k _ => ?_
  rw [List.filter_map, List.map_map, List.map_map]
  rfl

theorem groupbyAgg_mem {V : Type} {rows : List (Option Int × V)} {r : Int × List V} (h : r ∈ Temporal.groupbyAgg rows id) :
    ∀ v ∈ r.2, ∃ k, (k, v) ∈ rows := by
  unfold Temporal.groupbyAgg at h
  obtain ⟨k, -, rfl⟩ := List.mem_map.mp h
  intro v hv
  obtain ⟨x, hx, rfl⟩ := List.mem_map.mp hv
  exact ⟨x.1, (List.mem_filter.mp hx).1⟩

/-- Aggregating one part of the samples: either raises whatever is aggregated, or gives groups of samples whose aggregates are the rows. -/
theorem aggregate_groups {V : Type} (aware : Bool) (df : List (Int × V)) (new : Temporal.DtIndex) (label : String) (zone : Option Int) :
    (∃ err, ∀ (W R : Type) (g : V → W) (m : List W → R),
      Temporal.aggregate aware (df.map fun x => (x.1, g x.2)) new m label zone = .error err) ∨
    ∃ groups : List (Int × List V), (∀ r ∈ groups, ∀ v ∈ r.2, ∃ t, (t, v) ∈ df) ∧
      ∀ (W R : Type) (g : V → W) (m : List W → R),
        Temporal.aggregate aware (df.map fun x => (x.1, g x.2)) new m label zone = .ok (groups.map fun r => (r.1, m (r.2.map g))) := by
  have e1 : ∀ (W : Type) (g : V → W), (df.map fun x => (x.1, g x.2)).map Prod.fst = df.map Prod.fst := by
    intro W g; rw [List.map_map]; rfl
  have e2 : ∀ (W : Type) (g : V → W), (df.map fun x => (x.1, g x.2)) = [] ↔ df = [] := by simp
  have e3 : ∀ (W : Type) (g : V → W) a b, Temporal.loc (df.map fun x => (x.1, g x.2)) a b = (Temporal.loc df a b).map fun x => (x.1, g x.2) := by
    intro W g a b
    unfold Temporal.loc
    rw [List.filter_map]
    rfl
  have e4 : ∀ (W : Type) (g : V → W) (l : List (Int × V)), (l.map fun x => (x.1, g x.2)).map Prod.fst = l.map Prod.fst := by
    intro W g l; rw [List.map_map]; rfl
  unfold Temporal.aggregate
  simp only [e1, e2, e3, e4]
  cases Temporal.fillMethod label with
  | error err => exact .inl ⟨err, fun _ _ _ _ => rfl⟩
  | ok fill =>
    simp only [bind, Except.bind]
    split_ifs
    · exact .inl ⟨_, fun _ _ _ _ => rfl⟩
    · exact .inl ⟨_, fun _ _ _ _ => rfl⟩
    · exact .inl ⟨_, fun _ _ _ _ => rfl⟩
    · generalize hl : Temporal.loc df _ _ = l
      cases Temporal.reindex _ (l.map Prod.fst) fill with
      | error err => exact .inl ⟨err, fun _ _ _ _ => rfl⟩
      | ok times =>
        refine .inr ⟨Temporal.groupbyAgg (times.zip (l.map Prod.snd)) id, fun r hr v hv => ?_, fun W R g m => ?_⟩
        · obtain ⟨k, hk⟩ := groupbyAgg_mem hr v hv
          obtain ⟨x, hx, rfl⟩ := List.mem_map.mp (List.of_mem_zip hk).2
          refine ⟨x.1, ?_⟩
          rw [← hl] at hx
          exact (List.mem_filter.mp hx).1
        · simp only
          rw [List.map_map, show (Prod.snd ∘ fun x : Int × V => (x.1, g x.2)) = g ∘ Prod.snd from rfl, ← List.map_map, List.zip_map_right]
          rw [← groupbyAgg_groups _ fun x => m (x.map g), ← groupbyAgg_mapVal g]
          rfl

/-- **C165** Aggregating rates that are within `D` of the rain that fell onto other time stamps: estimates and rain raise the same exception or give
rows with the same stamps; means differ by at most `D`, sums by at most `D` for each sample in the group. -/
theorem C165_aggregate (D : ℝ) (hD : 0 ≤ D) (df : List (Int × (ℝ × ℝ))) (h : ∀ x ∈ df, |x.2.2 - x.2.1| ≤ D) (aware : Bool) (new : Temporal.DtIndex)
    (label : String) (zone : Option Int) :
    let agg := fun (g : ℝ × ℝ → ℝ) (m : List ℝ → ℝ) => Temporal.aggregate aware (df.map fun x => (x.1, g x.2)) new m label zone
    let mean := fun l : List ℝ => l.sum / l.length
    (∃ err, ∀ g m, agg g m = .error err) ∨
    ∃ n mt me st se, agg Prod.fst (fun l => l.length) = .ok n ∧ agg Prod.fst mean = .ok mt ∧ agg Prod.snd mean = .ok me ∧
      agg Prod.fst List.sum = .ok st ∧ agg Prod.snd List.sum = .ok se ∧
      List.Forall₂ (fun x y => x.1 = y.1 ∧ |y.2 - x.2| ≤ D) mt me ∧
      List.Forall₂ (fun c z => c.1 = z.1.1 ∧ z.1.1 = z.2.1 ∧ |z.2.2 - z.1.2| ≤ c.2 * D) n (st.zip se) := by
  intro agg mean
  rcases aggregate_groups aware df new label zone with ⟨err, he⟩ | ⟨groups, hg, hr⟩
  · exact .inl ⟨err, fun g m => he _ _ g m⟩
  · refine .inr ⟨_, _, _, _, _, hr _ _ _ _, hr _ _ _ _, hr _ _ _ _, hr _ _ _ _, hr _ _ _ _, ?_, ?_⟩
    all_goals
      have sums : ∀ r ∈ groups, |(r.2.map Prod.snd).sum - (r.2.map Prod.fst).sum| ≤ r.2.length * D := by
        intro r hr
        have hv : ∀ v ∈ r.2, |v.2 - v.1| ≤ D := fun v hv => let ⟨t, ht⟩ := hg r hr v hv; h _ ht
        generalize r.2 = l at hv
        induction l with
        | nil => simp
        | cons v l ih =>
          have i := ih fun w hw => hv w (List.mem_cons_of_mem _ hw)
          have j := hv v List.mem_cons_self
          rw [abs_le] at i j ⊢
          simp only [List.map_cons, List.sum_cons, List.length_cons]
          push_cast
          constructor <;> linarith [i.1, i.2, j.1, j.2]
    · rw [List.forall₂_map_left_iff, List.forall₂_map_right_iff, List.forall₂_same]
      intro r hr
      refine ⟨rfl, ?_⟩
      simp only [mean, List.length_map]
      rw [← sub_div, abs_div, Nat.abs_cast]
      have := sums r hr
      rcases Nat.eq_zero_or_pos r.2.length with h0 | h0
      · rw [h0, Nat.cast_zero, div_zero]; exact hD
      · rw [div_le_iff₀ (by exact_mod_cast h0)]
        linarith
    · rw [List.zip_map', List.forall₂_map_left_iff, List.forall₂_map_right_iff, List.forall₂_same]
      intro r hr
      exact ⟨rfl, rfl, by simpa using sums r hr⟩

/-- Rates 1, 2, 3 for rain 1, 1, 4 at times 5, 10, 30 aggregated to the stamps 0, 10 and 30. -/
example : ∃ mt me, Temporal.aggregate true [(5, (1 : ℝ)), (10, 1), (30, 4)] ⟨[0, 10, 30], true⟩ (fun l => l.sum / l.length) "right" = .ok mt ∧
    Temporal.aggregate true [(5, (1 : ℝ)), (10, 2), (30, 3)] ⟨[0, 10, 30], true⟩ (fun l => l.sum / l.length) "right" = .ok me ∧
    List.Forall₂ (fun x y => x.1 = y.1 ∧ |y.2 - x.2| ≤ 1) mt me := by
  rcases C165_aggregate 1 (by norm_num) [(5, (1, 1)), (10, (1, 2)), (30, (4, 3))] (by
    intro x hx
    simp at hx
    rcases hx with rfl | rfl | rfl <;> norm_num) true ⟨[0, 10, 30], true⟩ "right" (some 0) with ⟨err, h⟩ | ⟨n, mt, me, st, se, -, h1, h2, -, -, h3, -⟩
  · exfalso
    obtain ⟨rows, h4, -⟩ := C61_groups (df := [(5, (1 : ℝ)), (10, 1), (30, 4)]) [0, 10, 30] true List.sum (some 0) (.inl rfl) true (by simp) (by simp)
      (by simp) (by simp)
    have h5 := h Prod.fst List.sum
    simp only [List.map_cons, List.map_nil] at h5
    simp only [if_true] at h4
    rw [h4] at h5
    cases h5
  · exact ⟨mt, me, h1, h2, h3⟩

end Verif.Props
