import Verif.Props.RollingStdRain

/-!
# Property C176: the documented workflow with level errors and in doubles
-/

namespace Verif.Props
open Verif Verif.Rsd Verif.Baseline Verif.Waa Verif.KR Verif.Bin
open scoped Finset

/-- Standard deviation (`ddof=0`) of the values of the centred window of `w` steps, as the root of half the mean squared difference of pairs. -/
noncomputable def windowStd (w : ℕ) (y : ℕ → ℝ) (t : ℕ) : ℝ :=
  Real.sqrt ((∑ i ∈ Finset.Icc (t - w / 2) (t + (w - 1) / 2), ∑ j ∈ Finset.Icc (t - w / 2) (t + (w - 1) / 2), (y i - y j) ^ 2) / 2) / w

/-- Flags of a record of `T` levels `y` by a rolling standard deviation that is computed with errors up to `ε`; steps without complete window are dry. -/
def RsdFlags (wet : List Bool) (T w : ℕ) (thr ε : ℝ) (y : ℕ → ℝ) : Prop :=
  wet.length = T ∧ ∀ t < T, (w / 2 ≤ t ∧ t + (w - 1) / 2 < T → ∃ σ, |σ - windowStd w y t| ≤ ε ∧ (WetAt wet t ↔ thr < σ)) ∧
    (¬ (w / 2 ≤ t ∧ t + (w - 1) / 2 < T) → ¬ WetAt wet t)

/-- **C176** In exact arithmetic `rolling(time=w, center=True).std() > threshold` gives such flags with `ε = 0`. -/
theorem C176_exact (T w : ℕ) (hw : 1 ≤ w) (hfit : w ≤ T + (w - 1) / 2) (thr : ℝ) (ht : 0 ≤ thr) (y : ℕ → ℝ) :
    ∃ wet, wetRsd (series T y) w (.fin thr) = .ok wet ∧ RsdFlags wet T w thr 0 y := by
  obtain ⟨wet, hwet, hlen, h⟩ := C175_flag T w hw hfit thr ht (fun _ => False) y
  refine ⟨wet, by rw [series_gapSeries]; exact hwet, hlen, fun t htT => ⟨fun hin => ⟨windowStd w y t, by simp, ?_⟩, fun hin hc => ?_⟩⟩
  · rw [h t htT]
    have hw0 : (0 : ℝ) < w := by exact_mod_cast hw
    unfold windowStd
    rw [lt_div_iff₀ hw0, Real.lt_sqrt (by positivity), lt_div_iff₀ (by norm_num)]
    constructor
    · rintro ⟨-, -, -, h4⟩
      linarith
    · intro h4
      exact ⟨hin.1, hin.2, fun _ _ _ h => h, by linarith⟩
  · obtain ⟨h1, h2, -, -⟩ := (h t htT).mp hc
    exact hin ⟨h1, h2⟩

/-- **C176** Recorded levels that are those of rain on a constant dry level up to `δ`: every step with rain is flagged if the rain attenuates by at least
`d`, `w² (threshold + ε)² < (w - 1) (d - 2 δ)²`, and its window lies in the record and contains a step without rain; a step whose window has no rain
is not flagged if `δ + ε ≤ threshold`. -/
theorem C176_flags (wet rain : List Bool) (T w : ℕ) (hw : 1 ≤ w) (thr ε δ d D M c : ℝ) (A y : ℕ → ℝ) (hε : 0 ≤ thr + ε) (hδ : 0 ≤ δ) (hd : 2 * δ < d)
    (hM : 0 ≤ M) (hc : 0 ≤ c) (hc1 : c ≤ 1) (hf : RsdFlags wet T w thr ε y)
    (hy : ∀ t < T, |y t - levelAt (WetAt rain) M c (fun _ => D) A t| ≤ δ) :
    (∀ t < T, WetAt rain t → w / 2 ≤ t → t + (w - 1) / 2 < T → (∃ s, t - w / 2 ≤ s ∧ s ≤ t + (w - 1) / 2 ∧ ¬ WetAt rain s) →
      (∀ s < T, WetAt rain s → d ≤ A s) → (w : ℝ) ^ 2 * (thr + ε) ^ 2 < (w - 1) * (d - 2 * δ) ^ 2 → WetAt wet t) ∧
    (∀ t < T, (∀ s, t - w / 2 ≤ s → s ≤ t + (w - 1) / 2 → ¬ WetAt rain s) → δ + ε ≤ thr → ¬ WetAt wet t) := by
  have hw0 : (0 : ℝ) < w := by exact_mod_cast hw
  refine ⟨fun t htT hr w1 w2 hdry hA hk => ?_, fun t htT hno hle hc' => ?_⟩
  · obtain ⟨σ, hσ, hiff⟩ := (hf.2 t htT).1 ⟨w1, w2⟩
    refine hiff.mpr ?_
    obtain ⟨s, s1, s2, s3⟩ := hdry
    have hg := pair_sum_groups (Finset.Icc (t - w / 2) (t + (w - 1) / 2))
      {s ∈ Finset.Icc (t - w / 2) (t + (w - 1) / 2) | WetAt rain s}
      {s ∈ Finset.Icc (t - w / 2) (t + (w - 1) / 2) | ¬ WetAt rain s} y (d - 2 * δ)
      (Finset.filter_subset ..) (Finset.filter_subset ..) (by linarith) (by
        intro i hi j hj
        have hi' := Finset.mem_filter.mp hi
        have hj' := Finset.mem_filter.mp hj
        have hiT : i < T := by have := (Finset.mem_Icc.mp hi'.1).2; omega
        have hjT : j < T := by have := (Finset.mem_Icc.mp hj'.1).2; omega
        have h1 := abs_le.mp (hy i hiT)
        have h2 := abs_le.mp (hy j hjT)
        unfold levelAt at h1 h2
        rw [if_pos hi'.2] at h1
        rw [if_neg hj'.2] at h2
        linarith [hA i hiT hi'.2, (film_bounds (wet := WetAt rain) hM hc hc1 i).1])
    have hsum := Finset.card_filter_add_card_filter_not (s := Finset.Icc (t - w / 2) (t + (w - 1) / 2)) (WetAt rain)
    rw [centred_card t w hw w1] at hsum
    have hk1 : 1 ≤ #{s ∈ Finset.Icc (t - w / 2) (t + (w - 1) / 2) | WetAt rain s} :=
      Finset.card_pos.mpr ⟨t, Finset.mem_filter.mpr ⟨Finset.mem_Icc.mpr (by omega), hr⟩⟩
    have hj1 : 1 ≤ #{s ∈ Finset.Icc (t - w / 2) (t + (w - 1) / 2) | ¬ WetAt rain s} :=
      Finset.card_pos.mpr ⟨s, Finset.mem_filter.mpr ⟨Finset.mem_Icc.mpr ⟨s1, s2⟩, s3⟩⟩
    generalize #{s ∈ Finset.Icc (t - w / 2) (t + (w - 1) / 2) | WetAt rain s} = k at *
    generalize #{s ∈ Finset.Icc (t - w / 2) (t + (w - 1) / 2) | ¬ WetAt rain s} = j at *
    have hk' : (1 : ℝ) ≤ k := by exact_mod_cast hk1
    have hj' : (1 : ℝ) ≤ j := by exact_mod_cast hj1
    have hs' : (k : ℝ) + j = w := by exact_mod_cast hsum
    have hkj : ((w : ℝ) - 1) * (d - 2 * δ) ^ 2 ≤ k * j * (d - 2 * δ) ^ 2 :=
      mul_le_mul_of_nonneg_right (by nlinarith) (sq_nonneg _)
    have hstd : thr + ε < windowStd w y t := by
      unfold windowStd
      rw [lt_div_iff₀ hw0, Real.lt_sqrt (by positivity), lt_div_iff₀ (by norm_num)]
      nlinarith
    linarith [(abs_le.mp hσ).1]
  · by_cases hin : w / 2 ≤ t ∧ t + (w - 1) / 2 < T
    · obtain ⟨σ, hσ, hiff⟩ := (hf.2 t htT).1 hin
      have hlt := hiff.mp hc'
      have hcard := centred_card t w hw hin.1
      have hp := (pair_sum (Finset.Icc (t - w / 2) (t + (w - 1) / 2)) y (by omega) D).2
      have hs : ∑ s ∈ Finset.Icc (t - w / 2) (t + (w - 1) / 2), (y s - D) ^ 2 ≤ w * δ ^ 2 := by
        calc _ ≤ ∑ s ∈ Finset.Icc (t - w / 2) (t + (w - 1) / 2), δ ^ 2 := Finset.sum_le_sum fun s hs => by
              have h1 := Finset.mem_Icc.mp hs
              have h2 := hy s (by omega)
              unfold levelAt at h2
              rw [if_neg (hno s h1.1 h1.2), add_zero] at h2
              rw [← sq_abs]
              exact pow_le_pow_left₀ (abs_nonneg _) h2 2
          _ = w * δ ^ 2 := by rw [Finset.sum_const, hcard, nsmul_eq_mul]
      rw [hcard] at hp
      have hstd : windowStd w y t ≤ δ := by
        unfold windowStd
        rw [div_le_iff₀ hw0]
        refine Real.sqrt_le_iff.mpr ⟨by positivity, ?_⟩
        nlinarith [mul_le_mul_of_nonneg_left hs hw0.le]
      linarith [(abs_le.mp hσ).2]
    · exact (hf.2 t htT).2 hin hc'

/-- **C176** The documented workflow from recorded levels with errors to rain rates, in IEEE doubles: constant dry level, rain that attenuates by at least
`A0`, flags by rolling standard deviation computed with errors up to `ε`. The rates are, up to `2^-46` relative and `2^-99` absolute error and before the cut
at `R_min`, between those of the power law at `A - e` and `A + e`, and at most that of `e` without rain, with `e = 4 δ + (10 n² + 48 m + 11) 2^-53 B`. -/
theorem C176_doubles [PyPow DblR] (hacc : PowClose) (trsl : List DblR) (rain wet : List Bool) (n w : ℕ)
    (waaMax deltaT tau L a b Rmin : DblR)
    (M d t B m l α β rm D thr ε A0 δ : ℝ) (hn : 1 ≤ n) (hn2 : n ≤ 2 ^ 25)
    (hM : waaMax.val = .fin M) (hd : deltaT.val = .fin d) (ht : tau.val = .fin t) (hr : RateRange L a b l α β) (hrm : Rmin.val = .fin rm)
    (hd0 : 0 ≤ d) (h3 : 3 * d ≤ t) (ht1 : (2 : ℝ) ^ (-100 : ℤ) ≤ t) (hd2 : d ≤ 2 ^ (500 : ℤ)) (hM0 : 0 ≤ M) (hMB : M ≤ B)
    (hB1 : (2 : ℝ) ^ (-900 : ℤ) ≤ B) (hB2 : B ≤ 2 ^ (290 : ℤ)) (hT : (8 * B / (α * l)) ^ (1 / β) ≤ 2 ^ (64 : ℤ))
    (hm : (trsl.length : ℝ) ≤ m ∨ t ≤ 3 * d * m) (hm2 : m ≤ 2 ^ 47)
    (R y : ℕ → ℝ) (hδ : 0 ≤ δ) (hR : ∀ s < trsl.length, WetAt rain s → 0 ≤ R s) (h1 : ∀ s < n, ¬ WetAt rain s)
    (hy : trsl.map RFl.val = series trsl.length y) (hB : ∀ s < trsl.length, |y s| ≤ B)
    (hlev : ∀ s < trsl.length, |y s - levelAt (WetAt rain) M (3 * d / t) (fun _ => D) (fun s => α * R s ^ β * l) s| ≤ δ)
    (hw : 1 ≤ w) (hε : 0 ≤ thr + ε) (hflags : RsdFlags wet trsl.length w thr ε y)
    (hA : ∀ s < trsl.length, WetAt rain s → A0 ≤ α * R s ^ β * l) (hA0 : 2 * δ < A0)
    (hthr : (w : ℝ) ^ 2 * (thr + ε) ^ 2 < (w - 1) * (A0 - 2 * δ) ^ 2)
    (hwin : ∀ s < trsl.length, WetAt rain s → w / 2 ≤ s ∧ s + (w - 1) / 2 < trsl.length ∧
      ∃ k, s - w / 2 ≤ k ∧ k ≤ s + (w - 1) / 2 ∧ ¬ WetAt rain k) :
    ∃ rs, rainChainF n waaMax deltaT tau L a b Rmin trsl wet = .ok rs ∧ rs.length = trsl.length ∧
      ∀ s r, rs[s]? = some r → ∃ ρ, r.val = .fin (if ρ < rm then 0 else ρ) ∧ 0 ≤ ρ ∧
        (¬ WetAt rain s →
          ρ ≤ (1 + 2 ^ (-46 : ℤ)) * lawRate α β l (4 * δ + (10 * (n * n) + 48 * m + 11) * (2 ^ (-53 : ℤ) * B)) + 2 ^ (-99 : ℤ)) ∧
        (WetAt rain s →
          (1 - 2 ^ (-46 : ℤ)) * lawRate α β l (α * R s ^ β * l - (4 * δ + (10 * (n * n) + 48 * m + 11) * (2 ^ (-53 : ℤ) * B)))
            - 2 ^ (-99 : ℤ) ≤ ρ ∧
          ρ ≤ (1 + 2 ^ (-46 : ℤ)) * lawRate α β l (α * R s ^ β * l
              + (4 * δ + (10 * (n * n) + 48 * m + 11) * (2 ^ (-53 : ℤ) * B))) + 2 ^ (-99 : ℤ)) := by
  have ht0 : 0 < t := lt_of_lt_of_le (by positivity) ht1
  have hall : ∀ s < trsl.length, WetAt rain s → WetAt wet s := fun s hs hrs =>
    (C176_flags wet rain trsl.length w hw thr ε δ A0 D M (3 * d / t) (fun s => α * R s ^ β * l) y hε hδ hA0 hM0
      (div_nonneg (by linarith) ht0.le) ((div_le_one ht0).mpr h3) hflags hlev).1 s hs hrs (hwin s hs hrs).1 (hwin s hs hrs).2.1
      (hwin s hs hrs).2.2 hA hthr
  obtain ⟨rs, h4, h5, h6⟩ := C162_doubles hacc trsl rain wet n waaMax deltaT tau L a b Rmin M d t B m l α β rm hn hn2 hflags.1.ge hM hd ht hr hrm
    hd0 h3 ht1 hd2 hM0 hMB hB1 hB2 hT hm hm2 (fun _ => D) R δ 0 hδ le_rfl hR h1 (fun _ _ _ _ _ _ => rfl)
    (fun s hs hr' hn' => absurd (hall s hs hr') hn') (fun s x hx => by
      have hs : s < trsl.length := (List.getElem?_eq_some_iff.mp hx).1
      have e : (trsl.map RFl.val)[s]? = some x.val := by rw [List.getElem?_map, hx]; rfl
      rw [hy, series_get _ hs] at e
      exact ⟨y s, (Option.some.inj e).symm, hB s hs, hlev s hs⟩)
  refine ⟨rs, h4, h5, fun s r hsr => ?_⟩
  obtain ⟨ρ, g1, g2, g3, g4⟩ := h6 s r hsr
  have hs : s < trsl.length := h5 ▸ (List.getElem?_eq_some_iff.mp hsr).1
  refine ⟨ρ, g1, g2, fun hnr => g3 (.inr hnr), fun hrs => ?_⟩
  obtain ⟨g5, -, g6⟩ := g4 (hall s hs hrs) hrs
  rw [sub_zero] at g5
  exact ⟨g5, g6 fun j hj hk => hall j (by omega) (hk j le_rfl hj)⟩

/-- Dry level 50.1 dB, rain of 0.96 and 0.928 mm/h at steps 2 and 3 of 6, film of water as `waa_max = 2`, `delta_t = 1`, `tau = 15` give; levels recorded in whole
dB. With a window of three steps and threshold 0.8 dB the workflow in doubles gives between 0.91 and 1.01 mm/h at step 2. -/
example : letI := correctPow (binary64 (K := ℝ))
    let D : ℕ → DblR := fun k => PyFloat.ofInt k
    ∃ wet, wetRsd (series 6 fun s => if s = 2 ∨ s = 3 then (60 : ℝ) else 50) 3 (.fin 0.8) = .ok wet ∧
      ∃ rs r ρ, rainChainF 2 (D 2) (D 1) (D 15) (D 10) (D 1) (D 1) (D 0) [D 50, D 50, D 60, D 60, D 50, D 50] wet = .ok rs ∧
        rs[2]? = some r ∧ r.val = .fin ρ ∧ 91 / 100 ≤ ρ ∧ ρ ≤ 101 / 100 := by
  let _ := correctPow (binary64 (K := ℝ))
  intro D
  have v : ∀ k : ℕ, k ≤ 60 → (D k).val = .fin (k : ℝ) := fun k hk => val_ofNat_b64 k (hk.trans (by norm_num))
  have lo : ∀ (x : ℝ) (j : ℤ), 1 ≤ x → j ≤ 0 → (2 : ℝ) ^ j ≤ x := fun x j hx hj =>
    le_trans (zpow_le_one_of_nonpos₀ (by norm_num) hj) hx
  have hi : ∀ (x : ℝ) (j : ℤ), x ≤ 2 ^ (10 : ℤ) → 10 ≤ j → x ≤ 2 ^ j := fun x j hx hj =>
    le_trans hx (zpow_le_zpow_right₀ (by norm_num) hj)
  have hr : RateRange (D 10) (D 1) (D 1) 10 1 1 :=
    ⟨by simpa using v 10 (by norm_num), by simpa using v 1 (by norm_num), by simpa using v 1 (by norm_num),
      lo _ _ (by norm_num) (by norm_num), hi _ _ (by norm_num) (by norm_num), lo _ _ (by norm_num) (by norm_num),
      hi _ _ (by norm_num) (by norm_num), by norm_num, by norm_num⟩
  obtain ⟨rain, hrain⟩ : ∃ rain : List Bool, rain = [false, false, true, true, false, false] := ⟨_, rfl⟩
  have wcase : ∀ s, WetAt rain s ↔ s = 2 ∨ s = 3 := by
    intro s
    by_cases hs : s < 6
    · have : s = 0 ∨ s = 1 ∨ s = 2 ∨ s = 3 ∨ s = 4 ∨ s = 5 := by omega
      rcases this with rfl | rfl | rfl | rfl | rfl | rfl <;> simp [WetAt, hrain]
    · have : rain[s]? = none := List.getElem?_eq_none (by simp [hrain]; omega)
      simp [WetAt, this]
      omega
  obtain ⟨wet, hwet, hflags⟩ := C176_exact 6 3 (by norm_num) (by norm_num) 0.8 (by norm_num) fun s => if s = 2 ∨ s = 3 then (60 : ℝ) else 50
  refine ⟨wet, hwet, ?_⟩
  obtain ⟨rs, hrs, hl, h⟩ := C176_doubles correctPow_close [D 50, D 50, D 60, D 60, D 50, D 50] rain wet 2 3
    (D 2) (D 1) (D 15) (D 10) (D 1) (D 1) (D 0) 2 1 15 64 6 10 1 1 0 (50 + 1 / 10) 0.8 0 9 (1 / 10) (by norm_num) (by norm_num)
    (by simpa using v 2 (by norm_num)) (by simpa using v 1 (by norm_num)) (by simpa using v 15 (by norm_num)) hr
    (by simpa using v 0 (by norm_num)) (by norm_num) (by norm_num) (lo _ _ (by norm_num) (by norm_num))
    (hi _ _ (by norm_num) (by norm_num)) (by norm_num) (by norm_num) (lo _ _ (by norm_num) (by norm_num))
    (hi _ _ (by norm_num) (by norm_num)) (by norm_num) (.inl (by norm_num)) (by norm_num)
    (fun s => if s = 2 then 96 / 100 else 928 / 1000) (fun s => if s = 2 ∨ s = 3 then (60 : ℝ) else 50) (by norm_num)
    (by intro s _ _; split_ifs <;> norm_num)
    (by
      intro s hs h
      rcases (wcase s).mp h with h | h <;> omega)
    (by
      have h5 := v 50 (by norm_num)
      have h6 := v 60 (by norm_num)
      simp [series, List.range_succ, h5, h6])
    (by intro s _; split_ifs <;> norm_num)
    (by
      intro s hs
      have hs' : s < 6 := by simpa using hs
      have n1 : ¬ WetAt rain 1 := by rw [wcase]; omega
      have n2 : WetAt rain 2 := by rw [wcase]; omega
      have n3 : WetAt rain 3 := by rw [wcase]; omega
      unfold levelAt
      have : s = 0 ∨ s = 1 ∨ s = 2 ∨ s = 3 ∨ s = 4 ∨ s = 5 := by omega
      rcases this with rfl | rfl | rfl | rfl | rfl | rfl
      · rw [if_neg (show ¬ WetAt rain 0 by rw [wcase]; omega)]; norm_num
      · rw [if_neg (show ¬ WetAt rain 1 by rw [wcase]; omega)]; norm_num
      · rw [if_pos n2]
        simp only [filmAt, if_pos n2, if_neg n1]
        norm_num [Real.rpow_one]
      · rw [if_pos n3]
        simp only [filmAt, if_pos n2, if_pos n3, if_neg n1]
        norm_num [Real.rpow_one]
      · rw [if_neg (show ¬ WetAt rain 4 by rw [wcase]; omega)]; norm_num
      · rw [if_neg (show ¬ WetAt rain 5 by rw [wcase]; omega)]; norm_num)
    (by norm_num) (by norm_num) hflags
    (by intro s _ _; rw [Real.rpow_one]; split_ifs <;> norm_num) (by norm_num) (by norm_num)
    (by
      intro s _ h
      rcases (wcase s).mp h with rfl | rfl
      · exact ⟨by norm_num, by norm_num, 1, by norm_num, by norm_num, by rw [wcase]; omega⟩
      · exact ⟨by norm_num, by norm_num, 4, by norm_num, by norm_num, by rw [wcase]; omega⟩)
  have hlr : 2 < rs.length := by rw [hl]; simp
  obtain ⟨ρ, g1, g2, -, g4⟩ := h 2 _ (getElem?_eq_rd hlr)
  obtain ⟨g5, g6⟩ := g4 ((wcase 2).mpr (.inl rfl))
  refine ⟨rs, rd rs 2, ρ, hrs, getElem?_eq_rd hlr, by rw [g1, if_neg (by linarith)], ?_, ?_⟩
  · unfold lawRate at g5
    rw [show (1 : ℝ) / 1 = 1 by norm_num] at g5
    simp only [Real.rpow_one] at g5
    rw [max_eq_right (by norm_num)] at g5
    norm_num at g5
    linarith
  · unfold lawRate at g6
    rw [show (1 : ℝ) / 1 = 1 by norm_num] at g6
    simp only [Real.rpow_one] at g6
    rw [max_eq_right (by norm_num)] at g6
    norm_num at g6
    linarith

end Verif.Props
