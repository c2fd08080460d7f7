import Verif.Props.LinearChain
import Verif.Props.Recovery

/-!
# Property C157: from recorded levels, with errors and in doubles, to the rain that made them
-/

namespace Verif.Props
open Verif Verif.Baseline Verif.Waa Verif.Bin Verif.KR

/-- The attenuation by rain: that of the power law at wet steps, none at dry ones. -/
noncomputable def rainAtt (wet : List Bool) (α β l : ℝ) (R : ℕ → ℝ) (s : ℕ) : ℝ := if WetAt wet s then α * R s ^ β * l else 0

/-- The power law gives back the rain. -/
theorem lawRate_rainAtt {wet : List Bool} {α β l : ℝ} {R : ℕ → ℝ} {s : ℕ} (hα : 0 < α) (hβ : 0 < β) (hl : 0 < l) (h : WetAt wet s)
    (hR : 0 ≤ R s) : lawRate α β l (rainAtt wet α β l R s) = R s := by
  unfold lawRate rainAtt
  rw [if_pos h, max_eq_right (by positivity)]
  have e : α * R s ^ β * l / (α * l) = R s ^ β := by field_simp
  rw [e, ← Real.rpow_mul hR, mul_one_div_cancel hβ.ne', Real.rpow_one]

/-- band of the power law around an attenuation that is itself within `δ` of another one -/
theorem lawRate_band {α β l A A' ε δ ρ : ℝ} (hαl : 0 < α * l) (hβ : 0 < 1 / β) (h : |A' - A| ≤ δ)
    (h1 : (1 - 2 ^ (-46 : ℤ)) * lawRate α β l (A' - ε) - 2 ^ (-99 : ℤ) ≤ ρ)
    (h2 : ρ ≤ (1 + 2 ^ (-46 : ℤ)) * lawRate α β l (A' + ε) + 2 ^ (-99 : ℤ)) :
    (1 - 2 ^ (-46 : ℤ)) * lawRate α β l (A - (δ + ε)) - 2 ^ (-99 : ℤ) ≤ ρ ∧
      ρ ≤ (1 + 2 ^ (-46 : ℤ)) * lawRate α β l (A + (δ + ε)) + 2 ^ (-99 : ℤ) := by
  obtain ⟨u1, u2⟩ := abs_le.mp h
  have k1 := mul_le_mul_of_nonneg_left (lawRate_mono hαl hβ (by linarith : A - (δ + ε) ≤ A' - ε)) (by norm_num : (0 : ℝ) ≤ 1 - 2 ^ (-46 : ℤ))
  have k2 := mul_le_mul_of_nonneg_left (lawRate_mono hαl hβ (by linarith : A' + ε ≤ A + (δ + ε))) (by norm_num : (0 : ℝ) ≤ 1 + 2 ^ (-46 : ℤ))
  constructor <;> linarith only [h1, h2, k1, k2]

/-- Recorded levels are within `δ` of those that were there. -/
theorem recorded_upTo {trsl : List DblR} {level : ℕ → ℝ} {δ : ℝ}
    (h : ∀ s x, trsl[s]? = some x → ∃ y, x.val = .fin y ∧ |y - level s| ≤ δ) :
    List.Forall₂ (UpTo δ) (trsl.map (·.val)) (series trsl.length level) := by
  refine List.forall₂_iff_get.mpr ⟨by rw [series_length, List.length_map], fun i h1 h2 => ?_⟩
  rw [List.length_map] at h1
  obtain ⟨y, hy, hd⟩ := h i _ (List.getElem?_eq_getElem h1)
  have e : (series trsl.length level)[i] = .fin (level i) := by
    have := series_get level h1
    exact (List.getElem?_eq_some_iff.mp this).2
  simp only [List.get_eq_getElem, List.getElem_map]
  rw [e, hy]
  exact .fin hd

/-- **C157** From recorded levels to rain, constant baseline: if every recorded level (a double) is within `δ` of the level which dry level,
rain and the film of water on the antennas give, the first `n` steps are dry and the dry level does not change from `n` steps before a wet
step to that step, then the chain `baseline_constant`, `waa_schleiss_2013`, `calc_R_from_A` run in doubles gives, before rates below `R_min`
are set to zero, rates between those of the power law at `A - e` and `A + e`, up to `2^-46` relative and `2^-99` absolute error; `A` is the
attenuation `a R^b L` by the rain that fell (0 at dry steps) and `e = 4 δ + (10 n^2 + 48 m + 11) 2^-53 B`. -/
theorem C157_constant [PyPow DblR] (hacc : PowClose) (trsl : List DblR) (wet : List Bool) (n : ℕ) (waaMax deltaT tau L a b Rmin : DblR)
    (M d t B m l α β rm : ℝ) (hn : 1 ≤ n) (hn2 : n ≤ 2 ^ 25) (hlen : trsl.length ≤ wet.length)
    (hM : waaMax.val = .fin M) (hd : deltaT.val = .fin d) (ht : tau.val = .fin t) (hr : RateRange L a b l α β) (hrm : Rmin.val = .fin rm)
    (hd0 : 0 ≤ d) (h3 : 3 * d ≤ t) (ht1 : (2 : ℝ) ^ (-100 : ℤ) ≤ t) (hd2 : d ≤ 2 ^ (500 : ℤ)) (hM0 : 0 ≤ M) (hMB : M ≤ B)
    (hB1 : (2 : ℝ) ^ (-900 : ℤ) ≤ B) (hB2 : B ≤ 2 ^ (290 : ℤ)) (hT : (8 * B / (α * l)) ^ (1 / β) ≤ 2 ^ (64 : ℤ))
    (hm : (trsl.length : ℝ) ≤ m ∨ t ≤ 3 * d * m) (hm2 : m ≤ 2 ^ 47)
    (dryLevel R : ℕ → ℝ) (δ : ℝ) (hδ : 0 ≤ δ) (hR : ∀ s < trsl.length, WetAt wet s → 0 ≤ R s) (h1 : ∀ s < n, ¬ WetAt wet s)
    (h2 : ∀ s < trsl.length, WetAt wet s → ∀ k, k < s → s ≤ k + n → dryLevel k = dryLevel s)
    (hx : ∀ s x, trsl[s]? = some x → ∃ y, x.val = .fin y ∧ |y| ≤ B ∧
      |y - levelAt (WetAt wet) M (3 * d / t) dryLevel (fun s => α * R s ^ β * l) s| ≤ δ) :
    ∃ rs, rainChainF n waaMax deltaT tau L a b Rmin trsl wet = .ok rs ∧ rs.length = trsl.length ∧
      ∀ s r, rs[s]? = some r → ∃ ρ, r.val = .fin (if ρ < rm then 0 else ρ) ∧ 0 ≤ ρ ∧
        (1 - 2 ^ (-46 : ℤ)) * lawRate α β l (rainAtt wet α β l R s - (4 * δ + (10 * (n * n) + 48 * m + 11) * (2 ^ (-53 : ℤ) * B)))
          - 2 ^ (-99 : ℤ) ≤ ρ ∧
        ρ ≤ (1 + 2 ^ (-46 : ℤ)) * lawRate α β l (rainAtt wet α β l R s + (4 * δ + (10 * (n * n) + 48 * m + 11) * (2 ^ (-53 : ℤ) * B)))
          + 2 ^ (-99 : ℤ) := by
  have ht0 : 0 < t := lt_of_lt_of_le (by positivity) ht1
  have p300 : (0 : ℝ) < 2 ^ (-300 : ℤ) := by positivity
  have hα : 0 < α := p300.trans_le hr.α1
  have hl0 : 0 < l := p300.trans_le hr.l1
  have hβ : 0 < β := by have := hr.β1; linarith
  obtain ⟨c, v, rs, hc, hv, hrs, hcl, hvl, hrl, h⟩ := C127_rain hacc trsl wet n waaMax deltaT tau L a b Rmin M d t B m l α β rm hn hn2 hlen
    hM hd ht hr hrm hd0 h3 ht1 hd2 hM0 hMB hB1 hB2 hT (by
      intro x hx'
      obtain ⟨s, hs, rfl⟩ := List.mem_iff_getElem.mp hx'
      obtain ⟨y, hy, hyB, -⟩ := hx s _ (List.getElem?_eq_getElem hs)
      exact .inr ⟨y, hy, hyB⟩) hm hm2
  set T := trsl.length with hTdef
  set lev := levelAt (WetAt wet) M (3 * d / t) dryLevel (fun s => α * R s ^ β * l) with hlev
  have hup := recorded_upTo (fun s x hs => let ⟨y, hy, _, hd⟩ := hx s x hs; ⟨y, hy, hd⟩)
  obtain ⟨b1, b2, w1, w2, hb1, hb2, hw1, hw2, -, -, -, hAA⟩ := C125_attenuation δ hδ (trsl.map (·.val)) (series T lev) wet n hn
    (by rw [List.length_map]; exact hlen) hup M d t hd0 ht0 h3
  rw [hc] at hb1
  cases hb1
  rw [hv] at hw1
  cases hw1
  have hb := C130_baseline_constant wet T n dryLevel lev hn hlen h1 (fun s _ hw => by rw [hlev]; unfold levelAt; rw [if_neg hw, add_zero]) h2
  rw [hb2] at hb
  cases hb
  obtain ⟨w, hw, hA⟩ := C130_attenuation wet T M d t dryLevel (fun s => α * R s ^ β * l) hlen hM0 hd0 ht0 h3
    (fun s hs hw => mul_nonneg (mul_nonneg hα.le (Real.rpow_nonneg (hR s hs hw) _)) hl0.le) (h1 0 (by omega))
  rw [hw2] at hw
  cases hw
  rw [← hlev] at hA
  rw [hA] at hAA
  refine ⟨rs, hrs, hrl, fun s r hs => ?_⟩
  have hsT : s < T := by have := (List.getElem?_eq_some_iff.mp hs).1; omega
  have hq := near_rd hAA (i := s) (by simp only [List.length_zipWith, List.length_map]; omega)
  have e1 : rd (List.zipWith (· -ᶠ ·) (List.zipWith (· -ᶠ ·) (trsl.map (·.val)) c) v) s = ((rd trsl s).val -ᶠ rd c s) -ᶠ rd v s := by
    apply rd_of_getElem?
    simp [List.getElem?_zipWith, getElem?_eq_rd (by omega : s < trsl.length), getElem?_eq_rd (by omega : s < c.length),
      getElem?_eq_rd (by omega : s < v.length)]
  have e2 : rd (series T fun s => if WetAt wet s then α * R s ^ β * l else 0) s = .fin (rainAtt wet α β l R s) :=
    rd_of_getElem? (series_get _ hsT)
  rw [e1, e2] at hq
  rcases h s _ _ _ _ (getElem?_eq_rd (by omega)) (getElem?_eq_rd (by omega)) (getElem?_eq_rd (by omega)) hs with ⟨e, -⟩ | ⟨A, ρ, e, g1, g2, g3, g4⟩
  · rw [e] at hq
    cases hq
  · rw [e] at hq
    cases hq with
    | fin hq =>
      obtain ⟨k1, k2⟩ := lawRate_band (mul_pos hα hl0) (by positivity) hq g3 g4
      exact ⟨ρ, g1, g2, k1, k2⟩

/-- **C157** From recorded levels to rain, linear baseline: the same for the chain `baseline_linear`, `waa_schleiss_2013`, `calc_R_from_A` if
first and last step are dry and the dry level is linear over each event, with `e = 4 δ + (48 m + 35) 2^-53 B`. -/
theorem C157_linear [PyPow DblR] (hacc : PowClose) (trsl : List DblR) (wet : List Bool) (ignoreNan : Bool)
    (waaMax deltaT tau L a b Rmin : DblR)
    (M d t B m l α β rm : ℝ) (hN : 0 < trsl.length) (hN2 : trsl.length ≤ 2 ^ 53) (hlen : trsl.length ≤ wet.length)
    (hM : waaMax.val = .fin M) (hd : deltaT.val = .fin d) (ht : tau.val = .fin t) (hr : RateRange L a b l α β) (hrm : Rmin.val = .fin rm)
    (hd0 : 0 ≤ d) (h3 : 3 * d ≤ t) (ht1 : (2 : ℝ) ^ (-100 : ℤ) ≤ t) (hd2 : d ≤ 2 ^ (500 : ℤ)) (hM0 : 0 ≤ M) (hMB : M ≤ B)
    (hB1 : (2 : ℝ) ^ (-900 : ℤ) ≤ B) (hB2 : B ≤ 2 ^ (290 : ℤ)) (hT : (8 * B / (α * l)) ^ (1 / β) ≤ 2 ^ (64 : ℤ))
    (hm : (trsl.length : ℝ) ≤ m ∨ t ≤ 3 * d * m) (hm2 : m ≤ 2 ^ 47)
    (dryLevel R : ℕ → ℝ) (δ : ℝ) (hδ : 0 ≤ δ) (hR : ∀ s < trsl.length, WetAt wet s → 0 ≤ R s)
    (hfirst : ¬ WetAt wet 0) (hlast : ¬ WetAt wet (trsl.length - 1))
    (hlin : ∀ p i q, p < i → i < q → q < trsl.length → ¬ WetAt wet p → ¬ WetAt wet q → (∀ k, p < k → k < q → WetAt wet k) →
      dryLevel i = dryLevel p + ((i : ℝ) - p) * ((dryLevel q - dryLevel p) / ((q : ℝ) - p)))
    (hx : ∀ s x, trsl[s]? = some x → ∃ y, x.val = .fin y ∧ |y| ≤ B ∧
      |y - levelAt (WetAt wet) M (3 * d / t) dryLevel (fun s => α * R s ^ β * l) s| ≤ δ) :
    ∃ rs, rainChainLinF ignoreNan waaMax deltaT tau L a b Rmin trsl (wet.map flagF) = .ok rs ∧ rs.length = trsl.length ∧
      ∀ s r, rs[s]? = some r → ∃ ρ, r.val = .fin (if ρ < rm then 0 else ρ) ∧ 0 ≤ ρ ∧
        (1 - 2 ^ (-46 : ℤ)) * lawRate α β l (rainAtt wet α β l R s - (4 * δ + (48 * m + 35) * (2 ^ (-53 : ℤ) * B))) - 2 ^ (-99 : ℤ) ≤ ρ ∧
        ρ ≤ (1 + 2 ^ (-46 : ℤ)) * lawRate α β l (rainAtt wet α β l R s + (4 * δ + (48 * m + 35) * (2 ^ (-53 : ℤ) * B))) + 2 ^ (-99 : ℤ) := by
  have ht0 : 0 < t := lt_of_lt_of_le (by positivity) ht1
  have p300 : (0 : ℝ) < 2 ^ (-300 : ℤ) := by positivity
  have hα : 0 < α := p300.trans_le hr.α1
  have hl0 : 0 < l := p300.trans_le hr.l1
  have hβ : 0 < β := by have := hr.β1; linarith
  have kw : (wet.map (flagF : Bool → DblR)).map (·.val) = wet.map flagF := by
    rw [List.map_map]
    refine List.map_congr_left fun f _ => ?_
    cases f
    · show (PyFloat.ofInt 0 : DblR).val = PyFloat.ofInt 0
      rw [RFl.val_zero, Fl.pf_ofInt, Int.cast_zero]
    · show (PyFloat.ofInt 1 : DblR).val = PyFloat.ofInt 1
      rw [RFl.val_one, Fl.pf_ofInt, Int.cast_one]
  obtain ⟨c, v, rs, hc, hv, hrs, hcl, hvl, hrl, h⟩ := C156_rain hacc trsl (wet.map flagF) ignoreNan waaMax deltaT tau L a b Rmin M d t B m
    l α β rm hN hN2 (by simpa using hlen) hM hd ht hr hrm hd0 h3 ht1 hd2 hM0 hMB hB1 hB2 hT (by
      intro x hx'
      obtain ⟨s, hs, rfl⟩ := List.mem_iff_getElem.mp hx'
      obtain ⟨y, hy, hyB, -⟩ := hx s _ (List.getElem?_eq_getElem hs)
      exact .inr ⟨y, hy, hyB⟩) hm hm2
  rw [kw] at hc hv
  set T := trsl.length with hTdef
  set lev := levelAt (WetAt wet) M (3 * d / t) dryLevel (fun s => α * R s ^ β * l) with hlev
  have hup := recorded_upTo (fun s x hs => let ⟨y, hy, _, hd⟩ := hx s x hs; ⟨y, hy, hd⟩)
  have hb := C130_baseline_linear wet T dryLevel lev ignoreNan hN hlen hfirst hlast
    (fun s _ hw => by rw [hlev]; unfold levelAt; rw [if_neg hw, add_zero]) hlin
  obtain ⟨b1, b2, hb1, hb2, hbb⟩ := C125_baseline_linear δ hδ (trsl.map (·.val)) (series T lev) (wet.map flagF) ignoreNan
    (by rw [List.length_map]; exact hN) (by simpa using hlen) hup
  rw [hc] at hb1
  cases hb1
  rw [hb2] at hb
  cases hb
  have hA2 := near_zip_sub hup hbb
  rw [← two_mul] at hA2
  obtain ⟨w1, w2, hw1, hw2, -, hww⟩ := C125_waa (2 * δ) (by linarith) (trsl.map (·.val)) c (series T lev) (series T dryLevel) (wet.map flagF)
    M d t hd0 ht0 h3 (by rw [List.length_map]; omega) (by rw [series_length, series_length]) (by simpa using hlen) hA2
  rw [hv] at hw1
  cases hw1
  have hAA := near_zip_sub hA2 hww
  rw [show 2 * δ + 2 * δ = 4 * δ by ring] at hAA
  obtain ⟨w, hw, hA⟩ := C130_attenuation wet T M d t dryLevel (fun s => α * R s ^ β * l) hlen hM0 hd0 ht0 h3
    (fun s hs hw => mul_nonneg (mul_nonneg hα.le (Real.rpow_nonneg (hR s hs hw) _)) hl0.le) hfirst
  rw [hw2] at hw
  cases hw
  rw [← hlev] at hA
  rw [hA] at hAA
  refine ⟨rs, hrs, hrl, fun s r hs => ?_⟩
  have hsT : s < T := by have := (List.getElem?_eq_some_iff.mp hs).1; omega
  have hq := near_rd hAA (i := s) (by simp only [List.length_zipWith, List.length_map]; omega)
  have e1 : rd (List.zipWith (· -ᶠ ·) (List.zipWith (· -ᶠ ·) (trsl.map (·.val)) c) v) s = ((rd trsl s).val -ᶠ rd c s) -ᶠ rd v s := by
    apply rd_of_getElem?
    simp [List.getElem?_zipWith, getElem?_eq_rd (by omega : s < trsl.length), getElem?_eq_rd (by omega : s < c.length),
      getElem?_eq_rd (by omega : s < v.length)]
  have e2 : rd (series T fun s => if WetAt wet s then α * R s ^ β * l else 0) s = .fin (rainAtt wet α β l R s) :=
    rd_of_getElem? (series_get _ hsT)
  rw [e1, e2] at hq
  rcases h s _ _ _ _ (getElem?_eq_rd (by omega)) (getElem?_eq_rd (by omega)) (getElem?_eq_rd (by omega)) hs with ⟨e, -⟩ | ⟨A, ρ, e, g1, g2, g3, g4⟩
  · rw [e] at hq
    cases hq
  · rw [e] at hq
    cases hq with
    | fin hq =>
      obtain ⟨k1, k2⟩ := lawRate_band (mul_pos hα hl0) (by positivity) hq g3 g4
      exact ⟨ρ, g1, g2, k1, k2⟩

/-- Two dry steps at 50.1 dB, then rain of 0.96 and 0.928 mm/h, film of water as `waa_max = 2`, `delta_t = 1`, `tau = 15` give; the levels
recorded in whole dB are 50, 50, 60, 60, wrong by 0.1 dB. The rain rates computed from them in doubles are right up to 0.041 mm/h. -/
example : letI := correctPow (binary64 (K := ℝ))
    let D : ℕ → DblR := fun k => PyFloat.ofInt k
    ∃ rs r ρ, rainChainF 2 (D 2) (D 1) (D 15) (D 10) (D 1) (D 1) (D 0) [D 50, D 50, D 60, D 60] [false, false, true, true] = .ok rs ∧
      rs[3]? = some r ∧ r.val = .fin ρ ∧ |ρ - 928 / 1000| ≤ 41 / 1000 := by
  let _ := correctPow (binary64 (K := ℝ))
  intro D
  have v : ∀ k : ℕ, k ≤ 60 → (D k).val = .fin (k : ℝ) := fun k hk => val_ofNat_b64 k (hk.trans (by norm_num))
  have lo : ∀ (x : ℝ) (j : ℤ), 1 ≤ x → j ≤ 0 → (2 : ℝ) ^ j ≤ x := fun x j hx hj =>
    le_trans (zpow_le_one_of_nonpos₀ (by norm_num) hj) hx
  have hi : ∀ (x : ℝ) (j : ℤ), x ≤ 2 ^ (10 : ℤ) → 10 ≤ j → x ≤ 2 ^ j := fun x j hx hj =>
    le_trans hx (zpow_le_zpow_right₀ (by norm_num) hj)
  have hr : RateRange (D 10) (D 1) (D 1) 10 1 1 :=
    ⟨by simpa using v 10 (by norm_num), by simpa using v 1 (by norm_num), by simpa using v 1 (by norm_num),
      lo _ _ (by norm_num) (by norm_num), hi _ _ (by norm_num) (by norm_num), lo _ _ (by norm_num) (by norm_num),
      hi _ _ (by norm_num) (by norm_num), by norm_num, by norm_num⟩
  have w0 : ¬ WetAt [false, false, true, true] 0 := by simp [WetAt]
  have w1 : ¬ WetAt [false, false, true, true] 1 := by simp [WetAt]
  have w2 : WetAt [false, false, true, true] 2 := by simp [WetAt]
  have w3 : WetAt [false, false, true, true] 3 := by simp [WetAt]
  obtain ⟨rs, hrs, hl, h⟩ := C157_constant correctPow_close [D 50, D 50, D 60, D 60] [false, false, true, true] 2
    (D 2) (D 1) (D 15) (D 10) (D 1) (D 1) (D 0) 2 1 15 64 4 10 1 1 0 (by norm_num) (by norm_num) (by simp)
    (by simpa using v 2 (by norm_num)) (by simpa using v 1 (by norm_num)) (by simpa using v 15 (by norm_num)) hr
    (by simpa using v 0 (by norm_num)) (by norm_num) (by norm_num) (lo _ _ (by norm_num) (by norm_num))
    (hi _ _ (by norm_num) (by norm_num)) (by norm_num) (by norm_num) (lo _ _ (by norm_num) (by norm_num))
    (hi _ _ (by norm_num) (by norm_num)) (by norm_num) (.inl (by norm_num)) (by norm_num)
    (fun _ => 50 + 1 / 10) (fun s => if s = 2 then 96 / 100 else 928 / 1000) (1 / 10) (by norm_num)
    (by intro s _ _; split_ifs <;> norm_num)
    (by
      intro s hs
      have : s = 0 ∨ s = 1 := by omega
      rcases this with rfl | rfl
      · exact w0
      · exact w1) (fun _ _ _ _ _ _ => rfl) (by
      intro s x hs
      have hlt : s < 4 := by simpa using (List.getElem?_eq_some_iff.mp hs).1
      have : s = 0 ∨ s = 1 ∨ s = 2 ∨ s = 3 := by omega
      rcases this with rfl | rfl | rfl | rfl <;> simp only [List.getElem?_cons_zero, List.getElem?_cons_succ, Option.some.injEq] at hs <;>
        subst hs
      · refine ⟨_, v 50 (by norm_num), by norm_num, ?_⟩
        unfold levelAt
        rw [if_neg w0]; norm_num
      · refine ⟨_, v 50 (by norm_num), by norm_num, ?_⟩
        unfold levelAt
        rw [if_neg w1]; norm_num
      · refine ⟨_, v 60 (by norm_num), by norm_num, ?_⟩
        unfold levelAt
        rw [if_pos w2]
        simp only [filmAt, if_pos w2, if_neg w1]
        norm_num [Real.rpow_one]
      · refine ⟨_, v 60 (by norm_num), by norm_num, ?_⟩
        unfold levelAt
        rw [if_pos w3]
        simp only [filmAt, if_pos w2, if_pos w3, if_neg w1]
        norm_num [Real.rpow_one])
  have hlr : 3 < rs.length := by rw [hl]; simp
  obtain ⟨ρ, g1, g2, g3, g4⟩ := h 3 _ (getElem?_eq_rd hlr)
  refine ⟨rs, rd rs 3, ρ, hrs, getElem?_eq_rd hlr, by rw [g1, if_neg (by linarith)], ?_⟩
  unfold lawRate rainAtt at g3 g4
  rw [if_pos w3, show (1 : ℝ) / 1 = 1 by norm_num] at g3 g4
  simp only [Real.rpow_one] at g3 g4
  rw [max_eq_right (by norm_num)] at g3 g4
  norm_num at g3 g4
  rw [abs_le]
  constructor <;> linarith

end Verif.Props
