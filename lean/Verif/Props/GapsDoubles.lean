import Verif.Props.Gaps
import Verif.Props.LevelsToRain

/-!
# Property C167: rain rates in doubles from recorded levels with gaps
-/

namespace Verif.Props
open Verif Verif.Baseline Verif.Waa Verif.KR Verif.Spec

/-- What is said of the attenuation `est` left after baseline and wet antenna attenuation at the steps that have both: 0 at dry steps; at wet
steps at most the attenuation `A` by rain and no less than with fully wet antennas; `A` itself before the first gap of the event; right after
a gap the antennas count as fully wet; and so they do as long as the observed attenuation is at least `waa_max`. -/
def GapAtt {K : Type} [Field K] [LinearOrder K] (wet : List Bool) (gap : ℕ → Prop) (wm c : K) (A est : ℕ → K) (t : ℕ) : Prop :=
  (¬ WetAt wet t → est t = 0) ∧
  (WetAt wet t →
    (max 0 (A t - (wm - filmAt (WetAt wet) wm c t)) ≤ est t ∧ est t ≤ A t) ∧
    ((∀ k < t, (∀ j, k ≤ j → j ≤ t → WetAt wet j) → ¬ gap k) → est t = A t) ∧
    (WetAt wet (t - 1) → gap (t - 1) → est t = max 0 (A t - (wm - filmAt (WetAt wet) wm c t))) ∧
    (∀ g < t, gap g → (∀ j, g ≤ j → j ≤ t → WetAt wet j) →
      (∀ j, g < j → j ≤ t → wm ≤ A j + filmAt (WetAt wet) wm c j) → est t = A t - (wm - filmAt (WetAt wet) wm c t)))

/-- The attenuation of a record with gaps behind a baseline that is missing at the steps `noBase`. -/
theorem gap_att {K : Type} [Field K] [LinearOrder K] [IsStrictOrderedRing K] {wet : List Bool} {T : ℕ} {wm dt tau : K}
    {gap noBase : ℕ → Prop} {dryLevel A : ℕ → K} (hd0 : ∀ t < T, ¬ WetAt wet t → gap t → noBase t)
    (hpre : ∀ t, 0 < t → t < T → WetAt wet t → noBase (t - 1) → noBase t) (hT : T ≤ wet.length)
    (hm : 0 ≤ wm) (hd : 0 ≤ dt) (ht : 0 < tau) (h3 : 3 * dt ≤ tau) (hA : ∀ t < T, WetAt wet t → 0 ≤ A t) (h0 : ¬ WetAt wet 0) :
    ∃ (w : List (Fl K)) (est : ℕ → K), waaSchleiss (gapSeries T gap (levelAt (WetAt wet) wm (3 * dt / tau) dryLevel A))
        (gapSeries T noBase dryLevel) (wet.map flagF) (.fin wm) (.fin dt) (.fin tau) = .ok w ∧ w.length = T ∧
      List.zipWith (· -ᶠ ·) (List.zipWith (· -ᶠ ·) (gapSeries T gap (levelAt (WetAt wet) wm (3 * dt / tau) dryLevel A))
          (gapSeries T noBase dryLevel)) w = gapSeries T (fun t => gap t ∨ noBase t) est ∧
      ∀ t < T, ¬ gap t → ¬ noBase t → GapAtt wet gap wm (3 * dt / tau) A est t := by
  classical
  obtain ⟨w, hw, hl, v, hv⟩ := gap_waa (dryLevel := dryLevel) hd0 hpre hT hm hd ht h3 hA h0
  set film := filmAt (WetAt wet) wm (3 * dt / tau) with hfd
  refine ⟨w, fun t => if WetAt wet t then A t + film t - v t else 0, hw, hl, ?_, ?_⟩
  · apply List.ext_getElem?
    intro t
    by_cases ht : t < T
    swap
    · rw [List.getElem?_eq_none (by simp [gapSeries_length, hl]; omega), List.getElem?_eq_none (by rw [gapSeries_length]; omega)]
    rw [gapSeries_get _ _ ht, List.getElem?_zipWith, List.getElem?_zipWith, gapSeries_get _ _ ht,
      gapSeries_get _ _ ht, getElem?_eq_rd (by omega)]
    by_cases g : gap t
    · simp [g]
    by_cases b : noBase t
    · simp [g, b]
    obtain ⟨v1, v2, -⟩ := hv t ht g b
    have e : Fl.fin (levelAt (WetAt wet) wm (3 * dt / tau) dryLevel A t) -ᶠ Fl.fin (dryLevel t) -ᶠ rd w t =
        .fin (if WetAt wet t then A t + film t - v t else 0) := by
      rw [v1, Fl.pf_sub_fin, Fl.pf_sub_fin, levelAt, add_sub_cancel_left]
      by_cases h : WetAt wet t
      · rw [if_pos h, if_pos h]
      · rw [if_neg h, if_neg h, v2 h, sub_zero]
    simp only [g, b, if_false, or_false]
    rw [e]
  · intro t ht g b
    obtain ⟨v1, v2, v3, v4, v5, v6⟩ := hv t ht g b
    unfold GapAtt
    rw [← hfd]
    refine ⟨fun h => if_neg h, fun h => ?_⟩
    simp only [if_pos h]
    obtain ⟨u1, u2, u3⟩ := v3 h
    refine ⟨⟨max_le (by linarith) (by linarith), by linarith⟩, fun hk => by rw [v4 h hk, add_sub_cancel_right], fun wp gp => ?_,
      fun k k1 k2 k3 k4 => by rw [v6 k k1 k2 k3 k4]; ring⟩
    rw [v5 h wp gp]
    rcases le_total (A t + film t) wm with hx | hx
    · rw [min_eq_left hx, sub_self, max_eq_left (by linarith)]
    · rw [min_eq_right hx, max_eq_right (by linarith)]
      ring

/-- recorded levels with gaps as values of exact arithmetic -/
theorem gapped_upTo {trsl : List DblR} {gap : ℕ → Prop} {lev : ℕ → ℝ} {B δ : ℝ}
    (hx : ∀ s x, trsl[s]? = some x → (gap s ∧ x.val = .nan) ∨ (¬ gap s ∧ ∃ y, x.val = .fin y ∧ |y| ≤ B ∧ |y - lev s| ≤ δ)) :
    List.Forall₂ (UpTo δ) (trsl.map (·.val)) (gapSeries trsl.length gap lev) := by
  classical
  rw [List.forall₂_iff_get]
  refine ⟨by rw [List.length_map, gapSeries_length], fun k k1 k2 => ?_⟩
  have hk : k < trsl.length := by simpa using k1
  simp only [List.get_eq_getElem, List.getElem_map]
  have e := gapSeries_get gap lev hk
  rw [List.getElem?_eq_getElem k2] at e
  rw [Option.some.inj e]
  rcases hx k _ (List.getElem?_eq_getElem hk) with ⟨g, y⟩ | ⟨g, y, y1, -, y2⟩
  · rw [if_pos g, y]; exact .nan
  · rw [if_neg g, y1]; exact .fin y2

/-- Rates in doubles next to the attenuation of a record with gaps. -/
theorem gap_band {trsl rs : List DblR} {c v : List (Fl ℝ)} {miss : ℕ → Prop} {est : ℕ → ℝ} {δ e α β l rm : ℝ} (hαl : 0 < α * l) (hβ : 0 < β)
    (hcl : c.length = trsl.length) (hvl : v.length = trsl.length) (hrl : rs.length = trsl.length)
    (hAA : List.Forall₂ (UpTo δ) (List.zipWith (· -ᶠ ·) (List.zipWith (· -ᶠ ·) (trsl.map (·.val)) c) v) (gapSeries trsl.length miss est))
    (h : ∀ (i : ℕ) x y z r, trsl[i]? = some x → c[i]? = some y → v[i]? = some z → rs[i]? = some r →
        ((x.val -ᶠ y) -ᶠ z = .nan ∧ isNaN r = true) ∨
        ∃ A ρ, (x.val -ᶠ y) -ᶠ z = .fin A ∧ r.val = .fin (if ρ < rm then 0 else ρ) ∧ 0 ≤ ρ ∧
          (1 - 2 ^ (-46 : ℤ)) * lawRate α β l (A - e) - 2 ^ (-99 : ℤ) ≤ ρ ∧
          ρ ≤ (1 + 2 ^ (-46 : ℤ)) * lawRate α β l (A + e) + 2 ^ (-99 : ℤ))
    {s : ℕ} {r : DblR} (hs : rs[s]? = some r) :
    (miss s → isNaN r = true) ∧ (¬ miss s → ∃ ρ, r.val = .fin (if ρ < rm then 0 else ρ) ∧ 0 ≤ ρ ∧
      (1 - 2 ^ (-46 : ℤ)) * lawRate α β l (est s - (δ + e)) - 2 ^ (-99 : ℤ) ≤ ρ ∧
      ρ ≤ (1 + 2 ^ (-46 : ℤ)) * lawRate α β l (est s + (δ + e)) + 2 ^ (-99 : ℤ)) := by
  classical
  have hsT : s < trsl.length := by have := (List.getElem?_eq_some_iff.mp hs).1; omega
  have hq := near_rd hAA (i := s) (by simp only [List.length_zipWith, List.length_map]; omega)
  have e1 : rd (List.zipWith (· -ᶠ ·) (List.zipWith (· -ᶠ ·) (trsl.map (·.val)) c) v) s = ((rd trsl s).val -ᶠ rd c s) -ᶠ rd v s := by
    apply rd_of_getElem?
    simp [List.getElem?_zipWith, getElem?_eq_rd (by omega : s < trsl.length), getElem?_eq_rd (by omega : s < c.length),
      getElem?_eq_rd (by omega : s < v.length)]
  rw [e1, rd_of_getElem? (gapSeries_get miss est hsT)] at hq
  rcases h s _ _ _ _ (getElem?_eq_rd (by omega)) (getElem?_eq_rd (by omega)) (getElem?_eq_rd (by omega)) hs with ⟨q, hn⟩ | ⟨A, ρ, q, g1, g2, g3, g4⟩
  · rw [q] at hq
    refine ⟨fun _ => hn, fun hm => ?_⟩
    rw [if_neg hm] at hq
    cases hq
  · rw [q] at hq
    refine ⟨fun hm => ?_, fun hm => ?_⟩
    · rw [if_pos hm] at hq
      cases hq
    · rw [if_neg hm] at hq
      cases hq with
      | fin hq =>
        obtain ⟨k1, k2⟩ := lawRate_band hαl (by positivity) hq g3 g4
        exact ⟨ρ, g1, g2, k1, k2⟩

/-- **C167** Rain in doubles from recorded levels with gaps: if every recorded level is missing (at the steps `gap`) or within `δ` of a level
as in C130, the rates of the chain `baseline_constant`, `waa_schleiss_2013`, `calc_R_from_A` in IEEE doubles are NaN exactly where level or
baseline are missing; elsewhere, up to `2^-46` relative and `2^-99` absolute error and before rates below `R_min` are set to zero, they are
those of the power law at the attenuation `est` described by `GapAtt`, known up to `e = 4 δ + (10 n^2 + 48 m + 11) 2^-53 B`. -/
theorem C167_constant [PyPow DblR] (hacc : PowClose) (trsl : List DblR) (wet : List Bool) (n : ℕ) (waaMax deltaT tau L a b Rmin : DblR)
    (M d t B m l α β rm : ℝ) (hn : 1 ≤ n) (hn2 : n ≤ 2 ^ 25) (hlen : trsl.length ≤ wet.length)
    (hM : waaMax.val = .fin M) (hd : deltaT.val = .fin d) (ht : tau.val = .fin t) (hr : RateRange L a b l α β) (hrm : Rmin.val = .fin rm)
    (hd0 : 0 ≤ d) (h3 : 3 * d ≤ t) (ht1 : (2 : ℝ) ^ (-100 : ℤ) ≤ t) (hd2 : d ≤ 2 ^ (500 : ℤ)) (hM0 : 0 ≤ M) (hMB : M ≤ B)
    (hB1 : (2 : ℝ) ^ (-900 : ℤ) ≤ B) (hB2 : B ≤ 2 ^ (290 : ℤ)) (hT : (8 * B / (α * l)) ^ (1 / β) ≤ 2 ^ (64 : ℤ))
    (hm : (trsl.length : ℝ) ≤ m ∨ t ≤ 3 * d * m) (hm2 : m ≤ 2 ^ 47)
    (gap : ℕ → Prop) (dryLevel R : ℕ → ℝ) (δ : ℝ) (hδ : 0 ≤ δ) (hR : ∀ s < trsl.length, WetAt wet s → 0 ≤ R s)
    (h1 : ∀ s < n, ¬ WetAt wet s) (h2 : ∀ s < trsl.length, WetAt wet s → ∀ k, k < s → s ≤ k + n → dryLevel k = dryLevel s)
    (hx : ∀ s x, trsl[s]? = some x → (gap s ∧ x.val = .nan) ∨ (¬ gap s ∧ ∃ y, x.val = .fin y ∧ |y| ≤ B ∧
      |y - levelAt (WetAt wet) M (3 * d / t) dryLevel (fun s => α * R s ^ β * l) s| ≤ δ)) :
    ∃ rs est, rainChainF n waaMax deltaT tau L a b Rmin trsl wet = .ok rs ∧ rs.length = trsl.length ∧
      ∀ s r, rs[s]? = some r → (gap s ∨ NoBase wet gap n s → isNaN r = true) ∧
        (¬ gap s → ¬ NoBase wet gap n s → GapAtt wet gap M (3 * d / t) (fun s => α * R s ^ β * l) est s ∧
          ∃ ρ, r.val = .fin (if ρ < rm then 0 else ρ) ∧ 0 ≤ ρ ∧
          (1 - 2 ^ (-46 : ℤ)) * lawRate α β l (est s - (4 * δ + (10 * (n * n) + 48 * m + 11) * (2 ^ (-53 : ℤ) * B))) - 2 ^ (-99 : ℤ) ≤ ρ ∧
          ρ ≤ (1 + 2 ^ (-46 : ℤ)) * lawRate α β l (est s + (4 * δ + (10 * (n * n) + 48 * m + 11) * (2 ^ (-53 : ℤ) * B))) + 2 ^ (-99 : ℤ)) := by
  have ht0 : 0 < t := lt_of_lt_of_le (by positivity) ht1
  have p300 : (0 : ℝ) < 2 ^ (-300 : ℤ) := by positivity
  have hα : 0 < α := p300.trans_le hr.α1
  have hl0 : 0 < l := p300.trans_le hr.l1
  have hβ : 0 < β := by have := hr.β1; linarith
  have hxB : ∀ a ∈ trsl, a.val = .nan ∨ ∃ x, a.val = .fin x ∧ |x| ≤ B := by
    intro x hx'
    obtain ⟨s, hs, rfl⟩ := List.mem_iff_getElem.mp hx'
    rcases hx s _ (List.getElem?_eq_getElem hs) with ⟨-, h⟩ | ⟨-, y, hy, hyB, -⟩
    · exact .inl h
    · exact .inr ⟨y, hy, hyB⟩
  obtain ⟨c, v, rs, hc, hv, hrs, hcl, hvl, hrl, h⟩ := C127_rain hacc trsl wet n waaMax deltaT tau L a b Rmin M d t B m l α β rm hn hn2 hlen hM hd
    ht hr hrm hd0 h3 ht1 hd2 hM0 hMB hB1 hB2 hT hxB hm hm2
  have hup := gapped_upTo hx
  set T := trsl.length with hTdef
  set lev := levelAt (WetAt wet) M (3 * d / t) dryLevel (fun s => α * R s ^ β * l) with hlev
  have hb := C166_baseline wet T n gap dryLevel lev hn hlen h1
    (fun s _ hw => by rw [hlev]; unfold levelAt; rw [if_neg hw, add_zero]) h2
  obtain ⟨b1, b2, w1, w2, g1, g2, g3, g4, -, -, -, hAA⟩ := C125_attenuation δ hδ _ _ wet n hn (by rw [List.length_map]; exact hlen) hup M d t hd0
    ht0 h3
  rw [hc] at g1; obtain rfl := Except.ok.inj g1
  rw [hv] at g3; obtain rfl := Except.ok.inj g3
  rw [hb] at g2; obtain rfl := Except.ok.inj g2
  obtain ⟨w, est, hw, -, hA, hg⟩ := gap_att (dryLevel := dryLevel) (gap := gap) (noBase := NoBase wet gap n)
    (A := fun s => α * R s ^ β * l) (fun t _ => .dry) (fun t t0 _ hw b' => by
      by_cases hw' : WetAt wet (t - 1)
      · exact (noBase_next t0 hw hw').mpr b'
      · exact (noBase_first hw hw').mpr ⟨t - 1, by omega, by omega, b'⟩) hlen hM0 hd0 ht0 h3
    (fun s hs hw => mul_nonneg (mul_nonneg hα.le (Real.rpow_nonneg (hR s hs hw) _)) hl0.le) (h1 0 (by omega))
  rw [← hlev] at hw hA
  rw [hw] at g4
  cases g4
  rw [hA] at hAA
  refine ⟨rs, est, hrs, hrl, fun s r hs => ?_⟩
  have hsT : s < T := by have := (List.getElem?_eq_some_iff.mp hs).1; omega
  obtain ⟨k1, k2⟩ := gap_band (mul_pos hα hl0) hβ hcl hvl hrl hAA h hs
  exact ⟨k1, fun a b => ⟨hg s hsT a b, k2 (by tauto)⟩⟩

/-- **C167** The same with `baseline_linear`, if first and last step are dry and the dry level is linear over each event, with
`e = 4 δ + (48 m + 35) 2^-53 B`. -/
theorem C167_linear [PyPow DblR] (hacc : PowClose) (trsl : List DblR) (wet : List Bool) (ignoreNan : Bool)
    (waaMax deltaT tau L a b Rmin : DblR)
    (M d t B m l α β rm : ℝ) (hN : 0 < trsl.length) (hN2 : trsl.length ≤ 2 ^ 53) (hlen : trsl.length ≤ wet.length)
    (hM : waaMax.val = .fin M) (hd : deltaT.val = .fin d) (ht : tau.val = .fin t) (hr : RateRange L a b l α β) (hrm : Rmin.val = .fin rm)
    (hd0 : 0 ≤ d) (h3 : 3 * d ≤ t) (ht1 : (2 : ℝ) ^ (-100 : ℤ) ≤ t) (hd2 : d ≤ 2 ^ (500 : ℤ)) (hM0 : 0 ≤ M) (hMB : M ≤ B)
    (hB1 : (2 : ℝ) ^ (-900 : ℤ) ≤ B) (hB2 : B ≤ 2 ^ (290 : ℤ)) (hT : (8 * B / (α * l)) ^ (1 / β) ≤ 2 ^ (64 : ℤ))
    (hm : (trsl.length : ℝ) ≤ m ∨ t ≤ 3 * d * m) (hm2 : m ≤ 2 ^ 47)
    (gap : ℕ → Prop) (dryLevel R : ℕ → ℝ) (δ : ℝ) (hδ : 0 ≤ δ) (hR : ∀ s < trsl.length, WetAt wet s → 0 ≤ R s)
    (hfirst : ¬ WetAt wet 0) (hlast : ¬ WetAt wet (trsl.length - 1))
    (hlin : ∀ p i q, p < i → i < q → q < trsl.length → ¬ WetAt wet p → ¬ WetAt wet q → (∀ k, p < k → k < q → WetAt wet k) →
      dryLevel i = dryLevel p + ((i : ℝ) - p) * ((dryLevel q - dryLevel p) / ((q : ℝ) - p)))
    (hx : ∀ s x, trsl[s]? = some x → (gap s ∧ x.val = .nan) ∨ (¬ gap s ∧ ∃ y, x.val = .fin y ∧ |y| ≤ B ∧
      |y - levelAt (WetAt wet) M (3 * d / t) dryLevel (fun s => α * R s ^ β * l) s| ≤ δ)) :
    ∃ rs est, rainChainLinF ignoreNan waaMax deltaT tau L a b Rmin trsl (wet.map flagF) = .ok rs ∧ rs.length = trsl.length ∧
      ∀ s r, rs[s]? = some r → (gap s ∨ NoBaseLin wet gap trsl.length s → isNaN r = true) ∧
        (¬ gap s → ¬ NoBaseLin wet gap trsl.length s → GapAtt wet gap M (3 * d / t) (fun s => α * R s ^ β * l) est s ∧
          ∃ ρ, r.val = .fin (if ρ < rm then 0 else ρ) ∧ 0 ≤ ρ ∧
          (1 - 2 ^ (-46 : ℤ)) * lawRate α β l (est s - (4 * δ + (48 * m + 35) * (2 ^ (-53 : ℤ) * B))) - 2 ^ (-99 : ℤ) ≤ ρ ∧
          ρ ≤ (1 + 2 ^ (-46 : ℤ)) * lawRate α β l (est s + (4 * δ + (48 * m + 35) * (2 ^ (-53 : ℤ) * B))) + 2 ^ (-99 : ℤ)) := by
  have ht0 : 0 < t := lt_of_lt_of_le (by positivity) ht1
  have p300 : (0 : ℝ) < 2 ^ (-300 : ℤ) := by positivity
  have hα : 0 < α := p300.trans_le hr.α1
  have hl0 : 0 < l := p300.trans_le hr.l1
  have hβ : 0 < β := by have := hr.β1; linarith
  have hxB : ∀ a ∈ trsl, a.val = .nan ∨ ∃ x, a.val = .fin x ∧ |x| ≤ B := by
    intro x hx'
    obtain ⟨s, hs, rfl⟩ := List.mem_iff_getElem.mp hx'
    rcases hx s _ (List.getElem?_eq_getElem hs) with ⟨-, h⟩ | ⟨-, y, hy, hyB, -⟩
    · exact .inl h
    · exact .inr ⟨y, hy, hyB⟩
  have kw : (wet.map (flagF : Bool → DblR)).map (·.val) = wet.map flagF := by
    rw [List.map_map]
    refine List.map_congr_left fun f _ => ?_
    cases f
    · show (PyFloat.ofInt 0 : DblR).val = PyFloat.ofInt 0
      rw [RFl.val_zero, Fl.pf_ofInt, Int.cast_zero]
    · show (PyFloat.ofInt 1 : DblR).val = PyFloat.ofInt 1
      rw [RFl.val_one, Fl.pf_ofInt, Int.cast_one]
  obtain ⟨c, v, rs, hc, hv, hrs, hcl, hvl, hrl, h⟩ := C156_rain hacc trsl (wet.map flagF) ignoreNan waaMax deltaT tau L a b Rmin M d t B m
    l α β rm hN hN2 (by simpa using hlen) hM hd ht hr hrm hd0 h3 ht1 hd2 hM0 hMB hB1 hB2 hT hxB hm hm2
  rw [kw] at hc hv
  have hup := gapped_upTo hx
  set T := trsl.length with hTdef
  set lev := levelAt (WetAt wet) M (3 * d / t) dryLevel (fun s => α * R s ^ β * l) with hlev
  have hb := C166_baseline_linear wet T gap dryLevel lev ignoreNan hN hlen hfirst hlast
    (fun s _ hw => by rw [hlev]; unfold levelAt; rw [if_neg hw, add_zero]) hlin
  obtain ⟨b1, b2, hb1, hb2, hbb⟩ := C125_baseline_linear δ hδ (trsl.map (·.val)) (gapSeries T gap lev) (wet.map flagF) ignoreNan
    (by rw [List.length_map]; exact hN) (by simpa using hlen) hup
  rw [hc] at hb1
  cases hb1
  rw [hb] at hb2
  cases hb2
  have hA2 := near_zip_sub hup hbb
  rw [← two_mul] at hA2
  obtain ⟨w1, w2, hw1, g4, -, hww⟩ := C125_waa (2 * δ) (by linarith) (trsl.map (·.val)) c (gapSeries T gap lev)
    (gapSeries T (NoBaseLin wet gap T) dryLevel) (wet.map flagF)
    M d t hd0 ht0 h3 (by rw [List.length_map]; omega) (by rw [gapSeries_length, gapSeries_length]) (by simpa using hlen) hA2
  rw [hv] at hw1
  cases hw1
  have hAA := near_zip_sub hA2 hww
  rw [show 2 * δ + 2 * δ = 4 * δ by ring] at hAA
  obtain ⟨w, est, hw, -, hA, hg⟩ := gap_att (dryLevel := dryLevel) (gap := gap) (noBase := NoBaseLin wet gap T)
    (A := fun s => α * R s ^ β * l) (fun t _ h g => .inl ⟨h, g⟩) (noBaseLin_next hlast hfirst hlen) hlen hM0 hd0 ht0 h3
    (fun s hs hw => mul_nonneg (mul_nonneg hα.le (Real.rpow_nonneg (hR s hs hw) _)) hl0.le) hfirst
  rw [← hlev] at hw hA
  rw [hw] at g4
  cases g4
  rw [hA] at hAA
  refine ⟨rs, est, hrs, hrl, fun s r hs => ?_⟩
  have hsT : s < T := by have := (List.getElem?_eq_some_iff.mp hs).1; omega
  obtain ⟨k1, k2⟩ := gap_band (mul_pos hα hl0) hβ hcl hvl hrl hAA h hs
  exact ⟨k1, fun a b => ⟨hg s hsT a b, k2 (by tauto)⟩⟩

/-- Rain of 0.96 and 0.9024 mm/h before and after a missing level, with the film of water as `waa_max = 2`, `delta_t = 1`, `tau = 15` give:
the rate at the gap is NaN, the one behind it 0.8 mm/h. -/
example : letI := correctPow (Bin.binary64 (K := ℝ))
    let D : ℕ → DblR := fun k => PyFloat.ofInt k
    ∃ rs r r' ρ, rainChainF 1 (D 2) (D 1) (D 15) (D 10) (D 1) (D 1) (D 0) [D 50, D 60, PyFloat.nan, D 60] [false, true, true, true] = .ok rs ∧
      rs[2]? = some r ∧ isNaN r = true ∧ rs[3]? = some r' ∧ r'.val = .fin ρ ∧ |ρ - 8 / 10| ≤ 1 / 10 ^ 9 := by
  let _ := correctPow (Bin.binary64 (K := ℝ))
  intro D
  have v : ∀ k : ℕ, k ≤ 60 → (D k).val = .fin (k : ℝ) := fun k hk => val_ofNat_b64 k (hk.trans (by norm_num))
  have lo : ∀ (x : ℝ) (j : ℤ), 1 ≤ x → j ≤ 0 → (2 : ℝ) ^ j ≤ x := fun x j hx hj =>
    le_trans (zpow_le_one_of_nonpos₀ (by norm_num) hj) hx
  have hi : ∀ (x : ℝ) (j : ℤ), x ≤ 2 ^ (10 : ℤ) → 10 ≤ j → x ≤ 2 ^ j := fun x j hx hj =>
    le_trans hx (zpow_le_zpow_right₀ (by norm_num) hj)
  have hr : RateRange (D 10) (D 1) (D 1) 10 1 1 :=
    ⟨by simpa using v 10 (by norm_num), by simpa using v 1 (by norm_num), by simpa using v 1 (by norm_num),
      lo _ _ (by norm_num) (by norm_num), hi _ _ (by norm_num) (by norm_num), lo _ _ (by norm_num) (by norm_num),
      hi _ _ (by norm_num) (by norm_num), by norm_num, by norm_num⟩
  have d0 : ¬ WetAt [false, true, true, true] 0 := by simp [WetAt]
  have w1 : WetAt [false, true, true, true] 1 := rfl
  have w2 : WetAt [false, true, true, true] 2 := rfl
  have w3 : WetAt [false, true, true, true] 3 := rfl
  obtain ⟨rs, est, hrs, hl, h⟩ := C167_constant correctPow_close [D 50, D 60, PyFloat.nan, D 60] [false, true, true, true] 1
    (D 2) (D 1) (D 15) (D 10) (D 1) (D 1) (D 0) 2 1 15 64 4 10 1 1 0 (by norm_num) (by norm_num) (by simp)
    (by simpa using v 2 (by norm_num)) (by simpa using v 1 (by norm_num)) (by simpa using v 15 (by norm_num)) hr
    (by simpa using v 0 (by norm_num)) (by norm_num) (by norm_num) (lo _ _ (by norm_num) (by norm_num))
    (hi _ _ (by norm_num) (by norm_num)) (by norm_num) (by norm_num) (lo _ _ (by norm_num) (by norm_num))
    (hi _ _ (by norm_num) (by norm_num)) (by norm_num) (.inl (by norm_num)) (by norm_num)
    (fun s => s = 2) (fun _ => 50) (fun s => if s = 1 then 96 / 100 else 9024 / 10000) 0 le_rfl
    (by intro s _ _; split_ifs <;> norm_num) (by
      intro s hs
      obtain rfl : s = 0 := by omega
      exact d0) (fun _ _ _ _ _ _ => rfl) (by
      intro s x hs
      have hlt : s < 4 := by simpa using (List.getElem?_eq_some_iff.mp hs).1
      have : s = 0 ∨ s = 1 ∨ s = 2 ∨ s = 3 := by omega
      rcases this with rfl | rfl | rfl | rfl <;> simp only [List.getElem?_cons_zero, List.getElem?_cons_succ, Option.some.injEq] at hs <;>
        subst hs
      · refine .inr ⟨by omega, _, v 50 (by norm_num), by norm_num, ?_⟩
        unfold levelAt
        rw [if_neg d0]; norm_num
      · refine .inr ⟨by omega, _, v 60 (by norm_num), by norm_num, ?_⟩
        unfold levelAt
        rw [if_pos w1]
        simp only [filmAt, if_pos w1]
        norm_num [Real.rpow_one]
      · exact .inl ⟨rfl, rfl⟩
      · refine .inr ⟨by omega, _, v 60 (by norm_num), by norm_num, ?_⟩
        unfold levelAt
        rw [if_pos w3]
        simp only [filmAt, if_pos w1, if_pos w2, if_pos w3]
        norm_num [Real.rpow_one])
  have hl2 : 2 < rs.length := by rw [hl]; simp
  have hl3 : 3 < rs.length := by rw [hl]; simp
  have n0 : ¬ NoBase [false, true, true, true] (fun s => s = 2) 1 0 := by rw [noBase_dry d0]; omega
  have n1 : ¬ NoBase [false, true, true, true] (fun s => s = 2) 1 1 := by
    rw [noBase_first w1 d0]
    rintro ⟨k, k1, k2, k3⟩
    obtain rfl : k = 0 := by omega
    exact n0 k3
  have n2 : ¬ NoBase [false, true, true, true] (fun s => s = 2) 1 2 := by rwa [noBase_next (by omega) w2 w1]
  have n3 : ¬ NoBase [false, true, true, true] (fun s => s = 2) 1 3 := by rwa [noBase_next (by omega) w3 w2]
  obtain ⟨k, ρ, g1, g2, g3, g4⟩ := (h 3 _ (getElem?_eq_rd hl3)).2 (by omega) n3
  have k' := (k.2 w3).2.2.1 w2 rfl
  simp only [filmAt, if_pos w1, if_pos w2, if_pos w3] at k'
  norm_num [Real.rpow_one] at k'
  refine ⟨rs, rd rs 2, rd rs 3, ρ, hrs, getElem?_eq_rd hl2, (h 2 _ (getElem?_eq_rd hl2)).1 (.inl rfl), getElem?_eq_rd hl3,
    by rw [g1, if_neg (by linarith)], ?_⟩
  unfold lawRate at g3 g4
  rw [k', show (1 : ℝ) / 1 = 1 by norm_num] at g3 g4
  simp only [Real.rpow_one] at g3 g4
  rw [max_eq_right (by norm_num)] at g3 g4
  norm_num at g3 g4
  rw [abs_le]
  constructor <;> linarith

/-- the same with `baseline_linear` and a dry step at the end -/
example : letI := correctPow (Bin.binary64 (K := ℝ))
    let D : ℕ → DblR := fun k => PyFloat.ofInt k
    ∃ rs r r' ρ, rainChainLinF false (D 2) (D 1) (D 15) (D 10) (D 1) (D 1) (D 0) [D 50, D 60, PyFloat.nan, D 60, D 50] ([false, true, true, true, false].map flagF) = .ok rs ∧
      rs[2]? = some r ∧ isNaN r = true ∧ rs[3]? = some r' ∧ r'.val = .fin ρ ∧ |ρ - 8 / 10| ≤ 1 / 10 ^ 9 := by
  let _ := correctPow (Bin.binary64 (K := ℝ))
  intro D
  have v : ∀ k : ℕ, k ≤ 60 → (D k).val = .fin (k : ℝ) := fun k hk => val_ofNat_b64 k (hk.trans (by norm_num))
  have lo : ∀ (x : ℝ) (j : ℤ), 1 ≤ x → j ≤ 0 → (2 : ℝ) ^ j ≤ x := fun x j hx hj =>
    le_trans (zpow_le_one_of_nonpos₀ (by norm_num) hj) hx
  have hi : ∀ (x : ℝ) (j : ℤ), x ≤ 2 ^ (10 : ℤ) → 10 ≤ j → x ≤ 2 ^ j := fun x j hx hj =>
    le_trans hx (zpow_le_zpow_right₀ (by norm_num) hj)
  have hr : RateRange (D 10) (D 1) (D 1) 10 1 1 :=
    ⟨by simpa using v 10 (by norm_num), by simpa using v 1 (by norm_num), by simpa using v 1 (by norm_num),
      lo _ _ (by norm_num) (by norm_num), hi _ _ (by norm_num) (by norm_num), lo _ _ (by norm_num) (by norm_num),
      hi _ _ (by norm_num) (by norm_num), by norm_num, by norm_num⟩
  have d0 : ¬ WetAt [false, true, true, true, false] 0 := by simp [WetAt]
  have w1 : WetAt [false, true, true, true, false] 1 := rfl
  have w2 : WetAt [false, true, true, true, false] 2 := rfl
  have w3 : WetAt [false, true, true, true, false] 3 := rfl
  have d4 : ¬ WetAt [false, true, true, true, false] 4 := by simp [WetAt]
  obtain ⟨rs, est, hrs, hl, h⟩ := C167_linear correctPow_close [D 50, D 60, PyFloat.nan, D 60, D 50] [false, true, true, true, false] false
    (D 2) (D 1) (D 15) (D 10) (D 1) (D 1) (D 0) 2 1 15 64 5 10 1 1 0 (by norm_num) (by norm_num) (by simp)
    (by simpa using v 2 (by norm_num)) (by simpa using v 1 (by norm_num)) (by simpa using v 15 (by norm_num)) hr
    (by simpa using v 0 (by norm_num)) (by norm_num) (by norm_num) (lo _ _ (by norm_num) (by norm_num))
    (hi _ _ (by norm_num) (by norm_num)) (by norm_num) (by norm_num) (lo _ _ (by norm_num) (by norm_num))
    (hi _ _ (by norm_num) (by norm_num)) (by norm_num) (.inl (by norm_num)) (by norm_num)
    (fun s => s = 2) (fun _ => 50) (fun s => if s = 1 then 96 / 100 else 9024 / 10000) 0 le_rfl
    (by intro s _ _; split_ifs <;> norm_num) d0 d4 (by intros; simp) (by
      intro s x hs
      have hlt : s < 5 := by simpa using (List.getElem?_eq_some_iff.mp hs).1
      have : s = 0 ∨ s = 1 ∨ s = 2 ∨ s = 3 ∨ s = 4 := by omega
      rcases this with rfl | rfl | rfl | rfl | rfl <;> simp only [List.getElem?_cons_zero, List.getElem?_cons_succ, Option.some.injEq] at hs <;>
        subst hs
      · refine .inr ⟨by omega, _, v 50 (by norm_num), by norm_num, ?_⟩
        unfold levelAt
        rw [if_neg d0]; norm_num
      · refine .inr ⟨by omega, _, v 60 (by norm_num), by norm_num, ?_⟩
        unfold levelAt
        rw [if_pos w1]
        simp only [filmAt, if_pos w1]
        norm_num [Real.rpow_one]
      · exact .inl ⟨rfl, rfl⟩
      · refine .inr ⟨by omega, _, v 60 (by norm_num), by norm_num, ?_⟩
        unfold levelAt
        rw [if_pos w3]
        simp only [filmAt, if_pos w1, if_pos w2, if_pos w3]
        norm_num [Real.rpow_one]
      · refine .inr ⟨by omega, _, v 50 (by norm_num), by norm_num, ?_⟩
        unfold levelAt
        rw [if_neg d4]; norm_num)
  have hl2 : 2 < rs.length := by rw [hl]; simp
  have hl3 : 3 < rs.length := by rw [hl]; simp
  have n3 : ¬ NoBaseLin [false, true, true, true, false] (fun s => s = 2) 5 3 := by
    rintro (⟨k1, -⟩ | ⟨p, q, -, -, -, -, h5, h6, -, rfl | rfl⟩)
    · exact k1 w3
    · exact h5 w2
    · exact h6 w2
  obtain ⟨k, ρ, g1, g2, g3, g4⟩ := (h 3 _ (getElem?_eq_rd hl3)).2 (by omega) n3
  have k' := (k.2 w3).2.2.1 w2 rfl
  simp only [filmAt, if_pos w1, if_pos w2, if_pos w3] at k'
  norm_num [Real.rpow_one] at k'
  refine ⟨rs, rd rs 2, rd rs 3, ρ, hrs, getElem?_eq_rd hl2, (h 2 _ (getElem?_eq_rd hl2)).1 (.inl rfl), getElem?_eq_rd hl3,
    by rw [g1, if_neg (by linarith)], ?_⟩
  unfold lawRate at g3 g4
  rw [k', show (1 : ℝ) / 1 = 1 by norm_num] at g3 g4
  simp only [Real.rpow_one] at g3 g4
  rw [max_eq_right (by norm_num)] at g3 g4
  norm_num at g3 g4
  rw [abs_le]
  constructor <;> linarith

end Verif.Props
