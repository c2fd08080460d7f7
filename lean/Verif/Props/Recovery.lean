import Verif.Props.RoundedChain
import Verif.Props.BaselineLinear
import Verif.Props.NearbyChain

/-!
# Property C130: the processing chain recovers the rain that made the levels
-/

namespace Verif.Props
open Verif Verif.Baseline Verif.Waa Verif.KR

section
variable {K : Type} [Field K] [LinearOrder K] [IsStrictOrderedRing K]

/-- The film on the antennas as in Schleiss et al. (2013): none when it is dry, in rain it approaches `wm` by the fraction `c` of what is
missing per step. -/
def filmAt (wet : ℕ → Prop) [DecidablePred wet] (wm c : K) : ℕ → K
  | 0 => 0
  | t + 1 => if wet (t + 1) then filmAt wet wm c t + (wm - filmAt wet wm c t) * c else 0

/-- The level (transmitted minus received) at step `t`: that of dry weather, and in rain the attenuation by rain and film on top. -/
def levelAt (wet : ℕ → Prop) [DecidablePred wet] (wm c : K) (dryLevel A : ℕ → K) (t : ℕ) : K :=
  dryLevel t + if wet t then A t + filmAt wet wm c t else 0

/-- the first `T` values of a series -/
def series (T : ℕ) (x : ℕ → K) : List (Fl K) := (List.range T).map fun t => .fin (x t)

omit [LinearOrder K] [IsStrictOrderedRing K] [Field K] in
theorem series_get {T t : ℕ} (x : ℕ → K) (h : t < T) : (series T x)[t]? = some (.fin (x t)) := by
  unfold series
  rw [List.getElem?_map, List.getElem?_range h]
  rfl

omit [LinearOrder K] [IsStrictOrderedRing K] [Field K] in
theorem series_length (T : ℕ) (x : ℕ → K) : (series T x).length = T := by simp [series]

theorem film_bounds {wet : ℕ → Prop} [DecidablePred wet] {wm c : K} (hm : 0 ≤ wm) (hc : 0 ≤ c) (hc1 : c ≤ 1) (t : ℕ) :
    0 ≤ filmAt wet wm c t ∧ filmAt wet wm c t ≤ wm := by
  induction t with
  | zero => exact ⟨le_refl _, hm⟩
  | succ t ih =>
    unfold filmAt
    split_ifs
    · have h1 := mul_nonneg (sub_nonneg.mpr ih.2) hc
      have h2 := mul_nonneg (sub_nonneg.mpr ih.2) (sub_nonneg.mpr hc1)
      exact ⟨by linarith [ih.1], by linarith⟩
    · exact ⟨le_refl _, hm⟩

/-- wet flags as a predicate -/
abbrev WetAt (wet : List Bool) (t : ℕ) : Prop := wet[t]? = some true

/-- with the dry level as baseline, the WAA is the film -/
theorem waa_is_film {wet : List Bool} {T : ℕ} {wm dt tau : K} {dryLevel A : ℕ → K} (hT : T ≤ wet.length) (hm : 0 ≤ wm)
    (hd : 0 ≤ dt) (ht : 0 < tau) (h3 : 3 * dt ≤ tau) (hA : ∀ t < T, WetAt wet t → 0 ≤ A t) (h0 : ¬ WetAt wet 0) :
    waaSchleiss (series T (levelAt (WetAt wet) wm (3 * dt / tau) dryLevel A)) (series T dryLevel) (wet.map flagF) (.fin wm)
      (.fin dt) (.fin tau) = .ok (series T (filmAt (WetAt wet) wm (3 * dt / tau))) := by
  set c := 3 * dt / tau with hc
  have c0 : 0 ≤ c := div_nonneg (by linarith) ht.le
  have c1 : c ≤ 1 := (div_le_one ht).mpr h3
  obtain ⟨ws, h1, h2, h4, h5⟩ := schleiss_fin ((List.range T).map (levelAt (WetAt wet) wm c dryLevel A)) ((List.range T).map dryLevel)
    (wet.map flagF) wm dt tau (by simp) (by simpa using hT) ht.ne'
  have e1 : ((List.range T).map (levelAt (WetAt wet) wm c dryLevel A)).map Fl.fin = series T (levelAt (WetAt wet) wm c dryLevel A) := by
    rw [List.map_map]; rfl
  have e2 : ((List.range T).map dryLevel).map Fl.fin = series T dryLevel := by
    rw [List.map_map]; rfl
  rw [e1, e2] at h1
  rw [h1]
  congr 1
  have l : ws.length = T := by simpa using h2
  have key : ∀ t (h : t < T), ws[t] = filmAt (WetAt wet) wm c t := by
    intro t
    induction t with
    | zero => intro h; rw [h4 (by simpa using h)]; rfl
    | succ t ih =>
      intro h
      have hb := film_bounds (wet := WetAt wet) hm c0 c1 (t + 1)
      rw [h5 (t + 1) (by omega) (by simpa using h)]
      simp only [Nat.add_sub_cancel, List.getElem_map, List.getElem_range]
      rw [ih (by omega)]
      by_cases hw : WetAt wet (t + 1)
      · have : (wet.map flagF : List (Fl K))[t + 1]? = some (.fin 1) := by
          rw [List.getElem?_map, hw]; simp [flagF]
        rw [if_pos this]
        have e : filmAt (WetAt wet) wm c (t + 1) = filmAt (WetAt wet) wm c t + (wm - filmAt (WetAt wet) wm c t) * c := by
          conv_lhs => unfold filmAt
          rw [if_pos hw]
        rw [← e]
        apply min_eq_right
        refine le_min ?_ hb.2
        unfold levelAt
        rw [if_pos hw]
        linarith [hA (t + 1) h hw]
      · have : (wet.map flagF : List (Fl K))[t + 1]? ≠ some (.fin 1) := by
          intro hh
          rw [List.getElem?_map] at hh
          obtain ⟨b, hb1, hb2⟩ := Option.map_eq_some_iff.mp hh
          cases b
          · simp [flagF] at hb2
          · exact hw hb1
        rw [if_neg this]
        unfold levelAt filmAt
        rw [if_neg hw, if_neg hw, add_zero, sub_self]
        exact min_eq_left hm
  apply List.ext_getElem?
  intro t
  by_cases ht' : t < T
  · rw [series_get _ ht', List.getElem?_map, List.getElem?_eq_getElem (by omega), Option.map_some, key t ht']
  · rw [List.getElem?_eq_none (by simp; omega), List.getElem?_eq_none (by rw [series_length]; omega)]

/-- **C130** Constant baseline: if the first `n` steps are dry and the dry level does not change from `n` steps before a wet step to
that step, `baseline_constant` gives the dry level at every step, whatever is added to it during rain. -/
theorem C130_baseline_constant (wet : List Bool) (T n : ℕ) (dryLevel level : ℕ → K) (hn : 1 ≤ n) (hT : T ≤ wet.length)
    (h1 : ∀ t < n, ¬ WetAt wet t) (hdry : ∀ t < T, ¬ WetAt wet t → level t = dryLevel t)
    (h2 : ∀ t < T, WetAt wet t → ∀ s, s < t → t ≤ s + n → dryLevel s = dryLevel t) :
    baselineConstant (series T level) wet n = .ok (series T dryLevel) := by
  unfold baselineConstant
  rw [if_neg (by rw [series_length]; omega)]
  have rdw : ∀ t, rdB wet t = decide (WetAt wet t) := by
    intro t
    unfold rdB WetAt
    rw [List.getD_eq_getElem?_getD]
    cases h : wet[t]? with
    | none => simp
    | some b => cases b <;> simp
  have key : ∀ t, t < T → rd (constLoop (series T level) wet n) t = .fin (dryLevel t) := by
    intro t
    induction t using Nat.strong_induction_on with
    | _ t ih =>
      intro ht
      by_cases htn : t < n
      · rw [constLoop_init _ _ htn (by rw [series_length]; exact ht), rd_of_getElem? (series_get _ ht), hdry t ht (h1 t htn)]
      · rw [constLoop_rec _ _ hn (by omega) (by rw [series_length]; exact ht)]
        unfold constVal prevIdx
        rw [if_neg (by omega : ¬ t = 0), if_neg (by omega : ¬ t = 0), rdw, rdw]
        by_cases hw : WetAt wet t
        · by_cases hw' : WetAt wet (t - 1)
          · rw [decide_eq_true hw, decide_eq_true hw', if_neg (by decide), if_pos (by decide)]
            rw [ih _ (by omega) (by omega), h2 t ht hw _ (by omega) (by omega)]
          · rw [decide_eq_true hw, decide_eq_false hw', if_pos (by decide)]
            have : slice (constLoop (series T level) wet n) (t - n) t = (List.replicate n (dryLevel t)).map Fl.fin := by
              apply List.ext_getElem?
              intro k
              have hl := slice_length (xs := constLoop (series T level) wet n) (n := n) (i := t) (by omega)
                (by rw [constLoop_length, series_length]; omega)
              by_cases hk : k < n
              · rw [getElem?_eq_rd (by omega), rd_slice (by omega), ih _ (by omega) (by omega),
                  h2 t ht hw _ (by omega) (by omega)]
                simp [hk]
              · rw [List.getElem?_eq_none (by omega), List.getElem?_eq_none (by simp; omega)]
            rw [this, npMean_map_fin (by simp; omega)]
            have hn0 : (n : K) ≠ 0 := by exact_mod_cast (by omega : n ≠ 0)
            simp [hn0]
        · rw [decide_eq_false hw, Bool.false_and, Bool.false_and, if_neg (by decide), if_neg (by decide)]
          rw [rd_of_getElem? (series_get _ ht), hdry t ht hw]
  congr 1
  apply List.ext_getElem?
  intro t
  by_cases ht : t < T
  · rw [series_get _ ht, getElem?_eq_rd (by rw [constLoop_length, series_length]; exact ht), key t ht]
  · rw [List.getElem?_eq_none (by rw [constLoop_length, series_length]; omega), List.getElem?_eq_none (by rw [series_length]; omega)]

/-- **C130** Linear baseline: if first and last step are dry and the dry level is linear over each event, `baseline_linear` gives the
dry level at every step. -/
theorem C130_baseline_linear (wet : List Bool) (T : ℕ) (dryLevel level : ℕ → K) (b : Bool) (hT0 : 0 < T) (hT : T ≤ wet.length)
    (hfirst : ¬ WetAt wet 0) (hlast : ¬ WetAt wet (T - 1)) (hdry : ∀ t < T, ¬ WetAt wet t → level t = dryLevel t)
    (hlin : ∀ p i q, p < i → i < q → q < T → ¬ WetAt wet p → ¬ WetAt wet q → (∀ k, p < k → k < q → WetAt wet k) →
      dryLevel i = dryLevel p + ((i : K) - p) * ((dryLevel q - dryLevel p) / ((q : K) - p))) :
    baselineLinear (series T level) (wet.map flagF) b = .ok (series T dryLevel) := by
  obtain ⟨out, ho, hl, o1, o2, -⟩ := C06_linear_interpolates ((List.range T).map level) wet b (by simpa using hT0) (by simpa using hT)
  have e1 : ((List.range T).map level).map Fl.fin = series T level := by rw [List.map_map]; rfl
  have e2 : (flags wet : List (Fl K)) = wet.map flagF := by
    unfold flags flagF
    apply List.map_congr_left
    intro w _
    cases w <;> simp
  rw [e1, e2] at ho
  rw [ho]
  have l : out.length = T := by simpa using hl
  have dry_iff : ∀ t < T, Dry wet t ↔ ¬ WetAt wet t := by
    intro t ht
    unfold Dry WetAt
    constructor
    · rintro (rfl | h)
      · exact hfirst
      · rw [h]; simp
    · intro h
      right
      have : t < wet.length := by omega
      rw [List.getElem?_eq_getElem this] at h ⊢
      cases hb : wet[t]
      · rfl
      · rw [hb] at h; exact absurd rfl h
  congr 1
  apply List.ext_getElem?
  intro i
  by_cases hi : i < T
  · rw [series_get _ hi]
    by_cases hw : WetAt wet i
    · -- last dry step before and first dry step after
      obtain ⟨p, hp1, hp2, hp3⟩ : ∃ p, p < i ∧ ¬ WetAt wet p ∧ ∀ k, p < k → k < i → WetAt wet k := by
        have hi0 : 0 < i := Nat.pos_of_ne_zero fun h => hfirst (h ▸ hw)
        classical
        have := Nat.findGreatest_spec (P := fun k => ¬ WetAt wet k) (n := i - 1) (m := 0) (by omega) hfirst
        refine ⟨Nat.findGreatest (fun k => ¬ WetAt wet k) (i - 1), ?_, this, ?_⟩
        · have := Nat.findGreatest_le (P := fun k => ¬ WetAt wet k) (i - 1); omega
        · intro k k1 k2
          by_contra hk
          exact Nat.findGreatest_is_greatest k1 (by omega) hk
      obtain ⟨q, hq1, hqT, hq2, hq3⟩ : ∃ q, i < q ∧ q < T ∧ ¬ WetAt wet q ∧ ∀ k, i < k → k < q → WetAt wet k := by
        classical
        have hex : ∃ q, i < q ∧ ¬ WetAt wet q := ⟨T - 1, by
          rcases Nat.lt_or_ge i (T - 1) with h | h
          · exact h
          · obtain rfl : i = T - 1 := by omega
            exact absurd hw hlast, hlast⟩
        refine ⟨Nat.find hex, (Nat.find_spec hex).1, ?_, (Nat.find_spec hex).2, ?_⟩
        · have := Nat.find_min' hex (m := T - 1) ⟨by
            rcases Nat.lt_or_ge i (T - 1) with h | h
            · exact h
            · obtain rfl : i = T - 1 := by omega
              exact absurd hw hlast, hlast⟩
          omega
        · intro k k1 k2
          by_contra hk
          exact Nat.find_min hex k2 ⟨k1, hk⟩
      have hall : ∀ k, p < k → k < q → WetAt wet k := by
        intro k k1 k2
        rcases Nat.lt_trichotomy k i with h | h | h
        · exact hp3 k k1 h
        · rw [h]; exact hw
        · exact hq3 k h k2
      rw [o2 p q i hp1 hq1 (by simpa using hqT) ((dry_iff p (by omega)).mpr hp2) ((dry_iff q hqT).mpr hq2)
        (fun k k1 k2 hd => (dry_iff k (by omega)).mp hd (hall k k1 k2)), hlin p i q hp1 hq1 hqT hp2 hq2 hall]
      simp only [List.getElem_map, List.getElem_range]
      rw [hdry p (by omega) hp2, hdry q hqT hq2]
    · rw [o1 i (by simpa using hi) ((dry_iff i hi).mpr hw)]
      simp only [List.getElem_map, List.getElem_range]
      rw [hdry i hi hw]
  · rw [List.getElem?_eq_none (by omega), List.getElem?_eq_none (by rw [series_length]; omega)]

/-- **C130** With either baseline equal to the dry level, `trsl - baseline - waa` is the attenuation by rain, and 0 at dry steps. -/
theorem C130_attenuation (wet : List Bool) (T : ℕ) (wm dt tau : K) (dryLevel A : ℕ → K) (hT : T ≤ wet.length) (hm : 0 ≤ wm)
    (hd : 0 ≤ dt) (ht : 0 < tau) (h3 : 3 * dt ≤ tau) (hA : ∀ t < T, WetAt wet t → 0 ≤ A t) (h0 : ¬ WetAt wet 0) :
    ∃ w, waaSchleiss (series T (levelAt (WetAt wet) wm (3 * dt / tau) dryLevel A)) (series T dryLevel) (wet.map flagF) (.fin wm)
        (.fin dt) (.fin tau) = .ok w ∧
      List.zipWith (· -ᶠ ·) (List.zipWith (· -ᶠ ·) (series T (levelAt (WetAt wet) wm (3 * dt / tau) dryLevel A)) (series T dryLevel)) w =
        series T fun t => if WetAt wet t then A t else 0 := by
  refine ⟨_, waa_is_film hT hm hd ht h3 hA h0, ?_⟩
  apply List.ext_getElem?
  intro t
  by_cases ht' : t < T
  · simp only [List.getElem?_zipWith, series_get _ ht', Fl.pf_sub_fin]
    congr 2
    unfold levelAt
    split_ifs with hw
    · ring
    · have : filmAt (WetAt wet) wm (3 * dt / tau) t = 0 := by
        cases t with
        | zero => rfl
        | succ t => unfold filmAt; rw [if_neg hw]
      rw [this]; ring
  · rw [List.getElem?_eq_none (by simp [series_length]; omega), List.getElem?_eq_none (by rw [series_length]; omega)]

end

/-- the rain rates of the attenuations by rain -/
theorem rates_of_rain {a b L : ℝ} (ha : 0 < a) (hb : 0 < b) (hL : 0 < L) (Rmin : ℝ) (T : ℕ) (wet : List Bool) (R : ℕ → ℝ)
    (hR : ∀ t < T, WetAt wet t → 0 ≤ R t) :
    (series T fun t => if WetAt wet t then a * R t ^ b * L else 0).map (rateF (.fin a) (.fin b) (.fin L) (.fin Rmin)) =
      series T fun t => if WetAt wet t ∧ Rmin ≤ R t then R t else 0 := by
  unfold series
  rw [List.map_map]
  apply List.map_congr_left
  intro t ht
  have ht : t < T := by simpa using ht
  have haL : a * L ≠ 0 := (mul_pos ha hL).ne'
  have hb1 : 0 < 1 / b := by positivity
  have key : ∀ x : ℝ, 0 ≤ x → rateF (.fin a) (.fin b) (.fin L) (.fin Rmin) (Fl.fin x) =
      .fin (if (x / (a * L)) ^ (1 / b) < Rmin then 0 else (x / (a * L)) ^ (1 / b)) := by
    intro x hx
    have e : PyPow.pow (Fl.fin x /ᶠ (Fl.fin a *ᶠ Fl.fin L)) ((PyFloat.ofInt 1 : Fl ℝ) /ᶠ Fl.fin b) = .fin ((x / (a * L)) ^ (1 / b)) := by
      rw [Fl.pf_mul_fin, Fl.pf_div_fin_ne _ _ haL, Fl.pf_ofInt, Fl.pf_div_fin_ne _ _ hb.ne']
      rw [Int.cast_one]
      exact Fl.pow_fin (div_nonneg hx (mul_pos ha hL).le) hb1
    unfold rateF
    rw [e]
    simp only [Fl.pf_isNaN_fin, Bool.false_eq_true, if_false, Fl.pf_ofInt, Fl.pf_le_fin, Int.cast_zero, hx, decide_true, if_true,
      Fl.pf_lt_fin, decide_eq_true_eq]
    split_ifs <;> rfl
  simp only [Function.comp]
  split_ifs with h1 h2 h2
  · have hr := hR t ht h1
    rw [key _ (by positivity)]
    have : (a * R t ^ b * L / (a * L)) ^ (1 / b) = R t := by
      rw [show a * R t ^ b * L / (a * L) = R t ^ b by field_simp, ← Real.rpow_mul hr, mul_one_div_cancel hb.ne', Real.rpow_one]
    rw [this, if_neg (not_lt.mpr h2.2)]
  · have hr := hR t ht h1
    rw [key _ (by positivity)]
    have : (a * R t ^ b * L / (a * L)) ^ (1 / b) = R t := by
      rw [show a * R t ^ b * L / (a * L) = R t ^ b by field_simp, ← Real.rpow_mul hr, mul_one_div_cancel hb.ne', Real.rpow_one]
    rw [this, if_pos (not_le.mp fun h => h2 ⟨h1, h⟩)]
  · exact absurd h2.1 h1
  · rw [key 0 le_rfl, zero_div, Real.zero_rpow hb1.ne']
    simp

/-- **C130** The chain `baseline_constant`, `waa_schleiss_2013`, `calc_R_from_A` inverts the model behind it: levels made of a dry level
that does not change from `n` steps before an event to its end, an attenuation `a R^b L` by rain and a film on the antennas as in Schleiss et al.
(2013) during the wet steps give back the rain rates `R`, except that rates below `R_min` are 0. -/
theorem C130_rain_constant (sp : Spline) (p : ChainParams) (hp : p.Ok) (h3 : 3 * p.deltaT ≤ p.tau) (wet : List Bool) (T : ℕ)
    (dryLevel R : ℕ → ℝ) (hT : T ≤ wet.length) (hR : ∀ t < T, WetAt wet t → 0 ≤ R t) (h1 : ∀ t < p.n, ¬ WetAt wet t)
    (h2 : ∀ t < T, WetAt wet t → ∀ s, s < t → t ≤ s + p.n → dryLevel s = dryLevel t) :
    rainChain sp p (series T (levelAt (WetAt wet) p.waaMax (3 * p.deltaT / p.tau) dryLevel fun t => p.a * R t ^ p.b * p.L)) wet =
      .ok (series T fun t => if WetAt wet t ∧ p.Rmin ≤ R t then R t else 0) := by
  have hb := C130_baseline_constant wet T p.n dryLevel
    (levelAt (WetAt wet) p.waaMax (3 * p.deltaT / p.tau) dryLevel fun t => p.a * R t ^ p.b * p.L) hp.n hT h1
    (fun t _ hw => by unfold levelAt; rw [if_neg hw, add_zero]) h2
  obtain ⟨w, hw, hA⟩ := C130_attenuation wet T p.waaMax p.deltaT p.tau dryLevel (fun t => p.a * R t ^ p.b * p.L) hT hp.waaMax hp.deltaT
    hp.tau h3 (fun t ht hw => mul_nonneg (mul_nonneg hp.a.le (Real.rpow_nonneg (hR t ht hw) _)) hp.L.le)
    (h1 0 (by have := hp.n; omega))
  unfold rainChain
  rw [hb]
  simp only [bind, Except.bind]
  rw [hw]
  simp only
  rw [hA]
  have := calcR_scalar (a_b sp) (series T fun t => if WetAt wet t then p.a * R t ^ p.b * p.L else 0) (.fin p.L) (.fin p.a) (.fin p.b)
    (.fin p.Rmin) "ITU_2005"
  rw [rates_of_rain hp.a hp.b hp.L p.Rmin T wet R hR] at this
  exact this

/-- two rain events with different dry levels; the second rate is below `R_min` -/
example (sp : Spline) : rainChain sp ⟨1, 2, 1, 15, 10, 1/10, 1, 1/10⟩
      [.fin 50, .fin (50 + (5 + 2/5)), .fin (50 + (3 + 18/25)), .fin 51, .fin (51 + (1/20 + 2/5))] [false, true, true, false, true] =
    .ok [.fin 0, .fin 5, .fin 3, .fin 0, .fin 0] := by
  have h := C130_rain_constant sp ⟨1, 2, 1, 15, 10, 1/10, 1, 1/10⟩ (by constructor <;> norm_num) (by norm_num)
    [false, true, true, false, true] 5 (fun t => if t < 3 then 50 else 51) (fun t => if t = 1 then 5 else if t = 2 then 3 else 1/20) (by simp)
    (fun t _ _ => by split_ifs <;> norm_num) (by
      intro t ht
      obtain rfl : t = 0 := by simpa using ht
      simp) (by
      intro t ht hw s s1 s2
      have : s = t - 1 := by simp only at s2; omega
      subst this
      interval_cases t <;> simp [WetAt] at hw ⊢)
  simp only [series, levelAt, filmAt, List.range, List.range.loop, List.map_cons, List.map_nil] at h
  norm_num [WetAt] at h ⊢
  convert h using 5

/-- **C130** The same with `baseline_linear`: the dry level may drift linearly over each event; first and last step are dry. -/
theorem C130_rain_linear (sp : Spline) (p : ChainParams) (hp : p.Ok) (h3 : 3 * p.deltaT ≤ p.tau) (wet : List Bool) (T : ℕ)
    (dryLevel R : ℕ → ℝ) (ignoreNan : Bool) (hT0 : 0 < T) (hT : T ≤ wet.length) (hR : ∀ t < T, WetAt wet t → 0 ≤ R t)
    (hfirst : ¬ WetAt wet 0) (hlast : ¬ WetAt wet (T - 1))
    (hlin : ∀ p i q, p < i → i < q → q < T → ¬ WetAt wet p → ¬ WetAt wet q → (∀ k, p < k → k < q → WetAt wet k) →
      dryLevel i = dryLevel p + ((i : ℝ) - p) * ((dryLevel q - dryLevel p) / ((q : ℝ) - p))) :
    ∃ base waa, baselineLinear (series T (levelAt (WetAt wet) p.waaMax (3 * p.deltaT / p.tau) dryLevel fun t => p.a * R t ^ p.b * p.L))
        (wet.map flagF) ignoreNan = .ok base ∧
      waaSchleiss (series T (levelAt (WetAt wet) p.waaMax (3 * p.deltaT / p.tau) dryLevel fun t => p.a * R t ^ p.b * p.L)) base
        (wet.map flagF) (.fin p.waaMax) (.fin p.deltaT) (.fin p.tau) = .ok waa ∧
      calc_R_from_A sp (List.zipWith (· -ᶠ ·) (List.zipWith (· -ᶠ ·)
          (series T (levelAt (WetAt wet) p.waaMax (3 * p.deltaT / p.tau) dryLevel fun t => p.a * R t ^ p.b * p.L)) base) waa) (.fin p.L)
        none none (some [.fin p.a]) (some [.fin p.b]) "ITU_2005" (.fin p.Rmin) =
        .ok (series T fun t => if WetAt wet t ∧ p.Rmin ≤ R t then R t else 0) := by
  have hb := C130_baseline_linear wet T dryLevel
    (levelAt (WetAt wet) p.waaMax (3 * p.deltaT / p.tau) dryLevel fun t => p.a * R t ^ p.b * p.L) ignoreNan hT0 hT hfirst hlast
    (fun t _ hw => by unfold levelAt; rw [if_neg hw, add_zero]) hlin
  obtain ⟨w, hw, hA⟩ := C130_attenuation wet T p.waaMax p.deltaT p.tau dryLevel (fun t => p.a * R t ^ p.b * p.L) hT hp.waaMax hp.deltaT
    hp.tau h3 (fun t ht hw => mul_nonneg (mul_nonneg hp.a.le (Real.rpow_nonneg (hR t ht hw) _)) hp.L.le) hfirst
  refine ⟨_, w, hb, hw, ?_⟩
  rw [hA]
  have := calcR_scalar (a_b sp) (series T fun t => if WetAt wet t then p.a * R t ^ p.b * p.L else 0) (.fin p.L) (.fin p.a) (.fin p.b)
    (.fin p.Rmin) "ITU_2005"
  rw [rates_of_rain hp.a hp.b hp.L p.Rmin T wet R hR] at this
  exact this

/-- a dry level that rises by 1 dB over two wet steps -/
example (sp : Spline) : ∃ base waa,
    baselineLinear [.fin 50, .fin (51 + (5 + 2/5)), .fin (52 + (3 + 18/25)), .fin 53] ([false, true, true, false].map flagF) true =
      .ok base ∧
    waaSchleiss [.fin 50, .fin (51 + (5 + 2/5)), .fin (52 + (3 + 18/25)), .fin 53] base ([false, true, true, false].map flagF) (.fin 2)
      (.fin 1) (.fin 15) = .ok waa ∧
    calc_R_from_A sp (List.zipWith (· -ᶠ ·) (List.zipWith (· -ᶠ ·) [.fin 50, .fin (51 + (5 + 2/5)), .fin (52 + (3 + 18/25)), .fin 53] base)
      waa) (.fin 10) none none (some [.fin (1/10)]) (some [.fin 1]) "ITU_2005" (.fin (1/10)) =
      .ok [.fin (0 : ℝ), .fin 5, .fin 3, .fin 0] := by
  have h := C130_rain_linear sp ⟨1, 2, 1, 15, 10, 1/10, 1, 1/10⟩ (by constructor <;> norm_num) (by norm_num)
    [false, true, true, false] 4 (fun t => 50 + t) (fun t => if t = 1 then 5 else 3) true (by norm_num) (by simp)
    (fun t _ _ => by split_ifs <;> norm_num) (by simp [WetAt]) (by simp [WetAt]) (by
      intro p i q h1 h2 _ _ _ _
      have : (q : ℝ) - p ≠ 0 := by
        have : (p : ℝ) < q := by exact_mod_cast h1.trans h2
        exact sub_ne_zero.mpr this.ne'
      field_simp
      ring)
  simp only [series, levelAt, filmAt, List.range, List.range.loop, List.map_cons, List.map_nil] at h
  norm_num [WetAt] at h ⊢
  convert h using 5

/-- **C130** The same with measurement errors, in IEEE doubles: if every level is within `E` of such a level (by measurement noise,
quantisation or rounding), the rain rate that the chain gives at a step is, up to `2^-46` relative and `2^-99` absolute error and before rates
below `R_min` are set to zero, between those of the power law at `A - 4 E - e` and `A + 4 E + e`, where `A` is the true attenuation `a R^b L`
(0 at dry steps) and `e = (10 n^2 + 48 m + 11) 2^-53 B` the effect of rounding; so the error does not grow along the record. -/
theorem C130_rain_doubles [PyPow DblR] (hacc : PowClose) (trsl : List DblR) (wet : List Bool) (n : ℕ) (waaMax deltaT tau L a b Rmin : DblR)
    (M d t B m l α β rm E : ℝ) (hn : 1 ≤ n) (hn2 : n ≤ 2 ^ 25) (hlen : trsl.length ≤ wet.length)
    (hM : waaMax.val = .fin M) (hd : deltaT.val = .fin d) (ht : tau.val = .fin t) (hr : RateRange L a b l α β) (hrm : Rmin.val = .fin rm)
    (hd0 : 0 ≤ d) (h3 : 3 * d ≤ t) (ht1 : (2 : ℝ) ^ (-100 : ℤ) ≤ t) (hd2 : d ≤ 2 ^ (500 : ℤ)) (hM0 : 0 ≤ M) (hMB : M ≤ B)
    (hB1 : (2 : ℝ) ^ (-900 : ℤ) ≤ B) (hB2 : B ≤ 2 ^ (290 : ℤ)) (hT : (8 * B / (α * l)) ^ (1 / β) ≤ 2 ^ (64 : ℤ))
    (hx : ∀ a ∈ trsl, a.val = .nan ∨ ∃ x, a.val = .fin x ∧ |x| ≤ B)
    (hm : (trsl.length : ℝ) ≤ m ∨ t ≤ 3 * d * m) (hm2 : m ≤ 2 ^ 47)
    (dryLevel R : ℕ → ℝ) (hR : ∀ i < trsl.length, WetAt wet i → 0 ≤ R i) (h1 : ∀ i < n, ¬ WetAt wet i)
    (h2 : ∀ i < trsl.length, WetAt wet i → ∀ s, s < i → i ≤ s + n → dryLevel s = dryLevel i)
    (hE : ∀ i x, trsl[i]? = some x → ∃ y, x.val = .fin y ∧
      |y - levelAt (WetAt wet) M (3 * d / t) dryLevel (fun i => α * R i ^ β * l) i| ≤ E) :
    ∃ rs, rainChainF n waaMax deltaT tau L a b Rmin trsl wet = .ok rs ∧ rs.length = trsl.length ∧
      ∀ (i : ℕ) r, rs[i]? = some r → ∃ ρ, r.val = .fin (if ρ < rm then 0 else ρ) ∧ 0 ≤ ρ ∧
        (1 - 2 ^ (-46 : ℤ)) * lawRate α β l ((if WetAt wet i then α * R i ^ β * l else 0) - 4 * E -
          (10 * (n * n) + 48 * m + 11) * (2 ^ (-53 : ℤ) * B)) - 2 ^ (-99 : ℤ) ≤ ρ ∧
        ρ ≤ (1 + 2 ^ (-46 : ℤ)) * lawRate α β l ((if WetAt wet i then α * R i ^ β * l else 0) + 4 * E +
          (10 * (n * n) + 48 * m + 11) * (2 ^ (-53 : ℤ) * B)) + 2 ^ (-99 : ℤ) := by
  obtain ⟨c, v, rs, hc, hv, hrs, lc, lv, lr, key⟩ := C127_rain hacc trsl wet n waaMax deltaT tau L a b Rmin M d t B m l α β rm hn hn2 hlen hM hd
    ht hr hrm hd0 h3 ht1 hd2 hM0 hMB hB1 hB2 hT hx hm hm2
  refine ⟨rs, hrs, lr, fun i r hri => ?_⟩
  have hi : i < trsl.length := by
    rw [← lr]; exact (List.getElem?_eq_some_iff.mp hri).1
  have ht0 : 0 < t := lt_of_lt_of_le (by positivity) ht1
  have hE0 : 0 ≤ E := by
    obtain ⟨y, -, h⟩ := hE i _ (List.getElem?_eq_getElem hi)
    exact (abs_nonneg _).trans h
  have hl : 0 < l := lt_of_lt_of_le (by positivity) hr.l1
  have hα : 0 < α := lt_of_lt_of_le (by positivity) hr.α1
  have hβ : 0 < β := lt_of_lt_of_le (by norm_num) hr.β1
  set lev := levelAt (WetAt wet) M (3 * d / t) dryLevel (fun i => α * R i ^ β * l) with hlev
  -- exact arithmetic on the measured and on the true levels
  have hF : List.Forall₂ (UpTo E) (series trsl.length lev) (trsl.map (·.val)) := by
    rw [List.forall₂_iff_get]
    refine ⟨by simp [series_length], fun k k1 k2 => ?_⟩
    have hk : k < trsl.length := by simpa using k2
    obtain ⟨y, y1, y2⟩ := hE k _ (List.getElem?_eq_getElem hk)
    simp only [List.get_eq_getElem, List.getElem_map]
    have : (series trsl.length lev)[k] = .fin (lev k) := by
      have := series_get lev hk
      rw [List.getElem?_eq_getElem k1] at this
      exact Option.some.inj this
    rw [this, y1]
    exact .fin (by rw [abs_sub_comm]; exact y2)
  obtain ⟨b1, b2, w1, w2, g1, g2, g3, g4, -, -, -, g5⟩ := C125_attenuation E hE0 _ _ wet n hn (by rw [series_length]; exact hlen) hF M d t hd0
    ht0 h3
  rw [hc] at g2; obtain rfl := Except.ok.inj g2
  rw [hv] at g4; obtain rfl := Except.ok.inj g4
  have hb := C130_baseline_constant wet trsl.length n dryLevel lev hn hlen h1
    (fun k _ hw => by rw [hlev]; unfold levelAt; rw [if_neg hw, add_zero]) h2
  rw [hb] at g1; obtain rfl := Except.ok.inj g1
  obtain ⟨w, hw, hA⟩ := C130_attenuation wet trsl.length M d t dryLevel (fun i => α * R i ^ β * l) hlen hM0 hd0 ht0 h3
    (fun k hk hw => mul_nonneg (mul_nonneg hα.le (Real.rpow_nonneg (hR k hk hw) _)) hl.le) (h1 0 (by omega))
  rw [hw] at g3; obtain rfl := Except.ok.inj g3
  rw [hA] at g5
  -- at step `i`
  have q1 : trsl[i]? = some trsl[i] := List.getElem?_eq_getElem hi
  have q2 : c[i]? = some (c[i]'(by omega)) := List.getElem?_eq_getElem _
  have q3 : v[i]? = some (v[i]'(by omega)) := List.getElem?_eq_getElem _
  have hup : UpTo (4 * E) (.fin (if WetAt wet i then α * R i ^ β * l else 0)) ((trsl[i].val -ᶠ c[i]'(by omega)) -ᶠ v[i]'(by omega)) := by
    have := (List.forall₂_iff_get.mp g5).2 i (by rw [series_length]; exact hi) (by simp; omega)
    simp only [List.get_eq_getElem, List.getElem_zipWith, List.getElem_map] at this
    have e : (series trsl.length fun t => if WetAt wet t then α * R t ^ β * l else 0)[i]'(by rw [series_length]; exact hi) =
        .fin (if WetAt wet i then α * R i ^ β * l else 0) := by
      have := series_get (fun t => if WetAt wet t then α * R t ^ β * l else 0) hi
      rw [List.getElem?_eq_getElem (by rw [series_length]; exact hi)] at this
      exact Option.some.inj this
    rwa [e] at this
  rcases key i _ _ _ r q1 q2 q3 hri with ⟨e, -⟩ | ⟨A, ρ, e, r1, r2, r3, r4⟩
  · rw [e] at hup; cases hup
  · rw [e] at hup
    cases hup with
    | fin hup =>
      have hαl : 0 < α * l := mul_pos hα hl
      have hβ1 : 0 < 1 / β := by positivity
      obtain ⟨u1, u2⟩ := abs_le.mp hup
      refine ⟨ρ, r1, r2, le_trans ?_ r3, le_trans r4 ?_⟩
      · have := lawRate_mono (α := α) (β := β) (l := l) hαl hβ1
          (show (if WetAt wet i then α * R i ^ β * l else 0) - 4 * E - (10 * (n * n) + 48 * m + 11) * (2 ^ (-53 : ℤ) * B) ≤
            A - (10 * (n * n) + 48 * m + 11) * (2 ^ (-53 : ℤ) * B) by linarith)
        have h0 : (0 : ℝ) ≤ 1 - 2 ^ (-46 : ℤ) := by norm_num
        linarith [mul_le_mul_of_nonneg_left this h0]
      · have := lawRate_mono (α := α) (β := β) (l := l) hαl hβ1
          (show A + (10 * (n * n) + 48 * m + 11) * (2 ^ (-53 : ℤ) * B) ≤
            (if WetAt wet i then α * R i ^ β * l else 0) + 4 * E + (10 * (n * n) + 48 * m + 11) * (2 ^ (-53 : ℤ) * B) by linarith)
        have h0 : (0 : ℝ) ≤ 1 + 2 ^ (-46 : ℤ) := by norm_num
        linarith [mul_le_mul_of_nonneg_left this h0]

/-- Rain of 1 mm/h over 10 km attenuates by 10 dB, the film by 0.4 dB; with levels rounded to whole decibels (50 and 60 instead of 60.4) the
chain gives 1 mm/h up to 0.21 mm/h. -/
example : letI := correctPow (Bin.binary64 (K := ℝ))
    let D : ℕ → DblR := fun k => PyFloat.ofInt k
    ∃ rs r ρ, rainChainF 1 (D 2) (D 1) (D 15) (D 10) (D 1) (D 1) (D 0) [D 50, D 60] [false, true] = .ok rs ∧
      rs[1]? = some r ∧ r.val = .fin ρ ∧ |ρ - 1| ≤ 21 / 100 := by
  let _ := correctPow (Bin.binary64 (K := ℝ))
  intro D
  have v : ∀ k : ℕ, k ≤ 60 → (D k).val = .fin (k : ℝ) := fun k hk => val_ofNat_b64 k (hk.trans (by norm_num))
  have lo : ∀ (x : ℝ) (j : ℤ), 1 ≤ x → j ≤ 0 → (2 : ℝ) ^ j ≤ x := fun x j hx hj =>
    le_trans (zpow_le_one_of_nonpos₀ (by norm_num) hj) hx
  have hi : ∀ (x : ℝ) (j : ℤ), x ≤ 2 ^ (10 : ℤ) → 10 ≤ j → x ≤ 2 ^ j := fun x j hx hj =>
    le_trans hx (zpow_le_zpow_right₀ (by norm_num) hj)
  have hr : RateRange (D 10) (D 1) (D 1) 10 1 1 :=
    ⟨by simpa using v 10 (by norm_num), by simpa using v 1 (by norm_num), by simpa using v 1 (by norm_num),
      lo _ _ (by norm_num) (by norm_num), hi _ _ (by norm_num) (by norm_num), lo _ _ (by norm_num) (by norm_num),
      hi _ _ (by norm_num) (by norm_num), by norm_num, by norm_num⟩
  obtain ⟨rs, hrs, hl, h⟩ := C130_rain_doubles correctPow_close [D 50, D 60] [false, true] 1 (D 2) (D 1) (D 15) (D 10) (D 1) (D 1) (D 0)
    2 1 15 64 2 10 1 1 0 (1/2) (by norm_num) (by norm_num) (by simp)
    (by simpa using v 2 (by norm_num)) (by simpa using v 1 (by norm_num)) (by simpa using v 15 (by norm_num)) hr
    (by simpa using v 0 (by norm_num)) (by norm_num) (by norm_num) (lo _ _ (by norm_num) (by norm_num))
    (hi _ _ (by norm_num) (by norm_num)) (by norm_num) (by norm_num) (lo _ _ (by norm_num) (by norm_num))
    (hi _ _ (by norm_num) (by norm_num)) (by norm_num) (by
      intro a ha
      simp only [List.mem_cons, List.not_mem_nil, or_false] at ha
      rcases ha with rfl | rfl
      · exact .inr ⟨_, v 50 (by norm_num), by norm_num⟩
      · exact .inr ⟨_, v 60 (by norm_num), by norm_num⟩) (.inl (by norm_num)) (by norm_num) (fun _ => 50) (fun _ => 1)
    (fun _ _ _ => by norm_num) (by
      intro i hi
      obtain rfl : i = 0 := by omega
      simp [WetAt]) (fun _ _ _ _ _ _ => rfl) (by
      intro i x hx
      match i, hx with
      | 0, hx =>
        obtain rfl := Option.some.inj hx
        exact ⟨_, v 50 (by norm_num), by norm_num [levelAt, WetAt]⟩
      | 1, hx =>
        obtain rfl := Option.some.inj hx
        exact ⟨_, v 60 (by norm_num), by norm_num [levelAt, WetAt, filmAt]⟩)
  have hl' : rs.length = 2 := by simpa using hl
  obtain ⟨ρ, r1, r2, r3, r4⟩ := h 1 _ (List.getElem?_eq_getElem (by omega))
  refine ⟨rs, _, ρ, hrs, List.getElem?_eq_getElem (by omega), ?_, ?_⟩
  · rw [r1, if_neg (not_lt.mpr r2)]
  · unfold lawRate at r3 r4
    norm_num [WetAt] at r3 r4
    rw [abs_le]
    constructor <;> linarith

/-! ### The nearby approach -/

theorem countP_range_from (q : ℕ → Bool) (a b : ℕ) :
    ((List.range b).drop a).countP q = (List.range b).countP fun s => decide (a ≤ s) && q s := by
  conv_rhs => rw [← List.take_append_drop a (List.range b)]
  rw [List.countP_append]
  have h1 : ((List.range b).take a).countP (fun s => decide (a ≤ s) && q s) = 0 := by
    rw [List.countP_eq_zero]
    intro s hs
    have : s < a := by
      rw [List.take_range] at hs
      have := List.mem_range.mp hs
      omega
    simp [this]
  rw [h1, Nat.zero_add]
  apply List.countP_congr
  intro s hs
  obtain ⟨k, hk⟩ := List.mem_iff_getElem?.mp hs
  rw [List.getElem?_drop] at hk
  have h2 := List.getElem?_eq_some_iff.mp hk
  obtain ⟨h3, h4⟩ := h2
  rw [List.getElem_range] at h4
  simp
  omega

/-- the reference level of a link with a constant dry level -/
theorem reference_of_dry {T n mp t : ℕ} (wet : List Bool) (hw : wet.length = T) (D : ℝ) (x y : ℕ → ℝ) (hmp : 1 ≤ mp) (ht : t < T)
    (hx : ∀ s < T, ¬ WetAt wet s → x s = D ∧ y s = D) :
    (Nearby.determine_reference_level (series T x) (series T y) (wet.map flagF) n mp)[t]? =
      some (if (List.range (t + 1)).countP (fun s => decide (t < s + n ∧ ¬ WetAt wet s)) < mp then .nan else .fin D) := by
  have hz : Nearby.zip3 Nearby.dryLevel (series T x) (series T y) (wet.map flagF : List (Fl ℝ)) =
      (List.range T).map fun s => if WetAt wet s then .nan else .fin D := by
    apply List.ext_getElem?
    intro s
    by_cases hs : s < T
    · have hws : s < wet.length := by omega
      rw [getElem?_zip3 _ (series_get x hs) (series_get y hs)
        (show (wet.map flagF : List (Fl ℝ))[s]? = some (flagF wet[s]) by rw [List.getElem?_map, List.getElem?_eq_getElem hws]; rfl),
        List.getElem?_map, List.getElem?_range hs]
      congr 1
      cases hb : wet[s]
      · have : ¬ WetAt wet s := by
          unfold WetAt
          rw [List.getElem?_eq_getElem hws, hb]; simp
        simp only [if_neg this]
        rw [(hx s hs this).1, (hx s hs this).2]
        simp only [Nearby.dryLevel, flagF, Fl.pf_add_fin, Fl.pf_ofInt]
        rw [Fl.pf_div_fin_ne _ _ (by norm_num)]
        simp
      · have : WetAt wet s := by
          unfold WetAt
          rw [List.getElem?_eq_getElem hws, hb]
        simp only [if_pos this]
        simp [Nearby.dryLevel, flagF]
    · rw [List.getElem?_eq_none (by rw [length_zip3 _ _ _ _ (by simp [series_length]) (by simp [series_length, hw])]; rw [series_length]; omega),
        List.getElem?_eq_none (by simp; omega)]
  unfold Nearby.determine_reference_level
  rw [hz, getElem?_rolling _ _ _ _ _ (by simpa using ht)]
  have hwin : window ((List.range T).map fun s => if WetAt wet s then (.nan : Fl ℝ) else .fin D) n t =
      ((List.range (t + 1)).drop (t + 1 - n)).map fun s => if WetAt wet s then (.nan : Fl ℝ) else .fin D := by
    unfold window slice
    rw [← List.map_take, ← List.map_drop, List.take_range, min_eq_left (by omega)]
  have hlen : (valid (window ((List.range T).map fun s => if WetAt wet s then (.nan : Fl ℝ) else .fin D) n t)).length =
      (List.range (t + 1)).countP (fun s => decide (t < s + n ∧ ¬ WetAt wet s)) := by
    rw [hwin]
    unfold valid
    rw [← List.countP_eq_length_filter, List.countP_map, countP_range_from]
    apply List.countP_congr
    intro s _
    by_cases hws : WetAt wet s
    · simp only [Function.comp, if_pos hws]
      simp
      exact fun _ => hws
    · simp only [Function.comp, hws, if_false, not_false_eq_true, and_true, Fl.pf_isNaN_fin, Bool.not_false, Bool.and_true, decide_eq_true_eq]
      omega
  rw [hlen]
  split_ifs with hc
  · rfl
  · congr 1
    set v := valid (window ((List.range T).map fun s => if WetAt wet s then (.nan : Fl ℝ) else .fin D) n t) with hv
    have hall : ∀ z ∈ v, z = Fl.fin D := by
      intro z hz
      obtain ⟨m2, m3⟩ := mem_valid.mp hz
      rw [hwin] at m2
      obtain ⟨s, -, rfl⟩ := List.mem_map.mp m2
      split_ifs at m3 ⊢
      · cases m3
      · rfl
    have hne : v ≠ [] := by
      intro e
      rw [e, List.length_nil] at hlen
      omega
    obtain ⟨r, e, r1, r2⟩ := (median_spec hne (fun z hz => by rw [hall z hz]; rfl)).between (lo := D) (hi := D)
      (fun z hz => ⟨D, hall z hz, le_refl _, le_refl _⟩)
    rw [e, le_antisymm r2 r1]

/-- **C130** Retrieval of the nearby approach: if the flags are those of rain, the level of dry weather is constant and in rain the
received level is lower by `waa_max` and the attenuation `a R^b L` of the largest rain rate (for `pmin`) and the smallest rain rate (for `pmax`)
of the step, the retrieved rain rate is exactly `alpha` times the largest plus `1 - alpha` times the smallest rate at wet steps, 0 at dry steps,
and NaN where fewer than `min_periods` of the last `n_average_dry` steps were dry. -/
theorem C130_nearby (sp : Spline) (q : RetrievalParams) (i T : ℕ) (wet : List Bool) (D a b L waa alpha : ℝ) (Rhi Rlo : ℕ → ℝ)
    (F : List (Fl ℝ)) (hw : wet.length = T) (hmp : 1 ≤ q.minPeriods) (ha : 0 < a) (hb : 0 < b) (hL : 0 < L) (h0 : 0 ≤ waa)
    (hR : ∀ t < T, WetAt wet t → 0 ≤ Rlo t ∧ Rlo t ≤ Rhi t)
    (hq : q.f_GHz i = none ∧ q.pol i = none ∧ q.a i = some [.fin a] ∧ q.b i = some [.fin b] ∧ q.waaMax = .fin waa ∧ q.alpha = .fin alpha ∧
      q.threshold = none) :
    retrieveLink sp q i (series T fun t => D - if WetAt wet t then waa + a * Rhi t ^ b * L else 0)
      (series T fun t => D - if WetAt wet t then waa + a * Rlo t ^ b * L else 0) (wet.map flagF) F (.fin L) =
    .ok ((List.range T).map fun t =>
      if (List.range (t + 1)).countP (fun s => decide (t < s + q.nAverageDry ∧ ¬ WetAt wet s)) < q.minPeriods then .nan
      else .fin (if WetAt wet t then alpha * Rhi t + (1 - alpha) * Rlo t else 0)) := by
  obtain ⟨q1, q2, q3, q4, q5, q6, q7⟩ := hq
  unfold retrieveLink
  dsimp only
  rw [q1, q2, q3, q4, q5, q6, q7]
  set x : ℕ → ℝ := fun t => D - if WetAt wet t then waa + a * Rhi t ^ b * L else 0 with hx
  set y : ℕ → ℝ := fun t => D - if WetAt wet t then waa + a * Rlo t ^ b * L else 0 with hy
  have href := fun t (ht : t < T) => reference_of_dry (n := q.nAverageDry) wet hw D x y hmp ht
    (fun s _ hs => by rw [hx, hy]; simp only [if_neg hs, sub_zero, and_self])
  set pref := Nearby.determine_reference_level (series T x) (series T y) (wet.map flagF) q.nAverageDry q.minPeriods with hpref
  have lw : (wet.map flagF : List (Fl ℝ)).length = T := by simpa using hw
  have lp : pref.length = T := by
    rw [hpref]
    unfold Nearby.determine_reference_level
    rw [length_rolling, length_zip3 _ _ _ _ (by simp [series_length]) (by simp [series_length, hw]), series_length]
  unfold Nearby.correct_received_signals
  dsimp only
  have lm : (Nearby.zip3 Nearby.corrMin (series T x) (wet.map flagF) pref).length = T := by
    rw [length_zip3 _ _ _ _ (by rw [series_length]; exact lw) (by rw [series_length]; exact lp), series_length]
  have lx : (Nearby.zip3 Nearby.corrMax (Nearby.zip3 Nearby.corrMin (series T x) (wet.map flagF) pref) (series T y) pref).length = T := by
    rw [length_zip3 _ _ _ _ (by rw [lm, series_length]) (by rw [lm, lp]), lm]
  rw [retrival_scalar sp pref _ _ _ _ _ _ _ _ _ _ (by omega) (by omega) (fun h => absurd rfl h), lp]
  congr 1
  apply List.map_congr_left
  intro t ht
  have ht : t < T := by simpa using ht
  simp only [Bool.false_eq_true, if_false]
  have hws : t < wet.length := by omega
  have ew : (wet.map flagF : List (Fl ℝ))[t]? = some (flagF wet[t]) := by rw [List.getElem?_map, List.getElem?_eq_getElem hws]; rfl
  have em := getElem?_zip3 Nearby.corrMin (series_get x ht) ew (href t ht)
  have ex := getElem?_zip3 Nearby.corrMax em (series_get y ht) (href t ht)
  rw [rd_of_getElem? (href t ht), rd_of_getElem? em, rd_of_getElem? ex]
  split_ifs with hc hwt
  · unfold mixRate
    rw [oneRate_nan hb _ _ _ (Or.inl rfl)]
    simp
  · have hbt : wet[t] = true := by
      have := hwt
      unfold WetAt at this
      rw [List.getElem?_eq_getElem hws] at this
      exact Option.some.inj this
    obtain ⟨r1, r2⟩ := hR t ht hwt
    have hA : a * Rlo t ^ b * L ≤ a * Rhi t ^ b * L :=
      mul_le_mul_of_nonneg_right (mul_le_mul_of_nonneg_left (Real.rpow_le_rpow r1 r2 hb.le) ha.le) hL.le
    have hA0 : 0 ≤ a * Rlo t ^ b * L := by positivity
    have xt : x t = D - (waa + a * Rhi t ^ b * L) := by rw [hx]; simp only [if_pos hwt]
    have yt : y t = D - (waa + a * Rlo t ^ b * L) := by rw [hy]; simp only [if_pos hwt]
    have m1 : Nearby.corrMin (.fin (x t)) (flagF wet[t]) (.fin D) = Fl.fin (x t) := by
      unfold Nearby.corrMin
      rw [hbt]
      split_ifs with h
      · rfl
      · have : ¬ x t < D := by simpa [flagF] using h
        congr 1
        rw [xt] at this ⊢
        linarith
    have m2 : Nearby.corrMax (.fin (x t)) (.fin (y t)) (.fin D) = Fl.fin (y t) := by
      unfold Nearby.corrMax
      split_ifs with h
      · rfl
      · have : x t < D → ¬ y t < D := by simpa using h
        congr 1
        by_cases h1 : x t < D
        · have := this h1
          rw [yt] at this ⊢
          linarith
        · rw [xt] at h1
          rw [yt]
          linarith
    have rate : ∀ R : ℝ, 0 ≤ R → pw a b L (D - (D - (waa + a * R ^ b * L)) - waa) = R := by
      intro R hR0
      unfold pw
      rw [show D - (D - (waa + a * R ^ b * L)) - waa = a * R ^ b * L by ring, max_eq_left (by positivity),
        show a * R ^ b * L / (a * L) = R ^ b by field_simp, ← Real.rpow_mul hR0, mul_one_div_cancel hb.ne', Real.rpow_one]
    rw [m1, m2]
    unfold mixRate
    rw [oneRate_fin ha hb hL, oneRate_fin ha hb hL, xt, yt, rate _ (r1.trans r2), rate _ r1]
    simp
  · have hbt : wet[t] = false := by
      have := hwt
      unfold WetAt at this
      rw [List.getElem?_eq_getElem hws] at this
      simpa using this
    have xt : x t = D := by rw [hx]; simp only [if_neg hwt, sub_zero]
    have yt : y t = D := by rw [hy]; simp only [if_neg hwt, sub_zero]
    have m1 : Nearby.corrMin (.fin (x t)) (flagF wet[t]) (.fin D) = Fl.fin D := by
      unfold Nearby.corrMin
      rw [xt]
      simp
    have m2 : Nearby.corrMax (.fin D) (.fin (y t)) (.fin D) = Fl.fin D := by
      unfold Nearby.corrMax
      rw [yt]
      simp
    rw [m1, m2]
    unfold mixRate
    rw [oneRate_fin ha hb hL]
    have : pw a b L (D - D - waa) = 0 := by
      unfold pw
      rw [max_eq_right (by linarith), zero_div, Real.zero_rpow (by positivity)]
    rw [this]
    simp

/-- rain between 3 and 6 mm/h in the second step; a third of the largest and two thirds of the smallest rate -/
example (sp : Spline) (F : List (Fl ℝ)) :
    retrieveLink sp ⟨2, 1, fun _ => none, fun _ => none, fun _ => some [.fin (1/10)], fun _ => some [.fin 1], "ITU_2005", .fin (1/2),
      .fin (1/3), none⟩ 0 [.fin (-50), .fin (-50 - (1/2 + 6)), .fin (-50)] [.fin (-50), .fin (-50 - (1/2 + 3)), .fin (-50)]
      [.fin 0, .fin 1, .fin 0] F (.fin 10) = .ok [.fin 0, .fin 4, .fin 0] := by
  have h := C130_nearby sp ⟨2, 1, fun _ => none, fun _ => none, fun _ => some [.fin (1/10)], fun _ => some [.fin 1], "ITU_2005", .fin (1/2),
    .fin (1/3), none⟩ 0 3 [false, true, false] (-50) (1/10) 1 10 (1/2) (1/3) (fun _ => 6) (fun _ => 3) F rfl (by norm_num) (by norm_num)
    (by norm_num) (by norm_num) (by norm_num) (fun _ _ _ => by norm_num) ⟨rfl, rfl, rfl, rfl, rfl, rfl, rfl⟩
  have c0 : (List.range 1).countP (fun s => decide (0 < s + 2 ∧ ¬ WetAt [false, true, false] s)) = 1 := by decide
  have c1 : (List.range 2).countP (fun s => decide (1 < s + 2 ∧ ¬ WetAt [false, true, false] s)) = 1 := by decide
  have c2 : (List.range 3).countP (fun s => decide (2 < s + 2 ∧ ¬ WetAt [false, true, false] s)) = 1 := by decide
  have r3 : List.range 3 = [0, 1, 2] := rfl
  simp only [series, r3, List.map_cons, List.map_nil, Nat.zero_add, Nat.reduceAdd] at h
  rw [c0, c1, ← r3, c2] at h
  norm_num [WetAt, flagF] at h ⊢
  exact h

end Verif.Props
