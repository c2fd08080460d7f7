import Verif.Props.WrongFlags
import Verif.Props.RoundedBaseline
import Verif.Props.DatasetRecovery
import Verif.Props.BaselineLinear

/-!
# Property C166: what gaps in the levels do to the rain rates
-/

namespace Verif.Props
open Verif Verif.Baseline Verif.Waa Verif.KR Verif.Spec

section exact
variable {K : Type} [Field K] [LinearOrder K] [IsStrictOrderedRing K]

open Classical in
/-- the first `T` values of a series that is missing (NaN) at the steps `gap` -/
noncomputable def gapSeries (T : ℕ) (gap : ℕ → Prop) (x : ℕ → K) : List (Fl K) :=
  (List.range T).map fun t => if gap t then .nan else .fin (x t)

open Classical in
omit [LinearOrder K] [IsStrictOrderedRing K] [Field K] in
theorem gapSeries_get {T t : ℕ} (gap : ℕ → Prop) (x : ℕ → K) (h : t < T) :
    (gapSeries T gap x)[t]? = some (if gap t then .nan else .fin (x t)) := by
  unfold gapSeries
  rw [List.getElem?_map, List.getElem?_range h]
  rfl

omit [LinearOrder K] [IsStrictOrderedRing K] [Field K] in
theorem gapSeries_length (T : ℕ) (gap : ℕ → Prop) (x : ℕ → K) : (gapSeries T gap x).length = T := by simp [gapSeries]

/-- There is no reference level at step `t`: at a dry step because the level is missing, at a wet step because there is none at one of
the `n` steps before the event. -/
inductive NoBase (wet : List Bool) (gap : ℕ → Prop) (n : ℕ) : ℕ → Prop
  | dry {t : ℕ} : ¬ WetAt wet t → gap t → NoBase wet gap n t
  | event {s t k : ℕ} : k < s → s ≤ k + n → s ≤ t → ¬ WetAt wet (s - 1) → (∀ j, s ≤ j → j ≤ t → WetAt wet j) →
      NoBase wet gap n k → NoBase wet gap n t

theorem noBase_dry {wet : List Bool} {gap : ℕ → Prop} {n t : ℕ} (h : ¬ WetAt wet t) : NoBase wet gap n t ↔ gap t := by
  refine ⟨fun hb => ?_, .dry h⟩
  cases hb with
  | dry _ g => exact g
  | event _ _ h3 _ h5 _ => exact absurd (h5 t h3 le_rfl) h

theorem noBase_first {wet : List Bool} {gap : ℕ → Prop} {n t : ℕ} (h : WetAt wet t) (h' : ¬ WetAt wet (t - 1)) :
    NoBase wet gap n t ↔ ∃ k, k < t ∧ t ≤ k + n ∧ NoBase wet gap n k := by
  constructor
  · intro hb
    cases hb with
    | dry g _ => exact absurd h g
    | event h1 h2 h3 h4 h5 h6 =>
      rename_i s k
      obtain rfl : s = t := by
        by_contra hne
        exact h' (h5 (t - 1) (by omega) (by omega))
      exact ⟨k, h1, h2, h6⟩
  · rintro ⟨k, h1, h2, h3⟩
    exact .event h1 h2 le_rfl h' (fun j j1 j2 => by obtain rfl : j = t := by omega
                                                    exact h) h3

theorem noBase_next {wet : List Bool} {gap : ℕ → Prop} {n t : ℕ} (h0 : 0 < t) (h : WetAt wet t) (h' : WetAt wet (t - 1)) :
    NoBase wet gap n t ↔ NoBase wet gap n (t - 1) := by
  constructor
  · intro hb
    cases hb with
    | dry g _ => exact absurd h g
    | event h1 h2 h3 h4 h5 h6 =>
      rename_i s k
      have : s ≠ t := by rintro rfl; exact h4 h'
      exact .event h1 h2 (by omega) h4 (fun j j1 j2 => h5 j j1 (by omega)) h6
  · intro hb
    cases hb with
    | dry g _ => exact absurd h' g
    | event h1 h2 h3 h4 h5 h6 =>
      refine .event h1 h2 (by omega) h4 (fun j j1 j2 => ?_) h6
      rcases Nat.lt_or_ge j t with hj | hj
      · exact h5 j j1 (by omega)
      · obtain rfl : j = t := by omega
        exact h

/-- the wet flag of a step -/
theorem rdB_wet (wet : List Bool) (t : ℕ) : rdB wet t = decide (WetAt wet t) := by
  unfold rdB WetAt
  rw [List.getD_eq_getElem?_getD]
  cases h : wet[t]? with
  | none => simp
  | some b => cases b <;> simp

/-- **C166** The baseline of a record with gaps: `baseline_constant` gives the dry level at every step that has a reference, NaN at the
others. -/
theorem C166_baseline (wet : List Bool) (T n : ℕ) (gap : ℕ → Prop) (dryLevel level : ℕ → K) (hn : 1 ≤ n) (hT : T ≤ wet.length)
    (h1 : ∀ t < n, ¬ WetAt wet t) (hdry : ∀ t < T, ¬ WetAt wet t → level t = dryLevel t)
    (h2 : ∀ t < T, WetAt wet t → ∀ s, s < t → t ≤ s + n → dryLevel s = dryLevel t) :
    baselineConstant (gapSeries T gap level) wet n = .ok (gapSeries T (NoBase wet gap n) dryLevel) := by
  classical
  unfold baselineConstant
  rw [if_neg (by rw [gapSeries_length]; omega)]
  have key : ∀ t, t < T → rd (constLoop (gapSeries T gap level) wet n) t = if NoBase wet gap n t then .nan else .fin (dryLevel t) := by
    intro t
    induction t using Nat.strong_induction_on with
    | _ t ih =>
      intro ht
      have hd : ¬ WetAt wet t → rd (gapSeries T gap level) t = if NoBase wet gap n t then .nan else .fin (dryLevel t) := by
        intro hw
        rw [rd_of_getElem? (gapSeries_get _ _ ht), hdry t ht hw]
        exact if_congr (noBase_dry hw).symm rfl rfl
      by_cases htn : t < n
      · rw [constLoop_init _ _ htn (by rw [gapSeries_length]; exact ht), hd (h1 t htn)]
      · rw [constLoop_rec _ _ hn (by omega) (by rw [gapSeries_length]; exact ht)]
        unfold constVal prevIdx
        rw [if_neg (by omega : ¬ t = 0), if_neg (by omega : ¬ t = 0), rdB_wet, rdB_wet]
        by_cases hw : WetAt wet t
        · by_cases hw' : WetAt wet (t - 1)
          · rw [decide_eq_true hw, decide_eq_true hw', if_neg (by decide), if_pos (by decide)]
            rw [ih _ (by omega) (by omega), h2 t ht hw _ (by omega) (by omega)]
            exact if_congr (noBase_next (by omega) hw hw').symm rfl rfl
          · rw [decide_eq_true hw, decide_eq_false hw', if_pos (by decide)]
            have hl := slice_length (xs := constLoop (gapSeries T gap level) wet n) (n := n) (i := t) (by omega)
                (by rw [constLoop_length, gapSeries_length]; omega)
            by_cases hb : NoBase wet gap n t
            · rw [if_pos hb]
              obtain ⟨k, k1, k2, k3⟩ := (noBase_first hw hw').mp hb
              have e : rd (slice (constLoop (gapSeries T gap level) wet n) (t - n) t) (k - (t - n)) = .nan := by
                rw [rd_slice (by omega), show t - n + (k - (t - n)) = k by omega, ih _ (by omega) (by omega), if_pos k3]
              refine npMean_fl_nan ?_
              rw [← e]
              exact List.mem_of_getElem? (getElem?_eq_rd (by omega))
            rw [if_neg hb]
            have : slice (constLoop (gapSeries T gap level) wet n) (t - n) t = (List.replicate n (dryLevel t)).map Fl.fin := by
              apply List.ext_getElem?
              intro k
              by_cases hk : k < n
              · rw [getElem?_eq_rd (by omega), rd_slice (by omega), ih _ (by omega) (by omega),
                  h2 t ht hw _ (by omega) (by omega), if_neg (fun h => hb ((noBase_first hw hw').mpr ⟨_, by omega, by omega, h⟩))]
                simp [hk]
              · rw [List.getElem?_eq_none (by omega), List.getElem?_eq_none (by simp; omega)]
            rw [this, npMean_map_fin (by simp; omega)]
            have hn0 : (n : K) ≠ 0 := by exact_mod_cast (by omega : n ≠ 0)
            simp [hn0]
        · rw [decide_eq_false hw, Bool.false_and, Bool.false_and, if_neg (by decide), if_neg (by decide)]
          rw [hd hw]
  congr 1
  apply List.ext_getElem?
  intro t
  by_cases ht : t < T
  · rw [gapSeries_get _ _ ht, getElem?_eq_rd (by rw [constLoop_length, gapSeries_length]; exact ht), key t ht]
  · rw [List.getElem?_eq_none (by rw [constLoop_length, gapSeries_length]; omega),
      List.getElem?_eq_none (by rw [gapSeries_length]; omega)]

/-- The wet antenna attenuation of a record with gaps, behind a baseline that is missing at the steps `noBase`. -/
theorem gap_waa {wet : List Bool} {T : ℕ} {wm dt tau : K} {gap noBase : ℕ → Prop} {dryLevel A : ℕ → K}
    (hd0 : ∀ t < T, ¬ WetAt wet t → gap t → noBase t)
    (hpre : ∀ t, 0 < t → t < T → WetAt wet t → noBase (t - 1) → noBase t) (hT : T ≤ wet.length)
    (hm : 0 ≤ wm) (hd : 0 ≤ dt) (ht : 0 < tau) (h3 : 3 * dt ≤ tau) (hA : ∀ t < T, WetAt wet t → 0 ≤ A t) (h0 : ¬ WetAt wet 0) :
    ∃ w : List (Fl K), waaSchleiss (gapSeries T gap (levelAt (WetAt wet) wm (3 * dt / tau) dryLevel A))
        (gapSeries T (noBase) dryLevel) (wet.map flagF) (.fin wm) (.fin dt) (.fin tau) = .ok w ∧ w.length = T ∧
      ∃ v : ℕ → K, ∀ t < T, ¬ gap t → ¬ noBase t → rd w t = .fin (v t) ∧
        (¬ WetAt wet t → v t = 0) ∧
        (WetAt wet t → filmAt (WetAt wet) wm (3 * dt / tau) t ≤ v t ∧ v t ≤ wm ∧
          v t ≤ A t + filmAt (WetAt wet) wm (3 * dt / tau) t) ∧
        (WetAt wet t → (∀ k < t, (∀ j, k ≤ j → j ≤ t → WetAt wet j) → ¬ gap k) → v t = filmAt (WetAt wet) wm (3 * dt / tau) t) ∧
        (WetAt wet t → WetAt wet (t - 1) → gap (t - 1) → v t = min (A t + filmAt (WetAt wet) wm (3 * dt / tau) t) wm) ∧
        (∀ g < t, gap g → (∀ j, g ≤ j → j ≤ t → WetAt wet j) →
          (∀ j, g < j → j ≤ t → wm ≤ A j + filmAt (WetAt wet) wm (3 * dt / tau) j) → v t = wm) := by
  classical
  set c := 3 * dt / tau with hc
  have c0 : 0 ≤ c := div_nonneg (by linarith) ht.le
  have c1 : c ≤ 1 := (div_le_one ht).mpr h3
  obtain ⟨w, e, hl, w0, wr⟩ := schleiss_rec (gapSeries T gap (levelAt (WetAt wet) wm c dryLevel A))
    (gapSeries T (noBase) dryLevel) (wet.map flagF) (.fin wm) (.fin dt) (.fin tau)
    (by rw [gapSeries_length, gapSeries_length]) (by rw [gapSeries_length, List.length_map]; exact hT) (by simpa using ht.ne')
  rw [gapSeries_length] at hl w0 wr
  obtain ⟨v, hv⟩ : ∃ v : ℕ → K, ∀ t x, rd w t = .fin x → v t = x :=
    ⟨fun t => match rd w t with | .fin x => x | _ => 0, fun t x h => by simp only [h]⟩
  refine ⟨w, e, hl, v, ?_⟩
  have hat : ∀ t < T, rd (atten (gapSeries T gap (levelAt (WetAt wet) wm c dryLevel A)) (gapSeries T (noBase) dryLevel)) t =
      if gap t ∨ noBase t then .nan else .fin (if WetAt wet t then A t + filmAt (WetAt wet) wm c t else 0) := by
    intro t ht
    apply rd_of_getElem?
    unfold atten
    rw [List.getElem?_zipWith, gapSeries_get _ _ ht, gapSeries_get _ _ ht]
    by_cases g : gap t
    · simp [g]
    · by_cases b : noBase t
      · simp [g, b]
      · simp only [g, b, if_false, or_false, Fl.pf_sub_fin, levelAt, add_sub_cancel_left]
  have hfl : ∀ t < T, (rd (wet.map (flagF : Bool → Fl K)) t ==ᶠ PyFloat.ofInt 1) = decide (WetAt wet t) := by
    intro t ht
    have : (wet.map (flagF : Bool → Fl K))[t]? = some (flagF (rdB wet t)) := by
      rw [List.getElem?_map]
      unfold rdB
      rw [List.getD_eq_getElem?_getD, List.getElem?_eq_getElem (by omega)]
      rfl
    rw [rd_of_getElem? this, rdB_wet]
    by_cases hw : WetAt wet t
    · rw [decide_eq_true hw]; simp [flagF]
    · rw [decide_eq_false hw]; simp [flagF]
  have hnan : ∀ t, 0 < t → t < T → gap t ∨ noBase t → rd w t = .nan := by
    intro t t0 ht hg
    rw [wr t t0 ht, schleissVal, hfl t ht, hat t ht, if_pos hg]
    split_ifs <;> simp [pyMin]
  have hdryv : ∀ t, t < T → ¬ gap t → ¬ noBase t → ¬ WetAt wet t → rd w t = .fin 0 := by
    intro t ht g b hw
    rcases Nat.eq_zero_or_pos t with rfl | t0
    · rw [w0 ht]; simp
    · rw [wr t t0 ht, schleissVal, hfl t ht, decide_eq_false hw, if_neg (by decide), hat t ht, if_neg (by tauto), if_neg hw, pyMin_fin,
        min_eq_left hm]
  have hwetn : ∀ t, 0 < t → t < T → ¬ gap t → ¬ noBase t → WetAt wet t → rd w (t - 1) = .nan →
      rd w t = .fin (min (A t + filmAt (WetAt wet) wm c t) wm) := by
    intro t t0 ht g b hw hp
    rw [wr t t0 ht, schleissVal, hfl t ht, decide_eq_true hw, if_pos rfl, hat t ht, if_neg (by tauto), if_pos hw, pyMin_fin, hp]
    simp [pyMin]
  have hwetf : ∀ t, 0 < t → t < T → ¬ gap t → ¬ noBase t → WetAt wet t → ∀ y, rd w (t - 1) = .fin y →
      rd w t = .fin (min (min (A t + filmAt (WetAt wet) wm c t) wm) (y + (wm - y) * c)) := by
    intro t t0 ht' g b hw y hp
    rw [wr t t0 ht', schleissVal, hfl t ht', decide_eq_true hw, if_pos rfl, hat t ht', if_neg (by tauto), if_pos hw, pyMin_fin, hp,
      Fl.pf_sub_fin, Fl.pf_ofInt, Fl.pf_mul_fin, Fl.pf_mul_fin, Fl.pf_div_fin_ne _ _ ht.ne', Fl.pf_add_fin, pyMin_fin]
    congr 3
    push_cast
    rw [hc]
    ring
  have fs : ∀ t, 0 < t → WetAt wet t → filmAt (WetAt wet) wm c t =
      filmAt (WetAt wet) wm c (t - 1) + (wm - filmAt (WetAt wet) wm c (t - 1)) * c := by
    intro t t0 hw
    obtain ⟨m, rfl⟩ : ∃ m, t = m + 1 := ⟨t - 1, by omega⟩
    rw [filmAt, if_pos hw, Nat.add_sub_cancel]
  have fd : ∀ t, ¬ WetAt wet t → filmAt (WetAt wet) wm c t = 0 := by
    intro t hw
    cases t with
    | zero => rfl
    | succ m => rw [filmAt, if_neg hw]
  intro t
  induction t using Nat.strong_induction_on with
  | _ t ih =>
    intro ht g b
    by_cases hw : WetAt wet t
    swap
    · rw [hv t _ (hdryv t ht g b hw), hdryv t ht g b hw]
      refine ⟨rfl, fun _ => rfl, fun h => absurd h hw, fun h => absurd h hw, fun h => absurd h hw, ?_⟩
      intro k hk _ hj
      exact absurd (hj t (by omega) le_rfl) hw
    have t0 : 0 < t := by
      rcases Nat.eq_zero_or_pos t with rfl | h
      · exact absurd hw h0
      · exact h
    have bp : ¬ noBase (t - 1) := fun h => b (hpre t t0 ht hw h)
    obtain ⟨f1, f2⟩ := film_bounds (wet := WetAt wet) hm c0 c1 t
    have a0 := hA t ht hw
    by_cases gp : gap (t - 1)
    · have wp : WetAt wet (t - 1) := by
        by_contra hc
        exact bp (hd0 _ (by omega) hc gp)
      have hval := hwetn t t0 ht g b hw (hnan _ (by
        rcases Nat.eq_zero_or_pos (t - 1) with h | h
        · rw [h] at wp; exact absurd wp h0
        · exact h) (by omega) (.inl gp))
      rw [hv t _ hval, hval]
      refine ⟨rfl, fun h => absurd hw h, fun _ => ⟨le_min (by linarith) f2, min_le_right _ _, min_le_left _ _⟩, ?_, fun _ _ _ => rfl, ?_⟩
      · intro _ hk
        exact absurd gp (hk (t - 1) (by omega) (fun j j1 j2 => by
          rcases Nat.lt_or_ge j t with h | h
          · obtain rfl : j = t - 1 := by omega
            exact wp
          · obtain rfl : j = t := by omega
            exact hw))
      · intro k hk _ _ hj
        exact min_eq_right (hj t hk le_rfl)
    · obtain ⟨i1, i2, i3, i4, i5, i6⟩ := ih (t - 1) (by omega) (by omega) gp bp
      generalize v (t - 1) = y at i1 i2 i3 i4 i5 i6
      have hval := hwetf t t0 ht g b hw y i1
      rw [hv t _ hval, hval]
      have lo : filmAt (WetAt wet) wm c (t - 1) ≤ y := by
        by_cases wp : WetAt wet (t - 1)
        · exact (i3 wp).1
        · rw [i2 wp, fd _ wp]
      have up : filmAt (WetAt wet) wm c t ≤ y + (wm - y) * c := by
        rw [fs t t0 hw]
        have := mul_nonneg (sub_nonneg.mpr lo) (sub_nonneg.mpr c1)
        linarith
      refine ⟨rfl, fun h => absurd hw h, fun _ => ⟨le_min (le_min (by linarith) f2) up, (min_le_left _ _).trans (min_le_right _ _),
        (min_le_left _ _).trans (min_le_left _ _)⟩, ?_, fun _ _ h => absurd h gp, ?_⟩
      · intro _ hk
        have ey : y = filmAt (WetAt wet) wm c (t - 1) := by
          by_cases wp : WetAt wet (t - 1)
          · refine i4 wp fun k k1 k2 => hk k (by omega) fun j j1 j2 => ?_
            rcases Nat.lt_or_ge j t with h | h
            · exact k2 j j1 (by omega)
            · obtain rfl : j = t := by omega
              exact hw
          · rw [i2 wp, fd _ wp]
        rw [ey, ← fs t t0 hw]
        exact min_eq_right (le_min (by linarith) f2)
      · intro k k1 k2 k3 k4
        have kt : k ≠ t - 1 := by rintro rfl; exact gp k2
        have ey : y = wm := i6 k (by omega) k2 (fun j j1 j2 => k3 j j1 (by omega)) (fun j j1 j2 => k4 j j1 (by omega))
        rw [ey, sub_self, zero_mul, add_zero]
        exact min_eq_right (le_min (k4 t k1 le_rfl) le_rfl)

end exact

/-- What is said of the rates `ρ` (before the cut at `R_min`) at the steps that have a level and a baseline: 0 at dry steps; at wet steps
never more than the rain `R`, and no less than with fully wet antennas; `R` itself before the first gap of the event; right after a gap the
antennas count as fully wet, which gives less than `R` unless they are; and so they do as long as the observed attenuation is at least `waa_max`. -/
def GapRates (p : ChainParams) (wet : List Bool) (gap : ℕ → Prop) (R ρ : ℕ → ℝ) (t : ℕ) : Prop :=
  (¬ WetAt wet t → ρ t = 0) ∧
  (WetAt wet t →
    (lawRate p.a p.b p.L (p.a * R t ^ p.b * p.L - (p.waaMax - filmAt (WetAt wet) p.waaMax (3 * p.deltaT / p.tau) t)) ≤ ρ t ∧
      ρ t ≤ R t) ∧
    ((∀ k < t, (∀ j, k ≤ j → j ≤ t → WetAt wet j) → ¬ gap k) → ρ t = R t) ∧
    (WetAt wet (t - 1) → gap (t - 1) →
      ρ t = lawRate p.a p.b p.L (p.a * R t ^ p.b * p.L - (p.waaMax - filmAt (WetAt wet) p.waaMax (3 * p.deltaT / p.tau) t)) ∧
      (0 < R t → filmAt (WetAt wet) p.waaMax (3 * p.deltaT / p.tau) t < p.waaMax → ρ t < R t)) ∧
    (∀ g < t, gap g → (∀ j, g ≤ j → j ≤ t → WetAt wet j) →
      (∀ j, g < j → j ≤ t → p.waaMax ≤ p.a * R j ^ p.b * p.L + filmAt (WetAt wet) p.waaMax (3 * p.deltaT / p.tau) j) →
      ρ t = lawRate p.a p.b p.L
        (p.a * R t ^ p.b * p.L - (p.waaMax - filmAt (WetAt wet) p.waaMax (3 * p.deltaT / p.tau) t))))

/-- Rates of a record with gaps behind a baseline that is missing at the steps `noBase`. -/
theorem gap_rates (p : ChainParams) (hp : p.Ok) (h3 : 3 * p.deltaT ≤ p.tau) (wet : List Bool) (T : ℕ)
    (gap noBase : ℕ → Prop) (dryLevel R : ℕ → ℝ) (hT : T ≤ wet.length) (hR : ∀ t < T, WetAt wet t → 0 ≤ R t) (h0 : ¬ WetAt wet 0)
    (hd0 : ∀ t < T, ¬ WetAt wet t → gap t → noBase t) (hpre : ∀ t, 0 < t → t < T → WetAt wet t → noBase (t - 1) → noBase t) :
    ∃ (w : List (Fl ℝ)) (ρ : ℕ → ℝ),
      waaSchleiss (gapSeries T gap (levelAt (WetAt wet) p.waaMax (3 * p.deltaT / p.tau) dryLevel fun t => p.a * R t ^ p.b * p.L))
        (gapSeries T noBase dryLevel) (wet.map flagF) (.fin p.waaMax) (.fin p.deltaT) (.fin p.tau) = .ok w ∧
      (List.zipWith (· -ᶠ ·) (List.zipWith (· -ᶠ ·)
          (gapSeries T gap (levelAt (WetAt wet) p.waaMax (3 * p.deltaT / p.tau) dryLevel fun t => p.a * R t ^ p.b * p.L))
          (gapSeries T noBase dryLevel)) w).map (rate (.fin p.a) (.fin p.b) (.fin p.L) (.fin p.Rmin)) =
        gapSeries T (fun t => gap t ∨ noBase t) (fun t => if ρ t < p.Rmin then 0 else ρ t) ∧
      ∀ t < T, ¬ gap t → ¬ noBase t → GapRates p wet gap R ρ t := by
  classical
  set A : ℕ → ℝ := fun t => p.a * R t ^ p.b * p.L with hAd
  set film := filmAt (WetAt wet) p.waaMax (3 * p.deltaT / p.tau) with hfd
  have hA : ∀ t < T, WetAt wet t → 0 ≤ A t := fun t ht hw => mul_nonneg (mul_nonneg hp.a.le (Real.rpow_nonneg (hR t ht hw) _)) hp.L.le
  obtain ⟨w, hw, hl, v, hv⟩ := gap_waa (dryLevel := dryLevel) hd0 hpre hT hp.waaMax hp.deltaT hp.tau h3 hA h0
  rw [← hfd] at hv
  have haL : 0 < p.a * p.L := mul_pos hp.a hp.L
  have hb1 : 0 < 1 / p.b := one_div_pos.mpr hp.b
  refine ⟨w, fun t => lawRate p.a p.b p.L (if WetAt wet t then A t + film t - v t else 0), hw, ?_, ?_⟩
  · apply List.ext_getElem?
    intro t
    by_cases ht : t < T
    swap
    · rw [List.getElem?_eq_none (by simp [gapSeries_length, hl]; omega), List.getElem?_eq_none (by rw [gapSeries_length]; omega)]
    rw [gapSeries_get _ _ ht, List.getElem?_map, List.getElem?_zipWith, List.getElem?_zipWith, gapSeries_get _ _ ht,
      gapSeries_get _ _ ht, getElem?_eq_rd (by omega)]
    by_cases g : gap t
    · simp [g, rate_nan]
    by_cases b : noBase t
    · simp [g, b, rate_nan]
    obtain ⟨v1, v2, -⟩ := hv t ht g b
    have e : Fl.fin (levelAt (WetAt wet) p.waaMax (3 * p.deltaT / p.tau) dryLevel A t) -ᶠ Fl.fin (dryLevel t) -ᶠ rd w t =
        .fin (if WetAt wet t then A t + film t - v t else 0) := by
      rw [v1, Fl.pf_sub_fin, Fl.pf_sub_fin, levelAt, add_sub_cancel_left]
      by_cases h : WetAt wet t
      · rw [if_pos h, if_pos h]
      · rw [if_neg h, if_neg h, v2 h, sub_zero]
    simp only [g, b, if_false, or_false, Option.map_some]
    rw [e, lawRate_cut hp.a hp.b hp.L]
  · intro t ht g b
    obtain ⟨v1, v2, v3, v4, v5, v6⟩ := hv t ht g b
    unfold GapRates
    rw [← hfd]
    refine ⟨fun h => ?_, fun h => ?_⟩
    · show lawRate _ _ _ (if WetAt wet t then _ else _) = 0
      rw [if_neg h, lawRate_zero hp.b]
    · show (lawRate _ _ _ _ ≤ lawRate _ _ _ (if WetAt wet t then _ else _) ∧ lawRate _ _ _ (if WetAt wet t then _ else _) ≤ _) ∧
        (_ → lawRate _ _ _ (if WetAt wet t then _ else _) = _) ∧ (_ → _ → lawRate _ _ _ (if WetAt wet t then _ else _) = _ ∧
          (_ → _ → lawRate _ _ _ (if WetAt wet t then _ else _) < _)) ∧
        (∀ g < t, _ → _ → _ → lawRate _ _ _ (if WetAt wet t then _ else _) = _)
      rw [if_pos h]
      have r0 := hR t ht h
      have er : lawRate p.a p.b p.L (A t) = R t := lawRate_rain hp.a hp.b hp.L r0
      obtain ⟨u1, u2, u3⟩ := v3 h
      have emin : ∀ x, lawRate p.a p.b p.L (A t + film t - min (A t + film t) x) = lawRate p.a p.b p.L (A t - (x - film t)) := by
        intro x
        rcases le_total (A t + film t) x with hx | hx
        · rw [min_eq_left hx, sub_self, lawRate_zero hp.b, lawRate_neg hb1 (by linarith)]
        · rw [min_eq_right hx]
          congr 1
          ring
      refine ⟨⟨lawRate_mono haL hb1 (by show A t - _ ≤ _; linarith), ?_⟩, ?_, ?_, ?_⟩
      · rw [← er]
        exact lawRate_mono haL hb1 (by linarith)
      · intro hk
        rw [v4 h hk, add_sub_cancel_right, er]
      · intro wp gp
        rw [v5 h wp gp, emin]
        refine ⟨rfl, fun r1 fl => ?_⟩
        have a1 : 0 < A t := mul_pos (mul_pos hp.a (Real.rpow_pos_of_pos r1 _)) hp.L
        rw [← er]
        unfold lawRate
        refine Real.rpow_lt_rpow (div_nonneg (le_max_left _ _) haL.le) (div_lt_div_of_pos_right ?_ haL) hb1
        rw [max_eq_right a1.le]
        exact max_lt a1 (by linarith)
      · intro k k1 k2 k3 k4
        rw [v6 k k1 k2 k3 k4]
        congr 1
        show _ = A t - _
        ring

/-- **C166** What gaps in the levels do to the rain rates of the chain `baseline_constant`, `waa_schleiss_2013`, `calc_R_from_A`: with levels as
in C130 of which those at the steps `gap` are missing, the rates are missing exactly where level or baseline are, and the others are as
`GapRates` says: rain after a gap inside an event is underestimated. -/
theorem C166_gaps (sp : Spline) (p : ChainParams) (hp : p.Ok) (h3 : 3 * p.deltaT ≤ p.tau) (wet : List Bool) (T : ℕ)
    (gap : ℕ → Prop) (dryLevel R : ℕ → ℝ) (hT : T ≤ wet.length) (hR : ∀ t < T, WetAt wet t → 0 ≤ R t)
    (h1 : ∀ t < p.n, ¬ WetAt wet t) (h2 : ∀ t < T, WetAt wet t → ∀ s, s < t → t ≤ s + p.n → dryLevel s = dryLevel t) :
    ∃ ρ : ℕ → ℝ,
      rainChain sp p (gapSeries T gap
          (levelAt (WetAt wet) p.waaMax (3 * p.deltaT / p.tau) dryLevel fun t => p.a * R t ^ p.b * p.L)) wet =
        .ok (gapSeries T (fun t => gap t ∨ NoBase wet gap p.n t) fun t => if ρ t < p.Rmin then 0 else ρ t) ∧
      ∀ t < T, ¬ gap t → ¬ NoBase wet gap p.n t → GapRates p wet gap R ρ t := by
  have hb := C166_baseline wet T p.n gap dryLevel
    (levelAt (WetAt wet) p.waaMax (3 * p.deltaT / p.tau) dryLevel fun t => p.a * R t ^ p.b * p.L) hp.n hT h1
    (fun t _ hw => by unfold levelAt; rw [if_neg hw, add_zero]) h2
  obtain ⟨w, ρ, hw, hr, hg⟩ := gap_rates p hp h3 wet T gap (NoBase wet gap p.n) dryLevel R hT hR (h1 0 (by have := hp.n; omega))
    (fun t _ => .dry) (fun t t0 _ hw b' => by
      by_cases hw' : WetAt wet (t - 1)
      · exact (noBase_next t0 hw hw').mpr b'
      · exact (noBase_first hw hw').mpr ⟨t - 1, by omega, by have := hp.n; omega, b'⟩)
  exact ⟨ρ, by rw [rainChain_ok hb hw, hr], hg⟩

/-- No reference level with `baseline_linear`: a missing level at a dry step, and from the dry step before an event to its last wet step a
missing level at the dry step before or after it. -/
def NoBaseLin (wet : List Bool) (gap : ℕ → Prop) (T t : ℕ) : Prop :=
  (¬ WetAt wet t ∧ gap t) ∨ ∃ p q, p ≤ t ∧ t < q ∧ q < T ∧ p + 1 < q ∧ ¬ WetAt wet p ∧ ¬ WetAt wet q ∧
    (∀ k, p < k → k < q → WetAt wet k) ∧ (gap p ∨ gap q)

/-- **C166** The linear baseline of a record with gaps. -/
theorem C166_baseline_linear {K : Type} [Field K] [LinearOrder K] [IsStrictOrderedRing K] (wet : List Bool) (T : ℕ) (gap : ℕ → Prop)
    (dryLevel level : ℕ → K) (b : Bool) (hT0 : 0 < T) (hT : T ≤ wet.length)
    (hfirst : ¬ WetAt wet 0) (hlast : ¬ WetAt wet (T - 1)) (hdry : ∀ t < T, ¬ WetAt wet t → level t = dryLevel t)
    (hlin : ∀ p i q, p < i → i < q → q < T → ¬ WetAt wet p → ¬ WetAt wet q → (∀ k, p < k → k < q → WetAt wet k) →
      dryLevel i = dryLevel p + ((i : K) - p) * ((dryLevel q - dryLevel p) / ((q : K) - p))) :
    baselineLinear (gapSeries T gap level) (wet.map flagF) b = .ok (gapSeries T (NoBaseLin wet gap T) dryLevel) := by
  classical
  have e2 : (flags wet : List (Fl K)) = wet.map flagF := by
    unfold flags flagF
    apply List.map_congr_left
    intro w _
    cases w <;> simp
  have dry_iff : ∀ t < T, Dry wet t ↔ ¬ WetAt wet t := by
    intro t ht
    unfold Dry WetAt
    constructor
    · rintro (rfl | h)
      · exact hfirst
      · rw [h]; simp
    · intro h
      right
      have : t < wet.length := by omega
      rw [List.getElem?_eq_getElem this] at h ⊢
      cases hb : wet[t]
      · rfl
      · rw [hb] at h; exact absurd rfl h
  have hign : baselineLinear (gapSeries T gap level) (flags (K := K) wet) true
      = baselineLinear (gapSeries T gap level) (flags (K := K) wet) false := by
    unfold baselineLinear
    split_ifs
    · rfl
    · congr 2
      apply forRange_congr
      intro i s h1 h2
      have hn : isNaN (rd (flags (K := K) wet) i) = false := by
        by_contra hc
        refine flagNaN_flags (K := K) wet i ⟨by omega, _, getElem?_eq_rd ?_, by simpa using hc⟩
        rw [gapSeries_length] at h2
        simp only [flags, List.length_map]
        omega
      unfold linBody
      simp [hn]
  obtain ⟨out, ho, hs⟩ := C08_linear_characterisation (gapSeries T gap level) (flags (K := K) wet)
    (by rw [gapSeries_length]; exact hT0) (by rw [gapSeries_length]; simpa [flags] using hT)
  rw [gapSeries_length] at hs
  have hs' : IsLinearBaseline (fun i => (gapSeries T gap level).getD i PyFloat.nan) (WetAt wet) (fun _ => False) T out :=
    IsLinearBaseline.congr (fun _ _ => rfl)
      (fun i hi => (flagWet_flags wet i (by omega)).trans (by rw [dry_iff i hi, not_not]))
      (fun i _ => ⟨fun h => flagNaN_flags wet i h, False.elim⟩) hs
  have hsig : ∀ i < T, ¬ WetAt wet i → (gapSeries T gap level).getD i PyFloat.nan = if gap i then .nan else .fin (dryLevel i) := by
    intro i hi hw
    rw [List.getD_eq_getElem?_getD, gapSeries_get _ _ hi, hdry i hi hw]
    rfl
  have hnb : ∀ p q, ¬ BadEvent (fun _ => False) p q := by rintro p q ⟨k, _, _, h⟩; exact h
  have hout : baselineLinear (gapSeries T gap level) (wet.map flagF) b = .ok out := by
    rw [← e2]
    cases b
    · exact ho
    · rw [hign]; exact ho
  rw [hout]
  congr 1
  -- inside an event
  have hin : ∀ p q i, WetEvent (WetAt wet) p q → q < T → p ≤ i → i < q →
      out[i]? = some (if gap p ∨ gap q then .nan else .fin (dryLevel i)) := by
    intro p q i hE hq h1 h2
    rw [(hs'.inside p q i hE hq h1 h2).2 (hnb _ _)]
    rw [hsig p (by omega) hE.2.1, hsig q hq hE.2.2.1]
    by_cases gp : gap p
    · simp [gp, lineAt]
    by_cases gq : gap q
    · simp [gp, gq, lineAt]
    rw [if_neg gp, if_neg gq, if_neg (by tauto), lineAt_fin _ _ (by omega)]
    rcases Nat.eq_or_lt_of_le h1 with rfl | h1
    · simp
    · rw [hlin p i q h1 h2 hq hE.2.1 hE.2.2.1 hE.2.2.2]
  apply List.ext_getElem?
  intro i
  by_cases hi : i < T
  swap
  · rw [List.getElem?_eq_none (by rw [hs'.length]; omega), List.getElem?_eq_none (by rw [gapSeries_length]; omega)]
  rw [gapSeries_get _ _ hi]
  -- the event of a step
  have huniq : ∀ p q, WetEvent (WetAt wet) p q → q < T → p ≤ i → i < q → (NoBaseLin wet gap T i ↔ gap p ∨ gap q) := by
    intro p q hE hq h1 h2
    constructor
    · rintro (⟨k1, k2⟩ | ⟨p', q', k1, k2, k3, k4, k5, k6, k7, k8⟩)
      · left
        obtain rfl : p = i := by
          by_contra hne
          exact k1 (hE.2.2.2 i (by omega) h2)
        exact k2
      · have ep : p' = p := by
          rcases Nat.lt_trichotomy p' p with h | h | h
          · exact absurd (k7 p h (by omega)) hE.2.1
          · exact h
          · exact absurd (hE.2.2.2 p' h (by omega)) k5
        have eq : q' = q := by
          rcases Nat.lt_trichotomy q' q with h | h | h
          · exact absurd (hE.2.2.2 q' (by omega) h) k6
          · exact h
          · exact absurd (k7 q (by omega) h) hE.2.2.1
        rwa [ep, eq] at k8
    · intro h
      exact .inr ⟨p, q, h1, h2, hq, hE.1, hE.2.1, hE.2.2.1, hE.2.2.2, h⟩
  by_cases hex : ∃ p q, WetEvent (WetAt wet) p q ∧ q < T ∧ p ≤ i ∧ i < q
  · obtain ⟨p, q, hE, hq, h1, h2⟩ := hex
    rw [hin p q i hE hq h1 h2]
    exact congrArg some (if_congr (huniq p q hE hq h1 h2).symm rfl rfl)
  · have hw : ¬ WetAt wet i := by
      intro hw
      obtain ⟨p, q, h1, h2, h3, h4, h5, h6⟩ := exists_dry_neighbours wet T i hi (fun h => (dry_iff i hi).mp h hw)
        ((dry_iff _ (by omega)).mpr hlast)
      exact hex ⟨p, q, ⟨by omega, (dry_iff p (by omega)).mp h4, (dry_iff q h3).mp h5,
        fun k k1 k2 => by by_contra hc; exact h6 k k1 k2 ((dry_iff k (by omega)).mpr hc)⟩, h3, h1.le, h2⟩
    have e : NoBaseLin wet gap T i ↔ gap i := by
      constructor
      · rintro (⟨k1, k2⟩ | ⟨p', q', k1, k2, k3, k4, k5, k6, k7, k8⟩)
        · exact k2
        · exact absurd ⟨p', q', ⟨k4, k5, k6, k7⟩, k3, k1, k2⟩ hex
      · exact fun h => .inl ⟨hw, h⟩
    have hnext : ∀ r, WetEvent (WetAt wet) i r → T ≤ r := by
      intro r hr
      by_contra hc
      exact hex ⟨i, r, hr, by omega, le_rfl, by have := hr.1; omega⟩
    have : out[i]? = some (if gap i then .nan else .fin (dryLevel i)) := by
      by_cases hprev : ∃ p, WetEvent (WetAt wet) p i
      · obtain ⟨p, hE⟩ := hprev
        rw [(hs'.stop p i hE hi hnext).2 (hnb _ _), hsig i hi hw]
      · rw [hs'.dry i hi hw (fun p hp => hprev ⟨p, hp⟩) hnext, hsig i hi hw]
    rw [this]
    exact congrArg some (if_congr e.symm rfl rfl)

/-- A wet step behind one without reference has none either. -/
theorem noBaseLin_next {wet : List Bool} {gap : ℕ → Prop} {T : ℕ} (hlast : ¬ WetAt wet (T - 1)) (hfirst : ¬ WetAt wet 0)
    (hT : T ≤ wet.length) : ∀ t, 0 < t → t < T → WetAt wet t → NoBaseLin wet gap T (t - 1) → NoBaseLin wet gap T t := by
  rintro t t0 ht hw (⟨k1, k2⟩ | ⟨a, q, k1, k2, k3, k4, k5, k6, k7, k8⟩)
  · -- the last dry step before the event is missing
    have dry_iff : ∀ t < T, Dry wet t ↔ ¬ WetAt wet t := by
      intro t ht
      unfold Dry WetAt
      constructor
      · rintro (rfl | h)
        · exact hfirst
        · rw [h]; simp
      · intro h
        right
        have : t < wet.length := by omega
        rw [List.getElem?_eq_getElem this] at h ⊢
        cases hb : wet[t]
        · rfl
        · rw [hb] at h; exact absurd rfl h
    obtain ⟨a, q, h1, h2, h3, h4, h5, h6⟩ := exists_dry_neighbours wet T t ht (fun h => (dry_iff t ht).mp h hw)
      ((dry_iff _ (by omega)).mpr hlast)
    obtain rfl : a = t - 1 := by
      by_contra hne
      exact h6 (t - 1) (by omega) (by omega) ((dry_iff _ (by omega)).mpr k1)
    exact .inr ⟨t - 1, q, by omega, h2, h3, by omega, k1, (dry_iff q h3).mp h5,
      fun k k1 k2 => by by_contra hc; exact h6 k k1 k2 ((dry_iff k (by omega)).mpr hc), .inl k2⟩
  · refine .inr ⟨a, q, by omega, ?_, k3, k4, k5, k6, k7, k8⟩
    rcases Nat.lt_or_ge t q with h | h
    · exact h
    · obtain rfl : q = t := by omega
      exact absurd hw k6

/-- **C166** The same with `baseline_linear`, where the dry level may drift linearly over each event and first and last step are dry. -/
theorem C166_gaps_linear (sp : Spline) (p : ChainParams) (hp : p.Ok) (h3 : 3 * p.deltaT ≤ p.tau) (wet : List Bool) (T : ℕ)
    (gap : ℕ → Prop) (dryLevel R : ℕ → ℝ) (ignoreNan : Bool) (hT0 : 0 < T) (hT : T ≤ wet.length) (hR : ∀ t < T, WetAt wet t → 0 ≤ R t)
    (hfirst : ¬ WetAt wet 0) (hlast : ¬ WetAt wet (T - 1))
    (hlin : ∀ p i q, p < i → i < q → q < T → ¬ WetAt wet p → ¬ WetAt wet q → (∀ k, p < k → k < q → WetAt wet k) →
      dryLevel i = dryLevel p + ((i : ℝ) - p) * ((dryLevel q - dryLevel p) / ((q : ℝ) - p))) :
    ∃ base waa ρ, baselineLinear
        (gapSeries T gap (levelAt (WetAt wet) p.waaMax (3 * p.deltaT / p.tau) dryLevel fun t => p.a * R t ^ p.b * p.L))
        (wet.map flagF) ignoreNan = .ok base ∧
      waaSchleiss (gapSeries T gap (levelAt (WetAt wet) p.waaMax (3 * p.deltaT / p.tau) dryLevel fun t => p.a * R t ^ p.b * p.L)) base
        (wet.map flagF) (.fin p.waaMax) (.fin p.deltaT) (.fin p.tau) = .ok waa ∧
      calc_R_from_A sp (List.zipWith (· -ᶠ ·) (List.zipWith (· -ᶠ ·)
          (gapSeries T gap (levelAt (WetAt wet) p.waaMax (3 * p.deltaT / p.tau) dryLevel fun t => p.a * R t ^ p.b * p.L)) base) waa)
        (.fin p.L) none none (some [.fin p.a]) (some [.fin p.b]) "ITU_2005" (.fin p.Rmin) =
        .ok (gapSeries T (fun t => gap t ∨ NoBaseLin wet gap T t) fun t => if ρ t < p.Rmin then 0 else ρ t) ∧
      ∀ t < T, ¬ gap t → ¬ NoBaseLin wet gap T t → GapRates p wet gap R ρ t := by
  have hb := C166_baseline_linear wet T gap dryLevel
    (levelAt (WetAt wet) p.waaMax (3 * p.deltaT / p.tau) dryLevel fun t => p.a * R t ^ p.b * p.L) ignoreNan hT0 hT hfirst hlast
    (fun t _ hw => by unfold levelAt; rw [if_neg hw, add_zero]) hlin
  obtain ⟨w, ρ, hw, hr, hg⟩ := gap_rates p hp h3 wet T gap (NoBaseLin wet gap T) dryLevel R hT hR hfirst
    (fun t _ h g => .inl ⟨h, g⟩) (noBaseLin_next hlast hfirst hT)
  exact ⟨_, w, ρ, hb, hw, by rw [calc_R_scalar, hr], hg⟩

/-- An event with a gap and one without reference: rain of 5, 5 and 3 mm/h with a gap at the second step gives 5, NaN and 247/125 mm/h;
the level missing just before the second event makes its rate NaN. -/
example (sp : Spline) : rainChain sp ⟨1, 2, 1, 15, 10, 1/10, 1, 1/10⟩
      [.fin 50, .fin (50 + (5 + 2/5)), .nan, .fin (50 + (3 + 122/125)), .nan, .fin (50 + (5 + 2/5))]
      [false, true, true, true, false, true] =
    .ok [.fin 0, .fin 5, .nan, .fin (247/125), .nan, .nan] := by
  classical
  obtain ⟨ρ, h, hr⟩ := C166_gaps sp ⟨1, 2, 1, 15, 10, 1/10, 1, 1/10⟩ (by constructor <;> norm_num) (by norm_num)
    [false, true, true, true, false, true] 6 (fun t => t = 2 ∨ t = 4) (fun _ => 50)
    (fun t => if t = 3 then 3 else 5) (by simp)
    (fun t _ _ => by split_ifs <;> norm_num) (by
      intro t ht
      obtain rfl : t = 0 := by simpa using ht
      simp [WetAt]) (by intros; rfl)
  have w1 : WetAt [false, true, true, true, false, true] 1 := rfl
  have w2 : WetAt [false, true, true, true, false, true] 2 := rfl
  have w3 : WetAt [false, true, true, true, false, true] 3 := rfl
  have w5 : WetAt [false, true, true, true, false, true] 5 := rfl
  have d0 : ¬ WetAt [false, true, true, true, false, true] 0 := by simp [WetAt]
  have d4 : ¬ WetAt [false, true, true, true, false, true] 4 := by simp [WetAt]
  generalize hwet : [false, true, true, true, false, true] = wet at *
  generalize hgap : (fun t : ℕ => t = 2 ∨ t = 4) = gap at *
  have g : ∀ t, gap t ↔ t = 2 ∨ t = 4 := fun t => by rw [← hgap]
  have n0 : ¬ NoBase wet gap 1 0 := by rw [noBase_dry d0, g]; omega
  have n1 : ¬ NoBase wet gap 1 1 := by
    rw [noBase_first w1 d0]
    rintro ⟨k, k1, k2, k3⟩
    obtain rfl : k = 0 := by omega
    exact n0 k3
  have n2 : ¬ NoBase wet gap 1 2 := by rwa [noBase_next (by omega) w2 w1]
  have n3 : ¬ NoBase wet gap 1 3 := by rwa [noBase_next (by omega) w3 w2]
  have n5 : NoBase wet gap 1 5 := .event (s := 5) (k := 4) (by omega) (by omega) le_rfl d4
    (fun j j1 j2 => by obtain rfl : j = 5 := by omega
                       exact w5) (.dry d4 (by rw [g]; omega))
  have r0 : ρ 0 = 0 := (hr 0 (by omega) (by omega) n0).1 d0
  have r1 : ρ 1 = 5 := by
    have := ((hr 1 (by omega) (by omega) n1).2 w1).2.1 (fun k k1 _ => by rw [g]; omega)
    simpa using this
  have r3 := (((hr 3 (by omega) (by omega) n3).2 w3).2.2.1 w2 (by rw [g]; omega)).1
  simp only [filmAt, if_pos w1, if_pos w2, if_pos w3] at r3
  norm_num [lawRate] at r3
  simp only [gapSeries, levelAt, filmAt, g, n0, n1, n3, n5, if_pos w1, if_pos w2, if_pos w3, if_pos w5, if_neg d0, if_neg d4, List.range, List.range.loop, List.map_cons, List.map_nil,
    r0, r1, r3] at h
  clear hr
  norm_num at h ⊢
  convert h using 5

/-- with `baseline_linear`: the level missing after the second event also makes the rates of that event and of the dry step before it NaN -/
example (sp : Spline) : ∃ base waa,
    baselineLinear [.fin 50, .fin (50 + (5 + 2/5)), .nan, .fin (50 + (3 + 122/125)), .fin 50, .fin (50 + (5 + 2/5)), .nan]
      ([false, true, true, true, false, true, false].map flagF) false = .ok base ∧
    waaSchleiss [.fin 50, .fin (50 + (5 + 2/5)), .nan, .fin (50 + (3 + 122/125)), .fin 50, .fin (50 + (5 + 2/5)), .nan] base
      ([false, true, true, true, false, true, false].map flagF) (.fin 2) (.fin 1) (.fin 15) = .ok waa ∧
    calc_R_from_A sp (List.zipWith (· -ᶠ ·) (List.zipWith (· -ᶠ ·)
        [.fin 50, .fin (50 + (5 + 2/5)), .nan, .fin (50 + (3 + 122/125)), .fin 50, .fin (50 + (5 + 2/5)), .nan] base) waa)
      (.fin 10) none none (some [.fin (1/10)]) (some [.fin 1]) "ITU_2005" (.fin (1/10)) =
    .ok [.fin 0, .fin 5, .nan, .fin (247/125), .nan, .nan, .nan] := by
  classical
  obtain ⟨base, waa, ρ, hb, hw, h, hr⟩ := C166_gaps_linear sp ⟨1, 2, 1, 15, 10, 1/10, 1, 1/10⟩ (by constructor <;> norm_num) (by norm_num)
    [false, true, true, true, false, true, false] 7 (fun t => t = 2 ∨ t = 6) (fun _ => 50)
    (fun t => if t = 3 then 3 else 5) false (by norm_num) (by simp)
    (fun t _ _ => by split_ifs <;> norm_num) (by simp [WetAt]) (by simp [WetAt]) (by intros; simp)
  have w1 : WetAt [false, true, true, true, false, true, false] 1 := rfl
  have w2 : WetAt [false, true, true, true, false, true, false] 2 := rfl
  have w3 : WetAt [false, true, true, true, false, true, false] 3 := rfl
  have w5 : WetAt [false, true, true, true, false, true, false] 5 := rfl
  have d0 : ¬ WetAt [false, true, true, true, false, true, false] 0 := by simp [WetAt]
  have d4 : ¬ WetAt [false, true, true, true, false, true, false] 4 := by simp [WetAt]
  have d6 : ¬ WetAt [false, true, true, true, false, true, false] 6 := by simp [WetAt]
  generalize hwet : [false, true, true, true, false, true, false] = wet at *
  generalize hgap : (fun t : ℕ => t = 2 ∨ t = 6) = gap at *
  have g : ∀ t, gap t ↔ t = 2 ∨ t = 6 := fun t => by rw [← hgap]
  have nb : ∀ t, t < 4 → ¬ NoBaseLin wet gap 7 t := by
    rintro t ht (⟨k1, k2⟩ | ⟨a, q, k1, k2, k3, k4, k5, k6, k7, k8⟩)
    · rw [g] at k2
      obtain rfl : t = 2 := by omega
      exact k1 w2
    · have : q ≤ 4 := by
        by_contra hc
        exact d4 (k7 4 (by omega) (by omega))
      rw [g, g] at k8
      obtain rfl | rfl : a = 2 ∨ q = 2 := by omega
      · exact k5 w2
      · exact k6 w2
  have nb' : ∀ t, 4 ≤ t → t < 6 → NoBaseLin wet gap 7 t := fun t h1 h2 =>
    .inr ⟨4, 6, h1, h2, by omega, by omega, d4, d6, fun k k1 k2 => by
      obtain rfl : k = 5 := by omega
      exact w5, .inr (by rw [g]; omega)⟩
  have n0 := nb 0 (by omega)
  have n1 := nb 1 (by omega)
  have n3 := nb 3 (by omega)
  have n4 := nb' 4 (by omega) (by omega)
  have n5 := nb' 5 (by omega) (by omega)
  have r0 : ρ 0 = 0 := (hr 0 (by omega) (by omega) n0).1 d0
  have r1 : ρ 1 = 5 := by
    have := ((hr 1 (by omega) (by omega) n1).2 w1).2.1 (fun k k1 _ => by rw [g]; omega)
    simpa using this
  have r3 := (((hr 3 (by omega) (by omega) n3).2 w3).2.2.1 w2 (by rw [g]; omega)).1
  simp only [filmAt, if_pos w1, if_pos w2, if_pos w3] at r3
  norm_num [lawRate] at r3
  clear hr
  simp only [gapSeries, levelAt, filmAt, g, n0, n1, n3, n4, n5, if_pos w1, if_pos w2, if_pos w3, if_pos w5, if_neg d0, if_neg d4, if_neg d6,
    List.range, List.range.loop, List.map_cons, List.map_nil, r0, r1, r3] at h hb hw
  norm_num at h hb hw ⊢
  exact ⟨base, hb, waa, hw, h⟩

end Verif.Props
