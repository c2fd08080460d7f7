import Verif.Props.LevelsToRain

/-!
# Property C162: what wrong wet flags do to the rain rates
-/

namespace Verif.Props
open Verif Verif.Baseline Verif.Waa Verif.Bin Verif.KR

section
variable {K : Type} [Field K] [LinearOrder K] [IsStrictOrderedRing K]

/-- what `baseline_constant` gives for a series of numbers, step by step -/
theorem baseline_steps (flag : List Bool) (T n : ℕ) (level : ℕ → K) (hn : 1 ≤ n) (hT : T ≤ flag.length) :
    ∃ b : ℕ → K, baselineConstant (series T level) flag n = .ok (series T b) ∧
      (∀ t < T, t < n ∨ ¬ WetAt flag t → b t = level t) ∧
      (∀ t < T, n ≤ t → WetAt flag t → WetAt flag (t - 1) → b t = b (t - 1)) ∧
      ∀ t < T, n ≤ t → WetAt flag t → ¬ WetAt flag (t - 1) → b t = ((List.range n).map fun k => b (t - n + k)).sum / n := by
  unfold baselineConstant
  rw [if_neg (by rw [series_length]; omega)]
  have rdw : ∀ t, rdB flag t = decide (WetAt flag t) := by
    intro t
    unfold rdB WetAt
    rw [List.getD_eq_getElem?_getD]
    cases h : flag[t]? with
    | none => simp
    | some b => cases b <;> simp
  have step : ∀ t, n ≤ t → t < T → rd (constLoop (series T level) flag n) t =
      if WetAt flag t then if WetAt flag (t - 1) then rd (constLoop (series T level) flag n) (t - 1)
        else npMean (slice (constLoop (series T level) flag n) (t - n) t) else .fin (level t) := by
    intro t htn ht
    rw [constLoop_rec _ _ hn htn (by rw [series_length]; exact ht)]
    unfold constVal prevIdx
    rw [if_neg (by omega : ¬ t = 0), if_neg (by omega : ¬ t = 0), rdw, rdw]
    by_cases hw : WetAt flag t
    · by_cases hw' : WetAt flag (t - 1)
      · rw [decide_eq_true hw, decide_eq_true hw', if_neg (by decide), if_pos (by decide), if_pos hw, if_pos hw']
      · rw [decide_eq_true hw, decide_eq_false hw', if_pos (by decide), if_pos hw, if_neg hw']
    · rw [decide_eq_false hw, Bool.false_and, Bool.false_and, if_neg (by decide), if_neg (by decide), if_neg hw]
      rw [rd_of_getElem? (series_get _ ht)]
  have init : ∀ t < n, t < T → rd (constLoop (series T level) flag n) t = .fin (level t) := fun t htn ht => by
    rw [constLoop_init _ _ htn (by rw [series_length]; exact ht), rd_of_getElem? (series_get _ ht)]
  have slc : ∀ (b : ℕ → K) t, n ≤ t → t < T → (∀ s < t, rd (constLoop (series T level) flag n) s = .fin (b s)) →
      slice (constLoop (series T level) flag n) (t - n) t = ((List.range n).map fun k => b (t - n + k)).map Fl.fin := by
    intro b t htn ht hb
    apply List.ext_getElem?
    intro k
    have hl := slice_length (xs := constLoop (series T level) flag n) (n := n) (i := t) (by omega)
      (by rw [constLoop_length, series_length]; omega)
    by_cases hk : k < n
    · rw [getElem?_eq_rd (by omega), rd_slice (by omega), hb _ (by omega)]
      simp [hk]
    · rw [List.getElem?_eq_none (by omega), List.getElem?_eq_none (by simp; omega)]
  have hn0 : (n : K) ≠ 0 := by exact_mod_cast (by omega : n ≠ 0)
  have mean : ∀ b : ℕ → K, npMean (((List.range n).map fun k => b k).map Fl.fin) = .fin (((List.range n).map fun k => b k).sum / n) := by
    intro b
    rw [npMean_map_fin (by simp; omega)]
    simp
  have fin : ∀ t < T, ∃ x, rd (constLoop (series T level) flag n) t = .fin x := by
    intro t
    induction t using Nat.strong_induction_on with
    | _ t ih =>
      intro ht
      by_cases htn : t < n
      · exact ⟨_, init t htn ht⟩
      · rw [step t (by omega) ht]
        by_cases hw : WetAt flag t
        · rw [if_pos hw]
          by_cases hw' : WetAt flag (t - 1)
          · rw [if_pos hw']
            exact ih _ (by omega) (by omega)
          · rw [if_neg hw']
            choose! b hb using ih
            rw [slc b t (by omega) ht (fun s hs => hb s hs (by omega)), mean fun k => b (t - n + k)]
            exact ⟨_, rfl⟩
        · rw [if_neg hw]
          exact ⟨_, rfl⟩
  choose! b hb using fin
  refine ⟨b, ?_, ?_, ?_, ?_⟩
  · congr 1
    apply List.ext_getElem?
    intro t
    by_cases ht : t < T
    · rw [series_get _ ht, getElem?_eq_rd (by rw [constLoop_length, series_length]; exact ht), hb t ht]
    · rw [List.getElem?_eq_none (by rw [constLoop_length, series_length]; omega), List.getElem?_eq_none (by rw [series_length]; omega)]
  · intro t ht h
    have := hb t ht
    by_cases htn : t < n
    · rw [init t htn ht] at this
      exact (Fl.fin.inj this).symm
    · rw [step t (by omega) ht, if_neg (h.resolve_left htn)] at this
      exact (Fl.fin.inj this).symm
  · intro t ht htn hw hw'
    have := hb t ht
    rw [step t htn ht, if_pos hw, if_pos hw', hb _ (by omega)] at this
    exact (Fl.fin.inj this).symm
  · intro t ht htn hw hw'
    have := hb t ht
    rw [step t htn ht, if_pos hw, if_neg hw', slc b t htn ht (fun s hs => hb s (by omega)), mean fun k => b (t - n + k)] at this
    exact (Fl.fin.inj this).symm

/-- what `waa_schleiss_2013` gives for series of numbers, step by step -/
theorem waa_steps (flag : List Bool) (T : ℕ) (level b : ℕ → K) (M d tau : K) (hT : T ≤ flag.length) (ht : tau ≠ 0) :
    ∃ w : ℕ → K, waaSchleiss (series T level) (series T b) (flag.map flagF) (.fin M) (.fin d) (.fin tau) = .ok (series T w) ∧
      w 0 = 0 ∧ ∀ t, t + 1 < T → w (t + 1) = if WetAt flag (t + 1) then
        min (min (level (t + 1) - b (t + 1)) M) (w t + (M - w t) * (3 * d / tau)) else min (level (t + 1) - b (t + 1)) M := by
  obtain ⟨ws, h1, h2, h4, h5⟩ := schleiss_fin ((List.range T).map level) ((List.range T).map b) (flag.map flagF) M d tau (by simp)
    (by simpa using hT) ht
  have e1 : ∀ x : ℕ → K, ((List.range T).map x).map Fl.fin = series T x := fun x => by rw [List.map_map]; rfl
  rw [e1, e1] at h1
  have l : ws.length = T := by simpa using h2
  refine ⟨fun t => ws.getD t 0, ?_, ?_, ?_⟩
  · rw [h1]
    congr 1
    apply List.ext_getElem?
    intro t
    by_cases ht' : t < T
    · rw [series_get _ ht', List.getElem?_map, List.getElem?_eq_getElem (by omega), Option.map_some, List.getD_eq_getElem _ _ (by omega)]
    · rw [List.getElem?_eq_none (by simp; omega), List.getElem?_eq_none (by rw [series_length]; omega)]
  · by_cases h0 : 0 < T
    · show ws.getD 0 0 = 0
      rw [List.getD_eq_getElem _ _ (by omega)]
      exact h4 (by simpa using h0)
    · show ws.getD 0 0 = 0
      rw [List.getD_eq_default _ _ (by omega)]
  · intro t ht'
    have := h5 (t + 1) (by omega) (by simpa using ht')
    simp only [Nat.add_sub_cancel, List.getElem_map, List.getElem_range] at this
    show ws.getD (t + 1) 0 = if WetAt flag (t + 1) then
        min (min (level (t + 1) - b (t + 1)) M) (ws.getD t 0 + (M - ws.getD t 0) * (3 * d / tau)) else min (level (t + 1) - b (t + 1)) M
    rw [List.getD_eq_getElem _ _ (by omega), List.getD_eq_getElem _ _ (by omega), this]
    have hf : (flag.map flagF : List (Fl K))[t + 1]? = some (.fin 1) ↔ WetAt flag (t + 1) := by
      rw [List.getElem?_map, Option.map_eq_some_iff]
      constructor
      · rintro ⟨x, hx1, hx2⟩
        cases x
        · simp [flagF] at hx2
        · exact hx1
      · intro h
        exact ⟨true, h, by simp [flagF]⟩
    simp only [hf]

/-- The facts behind C162: how baseline and film are changed by wrong flags. `β` is how much the baseline is too high. -/
theorem wrong_flags_steps (rain flag : List Bool) (T n : ℕ) (M d tau E : K) (dryLevel A : ℕ → K) (hn : 1 ≤ n) (hT : T ≤ flag.length)
    (hM : 0 ≤ M) (hd : 0 ≤ d) (ht : 0 < tau) (h3 : 3 * d ≤ tau) (hA : ∀ t < T, WetAt rain t → 0 ≤ A t) (h1 : ∀ t < n, ¬ WetAt rain t)
    (h2 : ∀ t < T, WetAt flag t → ∀ s, s < t → t ≤ s + n → dryLevel s = dryLevel t) (hE : 0 ≤ E)
    (hmiss : ∀ t < T, WetAt rain t → ¬ WetAt flag t → A t + filmAt (WetAt rain) M (3 * d / tau) t ≤ E) :
    ∃ b w : ℕ → K, baselineConstant (series T (levelAt (WetAt rain) M (3 * d / tau) dryLevel A)) flag n = .ok (series T b) ∧
      waaSchleiss (series T (levelAt (WetAt rain) M (3 * d / tau) dryLevel A)) (series T b) (flag.map flagF) (.fin M) (.fin d) (.fin tau) =
        .ok (series T w) ∧
      (∀ t < T, ¬ WetAt flag t → b t = levelAt (WetAt rain) M (3 * d / tau) dryLevel A t ∧ w t = 0) ∧
      (∀ t < T, t < n → b t = dryLevel t) ∧
      (∀ t < T, n ≤ t → WetAt flag t → WetAt flag (t - 1) → b t = b (t - 1)) ∧
      (∀ t < T, 0 ≤ b t - dryLevel t ∧ b t - dryLevel t ≤ E) ∧
      (∀ t < T, w t ≤ levelAt (WetAt rain) M (3 * d / tau) dryLevel A t - b t) ∧
      (∀ t < T, w t ≤ filmAt (WetAt rain) M (3 * d / tau) t) ∧
      (∀ t < T, -(b t - dryLevel t) ≤ w t) ∧
      (∀ t < T, WetAt rain t → (∀ s ≤ t, (∀ k, s ≤ k → k ≤ t → WetAt rain k) → WetAt flag s) →
        filmAt (WetAt rain) M (3 * d / tau) t - (b t - dryLevel t) ≤ w t) ∧
      w 0 = 0 ∧ (∀ t, t + 1 < T → w (t + 1) = if WetAt flag (t + 1) then
        min (min (levelAt (WetAt rain) M (3 * d / tau) dryLevel A (t + 1) - b (t + 1)) M) (w t + (M - w t) * (3 * d / tau)) else
          min (levelAt (WetAt rain) M (3 * d / tau) dryLevel A (t + 1) - b (t + 1)) M) ∧
      (∀ t < T, n ≤ t → WetAt flag t → ¬ WetAt flag (t - 1) →
        b t = ((List.range n).map fun k => b (t - n + k)).sum / n) := by
  set c := 3 * d / tau with hc
  have c0 : 0 ≤ c := div_nonneg (by linarith) ht.le
  have c1 : c ≤ 1 := (div_le_one ht).mpr h3
  set lev := levelAt (WetAt rain) M c dryLevel A with hlev
  set film := filmAt (WetAt rain) M c with hfilm
  have fb := fun t => film_bounds (wet := WetAt rain) hM c0 c1 t
  rw [← hfilm] at fb
  have film0 : ∀ t, ¬ WetAt rain t → film t = 0 := by
    intro t h
    cases t with
    | zero => rfl
    | succ t => rw [hfilm]; unfold filmAt; rw [if_neg h]
  have filmS : ∀ t, WetAt rain (t + 1) → film (t + 1) = film t + (M - film t) * c := by
    intro t h
    rw [hfilm]; conv_lhs => unfold filmAt
    rw [if_pos h]
  have lev0 : ∀ t, ¬ WetAt rain t → lev t = dryLevel t := by
    intro t h; rw [hlev]; unfold levelAt; rw [if_neg h, add_zero]
  have lev1 : ∀ t, WetAt rain t → lev t = dryLevel t + (A t + film t) := by
    intro t h; rw [hlev]; unfold levelAt; rw [if_pos h]
  have levge : ∀ t < T, dryLevel t ≤ lev t := by
    intro t htT
    by_cases h : WetAt rain t
    · rw [lev1 t h]; linarith [hA t htT h, (fb t).1]
    · rw [lev0 t h]
  obtain ⟨b, hb, b1, b2, b3⟩ := baseline_steps flag T n lev hn hT
  obtain ⟨w, hw, w0, w1⟩ := waa_steps flag T lev b M d tau hT ht.ne'
  have bn : ∀ t < T, t < n → b t = dryLevel t := fun t htT htn => by rw [b1 t htT (.inl htn), lev0 t (h1 t htn)]
  have hβ : ∀ t < T, 0 ≤ b t - dryLevel t ∧ b t - dryLevel t ≤ E := by
    intro t
    induction t using Nat.strong_induction_on with
    | _ t ih =>
      intro htT
      by_cases htn : t < n
      · rw [bn t htT htn, sub_self]; exact ⟨le_refl _, hE⟩
      · by_cases hf : WetAt flag t
        · by_cases hf' : WetAt flag (t - 1)
          · rw [b2 t htT (by omega) hf hf', ← h2 t htT hf (t - 1) (by omega) (by omega)]
            exact ih _ (by omega) (by omega)
          · rw [b3 t htT (by omega) hf hf']
            have hn0 : (0 : K) < n := by exact_mod_cast (by omega : 0 < n)
            have s1 : (n : K) * dryLevel t ≤ ((List.range n).map fun k => b (t - n + k)).sum := by
              have := List.sum_le_sum (l := List.range n) (f := fun _ => dryLevel t) (g := fun k => b (t - n + k)) (by
                intro k hk
                have hk : k < n := by simpa using hk
                have e := (ih (t - n + k) (by omega) (by omega)).1
                rw [h2 t htT hf (t - n + k) (by omega) (by omega)] at e
                linarith)
              simpa using this
            have s2 : ((List.range n).map fun k => b (t - n + k)).sum ≤ (n : K) * (dryLevel t + E) := by
              have := List.sum_le_sum (l := List.range n) (f := fun k => b (t - n + k)) (g := fun _ => dryLevel t + E) (by
                intro k hk
                have hk : k < n := by simpa using hk
                have e := (ih (t - n + k) (by omega) (by omega)).2
                rw [h2 t htT hf (t - n + k) (by omega) (by omega)] at e
                linarith)
              simpa [mul_add] using this
            constructor
            · rw [sub_nonneg, le_div_iff₀ hn0]; linarith
            · rw [sub_le_iff_le_add, div_le_iff₀ hn0]; linarith
        · rw [b1 t htT (.inr hf)]
          refine ⟨by linarith [levge t htT], ?_⟩
          by_cases h : WetAt rain t
          · rw [lev1 t h]; linarith [hmiss t htT h hf]
          · rw [lev0 t h, sub_self]; exact hE
  have wdry : ∀ t < T, ¬ WetAt flag t → w t = 0 := by
    intro t htT hf
    cases t with
    | zero => exact w0
    | succ t =>
      rw [w1 t htT, if_neg hf, b1 _ htT (.inr hf), sub_self]
      exact min_eq_left hM
  have wle : ∀ t < T, w t ≤ lev t - b t := by
    intro t htT
    cases t with
    | zero => rw [w0, b1 0 htT (.inl (by omega)), sub_self]
    | succ t =>
      rw [w1 t htT]
      split_ifs
      · exact (min_le_left _ _).trans (min_le_left _ _)
      · exact min_le_left _ _
  have nextmono : ∀ x y : K, x ≤ y → x + (M - x) * c ≤ y + (M - y) * c := by
    intro x y h
    have := mul_nonneg (sub_nonneg.mpr h) (sub_nonneg.mpr c1)
    linarith [this]
  have Mc : 0 ≤ M * c := mul_nonneg hM c0
  have wfilm : ∀ t < T, w t ≤ film t := by
    intro t
    induction t with
    | zero => intro _; rw [w0]; exact (fb 0).1
    | succ t ih =>
      intro htT
      by_cases hf : WetAt flag (t + 1)
      · by_cases h : WetAt rain (t + 1)
        · rw [filmS t h]
          refine le_trans ?_ (nextmono _ _ (ih (by omega)))
          rw [w1 t htT, if_pos hf]
          exact min_le_right _ _
        · have := wle (t + 1) htT
          rw [lev0 _ h] at this
          linarith [(hβ (t + 1) htT).1, (fb (t + 1)).1]
      · rw [wdry _ htT hf]; exact (fb _).1
  have bprev : ∀ t, t + 1 < T → WetAt flag (t + 1) → WetAt flag t → b (t + 1) - dryLevel (t + 1) = b t - dryLevel t := by
    intro t htT hf hf'
    by_cases htn : t + 1 < n
    · rw [bn _ htT htn, bn t (by omega) (by omega), sub_self, sub_self]
    · have := b2 (t + 1) htT (by omega) hf hf'
      simp only [Nat.add_sub_cancel] at this
      rw [this, h2 (t + 1) htT hf t (by omega) (by omega)]
  have nextge : ∀ t, t + 1 < T → WetAt flag (t + 1) → -(b t - dryLevel t) ≤ w t →
      M * c - (b (t + 1) - dryLevel (t + 1)) ≤ w t + (M - w t) * c := by
    intro t htT hf hwt
    have hb1 := (hβ (t + 1) htT).1
    by_cases hf' : WetAt flag t
    · have e := bprev t htT hf hf'
      have := nextmono _ _ hwt
      have h4 := mul_nonneg hb1 c0
      rw [e] at hb1 h4 ⊢
      linarith [this, h4]
    · rw [wdry t (by omega) hf']; linarith
  have wge : ∀ t < T, -(b t - dryLevel t) ≤ w t := by
    intro t
    induction t with
    | zero => intro h; rw [w0]; linarith [(hβ 0 h).1]
    | succ t ih =>
      intro htT
      by_cases hf : WetAt flag (t + 1)
      · rw [w1 t htT, if_pos hf]
        refine le_min (le_min ?_ ?_) ?_
        · linarith [levge _ htT]
        · linarith [(hβ _ htT).1]
        · linarith [nextge t htT hf (ih (by omega))]
      · rw [wdry _ htT hf]; linarith [(hβ _ htT).1]
  refine ⟨b, w, hb, hw, fun t htT hf => ⟨b1 t htT (.inr hf), wdry t htT hf⟩, bn, b2, hβ, wle, wfilm, wge, ?_, w0, w1, b3⟩
  intro t
  induction t with
  | zero => intro _ h _; exact absurd h (h1 0 (by omega))
  | succ t ih =>
    intro htT hr hP
    have hf : WetAt flag (t + 1) := hP (t + 1) le_rfl (fun k k1 k2 => by rw [show k = t + 1 by omega]; exact hr)
    have hb1 := (hβ (t + 1) htT).1
    rw [w1 t htT, if_pos hf]
    refine le_min (le_min ?_ ?_) ?_
    · rw [lev1 _ hr]; linarith [hA _ htT hr]
    · linarith [(fb (t + 1)).2]
    · by_cases hr' : WetAt rain t
      · have hf' : WetAt flag t := hP t (by omega) (fun k k1 k2 => by
          rcases Nat.eq_or_lt_of_le k1 with rfl | k3
          · exact hr'
          · rw [show k = t + 1 by omega]; exact hr)
        have := nextmono _ _ (ih (by omega) hr' (fun s hs hk => hP s (by omega) (fun k k1 k2 => by
          rcases Nat.eq_or_lt_of_le k2 with rfl | k3
          · exact hr
          · exact hk k k1 (by omega))))
        have e := bprev t htT hf hf'
        have h4 := mul_nonneg hb1 c0
        rw [filmS t hr]
        rw [e] at h4 ⊢
        linarith [this, h4]
      · have := nextge t htT hf (wge t (by omega))
        rw [filmS t hr, film0 t hr']
        linarith

/-- **C162** What wrong wet flags do, constant baseline. Levels are made of a dry level, which does not change from `n` steps before a step
flagged wet to that step, and the attenuation by rain and film during the steps in `rain`; the chain is run with other flags. Let `E` be the
largest attenuation by rain and film at a step with rain that is flagged dry. Then `trsl - baseline - waa` is 0 at steps flagged dry and at steps without
rain, and at steps with rain flagged wet it is at least `A - E` and at most `A` plus the film; at most `A` if no step since the rain started is flagged dry. -/
theorem C162_attenuation (rain flag : List Bool) (T n : ℕ) (M d tau E : K) (dryLevel A : ℕ → K) (hn : 1 ≤ n) (hT : T ≤ flag.length)
    (hM : 0 ≤ M) (hd : 0 ≤ d) (ht : 0 < tau) (h3 : 3 * d ≤ tau) (hA : ∀ t < T, WetAt rain t → 0 ≤ A t) (h1 : ∀ t < n, ¬ WetAt rain t)
    (h2 : ∀ t < T, WetAt flag t → ∀ s, s < t → t ≤ s + n → dryLevel s = dryLevel t) (hE : 0 ≤ E)
    (hmiss : ∀ t < T, WetAt rain t → ¬ WetAt flag t → A t + filmAt (WetAt rain) M (3 * d / tau) t ≤ E) :
    ∃ b w : List (Fl K), ∃ est : ℕ → K,
      baselineConstant (series T (levelAt (WetAt rain) M (3 * d / tau) dryLevel A)) flag n = .ok b ∧
      waaSchleiss (series T (levelAt (WetAt rain) M (3 * d / tau) dryLevel A)) b (flag.map flagF) (.fin M) (.fin d) (.fin tau) = .ok w ∧
      List.zipWith (· -ᶠ ·) (List.zipWith (· -ᶠ ·) (series T (levelAt (WetAt rain) M (3 * d / tau) dryLevel A)) b) w = series T est ∧
      ∀ t < T, (¬ WetAt flag t ∨ ¬ WetAt rain t → est t = 0) ∧
        (WetAt flag t → WetAt rain t → 0 ≤ est t ∧ A t - E ≤ est t ∧ est t ≤ A t + filmAt (WetAt rain) M (3 * d / tau) t ∧
          ((∀ s ≤ t, (∀ k, s ≤ k → k ≤ t → WetAt rain k) → WetAt flag s) → est t ≤ A t)) := by
  obtain ⟨b, w, hb, hw, f1, f2, f3, f4, f5, f6, f7, f8, -⟩ := wrong_flags_steps rain flag T n M d tau E dryLevel A hn hT hM hd ht h3 hA h1
    h2 hE hmiss
  refine ⟨_, _, fun t => levelAt (WetAt rain) M (3 * d / tau) dryLevel A t - b t - w t, hb, hw, ?_, fun t htT => ⟨?_, ?_⟩⟩
  · apply List.ext_getElem?
    intro t
    by_cases ht' : t < T
    · simp only [List.getElem?_zipWith, series_get _ ht', Fl.pf_sub_fin]
    · rw [List.getElem?_eq_none (by simp [series_length]; omega), List.getElem?_eq_none (by rw [series_length]; omega)]
  · intro h
    dsimp only
    by_cases hf : WetAt flag t
    · have hr := h.resolve_left (not_not.mpr hf)
      have g1 := f5 t htT
      have g2 := f7 t htT
      have e : levelAt (WetAt rain) M (3 * d / tau) dryLevel A t = dryLevel t := by unfold levelAt; rw [if_neg hr, add_zero]
      rw [e] at g1 ⊢
      linarith
    · obtain ⟨g1, g2⟩ := f1 t htT hf
      rw [g1, g2]; ring
  · intro hf hr
    have g1 := f5 t htT
    have g2 := f6 t htT
    have g3 := f7 t htT
    have g4 := f4 t htT
    have e : levelAt (WetAt rain) M (3 * d / tau) dryLevel A t = dryLevel t + (A t + filmAt (WetAt rain) M (3 * d / tau) t) := by
      unfold levelAt; rw [if_pos hr]
    have g5 := f8 t htT hr
    simp only at g1 g2 ⊢
    rw [e] at g1 ⊢
    refine ⟨by linarith, by linarith [g4.2], by linarith, fun hP => ?_⟩
    linarith [g5 hP]

end

/-- the rain rate of an attenuation that is not negative -/
theorem rateF_law {a b L : ℝ} (ha : 0 < a) (hb : 0 < b) (hL : 0 < L) (Rmin : ℝ) {x : ℝ} (hx : 0 ≤ x) :
    rateF (.fin a) (.fin b) (.fin L) (.fin Rmin) (Fl.fin x) = .fin (if lawRate a b L x < Rmin then 0 else lawRate a b L x) := by
  have haL : a * L ≠ 0 := (mul_pos ha hL).ne'
  have hb1 : 0 < 1 / b := by positivity
  have e : PyPow.pow (Fl.fin x /ᶠ (Fl.fin a *ᶠ Fl.fin L)) ((PyFloat.ofInt 1 : Fl ℝ) /ᶠ Fl.fin b) = .fin ((x / (a * L)) ^ (1 / b)) := by
    rw [Fl.pf_mul_fin, Fl.pf_div_fin_ne _ _ haL, Fl.pf_ofInt, Fl.pf_div_fin_ne _ _ hb.ne']
    rw [Int.cast_one]
    exact Fl.pow_fin (div_nonneg hx (mul_pos ha hL).le) hb1
  unfold rateF lawRate
  rw [e, max_eq_right hx]
  simp only [Fl.pf_isNaN_fin, Bool.false_eq_true, if_false, Fl.pf_ofInt, Fl.pf_le_fin, Int.cast_zero, hx, decide_true, if_true,
    Fl.pf_lt_fin, decide_eq_true_eq]
  split_ifs <;> rfl

theorem lawRate_zero {a b L : ℝ} (hb : 0 < b) : lawRate a b L 0 = 0 := by
  unfold lawRate
  rw [max_self, zero_div, Real.zero_rpow (one_div_pos.mpr hb).ne']

theorem lawRate_rain {a b L R : ℝ} (ha : 0 < a) (hb : 0 < b) (hL : 0 < L) (hR : 0 ≤ R) : lawRate a b L (a * R ^ b * L) = R := by
  unfold lawRate
  rw [max_eq_right (by positivity), show a * R ^ b * L / (a * L) = R ^ b by field_simp, ← Real.rpow_mul hR, mul_one_div_cancel hb.ne',
    Real.rpow_one]

/-- rain rates of attenuations that are not negative, by the chain -/
theorem rainChain_of_est (sp : Spline) (p : ChainParams) (hp : p.Ok) {x b w : List (Fl ℝ)} {flag : List Bool} {T : ℕ} {est : ℕ → ℝ}
    (hb : baselineConstant x flag p.n = .ok b)
    (hw : waaSchleiss x b (flag.map flagF) (.fin p.waaMax) (.fin p.deltaT) (.fin p.tau) = .ok w)
    (he : List.zipWith (· -ᶠ ·) (List.zipWith (· -ᶠ ·) x b) w = series T est) (h0 : ∀ t < T, 0 ≤ est t) :
    rainChain sp p x flag =
      .ok (series T fun t => if lawRate p.a p.b p.L (est t) < p.Rmin then 0 else lawRate p.a p.b p.L (est t)) := by
  unfold rainChain
  rw [hb]
  simp only [bind, Except.bind]
  rw [hw]
  simp only
  rw [he]
  have := calcR_scalar (a_b sp) (series T est) (.fin p.L) (.fin p.a) (.fin p.b) (.fin p.Rmin) "ITU_2005"
  refine this.trans ?_
  congr 1
  unfold series
  rw [List.map_map]
  refine List.map_congr_left fun t ht => ?_
  exact rateF_law hp.a hp.b hp.L p.Rmin (h0 t (by simpa using ht))

/-- **C162** What wrong wet flags do to the rain rates of the chain `baseline_constant`, `waa_schleiss_2013`, `calc_R_from_A`: steps flagged
dry get no rain, neither do steps without rain that are flagged wet. Steps with rain flagged wet get, before rates below `R_min` are set to zero, at
least the rate of the power law at `A - E` (`E`: the largest attenuation by rain and film at a step with rain that is flagged dry), and at most the rate at `A`
plus the film; at most the right rate if no step since the rain started is flagged dry. -/
theorem C162_rain (sp : Spline) (p : ChainParams) (hp : p.Ok) (h3 : 3 * p.deltaT ≤ p.tau) (rain flag : List Bool) (T : ℕ) (E : ℝ)
    (dryLevel R : ℕ → ℝ) (hT : T ≤ flag.length) (hR : ∀ t < T, WetAt rain t → 0 ≤ R t) (h1 : ∀ t < p.n, ¬ WetAt rain t)
    (h2 : ∀ t < T, WetAt flag t → ∀ s, s < t → t ≤ s + p.n → dryLevel s = dryLevel t) (hE : 0 ≤ E)
    (hmiss : ∀ t < T, WetAt rain t → ¬ WetAt flag t →
      p.a * R t ^ p.b * p.L + filmAt (WetAt rain) p.waaMax (3 * p.deltaT / p.tau) t ≤ E) :
    ∃ rs : ℕ → ℝ, rainChain sp p (series T (levelAt (WetAt rain) p.waaMax (3 * p.deltaT / p.tau) dryLevel
        fun t => p.a * R t ^ p.b * p.L)) flag = .ok (series T rs) ∧
      ∀ t < T, (¬ WetAt flag t ∨ ¬ WetAt rain t → rs t = 0) ∧
        (WetAt flag t → WetAt rain t → ∃ ρ, rs t = (if ρ < p.Rmin then 0 else ρ) ∧
          lawRate p.a p.b p.L (p.a * R t ^ p.b * p.L - E) ≤ ρ ∧
          ρ ≤ lawRate p.a p.b p.L (p.a * R t ^ p.b * p.L + filmAt (WetAt rain) p.waaMax (3 * p.deltaT / p.tau) t) ∧
          ((∀ s ≤ t, (∀ k, s ≤ k → k ≤ t → WetAt rain k) → WetAt flag s) → ρ ≤ R t)) := by
  have hA : ∀ t < T, WetAt rain t → 0 ≤ p.a * R t ^ p.b * p.L := fun t ht hw =>
    mul_nonneg (mul_nonneg hp.a.le (Real.rpow_nonneg (hR t ht hw) _)) hp.L.le
  obtain ⟨b, w, est, hb, hw, he, h⟩ := C162_attenuation rain flag T p.n p.waaMax p.deltaT p.tau E dryLevel (fun t => p.a * R t ^ p.b * p.L)
    hp.n hT hp.waaMax hp.deltaT hp.tau h3 hA h1 h2 hE hmiss
  have haL := mul_pos hp.a hp.L
  have hb1 : 0 < 1 / p.b := one_div_pos.mpr hp.b
  have h0 : ∀ t < T, 0 ≤ est t := by
    intro t ht
    by_cases hf : WetAt flag t
    · by_cases hr : WetAt rain t
      · exact ((h t ht).2 hf hr).1
      · exact ((h t ht).1 (.inr hr)).ge
    · exact ((h t ht).1 (.inl hf)).ge
  refine ⟨_, rainChain_of_est sp p hp hb hw he h0, fun t ht => ⟨fun hh => ?_, fun hf hr => ?_⟩⟩
  · rw [(h t ht).1 hh, lawRate_zero hp.b]
    split_ifs <;> rfl
  · obtain ⟨g1, g2, g3, g4⟩ := (h t ht).2 hf hr
    refine ⟨_, rfl, lawRate_mono haL hb1 g2, lawRate_mono haL hb1 g3, fun hP => ?_⟩
    exact (lawRate_mono haL hb1 (g4 hP)).trans (lawRate_rain hp.a hp.b hp.L (hR t ht hr)).le

/-- **C162** Steps wrongly flagged wet do no harm: if every step with rain is flagged wet and the dry level is that of C130 for the flags
used, the rain rates are the right ones. -/
theorem C162_false_alarms (sp : Spline) (p : ChainParams) (hp : p.Ok) (h3 : 3 * p.deltaT ≤ p.tau) (rain flag : List Bool) (T : ℕ)
    (dryLevel R : ℕ → ℝ) (hT : T ≤ flag.length) (hR : ∀ t < T, WetAt rain t → 0 ≤ R t) (h1 : ∀ t < p.n, ¬ WetAt rain t)
    (h2 : ∀ t < T, WetAt flag t → ∀ s, s < t → t ≤ s + p.n → dryLevel s = dryLevel t)
    (hall : ∀ t < T, WetAt rain t → WetAt flag t) :
    rainChain sp p (series T (levelAt (WetAt rain) p.waaMax (3 * p.deltaT / p.tau) dryLevel fun t => p.a * R t ^ p.b * p.L)) flag =
      .ok (series T fun t => if WetAt rain t ∧ p.Rmin ≤ R t then R t else 0) := by
  obtain ⟨rs, hrs, h⟩ := C162_rain sp p hp h3 rain flag T 0 dryLevel R hT hR h1 h2 le_rfl (fun t ht hr hf => absurd (hall t ht hr) hf)
  rw [hrs]
  congr 1
  unfold series
  refine List.map_congr_left fun t ht => ?_
  have ht : t < T := by simpa using ht
  congr 1
  show rs t = if WetAt rain t ∧ p.Rmin ≤ R t then R t else 0
  by_cases hr : WetAt rain t
  · obtain ⟨ρ, e, g1, -, g3⟩ := (h t ht).2 (hall t ht hr) hr
    rw [sub_zero, lawRate_rain hp.a hp.b hp.L (hR t ht hr)] at g1
    have : ρ = R t := le_antisymm (g3 fun s hs hk => hall s (by omega) (hk s le_rfl hs)) g1
    rw [e, this]
    by_cases hh : p.Rmin ≤ R t
    · rw [if_neg (not_lt.mpr hh), if_pos ⟨hr, hh⟩]
    · rw [if_pos (not_le.mp hh), if_neg fun h => hh h.2]
  · rw [(h t ht).1 (.inr hr), if_neg fun h => hr h.1]

/-- **C162** The same with `baseline_linear`, if first and last step are flagged dry and the dry level is linear over each period flagged wet:
`trsl - baseline - waa` is the attenuation by rain. -/
theorem C162_false_alarms_linear (rain flag : List Bool) (T : ℕ) (M d tau : ℝ) (dryLevel A : ℕ → ℝ) (ignoreNan : Bool) (hT0 : 0 < T)
    (hT : T ≤ flag.length) (hM : 0 ≤ M) (hd : 0 ≤ d) (ht : 0 < tau) (h3 : 3 * d ≤ tau) (hA : ∀ t < T, WetAt rain t → 0 ≤ A t)
    (hfirst : ¬ WetAt flag 0) (hlast : ¬ WetAt flag (T - 1))
    (hlin : ∀ p i q, p < i → i < q → q < T → ¬ WetAt flag p → ¬ WetAt flag q → (∀ k, p < k → k < q → WetAt flag k) →
      dryLevel i = dryLevel p + ((i : ℝ) - p) * ((dryLevel q - dryLevel p) / ((q : ℝ) - p)))
    (hall : ∀ t < T, WetAt rain t → WetAt flag t) :
    ∃ b w : List (Fl ℝ), baselineLinear (series T (levelAt (WetAt rain) M (3 * d / tau) dryLevel A)) (flag.map flagF) ignoreNan = .ok b ∧
      waaSchleiss (series T (levelAt (WetAt rain) M (3 * d / tau) dryLevel A)) b (flag.map flagF) (.fin M) (.fin d) (.fin tau) = .ok w ∧
      List.zipWith (· -ᶠ ·) (List.zipWith (· -ᶠ ·) (series T (levelAt (WetAt rain) M (3 * d / tau) dryLevel A)) b) w =
        series T fun t => if WetAt rain t then A t else 0 := by
  set c := 3 * d / tau with hc
  have c0 : 0 ≤ c := div_nonneg (by linarith) ht.le
  have c1 : c ≤ 1 := (div_le_one ht).mpr h3
  have lev0 : ∀ t, ¬ WetAt rain t → levelAt (WetAt rain) M c dryLevel A t = dryLevel t := by
    intro t h; unfold levelAt; rw [if_neg h, add_zero]
  have lev1 : ∀ t, WetAt rain t → levelAt (WetAt rain) M c dryLevel A t = dryLevel t + (A t + filmAt (WetAt rain) M c t) := by
    intro t h; unfold levelAt; rw [if_pos h]
  have film0 : ∀ t, ¬ WetAt rain t → filmAt (WetAt rain) M c t = 0 := by
    intro t h
    cases t with
    | zero => rfl
    | succ t => unfold filmAt; rw [if_neg h]
  have hb := C130_baseline_linear flag T dryLevel (levelAt (WetAt rain) M c dryLevel A) ignoreNan hT0 hT hfirst hlast
    (fun t htT hf => lev0 t fun hr => hf (hall t htT hr)) hlin
  obtain ⟨w, hw, w0, w1⟩ := waa_steps flag T (levelAt (WetAt rain) M c dryLevel A) dryLevel M d tau hT ht.ne'
  refine ⟨_, _, hb, hw, ?_⟩
  have key : ∀ t < T, w t = filmAt (WetAt rain) M c t := by
    intro t
    induction t with
    | zero => intro _; rw [w0]; rfl
    | succ t ih =>
      intro htT
      have fb := film_bounds (wet := WetAt rain) hM c0 c1 t
      have fb' := film_bounds (wet := WetAt rain) hM c0 c1 (t + 1)
      rw [w1 t htT, ih (by omega), ← hc]
      by_cases hr : WetAt rain (t + 1)
      · have e : filmAt (WetAt rain) M c (t + 1) = filmAt (WetAt rain) M c t + (M - filmAt (WetAt rain) M c t) * c := by
          conv_lhs => unfold filmAt
          rw [if_pos hr]
        rw [if_pos (hall _ htT hr), ← e]
        apply min_eq_right
        refine le_min ?_ fb'.2
        rw [lev1 _ hr]
        linarith [hA _ htT hr]
      · rw [lev0 _ hr, sub_self, min_eq_left hM, film0 _ hr]
        split_ifs
        · apply min_eq_left
          have := mul_nonneg (sub_nonneg.mpr fb.2) c0
          linarith [fb.1]
        · rfl
  apply List.ext_getElem?
  intro t
  by_cases ht' : t < T
  · simp only [List.getElem?_zipWith, series_get _ ht', Fl.pf_sub_fin]
    congr 2
    rw [key t ht']
    split_ifs with hr
    · rw [lev1 t hr]; ring
    · rw [lev0 t hr, film0 t hr]; ring
  · rw [List.getElem?_eq_none (by simp [series_length]; omega), List.getElem?_eq_none (by rw [series_length]; omega)]

/-- **C162** Missing the first step of a rain event can cost all of it: with `n_average_last_dry = 1`, if the first step `s` of an event is
flagged dry and the rain does not become stronger up to step `e`, all steps from `s` to `e` get the rain rate 0, however strong the rain is. -/
theorem C162_missed_start (sp : Spline) (p : ChainParams) (hp : p.Ok) (hn1 : p.n = 1) (h3 : 3 * p.deltaT ≤ p.tau) (rain flag : List Bool)
    (T : ℕ) (dryLevel R : ℕ → ℝ) (hT : T ≤ flag.length) (hR : ∀ t < T, WetAt rain t → 0 ≤ R t) (h1 : ¬ WetAt rain 0)
    (h2 : ∀ t < T, WetAt flag t → dryLevel (t - 1) = dryLevel t)
    (s e : ℕ) (heT : e < T) (hrain : ∀ k, s ≤ k → k ≤ e → WetAt rain k) (hs : ¬ WetAt flag s)
    (hflag : ∀ k, s < k → k ≤ e → WetAt flag k) (hle : ∀ k, s ≤ k → k < e → R (k + 1) ≤ R k) :
    ∃ rs : ℕ → ℝ, rainChain sp p (series T (levelAt (WetAt rain) p.waaMax (3 * p.deltaT / p.tau) dryLevel
        fun t => p.a * R t ^ p.b * p.L)) flag = .ok (series T rs) ∧
      ∀ t, s ≤ t → t ≤ e → rs t = 0 := by
  have hA : ∀ t < T, WetAt rain t → 0 ≤ p.a * R t ^ p.b * p.L := fun t ht hw =>
    mul_nonneg (mul_nonneg hp.a.le (Real.rpow_nonneg (hR t ht hw) _)) hp.L.le
  set c := 3 * p.deltaT / p.tau with hc
  have c0 : 0 ≤ c := div_nonneg (by linarith [hp.deltaT]) hp.tau.le
  have c1 : c ≤ 1 := (div_le_one hp.tau).mpr h3
  set A : ℕ → ℝ := fun t => p.a * R t ^ p.b * p.L with hAdef
  have fb := fun t => film_bounds (wet := WetAt rain) hp.waaMax c0 c1 t
  set E := ∑ t ∈ Finset.range T, (|A t| + filmAt (WetAt rain) p.waaMax c t) with hEdef
  have hEt : ∀ t < T, |A t| + filmAt (WetAt rain) p.waaMax c t ≤ E := fun t ht =>
    Finset.single_le_sum (f := fun t => |A t| + filmAt (WetAt rain) p.waaMax c t)
      (fun t _ => add_nonneg (abs_nonneg _) (fb t).1) (Finset.mem_range.mpr ht)
  have hE : 0 ≤ E := Finset.sum_nonneg fun t _ => add_nonneg (abs_nonneg _) (fb t).1
  obtain ⟨b, w, hb, hw, f1, f2, f3, f4, f5, f6, f7, f8, w0, w1, b3⟩ := wrong_flags_steps rain flag T p.n p.waaMax p.deltaT p.tau E dryLevel A
    hp.n hT hp.waaMax hp.deltaT hp.tau h3 hA (fun t ht => by rw [show t = 0 by omega]; exact h1)
    (fun t ht hf k k1 k2 => by rw [← h2 t ht hf]; congr 1; omega) hE
    (fun t ht _ _ => (add_le_add (le_abs_self _) le_rfl).trans (hEt t ht))
  rw [← hc] at hb hw f1 f5 f6 f8 w1
  set lev := levelAt (WetAt rain) p.waaMax c dryLevel A with hlev
  have he : List.zipWith (· -ᶠ ·) (List.zipWith (· -ᶠ ·) (series T lev) (series T b)) (series T w) =
      series T fun t => lev t - b t - w t := by
    apply List.ext_getElem?
    intro t
    by_cases ht' : t < T
    · simp only [List.getElem?_zipWith, series_get _ ht', Fl.pf_sub_fin]
    · rw [List.getElem?_eq_none (by simp [series_length]; omega), List.getElem?_eq_none (by rw [series_length]; omega)]
  have h0 : ∀ t < T, 0 ≤ lev t - b t - w t := fun t ht => by linarith [f5 t ht]
  refine ⟨_, rainChain_of_est sp p hp hb hw he h0, fun t ht1 ht2 => ?_⟩
  have hs0 : s ≤ e := ht1.trans ht2
  have lev1 : ∀ t, WetAt rain t → lev t = dryLevel t + (A t + filmAt (WetAt rain) p.waaMax c t) := by
    intro t h; rw [hlev]; unfold levelAt; rw [if_pos h]
  have Ale : ∀ k, s ≤ k → k < e → A (k + 1) ≤ A k := by
    intro k k1 k2
    have hk := hR (k + 1) (by omega) (hrain (k + 1) (by omega) (by omega))
    exact mul_le_mul_of_nonneg_right (mul_le_mul_of_nonneg_left (Real.rpow_le_rpow hk (hle k k1 k2) hp.b.le) hp.a.le) hp.L.le
  have key : ∀ j, s + j ≤ e → A (s + j) ≤ A s ∧ dryLevel (s + j) = dryLevel s ∧ b (s + j) = lev s ∧ w (s + j) = lev (s + j) - b (s + j) := by
    intro j
    induction j with
    | zero =>
      intro h
      obtain ⟨g1, g2⟩ := f1 s (by omega) hs
      refine ⟨le_refl _, rfl, g1, ?_⟩
      simp only [Nat.add_zero]
      rw [g1, g2, sub_self]
    | succ j ih =>
      intro h
      obtain ⟨i1, i2, i3, i4⟩ := ih (by omega)
      have hf : WetAt flag (s + (j + 1)) := hflag _ (by omega) h
      have a1 := Ale (s + j) (by omega) (by omega)
      have d1 : dryLevel (s + (j + 1)) = dryLevel s := by
        have := h2 (s + (j + 1)) (by omega) hf
        rw [← this, show s + (j + 1) - 1 = s + j by omega, i2]
      have b1 : b (s + (j + 1)) = lev s := by
        have hsub : s + (j + 1) - 1 = s + j := by omega
        rcases Nat.eq_zero_or_pos j with rfl | hj
        · have := b3 (s + (0 + 1)) (by omega) (by omega) hf (by rw [hsub]; exact hs)
          rw [this, hn1]
          simp only [List.range_one, List.map_cons, List.map_nil, List.sum_cons, List.sum_nil, Nat.cast_one, div_one, add_zero]
          rw [show s + (0 + 1) - 1 = s by omega]
          simpa using i3
        · have := f3 (s + (j + 1)) (by omega) (by omega) hf (by rw [hsub]; exact hflag _ (by omega) (by omega))
          rw [this, hsub, i3]
      refine ⟨a1.trans i1, d1, b1, ?_⟩
      have hr : WetAt rain (s + j + 1) := hrain (s + (j + 1)) (by omega) h
      have hf1 : WetAt flag (s + j + 1) := hf
      have e1 : filmAt (WetAt rain) p.waaMax c (s + j + 1) =
          filmAt (WetAt rain) p.waaMax c (s + j) + (p.waaMax - filmAt (WetAt rain) p.waaMax c (s + j)) * c := by
        conv_lhs => unfold filmAt
        rw [if_pos hr]
      have hlast := w1 (s + j) (by omega)
      rw [if_pos hf1] at hlast
      have lj := lev1 (s + j) (hrain _ (by omega) (by omega))
      have lj1 := lev1 (s + j + 1) hr
      have ls := lev1 s (hrain s le_rfl hs0)
      have d1' : dryLevel (s + j + 1) = dryLevel s := d1
      have b1' : b (s + j + 1) = lev s := b1
      have a1' : A (s + j + 1) ≤ A (s + j) := a1
      show w (s + j + 1) = lev (s + j + 1) - b (s + j + 1)
      rw [hlast, i4, i3, b1']
      rw [lj, lj1, ls, d1', i2, e1]
      have fj := fb (s + j)
      have fj1 := fb (s + j + 1)
      have fs := fb s
      rw [e1] at fj1
      rw [min_eq_left, min_eq_left]
      · linarith
      · rw [min_eq_left (by linarith)]
        · have h5 : 0 ≤ (A s + filmAt (WetAt rain) p.waaMax c s - A (s + j)) * c := mul_nonneg (by linarith [fs.1]) c0
          nlinarith [h5]
  obtain ⟨-, -, -, g⟩ := key (t - s) (by omega)
  rw [show s + (t - s) = t by omega] at g
  rw [show lev t - b t - w t = 0 by rw [g]; ring, lawRate_zero hp.b]
  split_ifs <;> rfl

/-- **C162** Wrong wet flags, level errors and doubles: as C157 for the constant baseline, but with flags that differ from the steps with
rain. Steps flagged dry and steps without rain get rates of at most the power law at `e`, steps with rain flagged wet get rates between
those at `A - E - e` and `A` plus the film plus `e` (`A + e` if no step since the rain started is flagged dry), up to `2^-46` relative and
`2^-99` absolute error, with `e = 4 δ + (10 n^2 + 48 m + 11) 2^-53 B`. -/
theorem C162_doubles [PyPow DblR] (hacc : PowClose) (trsl : List DblR) (rain flag : List Bool) (n : ℕ)
    (waaMax deltaT tau L a b Rmin : DblR)
    (M d t B m l α β rm : ℝ) (hn : 1 ≤ n) (hn2 : n ≤ 2 ^ 25) (hlen : trsl.length ≤ flag.length)
    (hM : waaMax.val = .fin M) (hd : deltaT.val = .fin d) (ht : tau.val = .fin t) (hr : RateRange L a b l α β) (hrm : Rmin.val = .fin rm)
    (hd0 : 0 ≤ d) (h3 : 3 * d ≤ t) (ht1 : (2 : ℝ) ^ (-100 : ℤ) ≤ t) (hd2 : d ≤ 2 ^ (500 : ℤ)) (hM0 : 0 ≤ M) (hMB : M ≤ B)
    (hB1 : (2 : ℝ) ^ (-900 : ℤ) ≤ B) (hB2 : B ≤ 2 ^ (290 : ℤ)) (hT : (8 * B / (α * l)) ^ (1 / β) ≤ 2 ^ (64 : ℤ))
    (hm : (trsl.length : ℝ) ≤ m ∨ t ≤ 3 * d * m) (hm2 : m ≤ 2 ^ 47)
    (dryLevel R : ℕ → ℝ) (δ E : ℝ) (hδ : 0 ≤ δ) (hE : 0 ≤ E) (hR : ∀ s < trsl.length, WetAt rain s → 0 ≤ R s)
    (h1 : ∀ s < n, ¬ WetAt rain s)
    (h2 : ∀ s < trsl.length, WetAt flag s → ∀ k, k < s → s ≤ k + n → dryLevel k = dryLevel s)
    (hmiss : ∀ s < trsl.length, WetAt rain s → ¬ WetAt flag s → α * R s ^ β * l + filmAt (WetAt rain) M (3 * d / t) s ≤ E)
    (hx : ∀ s x, trsl[s]? = some x → ∃ y, x.val = .fin y ∧ |y| ≤ B ∧
      |y - levelAt (WetAt rain) M (3 * d / t) dryLevel (fun s => α * R s ^ β * l) s| ≤ δ) :
    ∃ rs, rainChainF n waaMax deltaT tau L a b Rmin trsl flag = .ok rs ∧ rs.length = trsl.length ∧
      ∀ s r, rs[s]? = some r → ∃ ρ, r.val = .fin (if ρ < rm then 0 else ρ) ∧ 0 ≤ ρ ∧
        (¬ WetAt flag s ∨ ¬ WetAt rain s →
          ρ ≤ (1 + 2 ^ (-46 : ℤ)) * lawRate α β l (4 * δ + (10 * (n * n) + 48 * m + 11) * (2 ^ (-53 : ℤ) * B)) + 2 ^ (-99 : ℤ)) ∧
        (WetAt flag s → WetAt rain s →
          (1 - 2 ^ (-46 : ℤ)) * lawRate α β l (α * R s ^ β * l - E - (4 * δ + (10 * (n * n) + 48 * m + 11) * (2 ^ (-53 : ℤ) * B)))
            - 2 ^ (-99 : ℤ) ≤ ρ ∧
          ρ ≤ (1 + 2 ^ (-46 : ℤ)) * lawRate α β l (α * R s ^ β * l + filmAt (WetAt rain) M (3 * d / t) s
            + (4 * δ + (10 * (n * n) + 48 * m + 11) * (2 ^ (-53 : ℤ) * B))) + 2 ^ (-99 : ℤ) ∧
          ((∀ j ≤ s, (∀ k, j ≤ k → k ≤ s → WetAt rain k) → WetAt flag j) →
            ρ ≤ (1 + 2 ^ (-46 : ℤ)) * lawRate α β l (α * R s ^ β * l
              + (4 * δ + (10 * (n * n) + 48 * m + 11) * (2 ^ (-53 : ℤ) * B))) + 2 ^ (-99 : ℤ))) := by
  have ht0 : 0 < t := lt_of_lt_of_le (by positivity) ht1
  have p300 : (0 : ℝ) < 2 ^ (-300 : ℤ) := by positivity
  have hα : 0 < α := p300.trans_le hr.α1
  have hl0 : 0 < l := p300.trans_le hr.l1
  have hβ : 0 < β := by have := hr.β1; linarith
  obtain ⟨c, v, rs, hc, hv, hrs, hcl, hvl, hrl, h⟩ := C127_rain hacc trsl flag n waaMax deltaT tau L a b Rmin M d t B m l α β rm hn hn2 hlen
    hM hd ht hr hrm hd0 h3 ht1 hd2 hM0 hMB hB1 hB2 hT (by
      intro x hx'
      obtain ⟨s, hs, rfl⟩ := List.mem_iff_getElem.mp hx'
      obtain ⟨y, hy, hyB, -⟩ := hx s _ (List.getElem?_eq_getElem hs)
      exact .inr ⟨y, hy, hyB⟩) hm hm2
  set T := trsl.length with hTdef
  set lev := levelAt (WetAt rain) M (3 * d / t) dryLevel (fun s => α * R s ^ β * l) with hlev
  have hup := recorded_upTo (fun s x hs => let ⟨y, hy, _, hd⟩ := hx s x hs; ⟨y, hy, hd⟩)
  obtain ⟨b1, b2, w1, w2, hb1, hb2, hw1, hw2, -, -, -, hAA⟩ := C125_attenuation δ hδ (trsl.map (·.val)) (series T lev) flag n hn
    (by rw [List.length_map]; exact hlen) hup M d t hd0 ht0 h3
  rw [hc] at hb1
  cases hb1
  rw [hv] at hw1
  cases hw1
  obtain ⟨b', w', est, hb, hw, he, hest⟩ := C162_attenuation rain flag T n M d t E dryLevel (fun s => α * R s ^ β * l) hn hlen hM0 hd0 ht0 h3
    (fun s hs hw => mul_nonneg (mul_nonneg hα.le (Real.rpow_nonneg (hR s hs hw) _)) hl0.le) h1 h2 hE hmiss
  rw [hb2] at hb
  cases hb
  rw [hw2] at hw
  cases hw
  rw [← hlev] at he
  rw [he] at hAA
  refine ⟨rs, hrs, hrl, fun s r hs => ?_⟩
  have hsT : s < T := by have := (List.getElem?_eq_some_iff.mp hs).1; omega
  have hq := near_rd hAA (i := s) (by simp only [List.length_zipWith, List.length_map]; omega)
  have e1 : rd (List.zipWith (· -ᶠ ·) (List.zipWith (· -ᶠ ·) (trsl.map (·.val)) c) v) s = ((rd trsl s).val -ᶠ rd c s) -ᶠ rd v s := by
    apply rd_of_getElem?
    simp [List.getElem?_zipWith, getElem?_eq_rd (by omega : s < trsl.length), getElem?_eq_rd (by omega : s < c.length),
      getElem?_eq_rd (by omega : s < v.length)]
  have e2 : rd (series T est) s = .fin (est s) := rd_of_getElem? (series_get _ hsT)
  rw [e1, e2] at hq
  rcases h s _ _ _ _ (getElem?_eq_rd (by omega)) (getElem?_eq_rd (by omega)) (getElem?_eq_rd (by omega)) hs with ⟨e, -⟩ | ⟨A, ρ, e, g1, g2, g3, g4⟩
  · rw [e] at hq
    cases hq
  · rw [e] at hq
    cases hq with
    | fin hq =>
      have haL := mul_pos hα hl0
      have hb1 : 0 < 1 / β := by positivity
      obtain ⟨k1, k2⟩ := lawRate_band haL hb1 hq g3 g4
      set ε := 4 * δ + (10 * (n * n) + 48 * m + 11) * (2 ^ (-53 : ℤ) * B) with hε
      have up : ∀ x, est s ≤ x → ρ ≤ (1 + 2 ^ (-46 : ℤ)) * lawRate α β l (x + ε) + 2 ^ (-99 : ℤ) := by
        intro x hx
        have := mul_le_mul_of_nonneg_left (lawRate_mono haL hb1 (by linarith : est s + ε ≤ x + ε)) (by norm_num : (0 : ℝ) ≤ 1 + 2 ^ (-46 : ℤ))
        exact k2.trans (add_le_add this le_rfl)
      have dn : ∀ x, x ≤ est s → (1 - 2 ^ (-46 : ℤ)) * lawRate α β l (x - ε) - 2 ^ (-99 : ℤ) ≤ ρ := by
        intro x hx
        have := mul_le_mul_of_nonneg_left (lawRate_mono haL hb1 (by linarith : x - ε ≤ est s - ε)) (by norm_num : (0 : ℝ) ≤ 1 - 2 ^ (-46 : ℤ))
        exact (sub_le_sub_right this _).trans k1
      refine ⟨ρ, g1, g2, fun hh => ?_, fun hf hrn => ?_⟩
      · have := up 0 ((hest s hsT).1 hh).le
        rwa [zero_add] at this
      · obtain ⟨-, q2, q3, q4⟩ := (hest s hsT).2 hf hrn
        exact ⟨dn _ q2, up _ q3, fun hP => up _ (q4 hP)⟩

/-- Rain of 7 mm/h during steps 1 to 4 and a film that grows by a fifth per step. Flagging also step 5 changes nothing; not flagging step 1
makes the rain of the whole event disappear; not flagging step 3 leaves the rain before it as it is and loses the rest. -/
example (sp : Spline) :
    let p : ChainParams := { n := 1, waaMax := 2, deltaT := 1, tau := 15, L := 1, a := 1, b := 1, Rmin := 0 }
    let rain := [false, true, true, true, true, false]
    let levels := series 6 (levelAt (WetAt rain) 2 (3 * 1 / 15) (fun _ => 50) fun _ => 1 * (7 : ℝ) ^ (1 : ℝ) * 1)
    (rainChain sp p levels [false, true, true, true, true, true] = .ok (series 6 fun t => if t = 0 ∨ t = 5 then 0 else 7)) ∧
    (∃ rs : ℕ → ℝ, rainChain sp p levels [false, false, true, true, true, false] = .ok (series 6 rs) ∧
      ∀ t, 1 ≤ t → t ≤ 4 → rs t = 0) ∧
    ∃ rs : ℕ → ℝ, rainChain sp p levels [false, true, true, false, true, false] = .ok (series 6 rs) ∧
      rs 2 ≤ 7 ∧ rs 3 = 0 ∧ rs 4 = 0 := by
  intro p rain levels
  have hp : p.Ok := ⟨by decide, by norm_num [p], by norm_num [p], by norm_num [p], by norm_num [p], by norm_num [p], by norm_num [p]⟩
  have h3 : 3 * p.deltaT ≤ p.tau := by norm_num [p]
  have w0 : ¬ WetAt rain 0 := by simp [WetAt, rain]
  have small : ∀ t < p.n, ¬ WetAt rain t := fun t ht => by
    have : t = 0 := by have : p.n = 1 := rfl; omega
    rw [this]; exact w0
  refine ⟨?_, ?_, ?_⟩
  · refine (C162_false_alarms sp p hp h3 rain [false, true, true, true, true, true] 6 (fun _ => 50) (fun _ => 7) (by decide)
      (fun _ _ _ => by norm_num) small (fun _ _ _ _ _ _ => rfl) (fun t ht hr => ?_)).trans ?_
    · have : t = 0 ∨ t = 1 ∨ t = 2 ∨ t = 3 ∨ t = 4 ∨ t = 5 := by omega
      rcases this with rfl | rfl | rfl | rfl | rfl | rfl <;> simp_all [WetAt, rain]
    · congr 1
      unfold series
      refine List.map_congr_left fun t ht => ?_
      have : t = 0 ∨ t = 1 ∨ t = 2 ∨ t = 3 ∨ t = 4 ∨ t = 5 := by
        have : t < 6 := by simpa using ht
        omega
      have hR : p.Rmin = 0 := rfl
      rcases this with rfl | rfl | rfl | rfl | rfl | rfl <;> simp [WetAt, rain, hR]
  · refine C162_missed_start sp p hp rfl h3 rain [false, false, true, true, true, false] 6 (fun _ => 50) (fun _ => 7) (by decide)
      (fun _ _ _ => by norm_num) w0 (fun _ _ _ => rfl) 1 4 (by decide) (fun k h1 h2 => ?_) (by simp [WetAt]) (fun k h1 h2 => ?_)
      (fun _ _ _ => le_rfl)
    · have : k = 1 ∨ k = 2 ∨ k = 3 ∨ k = 4 := by omega
      rcases this with rfl | rfl | rfl | rfl <;> simp [WetAt, rain]
    · have : k = 2 ∨ k = 3 ∨ k = 4 := by omega
      rcases this with rfl | rfl | rfl <;> simp [WetAt]
  · obtain ⟨rs, h, hz⟩ := C162_missed_start sp p hp rfl h3 rain [false, true, true, false, true, false] 6 (fun _ => 50) (fun _ => 7)
      (by decide) (fun _ _ _ => by norm_num) w0 (fun _ _ _ => rfl) 3 4 (by decide) (fun k h1 h2 => by
        have : k = 3 ∨ k = 4 := by omega
        rcases this with rfl | rfl <;> simp [WetAt, rain]) (by simp [WetAt]) (fun k h1 h2 => by
        have : k = 4 := by omega
        rw [this]; simp [WetAt]) (fun _ _ _ => le_rfl)
    refine ⟨rs, h, ?_, hz 3 (by norm_num) (by norm_num), hz 4 (by norm_num) (by norm_num)⟩
    have film_le : ∀ t, filmAt (WetAt rain) p.waaMax (3 * p.deltaT / p.tau) t ≤ 2 := fun t =>
      (film_bounds (wet := WetAt rain) (by norm_num [p]) (by norm_num [p]) (by norm_num [p]) t).2
    obtain ⟨rs', h', g⟩ := C162_rain sp p hp h3 rain [false, true, true, false, true, false] 6 9 (fun _ => 50) (fun _ => 7)
      (by decide) (fun _ _ _ => by norm_num) small (fun _ _ _ _ _ _ => rfl) (by norm_num) (fun t _ _ _ => by
        have := film_le t
        have e : p.a * (7 : ℝ) ^ p.b * p.L = 7 := by simp [p]
        rw [e]; linarith)
    have e : rs 2 = rs' 2 := by
      have := Except.ok.inj (h.symm.trans h')
      have h2 := congrArg (fun l => l[2]?) this
      simp only [series_get _ (by norm_num : 2 < 6), Option.some.injEq, Fl.fin.injEq] at h2
      exact h2
    obtain ⟨ρ, q1, -, -, q4⟩ := (g 2 (by norm_num)).2 (by simp [WetAt]) (by simp [WetAt, rain])
    have q5 := q4 fun s hs hk => by
      have : s = 0 ∨ s = 1 ∨ s = 2 := by omega
      rcases this with rfl | rfl | rfl
      · exact absurd (hk 0 le_rfl (by norm_num)) w0
      · simp [WetAt]
      · simp [WetAt]
    rw [e, q1]
    split_ifs
    · norm_num
    · exact q5

/-- Two dry steps at 50.1 dB, then rain of 0.96 and 0.928 mm/h, film of water as `waa_max = 2`, `delta_t = 1`, `tau = 15` give; the levels
recorded in whole dB are 50, 50, 60, 60, wrong by 0.1 dB. If step 2 is flagged dry, the rain rate computed for it in doubles is at most
0.041 mm/h. -/
example : letI := correctPow (binary64 (K := ℝ))
    let D : ℕ → DblR := fun k => PyFloat.ofInt k
    ∃ rs r ρ, rainChainF 2 (D 2) (D 1) (D 15) (D 10) (D 1) (D 1) (D 0) [D 50, D 50, D 60, D 60] [false, false, false, true] = .ok rs ∧
      rs[2]? = some r ∧ r.val = .fin ρ ∧ 0 ≤ ρ ∧ ρ ≤ 41 / 1000 := by
  let _ := correctPow (binary64 (K := ℝ))
  intro D
  have v : ∀ k : ℕ, k ≤ 60 → (D k).val = .fin (k : ℝ) := fun k hk => val_ofNat_b64 k (hk.trans (by norm_num))
  have lo : ∀ (x : ℝ) (j : ℤ), 1 ≤ x → j ≤ 0 → (2 : ℝ) ^ j ≤ x := fun x j hx hj =>
    le_trans (zpow_le_one_of_nonpos₀ (by norm_num) hj) hx
  have hi : ∀ (x : ℝ) (j : ℤ), x ≤ 2 ^ (10 : ℤ) → 10 ≤ j → x ≤ 2 ^ j := fun x j hx hj =>
    le_trans hx (zpow_le_zpow_right₀ (by norm_num) hj)
  have hr : RateRange (D 10) (D 1) (D 1) 10 1 1 :=
    ⟨by simpa using v 10 (by norm_num), by simpa using v 1 (by norm_num), by simpa using v 1 (by norm_num),
      lo _ _ (by norm_num) (by norm_num), hi _ _ (by norm_num) (by norm_num), lo _ _ (by norm_num) (by norm_num),
      hi _ _ (by norm_num) (by norm_num), by norm_num, by norm_num⟩
  have w0 : ¬ WetAt [false, false, true, true] 0 := by simp [WetAt]
  have w1 : ¬ WetAt [false, false, true, true] 1 := by simp [WetAt]
  have w2 : WetAt [false, false, true, true] 2 := by simp [WetAt]
  have w3 : WetAt [false, false, true, true] 3 := by simp [WetAt]
  obtain ⟨rs, hrs, hl, h⟩ := C162_doubles correctPow_close [D 50, D 50, D 60, D 60] [false, false, true, true] [false, false, false, true] 2
    (D 2) (D 1) (D 15) (D 10) (D 1) (D 1) (D 0) 2 1 15 64 4 10 1 1 0 (by norm_num) (by norm_num) (by simp)
    (by simpa using v 2 (by norm_num)) (by simpa using v 1 (by norm_num)) (by simpa using v 15 (by norm_num)) hr
    (by simpa using v 0 (by norm_num)) (by norm_num) (by norm_num) (lo _ _ (by norm_num) (by norm_num))
    (hi _ _ (by norm_num) (by norm_num)) (by norm_num) (by norm_num) (lo _ _ (by norm_num) (by norm_num))
    (hi _ _ (by norm_num) (by norm_num)) (by norm_num) (.inl (by norm_num)) (by norm_num)
    (fun _ => 50 + 1 / 10) (fun s => if s = 2 then 96 / 100 else 928 / 1000) (1 / 10) 12 (by norm_num) (by norm_num)
    (by intro s _ _; split_ifs <;> norm_num)
    (by
      intro s hs
      have : s = 0 ∨ s = 1 := by omega
      rcases this with rfl | rfl
      · exact w0
      · exact w1) (fun _ _ _ _ _ _ => rfl) (by
      intro s _ _ _
      have := (film_bounds (wet := WetAt [false, false, true, true]) (wm := (2 : ℝ)) (c := 3 * 1 / 15) (by norm_num) (by norm_num)
        (by norm_num) s).2
      have h1 : (if s = 2 then 96 / 100 else 928 / 1000 : ℝ) ≤ 1 := by split_ifs <;> norm_num
      rw [Real.rpow_one]
      linarith) (by
      intro s x hs
      have hlt : s < 4 := by simpa using (List.getElem?_eq_some_iff.mp hs).1
      have : s = 0 ∨ s = 1 ∨ s = 2 ∨ s = 3 := by omega
      rcases this with rfl | rfl | rfl | rfl <;> simp only [List.getElem?_cons_zero, List.getElem?_cons_succ, Option.some.injEq] at hs <;>
        subst hs
      · refine ⟨_, v 50 (by norm_num), by norm_num, ?_⟩
        unfold levelAt
        rw [if_neg w0]; norm_num
      · refine ⟨_, v 50 (by norm_num), by norm_num, ?_⟩
        unfold levelAt
        rw [if_neg w1]; norm_num
      · refine ⟨_, v 60 (by norm_num), by norm_num, ?_⟩
        unfold levelAt
        rw [if_pos w2]
        simp only [filmAt, if_pos w2, if_neg w1]
        norm_num [Real.rpow_one]
      · refine ⟨_, v 60 (by norm_num), by norm_num, ?_⟩
        unfold levelAt
        rw [if_pos w3]
        simp only [filmAt, if_pos w2, if_pos w3, if_neg w1]
        norm_num [Real.rpow_one])
  have hlr : 2 < rs.length := by rw [hl]; simp
  obtain ⟨ρ, g1, g2, g3, -⟩ := h 2 _ (getElem?_eq_rd hlr)
  have g4 := g3 (.inl (by simp [WetAt]))
  refine ⟨rs, rd rs 2, ρ, hrs, getElem?_eq_rd hlr, by rw [g1, if_neg (by linarith)], g2, ?_⟩
  unfold lawRate at g4
  rw [show (1 : ℝ) / 1 = 1 by norm_num] at g4
  simp only [Real.rpow_one] at g4
  rw [max_eq_right (by norm_num)] at g4
  norm_num at g4
  linarith

end Verif.Props
