import Verif.Props.PreprocessRain

/-!
# C180: gaps filled before or after taking the difference

The nearby notebook fills the gaps of `rsl` and `tsl` and subtracts then; the basic workflow notebook subtracts first.
-/

namespace Verif.Props
open Verif Verif.Preprocess

/-- A step has a value, or lies in a gap between two values, or before the first or after the last one. -/
theorem gap_cases (T : ℕ) (miss : ℕ → Prop) (i : ℕ) :
    ¬ miss i ∨ (∃ p q, p < i ∧ i < q ∧ q < T ∧ ¬ miss p ∧ ¬ miss q ∧ ∀ k, p < k → k < q → miss k) ∨ (∀ k ≤ i, miss k) ∨ ∀ k, i ≤ k → k < T → miss k := by
  classical
  by_cases h0 : ¬ miss i
  · exact .inl h0
  push Not at h0
  by_cases h1 : ∀ k ≤ i, miss k
  · exact .inr (.inr (.inl h1))
  by_cases h2 : ∀ k, i ≤ k → k < T → miss k
  · exact .inr (.inr (.inr h2))
  refine .inr (.inl ?_)
  push Not at h1 h2
  obtain ⟨p0, hp0, hm0⟩ := h1
  obtain ⟨q0, hq0, hqT, hq⟩ := h2
  have e2 : ∃ q, i ≤ q ∧ q < T ∧ ¬ miss q := ⟨q0, hq0, hqT, hq⟩
  have e1 : ∃ d, d ≤ i ∧ ¬ miss (i - d) := ⟨i - p0, by omega, by rwa [Nat.sub_sub_self hp0]⟩
  obtain ⟨a1, a2⟩ := Nat.find_spec e1
  obtain ⟨b1, b2, b3⟩ := Nat.find_spec e2
  have ha : Nat.find e1 ≠ 0 := fun h => by rw [h] at a2; exact a2 h0
  have hb : Nat.find e2 ≠ i := fun h => by rw [h] at b3; exact b3 h0
  refine ⟨i - Nat.find e1, Nat.find e2, by omega, by omega, b2, a2, b3, fun k k1 k2 => ?_⟩
  rcases Nat.le_total k i with hk | hk
  · have := Nat.find_min e1 (m := i - k) (by omega)
    by_contra hc
    exact this ⟨by omega, by rwa [Nat.sub_sub_self hk]⟩
  · have := Nat.find_min e2 k2
    by_contra hc
    exact this ⟨hk, by omega, hc⟩

theorem separate_gaps (T g : ℕ) (lo hi : ℝ) (z x : ℕ → ℝ) :
    preprocessSeparate (.fin lo) (.fin hi) (series T z) (series T x) g =
      List.zipWith (· -ᶠ ·) (interpolateNa (gapSeries T (fun t => z t ≤ lo) z) g) (interpolateNa (gapSeries T (fun t => hi ≤ x t) x) g) := by
  classical
  unfold preprocessSeparate
  congr 2
  · unfold series gapSeries
    rw [List.map_map]
    refine List.map_congr_left fun t _ => ?_
    simp only [Function.comp_apply, Fl.pf_lt_fin, decide_eq_true_eq, Fl.pf_nan]
    by_cases h : lo < z t
    · rw [if_pos h, if_neg (not_le.mpr h)]
    · rw [if_neg h, if_pos (not_lt.mp h)]
  · unfold series gapSeries
    rw [List.map_map]
    refine List.map_congr_left fun t _ => ?_
    simp only [Function.comp_apply, Fl.pf_lt_fin, decide_eq_true_eq, Fl.pf_nan]
    by_cases h : x t < hi
    · rw [if_pos h, if_neg (not_le.mpr h)]
    · rw [if_neg h, if_pos (not_lt.mp h)]

/-- **C180** If the same steps lack `rsl` and `tsl`, filling the gaps before or after taking the difference gives the same. -/
theorem C180_same (T g : ℕ) (lo hi : ℝ) (z x : ℕ → ℝ) (hsame : ∀ t < T, z t ≤ lo ↔ hi ≤ x t) :
    preprocessSeparate (.fin lo) (.fin hi) (series T z) (series T x) g =
      interpolateNa (gapSeries T (fun t => z t ≤ lo) fun t => z t - x t) g := by
  classical
  rw [separate_gaps]
  have e : gapSeries T (fun t => hi ≤ x t) x = gapSeries T (fun t => z t ≤ lo) x := by
    unfold gapSeries
    refine List.map_congr_left fun t ht => ?_
    by_cases h : z t ≤ lo
    · rw [if_pos h, if_pos ((hsame t (List.mem_range.mp ht)).mp h)]
    · rw [if_neg h, if_neg (fun h' => h ((hsame t (List.mem_range.mp ht)).mpr h'))]
  rw [e]
  obtain ⟨l1, f1⟩ := C177_fill T g (fun t => z t ≤ lo) z
  obtain ⟨l2, f2⟩ := C177_fill T g (fun t => z t ≤ lo) x
  obtain ⟨l3, f3⟩ := C177_fill T g (fun t => z t ≤ lo) fun t => z t - x t
  apply List.ext_getElem?
  intro i
  rw [List.getElem?_zipWith]
  by_cases hi : i < T
  · rcases gap_cases T (fun t => z t ≤ lo) i with h | ⟨p, q, h1, h2, h3, h4, h5, h6⟩ | h | h
    · rw [(f1 i hi).1 h, (f2 i hi).1 h, (f3 i hi).1 h]
      simp
    · rw [(f1 i hi).2.1 p q h1 h2 h3 h4 h5 h6, (f2 i hi).2.1 p q h1 h2 h3 h4 h5 h6, (f3 i hi).2.1 p q h1 h2 h3 h4 h5 h6]
      by_cases hg : q ≤ p + g
      · simp only [if_pos hg, Fl.pf_sub_fin]
        congr 2
        ring
      · simp only [if_neg hg, Fl.pf_nan_sub]
    · rw [(f1 i hi).2.2.1 h, (f2 i hi).2.2.1 h, (f3 i hi).2.2.1 h]
      simp
    · rw [(f1 i hi).2.2.2 h, (f2 i hi).2.2.2 h, (f3 i hi).2.2.2 h]
      simp
  · rw [List.getElem?_eq_none (by omega), List.getElem?_eq_none (l := interpolateNa (gapSeries T (fun t => z t ≤ lo) fun t => z t - x t) g) (by omega)]

/-- A gap of the union of two patterns that is short enough to be filled is filled in each of them. -/
theorem filled_of_union (T g : ℕ) (m1 m2 : ℕ → Prop) (hle : ∀ t, m1 t → m2 t) (y y' : ℕ → ℝ) (i : ℕ) (hi : i < T) (v : ℝ)
    (h : (interpolateNa (gapSeries T m2 y) g)[i]? = some (.fin v)) : ∃ v', (interpolateNa (gapSeries T m1 y') g)[i]? = some (.fin v') := by
  obtain ⟨-, f1⟩ := C177_fill T g m1 y'
  obtain ⟨-, f2⟩ := C177_fill T g m2 y
  by_cases hm : m1 i
  swap
  · exact ⟨_, (f1 i hi).1 hm⟩
  rcases gap_cases T m2 i with h' | ⟨p, q, h1, h2, h3, h4, h5, h6⟩ | h' | h'
  · exact absurd (hle i hm) h'
  · rw [(f2 i hi).2.1 p q h1 h2 h3 h4 h5 h6] at h
    by_cases hg : q ≤ p + g
    · rcases gap_cases T m1 i with k | ⟨p', q', k1, k2, k3, k4, k5, k6⟩ | k | k
      · exact absurd hm k
      · have hp : p ≤ p' := by
          by_contra hc
          exact h4 (hle p (k6 p (by omega) (by omega)))
        have hq : q' ≤ q := by
          by_contra hc
          exact h5 (hle q (k6 q (by omega) (by omega)))
        exact ⟨_, by rw [(f1 i hi).2.1 p' q' k1 k2 k3 k4 k5 k6, if_pos (by omega)]⟩
      · exact absurd (hle p (k p h1.le)) h4
      · exact absurd (hle q (k q h2.le h3)) h5
    · rw [if_neg hg] at h
      cases h
  · rw [(f2 i hi).2.2.1 h'] at h
    cases h
  · rw [(f2 i hi).2.2.2 h'] at h
    cases h

/-- **C180** Filling before taking the difference gives a value wherever filling the difference does. -/
theorem C180_more (T g : ℕ) (lo hi : ℝ) (z x : ℕ → ℝ) (i : ℕ) (hiT : i < T) (v : ℝ)
    (h : (interpolateNa (gapSeries T (fun t => z t ≤ lo ∨ hi ≤ x t) fun t => z t - x t) g)[i]? = some (.fin v)) :
    ∃ v', (preprocessSeparate (.fin lo) (.fin hi) (series T z) (series T x) g)[i]? = some (.fin v') := by
  rw [separate_gaps, List.getElem?_zipWith]
  obtain ⟨v1, h1⟩ := filled_of_union T g (fun t => z t ≤ lo) _ (fun t => .inl) _ z i hiT v h
  obtain ⟨v2, h2⟩ := filled_of_union T g (fun t => hi ≤ x t) _ (fun t => .inr) _ x i hiT v h
  rw [h1, h2]
  exact ⟨v1 - v2, by simp⟩

/-- **C180** With a constant transmitted level `c`, short gaps of `tsl` do no harm if filled before taking the difference: where there is a received level the result is exact. -/
theorem C180_exact (T g : ℕ) (lo hi c : ℝ) (z x : ℕ → ℝ) (hc : ∀ t < T, x t < hi → x t = c) (i : ℕ) (hz : lo < z i)
    (p q : ℕ) (hp : p ≤ i) (hiq : i ≤ q) (hq : q < T) (hxp : x p < hi) (hxq : x q < hi) (hg : q ≤ p + g) :
    (preprocessSeparate (.fin lo) (.fin hi) (series T z) (series T x) g)[i]? = some (.fin (z i - c)) := by
  have hi' : i < T := by omega
  rw [separate_gaps, List.getElem?_zipWith]
  obtain ⟨-, f1⟩ := C177_fill T g (fun t => z t ≤ lo) z
  obtain ⟨-, f2⟩ := C177_fill T g (fun t => hi ≤ x t) x
  rw [(f1 i hi').1 (not_le.mpr hz)]
  rcases gap_cases T (fun t => hi ≤ x t) i with k | ⟨p', q', k1, k2, k3, k4, k5, k6⟩ | k | k
  · rw [(f2 i hi').1 k, hc i hi' (not_le.mp k)]
    simp
  · have hp' : p ≤ p' := by
      by_contra hcon
      exact absurd hxp (not_lt.mpr (k6 p (by omega) (by omega)))
    have hq' : q' ≤ q := by
      by_contra hcon
      exact absurd hxq (not_lt.mpr (k6 q (by omega) (by omega)))
    rw [(f2 i hi').2.1 p' q' k1 k2 k3 k4 k5 k6, if_pos (by omega), hc p' (by omega) (not_le.mp k4), hc q' k3 (not_le.mp k5)]
    simp
  · exact absurd hxp (not_lt.mpr (k p hp))
  · exact absurd hxq (not_lt.mpr (k q hiq hq))

/-- **C180** Gaps of one level: with both levels the result is their difference; a gap of one of them is interpolated up to `max_gap` and left missing beyond, whatever the other does elsewhere; before the first and after the last value of either nothing is filled. -/
theorem C180_gaps (T g : ℕ) (lo hi : ℝ) (z x : ℕ → ℝ) (i : ℕ) (hiT : i < T) :
    (lo < z i → x i < hi → (preprocessSeparate (.fin lo) (.fin hi) (series T z) (series T x) g)[i]? = some (.fin (z i - x i))) ∧
    (∀ p q, p < i → i < q → q < T → lo < z p → lo < z q → (∀ k, p < k → k < q → z k ≤ lo) → x i < hi →
      (preprocessSeparate (.fin lo) (.fin hi) (series T z) (series T x) g)[i]? =
        some (if q ≤ p + g then .fin (z p + (z q - z p) * ((i : ℝ) - p) / ((q : ℝ) - p) - x i) else .nan)) ∧
    (∀ p q, p < i → i < q → q < T → x p < hi → x q < hi → (∀ k, p < k → k < q → hi ≤ x k) → lo < z i →
      (preprocessSeparate (.fin lo) (.fin hi) (series T z) (series T x) g)[i]? =
        some (if q ≤ p + g then .fin (z i - (x p + (x q - x p) * ((i : ℝ) - p) / ((q : ℝ) - p))) else .nan)) ∧
    ((∀ k ≤ i, z k ≤ lo) ∨ (∀ k, i ≤ k → k < T → z k ≤ lo) ∨ (∀ k ≤ i, hi ≤ x k) ∨ (∀ k, i ≤ k → k < T → hi ≤ x k) →
      (preprocessSeparate (.fin lo) (.fin hi) (series T z) (series T x) g)[i]? = some .nan) := by
  rw [separate_gaps, List.getElem?_zipWith]
  obtain ⟨l1, f1⟩ := C177_fill T g (fun t => z t ≤ lo) z
  obtain ⟨l2, f2⟩ := C177_fill T g (fun t => hi ≤ x t) x
  refine ⟨fun h1 h2 => ?_, fun p q a b c d e h k => ?_, fun p q a b c d e h k => ?_, fun h => ?_⟩
  · rw [(f1 i hiT).1 (not_le.mpr h1), (f2 i hiT).1 (not_le.mpr h2)]
    simp
  · rw [(f1 i hiT).2.1 p q a b c (not_le.mpr d) (not_le.mpr e) h, (f2 i hiT).1 (not_le.mpr k)]
    by_cases hg : q ≤ p + g
    · simp only [if_pos hg, Fl.pf_sub_fin]
      congr 2
      ring
    · simp only [if_neg hg, Fl.pf_nan_sub]
  · rw [(f2 i hiT).2.1 p q a b c (not_le.mpr d) (not_le.mpr e) h, (f1 i hiT).1 (not_le.mpr k)]
    by_cases hg : q ≤ p + g
    · simp only [if_pos hg, Fl.pf_sub_fin]
      congr 2
      ring
    · simp only [if_neg hg, Fl.pf_sub_nan]
  · have hs : ∀ u, List.length (interpolateNa (gapSeries T (fun t => z t ≤ lo) z) g) = T → u < T →
        ∃ w, (interpolateNa (gapSeries T (fun t => z t ≤ lo) z) g)[u]? = some w := fun u hl hu =>
      ⟨_, List.getElem?_eq_getElem (by omega)⟩
    obtain ⟨w1, e1⟩ := hs i l1 hiT
    obtain ⟨w2, e2⟩ : ∃ w, (interpolateNa (gapSeries T (fun t => hi ≤ x t) x) g)[i]? = some w :=
      ⟨_, List.getElem?_eq_getElem (by omega)⟩
    rcases h with h | h | h | h
    · rw [(f1 i hiT).2.2.1 h, e2]
      simp
    · rw [(f1 i hiT).2.2.2 h, e2]
      simp
    · rw [(f2 i hiT).2.2.1 h, e1]
      simp
    · rw [(f2 i hiT).2.2.2 h, e1]
      simp

/-- rain of one step, in which the transmitted level is missing -/
def shortZ (t : ℕ) : ℝ := if t = 1 then -60 else -40

def shortX (t : ℕ) : ℝ := if t = 1 then 255 else 10

/-- **C180** (finding) The order matters: rain of one step in which only the transmitted level is missing is lost if the difference is filled, as in the workflow notebook, and kept if the two levels are filled, as in the nearby notebook. -/
theorem C180_lost : (preprocessSeparate (.fin (-999 / 10)) (.fin 255) (series 3 shortZ) (series 3 shortX) 5)[1]? = some (.fin (-70)) ∧
    (preprocess (.fin 255) (.fin (-999 / 10)) (series 3 shortX) (series 3 shortZ) 5)[1]? = some (.fin 50) := by
  constructor
  · have := C180_exact 3 5 (-999 / 10) 255 10 shortZ shortX (by
      intro t _ h
      unfold shortX at h ⊢
      split
      · next h1 => rw [if_pos h1] at h; norm_num at h
      · rfl) 1 (by norm_num [shortZ]) 0 2 (by norm_num) (by norm_num) (by norm_num) (by norm_num [shortX]) (by norm_num [shortX]) (by norm_num)
    rw [this]
    norm_num [shortZ]
  · rw [C177_defaults]
    have h := ((C177_fill 3 5 (fun t => shortX t = 255 ∨ shortZ t = -999 / 10) fun t => shortX t - shortZ t).2 1 (by norm_num)).2.1 0 2 (by norm_num) (by norm_num)
      (by norm_num) (by norm_num [shortX, shortZ]) (by norm_num [shortX, shortZ]) (by
        intro k k1 k2
        obtain rfl : k = 1 := by omega
        exact .inl (by norm_num [shortX]))
    rw [h]
    norm_num [shortX, shortZ]

/-- two steps without either level between equal levels -/
example : preprocessSeparate (.fin (-999 / 10)) (.fin 255) (series 4 fun t => if t = 1 ∨ t = 2 then (-100 : ℝ) else -40)
    (series 4 fun t => if t = 1 ∨ t = 2 then (255 : ℝ) else 10) 5 =
      interpolateNa (gapSeries 4 (fun t => (if t = 1 ∨ t = 2 then (-100 : ℝ) else -40) ≤ -999 / 10)
        fun t => (if t = 1 ∨ t = 2 then (-100 : ℝ) else -40) - if t = 1 ∨ t = 2 then 255 else 10) 5 :=
  C180_same 4 5 _ _ _ _ (by
    intro t _
    split_ifs <;> norm_num)

/-- the step of `C180_lost` is filled either way -/
example : ∃ v, (preprocessSeparate (.fin (-999 / 10)) (.fin 255) (series 3 shortZ) (series 3 shortX) 5)[1]? = some (.fin v) := by
  refine C180_more 3 5 _ _ _ _ 1 (by norm_num) (-50) ?_
  have h := ((C177_fill 3 5 (fun t => shortZ t ≤ -999 / 10 ∨ 255 ≤ shortX t) fun t => shortZ t - shortX t).2 1 (by norm_num)).2.1 0 2 (by norm_num) (by norm_num)
    (by norm_num) (by norm_num [shortX, shortZ]) (by norm_num [shortX, shortZ]) (by
      intro k k1 k2
      obtain rfl : k = 1 := by omega
      exact .inr (by norm_num [shortX]))
  rw [h]
  norm_num [shortX, shortZ]

/-- a gap of the received level only, with three steps between the values and `max_gap` of three or four steps -/
example (g : ℕ) : (preprocessSeparate (.fin (-999 / 10)) (.fin 255) (series 5 fun t => if t = 0 then (-40 : ℝ) else if t = 4 then -60 else -100)
    (series 5 fun _ => (10 : ℝ)) g)[1]? = some (if 4 ≤ 0 + g then .fin (-55) else .nan) := by
  rw [(C180_gaps 5 g (-999 / 10) 255 _ _ 1 (by norm_num)).2.1 0 4 (by norm_num) (by norm_num) (by norm_num) (by norm_num) (by norm_num) (by
    intro k k1 k2
    rw [if_neg (by omega), if_neg (by omega)]
    norm_num) (by norm_num)]
  norm_num

end Verif.Props
