import Verif.Model.RollingStd
import Verif.Props.WrongFlags
import Verif.Props.Gaps

/-!
# Property C175: wet/dry by rolling standard deviation and the rain of the documented workflow
-/

namespace Verif.Props
open Verif Verif.Rsd Verif.Baseline Verif.Waa Verif.KR
open scoped Finset

/-- sum of squared differences of all pairs of values of a window -/
theorem pair_sum (s : Finset ℕ) (f : ℕ → ℝ) (hs : 0 < #s) (c : ℝ) :
    ∑ i ∈ s, ∑ j ∈ s, (f i - f j) ^ 2 = 2 * #s * ∑ i ∈ s, (f i - (∑ i ∈ s, f i) / #s) ^ 2 ∧
    ∑ i ∈ s, ∑ j ∈ s, (f i - f j) ^ 2 ≤ 2 * #s * ∑ i ∈ s, (f i - c) ^ 2 := by
  have hn : (0 : ℝ) < #s := by exact_mod_cast hs
  have h1 : ∑ i ∈ s, ∑ j ∈ s, (f i - f j) ^ 2 = 2 * #s * ∑ i ∈ s, f i ^ 2 - 2 * (∑ i ∈ s, f i) ^ 2 := by
    have : ∀ i ∈ s, ∑ j ∈ s, (f i - f j) ^ 2 = #s * f i ^ 2 - 2 * f i * (∑ j ∈ s, f j) + ∑ j ∈ s, f j ^ 2 := by
      intro i _
      rw [Finset.sum_congr rfl fun j _ => show (f i - f j) ^ 2 = f i ^ 2 - 2 * f i * f j + f j ^ 2 by ring]
      rw [Finset.sum_add_distrib, Finset.sum_sub_distrib, Finset.sum_const, nsmul_eq_mul, ← Finset.mul_sum]
    rw [Finset.sum_congr rfl this, Finset.sum_add_distrib, Finset.sum_sub_distrib, Finset.sum_const, nsmul_eq_mul, ← Finset.mul_sum,
      ← Finset.sum_mul, ← Finset.mul_sum]
    ring
  have h2 : ∀ c, ∑ i ∈ s, (f i - c) ^ 2 = ∑ i ∈ s, f i ^ 2 - 2 * c * (∑ i ∈ s, f i) + #s * c ^ 2 := by
    intro c
    rw [Finset.sum_congr rfl fun j _ => show (f j - c) ^ 2 = f j ^ 2 - 2 * c * f j + c ^ 2 by ring]
    rw [Finset.sum_add_distrib, Finset.sum_sub_distrib, Finset.sum_const, nsmul_eq_mul, ← Finset.mul_sum]
  refine ⟨?_, ?_⟩
  · rw [h1, h2]
    field_simp
    ring
  · rw [h1, h2]
    nlinarith [sq_nonneg (∑ i ∈ s, f i - #s * c)]

theorem popStd_fin (w : ℕ) (hw : 0 < w) (f : ℕ → ℝ) :
    popStd ((List.range w).map fun k => Fl.fin (f k)) =
      .fin (Real.sqrt ((∑ i ∈ Finset.range w, (f i - (∑ i ∈ Finset.range w, f i) / w) ^ 2) / w)) := by
  have hsum : ∀ g : ℕ → ℝ, npMean ((List.range w).map fun k => Fl.fin (g k)) = .fin ((∑ i ∈ Finset.range w, g i) / w) := by
    intro g
    have := npMean_map_fin (K := ℝ) (ys := (List.range w).map g) (by simpa using hw.ne')
    rw [List.map_map] at this
    simp only [Function.comp_def] at this
    rw [this, List.length_map, List.length_range]
    congr 2
  unfold popStd
  rw [hsum, List.map_map]
  simp only [Function.comp_def, Fl.pf_sub_fin, Fl.pf_mul_fin]
  rw [hsum fun k => (f k - (∑ i ∈ Finset.range w, f i) / w) * (f k - (∑ i ∈ Finset.range w, f i) / w)]
  rw [Fl.sqrt_fin (div_nonneg (Finset.sum_nonneg fun i _ => mul_self_nonneg _) (by positivity))]
  simp only [pow_two]

open Classical in
theorem gapSeries_pad (T m : ℕ) (miss : ℕ → Prop) (L : ℕ → ℝ) :
    gapSeries T miss L ++ List.replicate m Fl.nan = gapSeries (T + m) (fun s => T ≤ s ∨ miss s) L := by
  apply List.ext_getElem?
  intro i
  by_cases h : i < T
  · rw [List.getElem?_append_left (by rw [gapSeries_length]; exact h), gapSeries_get _ _ h, gapSeries_get _ _ (by omega)]
    have : ¬ T ≤ i := by omega
    simp [this]
  · rw [List.getElem?_append_right (by rw [gapSeries_length]; omega), gapSeries_length]
    by_cases h2 : i < T + m
    · rw [gapSeries_get _ _ h2, if_pos (.inl (by omega)), List.getElem?_replicate_of_lt (by omega)]
    · rw [List.getElem?_eq_none (by simp; omega), List.getElem?_eq_none (by rw [gapSeries_length]; omega)]

open Classical in
theorem gapSeries_window (N : ℕ) (miss : ℕ → Prop) (L : ℕ → ℝ) (w e : ℕ) (he : e < N) (hw : w ≤ e + 1) :
    window (gapSeries N miss L) w e =
      (List.range w).map fun k => if miss (e + 1 - w + k) then Fl.nan else .fin (L (e + 1 - w + k)) := by
  unfold window slice
  apply List.ext_getElem?
  intro i
  rw [List.getElem?_drop, List.getElem?_take, List.getElem?_map]
  by_cases h : i < w
  · rw [if_pos (by omega), gapSeries_get _ _ (by omega), List.getElem?_range h]
    rfl
  · rw [if_neg (by omega), List.getElem?_eq_none (by simp; omega)]
    rfl

/-- **C175** A step is wet exactly if its centred window lies in the record, has no missing value, and the sum of the squared differences of all pairs
of its values is above `2 w² threshold²`. -/
theorem C175_flag (T w : ℕ) (hw : 1 ≤ w) (hfit : w ≤ T + (w - 1) / 2) (thr : ℝ) (ht : 0 ≤ thr) (miss : ℕ → Prop) (L : ℕ → ℝ) :
    ∃ wet, wetRsd (gapSeries T miss L) w (.fin thr) = .ok wet ∧ wet.length = T ∧ ∀ t < T, (WetAt wet t ↔
      w / 2 ≤ t ∧ t + (w - 1) / 2 < T ∧ (∀ s, t - w / 2 ≤ s → s ≤ t + (w - 1) / 2 → ¬ miss s) ∧
      2 * (w : ℝ) ^ 2 * thr ^ 2 <
        ∑ i ∈ Finset.Icc (t - w / 2) (t + (w - 1) / 2), ∑ j ∈ Finset.Icc (t - w / 2) (t + (w - 1) / 2), (L i - L j) ^ 2) := by
  classical
  set m := (w - 1) / 2 with hm
  obtain ⟨M, hM⟩ : ∃ M : ℕ → Prop, ∀ s, M s ↔ T ≤ s ∨ miss s := ⟨_, fun s => Iff.rfl⟩
  have hfits : windowFits w w (gapSeries T miss L ++ List.replicate m (PyFloat.nan : Fl ℝ)).length = true := by
    simp only [windowFits, List.length_append, gapSeries_length, List.length_replicate, Bool.and_eq_true, decide_eq_true_eq]
    omega
  have hpad : gapSeries T miss L ++ List.replicate m (PyFloat.nan : Fl ℝ) = gapSeries (T + m) M L := by
    obtain rfl : M = fun s => T ≤ s ∨ miss s := funext fun s => propext (hM s)
    exact gapSeries_pad T m miss L
  refine ⟨((rolling w w popStd (gapSeries (T + m) M L)).drop m).map fun x => Fl.fin thr <ᶠ x, ?_, ?_, ?_⟩
  · unfold wetRsd rollingStd
    dsimp only
    rw [← hm, if_pos hfits, hpad]
    rfl
  · simp [rolling, gapSeries_length]
  · intro t htT
    have hget : (((rolling w w popStd (gapSeries (T + m) M L)).drop m).map fun x => Fl.fin thr <ᶠ x)[t]? =
        some (Fl.fin thr <ᶠ (if (valid (window (gapSeries (T + m) M L) w (m + t))).length < w then PyFloat.nan
          else popStd (valid (window (gapSeries (T + m) M L) w (m + t))))) := by
      rw [List.getElem?_map, List.getElem?_drop]
      unfold rolling
      rw [List.getElem?_map, List.getElem?_range (by rw [gapSeries_length]; omega)]
      rfl
    have hwet : WetAt (((rolling w w popStd (gapSeries (T + m) M L)).drop m).map fun x => Fl.fin thr <ᶠ x) t ↔
        (Fl.fin thr <ᶠ (if (valid (window (gapSeries (T + m) M L) w (m + t))).length < w then PyFloat.nan
          else popStd (valid (window (gapSeries (T + m) M L) w (m + t))))) = true := by
      unfold WetAt
      rw [hget]
      simp
    rw [hwet]
    by_cases h1 : w / 2 ≤ t
    swap
    · rw [if_pos]
      · simp [h1]
      · refine lt_of_le_of_lt (List.length_filter_le ..) ?_
        unfold window slice
        rw [List.length_drop, List.length_take]
        omega
    rw [gapSeries_window _ _ _ _ _ (by omega) (by omega)]
    have hlo : m + t + 1 - w = t - w / 2 := by omega
    rw [hlo]
    by_cases h2 : ∃ k < w, M (t - w / 2 + k)
    · rw [if_pos]
      · refine ⟨fun h => absurd h (by simp), ?_⟩
        rintro ⟨-, h3, h4, -⟩
        obtain ⟨k, hk, h5⟩ := h2
        rcases (hM _).mp h5 with h5 | h5
        · omega
        · exact absurd h5 (h4 _ (by omega) (by omega))
      · obtain ⟨k, hk, h5⟩ := h2
        have : (valid ((List.range w).map fun k => if M (t - w / 2 + k) then (Fl.nan : Fl ℝ)
            else .fin (L (t - w / 2 + k)))).length <
          ((List.range w).map fun k => if M (t - w / 2 + k) then (Fl.nan : Fl ℝ)
            else .fin (L (t - w / 2 + k))).length := by
          unfold valid
          rw [List.length_filter_lt_length_iff_exists]
          exact ⟨.nan, List.mem_map.mpr ⟨k, List.mem_range.mpr hk, if_pos h5⟩, by simp⟩
        simpa using this
    · push Not at h2
      have hlist : ((List.range w).map fun k => if M (t - w / 2 + k) then (Fl.nan : Fl ℝ)
            else .fin (L (t - w / 2 + k))) = (List.range w).map fun k => .fin (L (t - w / 2 + k)) := by
        apply List.map_congr_left
        intro k hk
        rw [if_neg (h2 k (List.mem_range.mp hk))]
      have hval : valid ((List.range w).map fun k => (Fl.fin (L (t - w / 2 + k)) : Fl ℝ)) =
          (List.range w).map fun k => .fin (L (t - w / 2 + k)) := by
        unfold valid
        rw [List.filter_eq_self]
        intro x hx
        obtain ⟨k, -, rfl⟩ := List.mem_map.mp hx
        rfl
      rw [hlist, hval, if_neg (by simp), popStd_fin w (by omega)]
      have h3 : t + m < T := by 
        by_contra hc
        exact h2 (w - 1) (by omega) ((hM _).mpr (.inl (by omega)))
      have h4 : ∀ s, t - w / 2 ≤ s → s ≤ t + m → ¬ miss s := by
        intro s a b hs
        refine h2 (s - (t - w / 2)) (by omega) ((hM _).mpr (.inr ?_))
        rwa [show t - w / 2 + (s - (t - w / 2)) = s by omega]
      have hIcc : ∀ g : ℕ → ℝ, ∑ i ∈ Finset.Icc (t - w / 2) (t + m), g i = ∑ i ∈ Finset.range w, g (t - w / 2 + i) := by
        intro g
        rw [← Finset.Ico_add_one_right_eq_Icc, Finset.sum_Ico_eq_sum_range, show t + m + 1 - (t - w / 2) = w by omega]
      have hp := (pair_sum (Finset.range w) (fun i => L (t - w / 2 + i)) (by rw [Finset.card_range]; omega) 0).1
      rw [Finset.card_range] at hp
      rw [Fl.pf_lt_fin, decide_eq_true_eq, Real.lt_sqrt ht, hIcc]
      simp only [hIcc]
      rw [hp]
      have hw0 : (0 : ℝ) < w := by exact_mod_cast hw
      rw [lt_div_iff₀ hw0]
      constructor
      · intro h
        refine ⟨h1, h3, h4, ?_⟩
        nlinarith
      · rintro ⟨-, -, -, h⟩
        by_contra hc
        nlinarith

theorem centred_card (t w : ℕ) (hw : 1 ≤ w) (h : w / 2 ≤ t) : #(Finset.Icc (t - w / 2) (t + (w - 1) / 2)) = w := by
  rw [Nat.card_Icc]
  omega

/-- The window sum of squared differences of pairs is at least that between two groups of steps whose values differ by at least `d`. -/
theorem pair_sum_groups (s I J : Finset ℕ) (f : ℕ → ℝ) (d : ℝ) (hI : I ⊆ s) (hJ : J ⊆ s) (hd : 0 < d)
    (hf : ∀ i ∈ I, ∀ j ∈ J, f j + d ≤ f i) : 2 * ((#I : ℝ) * #J * d ^ 2) ≤ ∑ i ∈ s, ∑ j ∈ s, (f i - f j) ^ 2 := by
  have hdis : Disjoint I J := by
    rw [Finset.disjoint_left]
    intro i hi hj
    linarith [hf i hi i hj]
  have key : ∀ A B : Finset ℕ, B ⊆ s → (∀ i ∈ A, ∀ j ∈ B, d ^ 2 ≤ (f i - f j) ^ 2) →
      (#A : ℝ) * #B * d ^ 2 ≤ ∑ i ∈ A, ∑ j ∈ s, (f i - f j) ^ 2 := by
    intro A B hB h
    calc (#A : ℝ) * #B * d ^ 2 = ∑ i ∈ A, ∑ j ∈ B, d ^ 2 := by simp [mul_assoc]
      _ ≤ ∑ i ∈ A, ∑ j ∈ B, (f i - f j) ^ 2 := Finset.sum_le_sum fun i hi => Finset.sum_le_sum fun j hj => h i hi j hj
      _ ≤ ∑ i ∈ A, ∑ j ∈ s, (f i - f j) ^ 2 :=
        Finset.sum_le_sum fun i _ => Finset.sum_le_sum_of_subset_of_nonneg hB fun _ _ _ => sq_nonneg _
  have h1 := key I J hJ fun i hi j hj => by nlinarith [hf i hi j hj]
  have h2 := key J I hI fun j hj i hi => by nlinarith [hf i hi j hj]
  have h3 : ∑ i ∈ I ∪ J, ∑ j ∈ s, (f i - f j) ^ 2 ≤ ∑ i ∈ s, ∑ j ∈ s, (f i - f j) ^ 2 :=
    Finset.sum_le_sum_of_subset_of_nonneg (Finset.union_subset hI hJ) fun _ _ _ => Finset.sum_nonneg fun _ _ => sq_nonneg _
  rw [Finset.sum_union hdis] at h3
  linarith

/-- **C175** Two groups of steps in a complete window whose levels differ by at least `d`, `k` steps in one and `j` in the other: wet if
`w² threshold² < k j d²`. -/
theorem C175_jump (T w : ℕ) (hw : 1 ≤ w) (hfit : w ≤ T + (w - 1) / 2) (thr d : ℝ) (ht : 0 ≤ thr) (hd : 0 < d) (miss : ℕ → Prop) (L : ℕ → ℝ)
    (t : ℕ) (h1 : w / 2 ≤ t) (h2 : t + (w - 1) / 2 < T) (hm : ∀ s, t - w / 2 ≤ s → s ≤ t + (w - 1) / 2 → ¬ miss s)
    (I J : Finset ℕ) (hI : ∀ s ∈ I, t - w / 2 ≤ s ∧ s ≤ t + (w - 1) / 2) (hJ : ∀ s ∈ J, t - w / 2 ≤ s ∧ s ≤ t + (w - 1) / 2)
    (hL : ∀ i ∈ I, ∀ j ∈ J, L j + d ≤ L i) (hk : (w : ℝ) ^ 2 * thr ^ 2 < #I * #J * d ^ 2) :
    ∃ wet, wetRsd (gapSeries T miss L) w (.fin thr) = .ok wet ∧ WetAt wet t := by
  obtain ⟨wet, hwet, -, h⟩ := C175_flag T w hw hfit thr ht miss L
  refine ⟨wet, hwet, (h t (by omega)).mpr ⟨h1, h2, hm, ?_⟩⟩
  have := pair_sum_groups (Finset.Icc (t - w / 2) (t + (w - 1) / 2)) I J L d (fun s hs => Finset.mem_Icc.mpr (hI s hs))
    (fun s hs => Finset.mem_Icc.mpr (hJ s hs)) hd hL
  linarith

/-- **C175** If all levels of the window are within the threshold of some number, the step is dry. -/
theorem C175_steady (T w : ℕ) (hw : 1 ≤ w) (hfit : w ≤ T + (w - 1) / 2) (thr c : ℝ) (miss : ℕ → Prop) (L : ℕ → ℝ)
    (t : ℕ) (htT : t < T) (hL : ∀ s, t - w / 2 ≤ s → s ≤ t + (w - 1) / 2 → |L s - c| ≤ thr) :
    ∃ wet, wetRsd (gapSeries T miss L) w (.fin thr) = .ok wet ∧ wet.length = T ∧ ¬ WetAt wet t := by
  have ht : 0 ≤ thr := (abs_nonneg _).trans (hL t (by omega) (by omega))
  obtain ⟨wet, hwet, hlen, h⟩ := C175_flag T w hw hfit thr ht miss L
  refine ⟨wet, hwet, hlen, fun hc => ?_⟩
  obtain ⟨h1, -, -, h4⟩ := (h t htT).mp hc
  have hcard := centred_card t w hw h1
  have := (pair_sum (Finset.Icc (t - w / 2) (t + (w - 1) / 2)) L (by omega) c).2
  have hs : ∑ s ∈ Finset.Icc (t - w / 2) (t + (w - 1) / 2), (L s - c) ^ 2 ≤ w * thr ^ 2 := by
    calc _ ≤ ∑ s ∈ Finset.Icc (t - w / 2) (t + (w - 1) / 2), thr ^ 2 := Finset.sum_le_sum fun s hs => by
          have := hL s (Finset.mem_Icc.mp hs).1 (Finset.mem_Icc.mp hs).2
          rw [← sq_abs]
          exact pow_le_pow_left₀ (abs_nonneg _) this 2
      _ = w * thr ^ 2 := by rw [Finset.sum_const, hcard, nsmul_eq_mul]
  rw [hcard] at this
  have hw0 : (0 : ℝ) ≤ w := Nat.cast_nonneg w
  nlinarith [mul_le_mul_of_nonneg_left hs hw0]

/-- **C175** `ValueError` if the record is shorter than half of the window. -/
theorem C175_short (T w : ℕ) (h : w = 0 ∨ T + (w - 1) / 2 < w) (thr : ℝ) (miss : ℕ → Prop) (L : ℕ → ℝ) :
    wetRsd (gapSeries T miss L) w (.fin thr) = .error .valueError := by
  unfold wetRsd rollingStd
  dsimp only
  rw [if_neg]
  · rfl
  · simp only [windowFits, List.length_append, gapSeries_length, List.length_replicate, Bool.and_eq_true, decide_eq_true_eq]
    omega

theorem series_gapSeries (T : ℕ) (L : ℕ → ℝ) : series T L = gapSeries T (fun _ => False) L := by
  unfold series gapSeries
  simp

/-- **C175** The documented workflow recovers the rain: a constant dry level, wet flags by rolling standard deviation, `baseline_constant`,
`waa_schleiss_2013`, `calc_R_from_A`. If the window of every step with rain lies in the record and contains `k` steps at which the rain
attenuates by at least `d` and `j` steps without rain with `w² threshold² < k j d²`, the rates are those of the rain, with rates below `R_min` set to 0. -/
theorem C175_rain (sp : Spline) (p : ChainParams) (hp : p.Ok) (h3 : 3 * p.deltaT ≤ p.tau) (rain : List Bool) (T w : ℕ) (D thr d : ℝ)
    (R : ℕ → ℝ) (hR : ∀ t < T, WetAt rain t → 0 ≤ R t) (h1 : ∀ t < p.n, ¬ WetAt rain t)
    (hw : 1 ≤ w) (hfit : w ≤ T + (w - 1) / 2) (ht : 0 ≤ thr) (hd : 0 < d)
    (hwin : ∀ t < T, WetAt rain t → w / 2 ≤ t ∧ t + (w - 1) / 2 < T ∧
      (w : ℝ) ^ 2 * thr ^ 2 <
        #{s ∈ Finset.Icc (t - w / 2) (t + (w - 1) / 2) | WetAt rain s ∧ d ≤ p.a * R s ^ p.b * p.L} *
        #{s ∈ Finset.Icc (t - w / 2) (t + (w - 1) / 2) | ¬ WetAt rain s} * d ^ 2) :
    ∃ wet, wetRsd (series T (levelAt (WetAt rain) p.waaMax (3 * p.deltaT / p.tau) (fun _ => D) fun t => p.a * R t ^ p.b * p.L)) w
        (.fin thr) = .ok wet ∧
      rainChain sp p (series T (levelAt (WetAt rain) p.waaMax (3 * p.deltaT / p.tau) (fun _ => D) fun t => p.a * R t ^ p.b * p.L)) wet =
        .ok (series T fun t => if WetAt rain t ∧ p.Rmin ≤ R t then R t else 0) := by
  obtain ⟨wet, hwet, hlen, hflag⟩ := C175_flag T w hw hfit thr ht (fun _ => False)
    (levelAt (WetAt rain) p.waaMax (3 * p.deltaT / p.tau) (fun _ => D) fun t => p.a * R t ^ p.b * p.L)
  refine ⟨wet, by rw [series_gapSeries]; exact hwet, ?_⟩
  refine C162_false_alarms sp p hp h3 rain wet T (fun _ => D) R hlen.ge hR h1 (fun _ _ _ _ _ _ => rfl) fun t htT hr => ?_
  obtain ⟨w1, w2, w3⟩ := hwin t htT hr
  refine (hflag t htT).mpr ⟨w1, w2, fun _ _ _ h => h, ?_⟩
  have := pair_sum_groups (Finset.Icc (t - w / 2) (t + (w - 1) / 2))
    {s ∈ Finset.Icc (t - w / 2) (t + (w - 1) / 2) | WetAt rain s ∧ d ≤ p.a * R s ^ p.b * p.L}
    {s ∈ Finset.Icc (t - w / 2) (t + (w - 1) / 2) | ¬ WetAt rain s}
    (levelAt (WetAt rain) p.waaMax (3 * p.deltaT / p.tau) (fun _ => D) fun t => p.a * R t ^ p.b * p.L) d
    (Finset.filter_subset ..) (Finset.filter_subset ..) hd (by
      intro i hi j hj
      have hi' := (Finset.mem_filter.mp hi).2
      have hj' := (Finset.mem_filter.mp hj).2
      have hf : 0 ≤ filmAt (WetAt rain) p.waaMax (3 * p.deltaT / p.tau) i :=
        (film_bounds hp.waaMax (div_nonneg (by linarith [hp.deltaT]) hp.tau.le) ((div_le_one hp.tau).mpr h3) i).1
      unfold levelAt
      rw [if_pos hi'.1, if_neg hj']
      linarith [hi'.2])
  linarith

/-- **C175** In particular if all rain attenuates by at least `d` with `w² threshold² < (w - 1) d²` and the window of each step with rain
lies in the record and contains a step without rain. -/
theorem C175_events (sp : Spline) (p : ChainParams) (hp : p.Ok) (h3 : 3 * p.deltaT ≤ p.tau) (rain : List Bool) (T w : ℕ) (D thr d : ℝ)
    (R : ℕ → ℝ) (hR : ∀ t < T, WetAt rain t → 0 ≤ R t) (h1 : ∀ t < p.n, ¬ WetAt rain t)
    (hw : 1 ≤ w) (hfit : w ≤ T + (w - 1) / 2) (ht : 0 ≤ thr) (hd : 0 < d) (hdA : ∀ t < T, WetAt rain t → d ≤ p.a * R t ^ p.b * p.L)
    (hwd : (w : ℝ) ^ 2 * thr ^ 2 < (w - 1) * d ^ 2)
    (hwin : ∀ t < T, WetAt rain t → w / 2 ≤ t ∧ t + (w - 1) / 2 < T ∧ ∃ s, t - w / 2 ≤ s ∧ s ≤ t + (w - 1) / 2 ∧ ¬ WetAt rain s) :
    ∃ wet, wetRsd (series T (levelAt (WetAt rain) p.waaMax (3 * p.deltaT / p.tau) (fun _ => D) fun t => p.a * R t ^ p.b * p.L)) w
        (.fin thr) = .ok wet ∧
      rainChain sp p (series T (levelAt (WetAt rain) p.waaMax (3 * p.deltaT / p.tau) (fun _ => D) fun t => p.a * R t ^ p.b * p.L)) wet =
        .ok (series T fun t => if WetAt rain t ∧ p.Rmin ≤ R t then R t else 0) := by
  refine C175_rain sp p hp h3 rain T w D thr d R hR h1 hw hfit ht hd fun t htT hr => ?_
  obtain ⟨w1, w2, s, s1, s2, s3⟩ := hwin t htT hr
  refine ⟨w1, w2, hwd.trans_le ?_⟩
  have hI : {s ∈ Finset.Icc (t - w / 2) (t + (w - 1) / 2) | WetAt rain s ∧ d ≤ p.a * R s ^ p.b * p.L} =
      {s ∈ Finset.Icc (t - w / 2) (t + (w - 1) / 2) | WetAt rain s} := by
    apply Finset.filter_congr
    intro s hs
    have := (Finset.mem_Icc.mp hs).2
    exact ⟨fun h => h.1, fun h => ⟨h, hdA s (by omega) h⟩⟩
  have hsum := Finset.card_filter_add_card_filter_not (s := Finset.Icc (t - w / 2) (t + (w - 1) / 2)) (WetAt rain)
  rw [centred_card t w hw w1] at hsum
  rw [hI]
  have hk : 1 ≤ #{s ∈ Finset.Icc (t - w / 2) (t + (w - 1) / 2) | WetAt rain s} :=
    Finset.card_pos.mpr ⟨t, Finset.mem_filter.mpr ⟨Finset.mem_Icc.mpr (by omega), hr⟩⟩
  have hj : 1 ≤ #{s ∈ Finset.Icc (t - w / 2) (t + (w - 1) / 2) | ¬ WetAt rain s} :=
    Finset.card_pos.mpr ⟨s, Finset.mem_filter.mpr ⟨Finset.mem_Icc.mpr ⟨s1, s2⟩, s3⟩⟩
  generalize #{s ∈ Finset.Icc (t - w / 2) (t + (w - 1) / 2) | WetAt rain s} = k at *
  generalize #{s ∈ Finset.Icc (t - w / 2) (t + (w - 1) / 2) | ¬ WetAt rain s} = j at *
  have hk' : (1 : ℝ) ≤ k := by exact_mod_cast hk
  have hj' : (1 : ℝ) ≤ j := by exact_mod_cast hj
  have hs' : (k : ℝ) + j = w := by exact_mod_cast hsum
  refine mul_le_mul_of_nonneg_right ?_ (sq_nonneg d)
  nlinarith

/-- **C175** The documented workflow misses steady rain: if the level of rain and film changes by at most the threshold to either side of some number during
the window of a step, the rain rate at this step is 0, however strong the rain is; and so are those of the first `w / 2` and last `(w - 1) / 2` steps. -/
theorem C175_missed (sp : Spline) (p : ChainParams) (hp : p.Ok) (h3 : 3 * p.deltaT ≤ p.tau) (rain : List Bool) (T w : ℕ) (D thr : ℝ)
    (R : ℕ → ℝ) (hR : ∀ t < T, WetAt rain t → 0 ≤ R t) (h1 : ∀ t < p.n, ¬ WetAt rain t)
    (hw : 1 ≤ w) (hfit : w ≤ T + (w - 1) / 2) (ht : 0 ≤ thr) :
    ∃ wet, ∃ rs : ℕ → ℝ,
      wetRsd (series T (levelAt (WetAt rain) p.waaMax (3 * p.deltaT / p.tau) (fun _ => D) fun t => p.a * R t ^ p.b * p.L)) w
        (.fin thr) = .ok wet ∧
      rainChain sp p (series T (levelAt (WetAt rain) p.waaMax (3 * p.deltaT / p.tau) (fun _ => D) fun t => p.a * R t ^ p.b * p.L)) wet =
        .ok (series T rs) ∧
      ∀ t < T, ((∃ c, ∀ s, t - w / 2 ≤ s → s ≤ t + (w - 1) / 2 →
          |levelAt (WetAt rain) p.waaMax (3 * p.deltaT / p.tau) (fun _ => D) (fun t => p.a * R t ^ p.b * p.L) s - c| ≤ thr) ∨
        t < w / 2 ∨ T ≤ t + (w - 1) / 2) → rs t = 0 := by
  obtain ⟨wet, hwet, hlen, hflag⟩ := C175_flag T w hw hfit thr ht (fun _ => False)
    (levelAt (WetAt rain) p.waaMax (3 * p.deltaT / p.tau) (fun _ => D) fun t => p.a * R t ^ p.b * p.L)
  obtain ⟨E, hE⟩ : ∃ E : ℝ, ∀ t ∈ Finset.range T, p.a * R t ^ p.b * p.L + filmAt (WetAt rain) p.waaMax (3 * p.deltaT / p.tau) t ≤ E :=
    let ⟨E, hE⟩ := ((Finset.range T).image fun t =>
      p.a * R t ^ p.b * p.L + filmAt (WetAt rain) p.waaMax (3 * p.deltaT / p.tau) t).exists_le
    ⟨E, fun t ht => hE _ (Finset.mem_image_of_mem _ ht)⟩
  obtain ⟨rs, hrs, h⟩ := C162_rain sp p hp h3 rain wet T (max E 0) (fun _ => D) R hlen.ge hR h1 (fun _ _ _ _ _ _ => rfl) (le_max_right _ _)
    fun t htT _ _ => (hE t (Finset.mem_range.mpr htT)).trans (le_max_left _ _)
  refine ⟨wet, rs, by rw [series_gapSeries]; exact hwet, hrs, fun t htT hs => (h t htT).1 (.inl fun hc => ?_)⟩
  rcases hs with ⟨c, hs⟩ | hs
  · obtain ⟨wet', hwet', -, hdry⟩ := C175_steady T w hw hfit thr c (fun _ => False) _ t htT hs
    rw [hwet] at hwet'
    obtain rfl := Except.ok.inj hwet'
    exact hdry hc
  · have := (hflag t htT).mp hc
    omega

/-- Window of three steps, threshold 0.8 dB, rain of 7 mm/h during steps 2 and 3 of 6: recovered. -/
example (sp : Spline) :
    let p : ChainParams := { n := 1, waaMax := 2, deltaT := 1, tau := 15, L := 1, a := 1, b := 1, Rmin := 0 }
    let rain := [false, false, true, true, false, false]
    let levels := series 6 (levelAt (WetAt rain) 2 (3 * 1 / 15) (fun _ => 50) fun _ => 1 * (7 : ℝ) ^ (1 : ℝ) * 1)
    ∃ wet, wetRsd levels 3 (.fin 0.8) = .ok wet ∧ rainChain sp p levels wet = .ok (series 6 fun t => if WetAt rain t ∧ 0 ≤ (7 : ℝ) then 7 else 0) := by
  intro p rain levels
  have hp : p.Ok := ⟨by decide, by norm_num [p], by norm_num [p], by norm_num [p], by norm_num [p], by norm_num [p], by norm_num [p]⟩
  have cases : ∀ t, WetAt rain t → t = 2 ∨ t = 3 := by
    intro t h
    have ht : t < 6 := by
      by_contra hc
      have : rain[t]? = none := List.getElem?_eq_none (by simp [rain]; omega)
      simp [WetAt, this] at h
    have : t = 0 ∨ t = 1 ∨ t = 2 ∨ t = 3 ∨ t = 4 ∨ t = 5 := by omega
    rcases this with rfl | rfl | rfl | rfl | rfl | rfl <;> simp_all [WetAt, rain]
  refine C175_events sp p hp (by norm_num [p]) rain 6 3 50 0.8 7 (fun _ => 7) (fun _ _ _ => by norm_num) (fun t ht h => ?_) (by norm_num)
    (by norm_num) (by norm_num) (by norm_num) (fun _ _ _ => by norm_num [p]) (by norm_num) fun t _ h => ?_
  · have : t = 0 := by have : p.n = 1 := rfl; omega
    rcases cases t h with h | h <;> omega
  · rcases cases t h with rfl | rfl
    · exact ⟨by norm_num, by norm_num, 1, by norm_num, by norm_num, by simp [WetAt, rain]⟩
    · exact ⟨by norm_num, by norm_num, 4, by norm_num, by norm_num, by simp [WetAt, rain]⟩

/-- The same window, but rain of 100 mm/h from step 2 to 4, without a film: step 3 gets no rain. -/
example (sp : Spline) :
    let p : ChainParams := { n := 1, waaMax := 0, deltaT := 1, tau := 15, L := 1, a := 1, b := 1, Rmin := 0 }
    let rain := [false, false, true, true, true, false]
    let levels := series 6 (levelAt (WetAt rain) 0 (3 * 1 / 15) (fun _ => 50) fun _ => 1 * (100 : ℝ) ^ (1 : ℝ) * 1)
    ∃ wet, ∃ rs : ℕ → ℝ, wetRsd levels 3 (.fin 0.8) = .ok wet ∧ rainChain sp p levels wet = .ok (series 6 rs) ∧ rs 3 = 0 := by
  intro p rain levels
  have hp : p.Ok := ⟨by decide, by norm_num [p], by norm_num [p], by norm_num [p], by norm_num [p], by norm_num [p], by norm_num [p]⟩
  obtain ⟨wet, rs, h1, h2, h3⟩ := C175_missed sp p hp (by norm_num [p]) rain 6 3 50 0.8 (fun _ => 100) (fun _ _ _ => by norm_num)
    (fun t ht h => by
      have : t = 0 := by have : p.n = 1 := rfl; omega
      subst this
      simp [WetAt, rain] at h) (by norm_num) (by norm_num) (by norm_num)
  refine ⟨wet, rs, h1, h2, h3 3 (by norm_num) (.inl ⟨150, fun s s1 s2 => ?_⟩)⟩
  have hf : filmAt (WetAt rain) p.waaMax (3 * p.deltaT / p.tau) s = 0 :=
    le_antisymm (film_bounds hp.waaMax (by norm_num [p]) (by norm_num [p]) s).2
      (film_bounds hp.waaMax (by norm_num [p]) (by norm_num [p]) s).1
  have hw : WetAt rain s := by
    have : s = 2 ∨ s = 3 ∨ s = 4 := by omega
    rcases this with rfl | rfl | rfl <;> simp [WetAt, rain]
  unfold levelAt
  rw [if_pos hw, hf]
  norm_num [p]

end Verif.Props
