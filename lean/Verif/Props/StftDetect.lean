import Verif.Props.StftInvariance

/-!
# Property C155: when `stft_classification` flags a sample, in terms of the signal
-/

namespace Verif.Props
open Verif Verif.Stft

/-- spectral density at row `k` of the samples around time `t` (as in C96) -/
noncomputable def densAt (w : List ℝ) (fs : ℝ) (xs : List ℝ) (k t : Nat) : ℝ :=
  spectralDensity w fs k fun m => xs.getD (t - (w.length - 1) / 2 + m) 0

/-- its mean over the times `s, ..., e - 1` -/
noncomputable def densDry (w : List ℝ) (fs : ℝ) (xs : List ℝ) (s e k : Nat) : ℝ :=
  (∑ t ∈ Finset.Ico s e, densAt w fs xs k t) / ((e - s : Nat) : ℝ)

/-- rows of frequencies up to `fd` -/
noncomputable def lowRows (N : Nat) (fs fd : ℝ) : Finset Nat := {k ∈ Finset.range (N / 2 + 1) | k * fs / N ≤ fd}

/-- rows of frequencies above `fd` -/
noncomputable def highRows (N : Nat) (fs fd : ℝ) : Finset Nat := {k ∈ Finset.range (N / 2 + 1) | fd < k * fs / N}

/-- mean over some rows of the density at `t` relative to that of the dry period -/
noncomputable def relPower (w : List ℝ) (fs : ℝ) (xs : List ℝ) (s e : Nat) (B : Finset Nat) (t : Nat) : ℝ :=
  (∑ k ∈ B, densAt w fs xs k t / densDry w fs xs s e k) / (B.card : ℝ)

theorem sum_take_drop_range (g : Nat → ℝ) (n a b : Nat) (hb : b ≤ n) :
    ((((List.range n).map g).take b).drop a).sum = ∑ j ∈ Finset.Ico a b, g j ∧
      ((((List.range n).map g).take b).drop a).length = b - a := by
  constructor
  · rw [← List.map_take, ← List.map_drop, List.take_range, Nat.min_eq_left hb]
    rcases le_total a b with h | h
    · rw [show List.drop a (List.range b) = List.range' a (b - a) by
        rw [List.range_eq_range', List.drop_range']; simp]
      rw [Finset.sum_Ico_eq_sum_range, ← list_sum_range]
      congr 1
      rw [List.range'_eq_map_range, List.map_map]
      rfl
    · rw [List.drop_eq_nil_of_le (by simpa using h), Finset.Ico_eq_empty (by omega)]
      rfl
  · simp [Nat.min_eq_left hb]

theorem sum_bandK (N : Nat) (fs : ℝ) (c : ℝ → Prop) [DecidablePred c] (g : Nat → ℝ) :
    ((bandK ((List.range (N / 2 + 1)).map fun (k : Nat) => (k : ℝ) * fs / N) c).map g).sum =
      ∑ k ∈ Finset.filter (fun k : Nat => c (k * fs / N)) (Finset.range (N / 2 + 1)), g k ∧
    (bandK ((List.range (N / 2 + 1)).map fun (k : Nat) => (k : ℝ) * fs / N) c).length =
      (Finset.filter (fun k : Nat => c (k * fs / N)) (Finset.range (N / 2 + 1))).card := by
  have e : bandK ((List.range (N / 2 + 1)).map fun (k : Nat) => (k : ℝ) * fs / N) c =
      (List.range (N / 2 + 1)).filter fun k : Nat => decide (c (k * fs / N)) := by
    unfold bandK
    rw [List.length_map, List.length_range]
    apply List.filter_congr
    intro k hk
    rw [List.mem_range] at hk
    rw [List.getD_eq_getElem _ _ (by simpa using hk)]
    simp
  have e2 : (Finset.filter (fun k : Nat => c (k * fs / N)) (Finset.range (N / 2 + 1))) =
      ((List.range (N / 2 + 1)).filter fun k : Nat => decide (c (k * fs / N))).toFinset := by
    ext k
    simp
  have nd : ((List.range (N / 2 + 1)).filter fun k : Nat => decide (c (k * fs / N))).Nodup :=
    List.nodup_range.filter _
  rw [e, e2]
  exact ⟨(List.sum_toFinset g nd).symm, (List.toFinset_card_of_nodup nd).symm⟩

/-- **C155** The decision in terms of the signal. For a finite series and a dry period with some power in every row: the sample at
`t` is wet exactly if the mean, over the frequencies up to `f_divide`, of its spectral density relative to that in the
dry period exceeds the corresponding mean over the higher frequencies by more than the threshold. -/
theorem C155_value (hasFind : Bool) (xs : List ℝ) (thr fd : ℝ) (w : List ℝ) (hw : ∃ v ∈ w, v ≠ 0) (fs : ℝ) (hfs : fs ≠ 0)
    (s e : Nat) (hs : (w.length - 1) / 2 ≤ s) (hse : s < e) (he : e + w.length / 2 ≤ xs.length)
    (hlow : (lowRows w.length fs fd).Nonempty) (hhigh : (highRows w.length fs fd).Nonempty)
    (hdry : ∀ k ≤ w.length / 2, densDry w fs xs s e k ≠ 0) :
    ∃ wet info, stft hasFind (xs.map Fl.fin) w.length (.fin thr) (.fin fd) (some w) fs
        { tDryStart := some (s : Int), tDryStop := some (e : Int) } = .ok (wet, info) ∧ wet.length = xs.length ∧
      ∀ t, (w.length - 1) / 2 ≤ t → t + w.length / 2 < xs.length →
        wet[t]? = some (decide (thr < relPower w fs xs s e (lowRows w.length fs fd) t -
          relPower w fs xs s e (highRows w.length fs fd) t)) := by
  have hpos : 0 < w.length := by
    obtain ⟨v, hv, _⟩ := hw
    exact List.length_pos_of_mem hv
  have hn : w.length ≤ xs.length := by omega
  have hnf : numFreqs w.length = w.length / 2 + 1 := by
    unfold numFreqs; split_ifs <;> omega
  set N := w.length with hN
  set pad := (N - 1) / 2 with hpad
  -- the spectrogram as real numbers
  let P : List (List ℝ) := (List.range (N / 2 + 1)).map fun k =>
    (List.range (xs.length - N + 1)).map fun j => densAt w fs xs k (j + pad)
  let f : List ℝ := (List.range (N / 2 + 1)).map fun (k : Nat) => (k : ℝ) * fs / N
  have hP : rowsOf w fs (xs.map Fl.fin) = P.map fun row => row.map Fl.fin := by
    unfold rowsOf
    rw [hnf, List.map_map]
    refine List.map_congr_left fun k hk => ?_
    rw [Function.comp_apply, List.map_map, List.length_map, ← hN]
    refine List.map_congr_left fun j hj => ?_
    rw [List.mem_range] at hj
    rw [slice_map, psd_fin w _ fs k (length_slice _ _ _ (by omega)) hfs hw, Function.comp_apply]
    congr 1
    unfold densAt
    rw [← hN, ← hpad, Nat.add_sub_cancel]
    apply spectralDensity_congr
    intro m hm
    rw [List.getD_eq_getElem?_getD, List.getD_eq_getElem?_getD, getElem?_slice_lt _ _ _ _ hm]
  have hf : freqsOf w fs = f.map Fl.fin := by
    unfold freqsOf
    rw [hnf, List.map_map]
    rfl
  have hspec := specgram_ok w fs (xs.map Fl.fin) hpos (by simpa using hn)
  rw [hP, hf] at hspec
  have hrowlen : ∀ row ∈ P, row.length = xs.length - N + 1 := by
    intro row hr
    obtain ⟨k, _, rfl⟩ := List.mem_map.mp hr
    simp
  have hpad2 : ((xs.map Fl.fin).length - (xs.length - N + 1)) / 2 = pad := by
    rw [List.length_map]; omega
  have hdm : ∀ k ≤ N / 2, dryMeanOf pad s e ((List.range (xs.length - N + 1)).map fun j => densAt w fs xs k (j + pad)) =
      densDry w fs xs s e k := by
    intro k hk
    unfold dryMeanOf densDry
    obtain ⟨h1, h2⟩ := sum_take_drop_range (fun j => densAt w fs xs k (j + pad)) (xs.length - N + 1) (s - pad) (e - pad)
      (by omega)
    rw [h1, h2]
    congr 1
    · rw [Finset.sum_Ico_add' (fun j => densAt w fs xs k j) (s - pad) (e - pad) pad, Nat.sub_add_cancel hs,
        Nat.sub_add_cancel (by omega : pad ≤ e)]
    · congr 1
      omega
  have hlen : f.length = N / 2 + 1 := by simp [f]
  obtain ⟨wet, info, h, hv⟩ := C56_value hasFind (specgram w fs) (xs.map Fl.fin) N thr fd
    { tDryStart := some (s : Int), tDryStop := some (e : Int), pxx := some (P.map fun row => row.map Fl.fin),
      f := some (f.map Fl.fin) } P f s e (xs.length - N + 1) rfl rfl rfl rfl rfl rfl (by simp [P]) hrowlen
    (by rw [List.length_map]; omega) (by simp [P, f]) (by
      obtain ⟨k, hk⟩ := hlow
      rw [lowRows, Finset.mem_filter, Finset.mem_range] at hk
      exact ⟨_, List.mem_map.mpr ⟨k, List.mem_range.mpr hk.1, rfl⟩, hk.2⟩) (by
      obtain ⟨k, hk⟩ := hhigh
      rw [highRows, Finset.mem_filter, Finset.mem_range] at hk
      exact ⟨_, List.mem_map.mpr ⟨k, List.mem_range.mpr hk.1, rfl⟩, hk.2⟩) (by
      intro row hr
      obtain ⟨k, hk, rfl⟩ := List.mem_map.mp hr
      rw [List.mem_range] at hk
      rw [hpad2, hdm k (by omega)]
      exact hdry k (by omega))
  have hcomp := C56_computed hasFind (specgram w fs) (xs.map Fl.fin) N (.fin thr) (.fin fd)
    { tDryStart := some (s : Int), tDryStop := some (e : Int) } rfl rfl _ _ hspec
  obtain ⟨wet', info', h', hl', _⟩ := C96_missing hasFind (xs.map Fl.fin) (.fin thr) (.fin fd) w fs s e hpos (by simpa using hn)
  have hst : stft hasFind (xs.map Fl.fin) w.length (.fin thr) (.fin fd) (some w) fs
      { tDryStart := some (s : Int), tDryStop := some (e : Int) } = .ok (wet, info) := hcomp.trans h
  rw [hst] at h'
  cases h'
  refine ⟨wet, info, hst, by rw [hl', List.length_map], ?_⟩
  intro t ht1 ht2
  have hk : t - pad < xs.length - N + 1 := by omega
  have := hv (t - pad) hk
  rw [hpad2, show pad + (t - pad) = t by omega] at this
  rw [this]
  have hb : ∀ (c : ℝ → Prop) [DecidablePred c], bandPower P pad s e (bandK f c) (t - pad) =
      (∑ k ∈ Finset.filter (fun k : Nat => c (k * fs / N)) (Finset.range (N / 2 + 1)), densAt w fs xs k t / densDry w fs xs s e k) /
        ((Finset.filter (fun k : Nat => c (k * fs / N)) (Finset.range (N / 2 + 1))).card : ℝ) := by
    intro c _
    obtain ⟨h1, h2⟩ := sum_bandK N fs c fun k => densAt w fs xs k t / densDry w fs xs s e k
    rw [← h1, ← h2]
    unfold bandPower
    congr 2
    refine List.map_congr_left fun k hkb => ?_
    have hk1 : k < N / 2 + 1 := by
      unfold bandK at hkb
      have := List.mem_range.mp (List.mem_filter.mp hkb).1
      rwa [hlen] at this
    have hg : P.getD k [] = (List.range (xs.length - N + 1)).map fun j => densAt w fs xs k (j + pad) := by
      rw [List.getD_eq_getElem _ _ (by simpa [P] using hk1)]
      simp [P]
    rw [hg, hdm k (by omega), List.getD_eq_getElem _ _ (by simpa using hk)]
    simp only [List.getElem_map, List.getElem_range]
    rw [Nat.sub_add_cancel ht1]
  rw [hb, hb]
  rfl

/-- **C155** A sample at which all slow fluctuations (frequencies up to `f_divide`) have at least `a` times and all fast ones at
most `b` times the power of the dry period, `a - b` above the threshold, is wet; one at which all slow fluctuations have at
most `a` times and all fast ones at least `b` times that power, `a - b` not above the threshold, is dry. -/
theorem C155_detect (hasFind : Bool) (xs : List ℝ) (thr fd : ℝ) (w : List ℝ) (hw : ∃ v ∈ w, v ≠ 0) (fs : ℝ) (hfs : 0 < fs)
    (s e : Nat) (hs : (w.length - 1) / 2 ≤ s) (hse : s < e) (he : e + w.length / 2 ≤ xs.length)
    (hlow : (lowRows w.length fs fd).Nonempty) (hhigh : (highRows w.length fs fd).Nonempty)
    (hdry : ∀ k ≤ w.length / 2, 0 < densDry w fs xs s e k) (a b : ℝ) :
    ∃ wet info, stft hasFind (xs.map Fl.fin) w.length (.fin thr) (.fin fd) (some w) fs
        { tDryStart := some (s : Int), tDryStop := some (e : Int) } = .ok (wet, info) ∧
      ∀ t, (w.length - 1) / 2 ≤ t → t + w.length / 2 < xs.length →
        ((∀ k ∈ lowRows w.length fs fd, a * densDry w fs xs s e k ≤ densAt w fs xs k t) →
          (∀ k ∈ highRows w.length fs fd, densAt w fs xs k t ≤ b * densDry w fs xs s e k) → thr < a - b →
          wet[t]? = some true) ∧
        ((∀ k ∈ lowRows w.length fs fd, densAt w fs xs k t ≤ a * densDry w fs xs s e k) →
          (∀ k ∈ highRows w.length fs fd, b * densDry w fs xs s e k ≤ densAt w fs xs k t) → a - b ≤ thr →
          wet[t]? = some false) := by
  obtain ⟨wet, info, h, _, hv⟩ := C155_value hasFind xs thr fd w hw fs hfs.ne' s e hs hse he hlow hhigh fun k hk =>
    (hdry k hk).ne'
  have hL : ∀ k ∈ lowRows w.length fs fd, 0 < densDry w fs xs s e k := by
    intro k hk
    rw [lowRows, Finset.mem_filter, Finset.mem_range] at hk
    exact hdry k (by omega)
  have hH : ∀ k ∈ highRows w.length fs fd, 0 < densDry w fs xs s e k := by
    intro k hk
    rw [highRows, Finset.mem_filter, Finset.mem_range] at hk
    exact hdry k (by omega)
  have up : ∀ (B : Finset Nat) (c : ℝ) (t : Nat), B.Nonempty → (∀ k ∈ B, 0 < densDry w fs xs s e k) →
      (∀ k ∈ B, densAt w fs xs k t ≤ c * densDry w fs xs s e k) → relPower w fs xs s e B t ≤ c := by
    intro B c t hB h0 h1
    have hc : (0 : ℝ) < B.card := by exact_mod_cast Finset.card_pos.mpr hB
    unfold relPower
    rw [div_le_iff₀ hc]
    calc _ ≤ ∑ _k ∈ B, c := Finset.sum_le_sum fun k hk => (div_le_iff₀ (h0 k hk)).mpr (h1 k hk)
      _ = _ := by rw [Finset.sum_const, nsmul_eq_mul]; ring
  have lo : ∀ (B : Finset Nat) (c : ℝ) (t : Nat), B.Nonempty → (∀ k ∈ B, 0 < densDry w fs xs s e k) →
      (∀ k ∈ B, c * densDry w fs xs s e k ≤ densAt w fs xs k t) → c ≤ relPower w fs xs s e B t := by
    intro B c t hB h0 h1
    have hc : (0 : ℝ) < B.card := by exact_mod_cast Finset.card_pos.mpr hB
    unfold relPower
    rw [le_div_iff₀ hc]
    calc _ = ∑ _k ∈ B, c := by rw [Finset.sum_const, nsmul_eq_mul]; ring
      _ ≤ _ := Finset.sum_le_sum fun k hk => (le_div_iff₀ (h0 k hk)).mpr (h1 k hk)
  refine ⟨wet, info, h, fun t ht1 ht2 => ⟨fun h1 h2 h3 => ?_, fun h1 h2 h3 => ?_⟩⟩
  · rw [hv t ht1 ht2, Option.some.injEq, decide_eq_true_eq]
    have := lo _ a t hlow hL h1
    have := up _ b t hhigh hH h2
    linarith
  · rw [hv t ht1 ht2, Option.some.injEq, decide_eq_false_iff_not, not_lt]
    have := up _ a t hlow hL h1
    have := lo _ b t hhigh hH h2
    linarith

/-- **C155** Stronger slow fluctuations and weaker fast ones never turn a wet sample dry: compare two series with the same
samples in and around the dry period. -/
theorem C155_monotone (hasFind : Bool) (xs ys : List ℝ) (thr fd : ℝ) (w : List ℝ) (hw : ∃ v ∈ w, v ≠ 0) (fs : ℝ)
    (hfs : 0 < fs) (s e : Nat) (hs : (w.length - 1) / 2 ≤ s) (hse : s < e) (he : e + w.length / 2 ≤ xs.length)
    (hlen : xs.length = ys.length)
    (hlow : (lowRows w.length fs fd).Nonempty) (hhigh : (highRows w.length fs fd).Nonempty)
    (hdry : ∀ k ≤ w.length / 2, 0 < densDry w fs xs s e k)
    (hsame : ∀ i, s - (w.length - 1) / 2 ≤ i → i < e + w.length / 2 → xs.getD i 0 = ys.getD i 0) :
    ∃ wet info wet' info',
      stft hasFind (xs.map Fl.fin) w.length (.fin thr) (.fin fd) (some w) fs
        { tDryStart := some (s : Int), tDryStop := some (e : Int) } = .ok (wet, info) ∧
      stft hasFind (ys.map Fl.fin) w.length (.fin thr) (.fin fd) (some w) fs
        { tDryStart := some (s : Int), tDryStop := some (e : Int) } = .ok (wet', info') ∧
      ∀ t, (w.length - 1) / 2 ≤ t → t + w.length / 2 < xs.length →
        (∀ k ∈ lowRows w.length fs fd, densAt w fs xs k t ≤ densAt w fs ys k t) →
        (∀ k ∈ highRows w.length fs fd, densAt w fs ys k t ≤ densAt w fs xs k t) →
        wet[t]? = some true → wet'[t]? = some true := by
  have hpos : 0 < w.length := by
    obtain ⟨v, hv, _⟩ := hw
    exact List.length_pos_of_mem hv
  have hd : ∀ k, densDry w fs xs s e k = densDry w fs ys s e k := by
    intro k
    unfold densDry
    congr 1
    refine Finset.sum_congr rfl fun t ht => ?_
    rw [Finset.mem_Ico] at ht
    unfold densAt
    apply spectralDensity_congr
    intro m hm
    exact hsame _ (by omega) (by omega)
  obtain ⟨wet, info, h, _, hv⟩ := C155_value hasFind xs thr fd w hw fs hfs.ne' s e hs hse he hlow hhigh fun k hk =>
    (hdry k hk).ne'
  obtain ⟨wet', info', h', _, hv'⟩ := C155_value hasFind ys thr fd w hw fs hfs.ne' s e hs hse (by omega) hlow hhigh fun k hk => by
    rw [← hd]; exact (hdry k hk).ne'
  refine ⟨wet, info, wet', info', h, h', fun t ht1 ht2 hl hh hwet => ?_⟩
  rw [hv t ht1 ht2, Option.some.injEq, decide_eq_true_eq] at hwet
  rw [hv' t ht1 (by omega), Option.some.injEq, decide_eq_true_eq]
  have k1 : relPower w fs xs s e (lowRows w.length fs fd) t ≤ relPower w fs ys s e (lowRows w.length fs fd) t := by
    unfold relPower
    refine div_le_div_of_nonneg_right (Finset.sum_le_sum fun k hk => ?_) (by positivity)
    rw [← hd]
    refine div_le_div_of_nonneg_right (hl k hk) (hdry k ?_).le
    rw [lowRows, Finset.mem_filter, Finset.mem_range] at hk
    omega
  have k2 : relPower w fs ys s e (highRows w.length fs fd) t ≤ relPower w fs xs s e (highRows w.length fs fd) t := by
    unfold relPower
    refine div_le_div_of_nonneg_right (Finset.sum_le_sum fun k hk => ?_) (by positivity)
    rw [← hd]
    refine div_le_div_of_nonneg_right (hh k hk) (hdry k ?_).le
    rw [highRows, Finset.mem_filter, Finset.mem_range] at hk
    omega
  linarith

/-- The series 1, 0, 2, 2 with windows of two samples and the dry period the first sample: at the third sample the slow part has 16
times the power of the dry period, the fast part none. -/
example : ∃ wet info, stft false ([1, 0, 2, 2].map Fl.fin) 2 (.fin 2) (.fin (1 / 240)) (some [1, 1]) (1 / 60)
      { tDryStart := some 0, tDryStop := some 1 } = .ok (wet, info) ∧ wet[2]? = some true := by
  have d : ∀ x : Nat → ℝ, _ := spectralDensity_two 1 one_ne_zero (1 / 60) (by norm_num)
  have d0 : ∀ t, densAt [1, 1] (1 / 60) [1, 0, 2, 2] 0 t =
      30 * (([1, 0, 2, 2] : List ℝ).getD t 0 + ([1, 0, 2, 2] : List ℝ).getD (t + 1) 0) ^ 2 := by
    intro t
    unfold densAt
    rw [(d _).1]
    simp only [List.length_cons, List.length_nil]
    norm_num
    ring
  have d1 : ∀ t, densAt [1, 1] (1 / 60) [1, 0, 2, 2] 1 t =
      30 * (([1, 0, 2, 2] : List ℝ).getD t 0 - ([1, 0, 2, 2] : List ℝ).getD (t + 1) 0) ^ 2 := by
    intro t
    unfold densAt
    rw [(d _).2]
    simp only [List.length_cons, List.length_nil]
    norm_num
    ring
  have m0 : densDry [1, 1] (1 / 60) [1, 0, 2, 2] 0 1 0 = 30 := by
    unfold densDry; rw [Nat.Ico_zero_eq_range, Finset.sum_range_one, d0]; norm_num
  have m1 : densDry [1, 1] (1 / 60) [1, 0, 2, 2] 0 1 1 = 30 := by
    unfold densDry; rw [Nat.Ico_zero_eq_range, Finset.sum_range_one, d1]; norm_num
  have hl : lowRows 2 (1 / 60) (1 / 240) = {0} := by
    unfold lowRows
    ext k
    simp only [Finset.mem_filter, Finset.mem_range, Finset.mem_singleton]
    constructor
    · rintro ⟨h1, h2⟩
      rcases (by omega : k = 0 ∨ k = 1) with rfl | rfl
      · rfl
      · norm_num at h2
    · rintro rfl
      norm_num
  have hh : highRows 2 (1 / 60) (1 / 240) = {1} := by
    unfold highRows
    ext k
    simp only [Finset.mem_filter, Finset.mem_range, Finset.mem_singleton]
    constructor
    · rintro ⟨h1, h2⟩
      rcases (by omega : k = 0 ∨ k = 1) with rfl | rfl
      · norm_num at h2
      · rfl
    · rintro rfl
      norm_num
  obtain ⟨wet, info, h, hv⟩ := C155_detect false [1, 0, 2, 2] 2 (1 / 240) [1, 1] ⟨1, by simp, one_ne_zero⟩ (1 / 60)
    (by norm_num) 0 1 (by simp) (by norm_num) (by simp) (by
      show (lowRows 2 _ _).Nonempty
      rw [hl]; simp) (by
      show (highRows 2 _ _).Nonempty
      rw [hh]; simp) (by
      intro k hk
      have hk : k ≤ 1 := hk
      rcases (by omega : k = 0 ∨ k = 1) with rfl | rfl
      · rw [m0]; norm_num
      · rw [m1]; norm_num) 16 0
  refine ⟨wet, info, h, (hv 2 (by simp) (by simp)).1 ?_ ?_ (by norm_num)⟩
  · intro k hk
    have hk : k ∈ lowRows 2 (1 / 60) (1 / 240) := hk
    rw [hl, Finset.mem_singleton] at hk
    subst hk
    rw [m0, d0]
    norm_num
  · intro k hk
    have hk : k ∈ highRows 2 (1 / 60) (1 / 240) := hk
    rw [hh, Finset.mem_singleton] at hk
    subst hk
    rw [m1, d1]
    norm_num

end Verif.Props
