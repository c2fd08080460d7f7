import Verif.Model.Specgram
import Verif.Props.StftDry
import Verif.Lemmas.FlList
import Verif.Lemmas.StatsRain
import Mathlib.Analysis.SpecialFunctions.Complex.Circle

/-!
# C96-C99: `stft_classification` with the spectrogram computed from the signal
-/

namespace Verif.Props
open Verif Verif.Stft

/-- Power spectral density of the real samples `x 0, ..., x (N-1)` with window `w` at frequency `k * fs / N`:
squared modulus of the discrete Fourier transform, counted twice unless `k` is 0 or the Nyquist frequency, over
the sampling frequency and the power of the window. -/
noncomputable def spectralDensity (w : List ℝ) (fs : ℝ) (k : Nat) (x : Nat → ℝ) : ℝ :=
  (if k = 0 ∨ 2 * k = w.length then 1 else 2) *
    ‖∑ m ∈ Finset.range w.length, ((x m * w.getD m 0 : ℝ) : ℂ) *
      Complex.exp (-(2 * Real.pi * k * m / w.length : ℝ) * Complex.I)‖ ^ 2 /
    (fs * ∑ m ∈ Finset.range w.length, w.getD m 0 ^ 2)

theorem list_sum_range (N : Nat) (g : Nat → ℝ) :
    ((List.range N).map g).sum = ∑ m ∈ Finset.range N, g m := by
  induction N with
  | zero => rfl
  | succ N ih => rw [List.range_succ, List.map_append, List.sum_append, ih, Finset.sum_range_succ]; simp

theorem exp_neg_I_re (θ : ℝ) : (Complex.exp (-(θ : ℂ) * Complex.I)).re = Real.cos θ := by
  rw [← Complex.ofReal_neg, Complex.exp_ofReal_mul_I_re, Real.cos_neg]

theorem exp_neg_I_im (θ : ℝ) : (Complex.exp (-(θ : ℂ) * Complex.I)).im = -Real.sin θ := by
  rw [← Complex.ofReal_neg, Complex.exp_ofReal_mul_I_im, Real.sin_neg]

theorem norm_dft_sq (N : Nat) (y θ : Nat → ℝ) :
    ‖∑ m ∈ Finset.range N, (y m : ℂ) * Complex.exp (-(θ m : ℝ) * Complex.I)‖ ^ 2 =
      (∑ m ∈ Finset.range N, y m * Real.cos (θ m)) ^ 2 +
      (∑ m ∈ Finset.range N, y m * -Real.sin (θ m)) ^ 2 := by
  rw [← Complex.normSq_eq_norm_sq, Complex.normSq_apply, Complex.re_sum, Complex.im_sum]
  have h1 : ∀ m, ((y m : ℂ) * Complex.exp (-(θ m : ℝ) * Complex.I)).re = y m * Real.cos (θ m) := by
    intro m
    rw [Complex.re_ofReal_mul, exp_neg_I_re]
  have h2 : ∀ m, ((y m : ℂ) * Complex.exp (-(θ m : ℝ) * Complex.I)).im = y m * -Real.sin (θ m) := by
    intro m
    rw [Complex.im_ofReal_mul, exp_neg_I_im]
  simp only [h1, h2]
  ring

theorem sum_sq_eq (w : List ℝ) :
    (w.map fun v => v ^ 2).sum = ∑ m ∈ Finset.range w.length, w.getD m 0 ^ 2 := by
  rw [← list_sum_range]
  congr 1
  apply List.ext_getElem
  · simp
  · intro i h1 h2
    rw [List.length_map] at h1
    simp [List.getElem?_eq_getElem h1]

theorem windowed_fin (w xs : List ℝ) (h : xs.length = w.length) :
    List.zipWith (fun x v => x *ᶠ Fl.fin v) (xs.map Fl.fin) w =
      ((List.range w.length).map fun m => xs.getD m 0 * w.getD m 0).map Fl.fin := by
  apply List.ext_getElem
  · simp [h]
  · intro i h1 h2
    simp only [List.length_zipWith, List.length_map] at h1
    have hw : i < w.length := by omega
    have hx : i < xs.length := by omega
    simp [List.getElem?_eq_getElem hw, List.getElem?_eq_getElem hx]

/-- On finite samples the model computes the spectral density. -/
theorem psd_fin (w xs : List ℝ) (fs : ℝ) (k : Nat) (h : xs.length = w.length) (hfs : fs ≠ 0)
    (hw : ∃ v ∈ w, v ≠ 0) :
    psd w fs k (xs.map Fl.fin) = .fin (spectralDensity w fs k fun m => xs.getD m 0) := by
  have hpos : 0 < (w.map fun v => v ^ 2).sum := by
    obtain ⟨v, hv, hv0⟩ := hw
    refine lt_of_lt_of_le (by positivity : 0 < v ^ 2) ?_
    refine List.single_le_sum ?_ _ (List.mem_map.mpr ⟨v, hv, rfl⟩)
    intro x hx
    obtain ⟨u, _, rfl⟩ := List.mem_map.mp hx
    positivity
  unfold psd
  rw [windowed_fin w xs h]
  dsimp only
  unfold dft
  have hl : ((((List.range w.length).map fun m => xs.getD m 0 * w.getD m 0)).map Fl.fin).length =
      w.length := by simp
  have hr : ∀ g : Nat → ℝ, ((List.range w.length).map fun m =>
      rd ((((List.range w.length).map fun m => xs.getD m 0 * w.getD m 0)).map Fl.fin) m *ᶠ Fl.fin (g m)) =
      ((List.range w.length).map fun m => (xs.getD m 0 * w.getD m 0) * g m).map Fl.fin := by
    intro g
    rw [List.map_map (f := fun m => (xs.getD m 0 * w.getD m 0) * g m)]
    refine List.map_congr_left fun m hm => ?_
    rw [List.mem_range] at hm
    rw [rd_map_fin (by simpa using hm)]
    simp
  rw [hl, hr, hr, fsum_map_fin, fsum_map_fin, list_sum_range, list_sum_range]
  simp only [Fl.pf_mul_fin, Fl.pf_add_fin]
  rw [Fl.pf_div_fin, if_neg hfs, Fl.pf_div_fin, if_neg hpos.ne']
  unfold spectralDensity
  rw [← sum_sq_eq]
  congr 1
  have := norm_dft_sq w.length (fun m => xs.getD m 0 * w.getD m 0)
    (fun m => 2 * Real.pi * k * m / w.length)
  rw [this, div_div]
  ring

/-- A NaN sample makes every frequency NaN. -/
theorem psd_nan (w : List ℝ) (fs : ℝ) (k : Nat) (seg : List (Fl ℝ)) (h : seg.length = w.length)
    (hn : Fl.nan ∈ seg) : psd w fs k seg = .nan := by
  obtain ⟨i, hi, hx⟩ := List.mem_iff_getElem.mp hn
  have hd : (dft (List.zipWith (fun x v => x *ᶠ Fl.fin v) seg w) k).1 = .nan := by
    unfold dft
    apply fsum_nan
    refine List.mem_map.mpr ⟨i, by simp; omega, ?_⟩
    rw [rd_of_getElem? (x := .nan)]
    · simp
    · rw [List.getElem?_zipWith, List.getElem?_eq_getElem hi,
        List.getElem?_eq_getElem (by omega : i < w.length), hx]
      simp
  unfold psd
  dsimp only
  rw [hd]
  simp

section setup

/-- rows of the spectrogram of a series at least as long as the window -/
noncomputable def rowsOf (w : List ℝ) (fs : ℝ) (rsl : List (Fl ℝ)) : List (List (Fl ℝ)) :=
  (List.range (numFreqs w.length)).map fun k =>
    (List.range (rsl.length - w.length + 1)).map fun j => psd w fs k (slice rsl j (j + w.length))

/-- frequencies of the spectrogram -/
noncomputable def freqsOf (w : List ℝ) (fs : ℝ) : List (Fl ℝ) :=
  (List.range (numFreqs w.length)).map fun (k : Nat) => .fin (k * fs / w.length)

theorem numFreqs_pos (n : Nat) (h : 0 < n) : 0 < numFreqs n := by
  unfold numFreqs; split_ifs <;> omega

theorem specgram_ok (w : List ℝ) (fs : ℝ) (rsl : List (Fl ℝ)) (h0 : 0 < w.length)
    (hn : w.length ≤ rsl.length) :
    specgram w fs rsl w.length = .ok (rowsOf w fs rsl, freqsOf w fs) := by
  unfold specgram
  rw [if_neg (by omega), Nat.sub_eq_zero_of_le hn]
  simp only [List.replicate_zero, List.append_nil]
  rfl

/-- the whole function on a series at least as long as the window, in terms of rows -/
theorem stft_ok (hasFind : Bool) (rsl : List (Fl ℝ)) (thr fd : Fl ℝ) (w : List ℝ) (fs : ℝ)
    (s e : Int) (h0 : 0 < w.length) (hn : w.length ≤ rsl.length) (f : Option (List (Fl ℝ))) :
    ∃ info, stft hasFind rsl w.length thr fd (some w) fs
        { tDryStart := some s, tDryStop := some e, f := f } =
      .ok ((List.range rsl.length).map fun t =>
        !(isNaN (sumDiff rsl.length (rowsOf w fs rsl) (freqsOf w fs) fd s e t)) &&
          thr <ᶠ (sumDiff rsl.length (rowsOf w fs rsl) (freqsOf w fs) fd s e t), info) ∧
      info.pSumDiff = ((List.range rsl.length).map fun t =>
        sumDiff rsl.length (rowsOf w fs rsl) (freqsOf w fs) fd s e t) ∧
      info.pxx = (rowsOf w fs rsl).map (extRow rsl.length) ∧ info.f = freqsOf w fs := by
  refine stft_core hasFind _ rsl w.length thr fd
    { tDryStart := some s, tDryStop := some e, f := f } (rowsOf w fs rsl) (freqsOf w fs) s e
    (rsl.length - w.length + 1) rfl ?_ rfl ?_ ?_ (by omega) (by simp [rowsOf, freqsOf])
  · unfold spectrumOf
    exact specgram_ok w fs rsl h0 hn
  · intro hc
    have h1 := congrArg List.length hc
    have := numFreqs_pos _ h0
    rw [rowsOf, List.length_map, List.length_range, List.length_nil] at h1
    omega
  · intro row hr
    obtain ⟨k, _, rfl⟩ := List.mem_map.mp hr
    simp

theorem rowsOf_getD (w : List ℝ) (fs : ℝ) (rsl : List (Fl ℝ)) (k : Nat) (hk : k < numFreqs w.length) :
    (rowsOf w fs rsl).getD k [] =
      (List.range (rsl.length - w.length + 1)).map fun j => psd w fs k (slice rsl j (j + w.length)) := by
  unfold rowsOf
  rw [List.getD_eq_getElem _ _ (by simpa using hk)]
  simp

/-- entry of the padded spectrogram -/
theorem ext_mid (w : List ℝ) (fs : ℝ) (rsl : List (Fl ℝ)) (h0 : 0 < w.length)
    (hn : w.length ≤ rsl.length) (k : Nat) (hk : k < numFreqs w.length) (t : Nat)
    (h1 : (w.length - 1) / 2 ≤ t) (h2 : t - (w.length - 1) / 2 + w.length ≤ rsl.length) :
    (extRow rsl.length ((rowsOf w fs rsl).getD k []))[t]? = some
      (psd w fs k (slice rsl (t - (w.length - 1) / 2) (t - (w.length - 1) / 2 + w.length))) := by
  rw [rowsOf_getD _ _ _ _ hk]
  set row := (List.range (rsl.length - w.length + 1)).map
    fun j => psd w fs k (slice rsl j (j + w.length)) with hrow
  have hl : row.length = rsl.length - w.length + 1 := by simp [hrow]
  have hp : (rsl.length - row.length) / 2 = (w.length - 1) / 2 := by omega
  have hm := extRow_mid (n := rsl.length) (row := row) (k := t - (w.length - 1) / 2) (by omega)
  rw [hp, show (w.length - 1) / 2 + (t - (w.length - 1) / 2) = t by omega] at hm
  rw [getElem?_eq_rd (by rw [extRow_length (by omega)]; omega), hm]
  congr 1
  apply rd_of_getElem?
  rw [hrow, List.getElem?_map, List.getElem?_range (by omega)]
  rfl

theorem mem_band {f : List (Fl ℝ)} {c : Fl ℝ → Bool} {r : Nat} (h : r ∈ band f c) : r < f.length := by
  unfold band at h
  exact List.mem_range.mp (List.mem_filter.mp h).1

theorem length_freqsOf (w : List ℝ) (fs : ℝ) : (freqsOf w fs).length = numFreqs w.length := by
  simp [freqsOf]

/-- two situations in which each row has the same relative power are classified alike -/
theorem sumDiff_congr {n n' : Nat} {P P' : List (List (Fl ℝ))} {f : List (Fl ℝ)} {fd : Fl ℝ}
    {s e s' e' : Int} {t t' : Nat} (h : ∀ r < f.length, quot n P s e r t = quot n' P' s' e' r t') :
    sumDiff n P f fd s e t = sumDiff n' P' f fd s' e' t' := by
  unfold sumDiff
  congr 2
  · congr 1
    exact List.map_congr_left fun r hr => h r (mem_band hr)
  · congr 1
    exact List.map_congr_left fun r hr => h r (mem_band hr)

end setup

/-! ### C96 the spectrogram, missing samples, short series -/

/-- **C96** Without `window` the Hamming window of length `window_length` is used. -/
theorem C96_default_window (hasFind : Bool) (rsl : List (Fl ℝ)) (wl : Nat) (thr fd : Fl ℝ) (fs : ℝ)
    (a : Args (Fl ℝ)) :
    stft hasFind rsl wl thr fd none fs a =
      stft hasFind rsl wl thr fd (some ((List.range wl).map fun (j : Nat) =>
        if wl = 1 then 1 else 0.54 - 0.46 * Real.cos (2 * Real.pi * j / ((wl : ℝ) - 1)))) fs a := by
  have : hamming wl = (List.range wl).map fun (j : Nat) =>
      if wl = 1 then 1 else 0.54 - 0.46 * Real.cos (2 * Real.pi * j / ((wl : ℝ) - 1)) := by
    unfold hamming
    split_ifs with h
    · subst h; rfl
    · refine List.map_congr_left fun j hj => ?_
      rw [List.mem_range] at hj
      have h1 : (wl : ℝ) - 1 ≠ 0 := by
        rw [sub_ne_zero]
        exact_mod_cast h
      have : Real.pi * ((1 : ℝ) - wl + 2 * j) / ((wl : ℝ) - 1) =
          2 * Real.pi * j / ((wl : ℝ) - 1) - Real.pi := by
        field_simp
        ring
      rw [this, Real.cos_sub_pi]
      ring
  unfold stft
  rw [Option.getD_none, Option.getD_some, this]

theorem slice_map {α β : Type} (g : α → β) (xs : List α) (a b : Nat) :
    slice (xs.map g) a b = (slice xs a b).map g := by
  unfold slice
  rw [List.map_drop, List.map_take]

theorem length_slice {α : Type} (xs : List α) (a n : Nat) (h : a + n ≤ xs.length) :
    (slice xs a (a + n)).length = n := by
  unfold slice
  rw [List.length_drop, List.length_take]
  omega

theorem getElem?_slice_lt {α : Type} (xs : List α) (a n i : Nat) (hi : i < n) :
    (slice xs a (a + n))[i]? = xs[a + i]? := by
  unfold slice
  rw [List.getElem?_drop, List.getElem?_take_of_lt (by omega)]

theorem slice_congr {α : Type} {xs ys : List α} {a b n : Nat} (ha : a + n ≤ xs.length)
    (hb : b + n ≤ ys.length) (h : ∀ i < n, xs[a + i]? = ys[b + i]?) :
    slice xs a (a + n) = slice ys b (b + n) := by
  apply List.ext_getElem?
  intro i
  by_cases hi : i < n
  · rw [getElem?_slice_lt _ _ _ _ hi, getElem?_slice_lt _ _ _ _ hi, h i hi]
  · rw [List.getElem?_eq_none (by rw [length_slice _ _ _ ha]; omega),
      List.getElem?_eq_none (by rw [length_slice _ _ _ hb]; omega)]

/-- **C96** The spectrogram returned for a finite series: row `k` belongs to the frequency `k * f_sampling /
window_length`, its entry at time `t` is the spectral density of the `window_length` samples around `t`. -/
theorem C96_spectrum (hasFind : Bool) (xs : List ℝ) (thr fd : Fl ℝ) (w : List ℝ) (fs : ℝ)
    (s e : Int) (h0 : ∃ v ∈ w, v ≠ 0) (hn : w.length ≤ xs.length) (hfs : fs ≠ 0) :
    ∃ wet info, stft hasFind (xs.map Fl.fin) w.length thr fd (some w) fs
        { tDryStart := some s, tDryStop := some e } = .ok (wet, info) ∧
      info.f.length = w.length / 2 + 1 ∧ info.pxx.length = w.length / 2 + 1 ∧
      ∀ k ≤ w.length / 2, info.f[k]? = some (.fin (k * fs / w.length)) ∧
        ∀ j, j + w.length ≤ xs.length →
          rd (info.pxx.getD k []) (j + (w.length - 1) / 2) =
            .fin (spectralDensity w fs k fun m => xs.getD (j + m) 0) := by
  have hpos : 0 < w.length := by
    obtain ⟨v, hv, _⟩ := h0
    exact List.length_pos_of_mem hv
  have hnf : numFreqs w.length = w.length / 2 + 1 := by
    unfold numFreqs; split_ifs <;> omega
  obtain ⟨info, h, _, hp, hf⟩ := stft_ok hasFind (xs.map Fl.fin) thr fd w fs s e hpos
    (by simpa using hn) none
  refine ⟨_, info, h, by rw [hf, length_freqsOf, hnf], by rw [hp]; simp [rowsOf, hnf], ?_⟩
  intro k hk
  have hk' : k < numFreqs w.length := by omega
  refine ⟨by rw [hf, freqsOf, List.getElem?_map, List.getElem?_range hk']; rfl, ?_⟩
  intro j hj
  have hg : info.pxx.getD k [] =
      extRow (xs.map Fl.fin).length ((rowsOf w fs (xs.map Fl.fin)).getD k []) := by
    rw [hp, List.getD_eq_getElem _ _ (by simpa [rowsOf] using hk'), List.getElem_map,
      List.getD_eq_getElem _ _ (by simpa [rowsOf] using hk')]
  have hm := ext_mid w fs (xs.map Fl.fin) hpos (by simpa using hn) k hk' (j + (w.length - 1) / 2)
    (by omega) (by rw [List.length_map]; omega)
  rw [Nat.add_sub_cancel] at hm
  rw [hg, rd_of_getElem? hm, slice_map, psd_fin w _ fs k (length_slice _ _ _ hj) hfs h0]
  congr 1
  unfold spectralDensity
  congr 4
  refine Finset.sum_congr rfl fun m hmm => ?_
  rw [Finset.mem_range] at hmm
  congr 3
  dsimp only
  rw [List.getD_eq_getElem?_getD, List.getD_eq_getElem?_getD, getElem?_slice_lt _ _ _ _ hmm]

theorem quot_nan_of_rd {n : Nat} {P : List (List (Fl ℝ))} {s e : Int} {r t : Nat}
    (h : rd (extRow n (P.getD r [])) t = .nan) : quot n P s e r t = .nan := by
  unfold quot
  rw [h, Fl.pf_nan_div]

/-- **C96** A sample is wet only if all `window_length` samples around it exist and none of them is NaN. -/
theorem C96_missing (hasFind : Bool) (rsl : List (Fl ℝ)) (thr fd : Fl ℝ) (w : List ℝ) (fs : ℝ)
    (s e : Int) (h0 : 0 < w.length) (hn : w.length ≤ rsl.length) :
    ∃ wet info, stft hasFind rsl w.length thr fd (some w) fs
        { tDryStart := some s, tDryStop := some e } = .ok (wet, info) ∧ wet.length = rsl.length ∧
      ∀ t : Nat, wet[t]? = some true → (w.length - 1) / 2 ≤ t ∧
        ∀ i < w.length, ∃ x, rsl[t - (w.length - 1) / 2 + i]? = some x ∧ isNaN x = false := by
  obtain ⟨info, h, _⟩ := stft_ok hasFind rsl thr fd w fs s e h0 hn none
  refine ⟨_, info, h, by simp, ?_⟩
  intro t ht
  have htn : t < rsl.length := by
    have := (List.getElem?_eq_some_iff.mp ht).1
    simpa using this
  rw [List.getElem?_map, List.getElem?_range htn] at ht
  simp only [Option.map_some, Option.some.injEq, Bool.and_eq_true, Bool.not_eq_true'] at ht
  have hnn := ht.1
  by_contra hcon
  have hnan : ∀ r, quot rsl.length (rowsOf w fs rsl) s e r t = .nan := by
    intro r
    apply quot_nan_of_rd
    by_cases hr : r < numFreqs w.length
    · have hl : ((rowsOf w fs rsl).getD r []).length = rsl.length - w.length + 1 := by
        rw [rowsOf_getD _ _ _ _ hr]; simp
      by_cases hin : (w.length - 1) / 2 ≤ t ∧ t - (w.length - 1) / 2 + w.length ≤ rsl.length
      · rw [rd_of_getElem? (ext_mid w fs rsl h0 hn r hr t hin.1 hin.2)]
        apply psd_nan _ _ _ _ (length_slice _ _ _ hin.2)
        by_contra hno
        refine hcon ⟨hin.1, fun i hi => ?_⟩
        have hlt : t - (w.length - 1) / 2 + i < rsl.length := by omega
        refine ⟨_, List.getElem?_eq_getElem hlt, ?_⟩
        rw [Bool.eq_false_iff]
        intro hx
        rw [Fl.isNaN_iff] at hx
        apply hno
        rw [← hx]
        apply List.mem_of_getElem? (i := i)
        rw [getElem?_slice_lt _ _ _ _ hi, List.getElem?_eq_getElem hlt]
      · apply extRow_pad (by rw [hl]; omega) htn
        rw [hl]
        omega
    · rw [List.getD_eq_default _ _ (by simp [rowsOf]; omega)]
      apply extRow_pad (by simp) htn
      simp; omega
  rw [sumDiff_nan_of_quot hnan] at hnn
  cases hnn

/-- **C96** A series shorter than the window is padded with zeros: at most the sample in the middle is wet. -/
theorem C96_short (hasFind : Bool) (rsl : List (Fl ℝ)) (thr fd : Fl ℝ) (w : List ℝ) (fs : ℝ)
    (s e : Int) (hn : rsl.length < w.length) (h0 : rsl ≠ []) :
    ∃ wet info, stft hasFind rsl w.length thr fd (some w) fs
        { tDryStart := some s, tDryStop := some e } = .ok (wet, info) ∧ wet.length = rsl.length ∧
      ∀ t : Nat, wet[t]? = some true → t = (rsl.length - 1) / 2 := by
  have hp := List.length_pos_of_ne_nil h0
  have hsp : specgram w fs rsl w.length = .ok ((List.range (numFreqs w.length)).map fun k =>
      (List.range 1).map fun j => psd w fs k (slice (rsl ++ List.replicate (w.length - rsl.length) (.fin 0))
        j (j + w.length)), freqsOf w fs) := by
    unfold specgram
    rw [if_neg (by omega)]
    dsimp only
    rw [show (rsl ++ List.replicate (w.length - rsl.length) (Fl.fin (0 : ℝ))).length - w.length + 1 = 1 by
      simp; omega]
    rfl
  obtain ⟨wet, info, h, hl, hpad⟩ := C56_padding hasFind (specgram w fs) rsl w.length thr fd
    { tDryStart := some s, tDryStop := some e } _ _ s e 1 rfl (Or.inr ⟨rfl, hsp⟩) (Or.inl ⟨rfl, rfl, rfl⟩)
    (by
      intro hc
      have h1 := congrArg List.length hc
      have := numFreqs_pos w.length (by omega)
      rw [List.length_map, List.length_range, List.length_nil] at h1
      omega)
    (by
      intro row hr
      obtain ⟨k, _, rfl⟩ := List.mem_map.mp hr
      simp)
    (by omega) (by simp [freqsOf])
  refine ⟨wet, info, h, hl, fun t ht => ?_⟩
  have htn : t < rsl.length := by
    have := (List.getElem?_eq_some_iff.mp ht).1
    omega
  by_contra hne
  rw [hpad t htn (by omega)] at ht
  cases ht

/-! ### C97 locality -/

theorem dry_slice (w : List ℝ) (fs : ℝ) (rsl : List (Fl ℝ)) (h0 : 0 < w.length)
    (hn : w.length ≤ rsl.length) (k : Nat) (hk : k < numFreqs w.length) (s m : Nat)
    (h1 : (w.length - 1) / 2 ≤ s) (h2 : s + m - (w.length - 1) / 2 + w.length ≤ rsl.length + 1) :
    pySlice (extRow rsl.length ((rowsOf w fs rsl).getD k [])) (s : Int) ((s + m : Nat) : Int) =
      (List.range m).map fun j => psd w fs k
        (slice rsl (s + j - (w.length - 1) / 2) (s + j - (w.length - 1) / 2 + w.length)) := by
  have hrl : ((rowsOf w fs rsl).getD k []).length = rsl.length - w.length + 1 := by
    rw [rowsOf_getD _ _ _ _ hk]; simp
  have hel := extRow_length (n := rsl.length) (row := (rowsOf w fs rsl).getD k []) (by omega)
  have hlen : (pySlice (extRow rsl.length ((rowsOf w fs rsl).getD k [])) (s : Int)
      ((s + m : Nat) : Int)).length = m := by
    unfold pySlice bound slice
    rw [hel, List.length_drop, List.length_take, hel]
    split_ifs <;> omega
  apply List.ext_getElem?
  intro j
  by_cases hj : j < m
  · rw [List.getElem?_map, List.getElem?_range hj]
    have := ext_mid w fs rsl h0 hn k hk (s + j) (by omega) (by omega)
    unfold pySlice bound slice
    rw [hel, List.getElem?_drop, if_neg (by omega), if_neg (by omega)]
    simp only [Int.toNat_natCast]
    rw [Nat.min_eq_left (by omega), Nat.min_eq_left (by omega), List.getElem?_take_of_lt (by omega), this]
    rfl
  · rw [List.getElem?_eq_none (by omega), List.getElem?_eq_none (by simp; omega)]

/-- **C97** The flag (and the classified quantity) of sample `t` is determined by the `window_length` samples around it
and by the samples of the windows around the dry period: they are the same for any other series and time where those
samples are the same. In particular samples elsewhere have no effect, and shifting the series in time shifts the flags. -/
theorem C97_local (hasFind : Bool) (rsl rsl' : List (Fl ℝ)) (thr fd : Fl ℝ) (w : List ℝ) (fs : ℝ)
    (s s' m t t' : Nat) (h0 : 0 < w.length)
    (hs : (w.length - 1) / 2 ≤ s) (hs' : (w.length - 1) / 2 ≤ s')
    (ht : (w.length - 1) / 2 ≤ t) (ht' : (w.length - 1) / 2 ≤ t')
    (hse : s + m - (w.length - 1) / 2 + w.length ≤ rsl.length + 1)
    (hse' : s' + m - (w.length - 1) / 2 + w.length ≤ rsl'.length + 1)
    (hte : t - (w.length - 1) / 2 + w.length ≤ rsl.length)
    (hte' : t' - (w.length - 1) / 2 + w.length ≤ rsl'.length)
    (hwin : ∀ i < w.length,
      rsl[t - (w.length - 1) / 2 + i]? = rsl'[t' - (w.length - 1) / 2 + i]?)
    (hdry : ∀ i, i + 1 < m + w.length →
      rsl[s - (w.length - 1) / 2 + i]? = rsl'[s' - (w.length - 1) / 2 + i]?) :
    ∃ wet info wet' info',
      stft hasFind rsl w.length thr fd (some w) fs
        { tDryStart := some (s : Int), tDryStop := some ((s + m : Nat) : Int) } = .ok (wet, info) ∧
      stft hasFind rsl' w.length thr fd (some w) fs
        { tDryStart := some (s' : Int), tDryStop := some ((s' + m : Nat) : Int) } = .ok (wet', info') ∧
      (∃ b, wet[t]? = some b ∧ wet'[t']? = some b) ∧
      ∃ d, info.pSumDiff[t]? = some d ∧ info'.pSumDiff[t']? = some d := by
  obtain ⟨info, h, hd, _⟩ := stft_ok hasFind rsl thr fd w fs s ((s + m : Nat) : Int) h0 (by omega) none
  obtain ⟨info', h', hd', _⟩ := stft_ok hasFind rsl' thr fd w fs s' ((s' + m : Nat) : Int) h0 (by omega) none
  have key : sumDiff rsl.length (rowsOf w fs rsl) (freqsOf w fs) fd s ((s + m : Nat) : Int) t =
      sumDiff rsl'.length (rowsOf w fs rsl') (freqsOf w fs) fd s' ((s' + m : Nat) : Int) t' := by
    apply sumDiff_congr
    intro r hr
    rw [length_freqsOf] at hr
    unfold quot
    rw [dry_slice w fs rsl h0 (by omega) r hr s m hs hse,
      dry_slice w fs rsl' h0 (by omega) r hr s' m hs' hse',
      rd_of_getElem? (ext_mid w fs rsl h0 (by omega) r hr t ht hte),
      rd_of_getElem? (ext_mid w fs rsl' h0 (by omega) r hr t' ht' hte'),
      slice_congr hte hte' hwin]
    congr 2
    refine List.map_congr_left fun j hj => ?_
    rw [List.mem_range] at hj
    congr 1
    apply slice_congr (by omega) (by omega)
    intro i hi
    have := hdry (j + i) (by omega)
    rw [show s + j - (w.length - 1) / 2 + i = s - (w.length - 1) / 2 + (j + i) by omega, this]
    congr 1
    omega
  refine ⟨_, info, _, info', h, h',
    ⟨!(isNaN (sumDiff rsl.length (rowsOf w fs rsl) (freqsOf w fs) fd s ((s + m : Nat) : Int) t)) &&
      thr <ᶠ (sumDiff rsl.length (rowsOf w fs rsl) (freqsOf w fs) fd s ((s + m : Nat) : Int) t), ?_, ?_⟩,
    ⟨sumDiff rsl.length (rowsOf w fs rsl) (freqsOf w fs) fd s ((s + m : Nat) : Int) t, ?_, ?_⟩⟩
  · rw [List.getElem?_map, List.getElem?_range (by omega)]; rfl
  · rw [List.getElem?_map, List.getElem?_range (by omega), key]; rfl
  · rw [hd, List.getElem?_map, List.getElem?_range (by omega)]; rfl
  · rw [hd', List.getElem?_map, List.getElem?_range (by omega), key]; rfl

end Verif.Props
