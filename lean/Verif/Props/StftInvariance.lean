import Verif.Props.StftSpectrum
import Mathlib.Analysis.Complex.Norm

/-!
# C98, C99: scaling and reversing the signal, constant offsets, steady signals
-/

namespace Verif.Props
open Verif Verif.Stft

/-! ### C98 scaling -/

/-- The samples are numbers or NaN. -/
def NoInf (xs : List (Fl ℝ)) : Prop := ∀ x ∈ xs, x = .nan ∨ ∃ r, x = .fin r

theorem NoInf.cases {xs : List (Fl ℝ)} (h : NoInf xs) : Fl.nan ∈ xs ∨ ∃ ys : List ℝ, xs = ys.map Fl.fin := by
  induction xs with
  | nil => exact Or.inr ⟨[], rfl⟩
  | cons x xs ih =>
    rcases h x (List.mem_cons_self ..) with rfl | ⟨r, rfl⟩
    · exact Or.inl (List.mem_cons_self ..)
    · rcases ih fun y hy => h y (List.mem_cons_of_mem _ hy) with h1 | ⟨ys, rfl⟩
      · exact Or.inl (List.mem_cons_of_mem _ h1)
      · exact Or.inr ⟨r :: ys, rfl⟩

theorem NoInf.slice {xs : List (Fl ℝ)} (h : NoInf xs) (a b : Nat) : NoInf (slice xs a b) :=
  fun x hx => h x (List.mem_of_mem_take (List.mem_of_mem_drop hx))

theorem spectralDensity_congr {w : List ℝ} {fs : ℝ} {k : Nat} {x y : Nat → ℝ}
    (h : ∀ m < w.length, x m = y m) : spectralDensity w fs k x = spectralDensity w fs k y := by
  unfold spectralDensity
  congr 4
  refine Finset.sum_congr rfl fun m hm => ?_
  rw [h m (Finset.mem_range.mp hm)]

theorem spectralDensity_scale (w : List ℝ) (fs : ℝ) (k : Nat) (x : Nat → ℝ) (c : ℝ) :
    spectralDensity w fs k (fun m => c * x m) = c ^ 2 * spectralDensity w fs k x := by
  unfold spectralDensity
  have : ∑ m ∈ Finset.range w.length, ((c * x m * w.getD m 0 : ℝ) : ℂ) *
      Complex.exp (-(2 * Real.pi * k * m / w.length : ℝ) * Complex.I) =
      (c : ℂ) * ∑ m ∈ Finset.range w.length, ((x m * w.getD m 0 : ℝ) : ℂ) *
      Complex.exp (-(2 * Real.pi * k * m / w.length : ℝ) * Complex.I) := by
    rw [Finset.mul_sum]
    refine Finset.sum_congr rfl fun m _ => ?_
    push_cast
    ring
  rw [this, norm_mul, mul_pow, Complex.norm_real, Real.norm_eq_abs, sq_abs]
  ring

theorem psd_scale (w : List ℝ) (fs : ℝ) (k : Nat) (seg : List (Fl ℝ)) (c : ℝ) (hc : c ≠ 0)
    (h : seg.length = w.length) (hfs : fs ≠ 0) (hw : ∃ v ∈ w, v ≠ 0) (hseg : NoInf seg) :
    psd w fs k (seg.map (Fl.fin c *ᶠ ·)) = Fl.fin (c ^ 2) *ᶠ psd w fs k seg := by
  rcases hseg.cases with hn | ⟨ys, rfl⟩
  · rw [psd_nan w fs k seg h hn, psd_nan w fs k _ (by simpa using h)]
    · simp
    · exact List.mem_map.mpr ⟨_, hn, by simp⟩
  · have e : (ys.map Fl.fin).map (Fl.fin c *ᶠ ·) = (ys.map (c * ·)).map Fl.fin := by simp
    rw [List.length_map] at h
    rw [e, psd_fin w _ fs k (by simpa using h) hfs hw, psd_fin w _ fs k h hfs hw, Fl.pf_mul_fin,
      ← spectralDensity_scale]
    congr 1
    apply spectralDensity_congr
    intro m hm
    rw [← h] at hm
    simp [List.getD_eq_getElem?_getD, List.getElem?_eq_getElem hm]

/-- **C98** Multiplying the signal by a constant other than 0 (also a negative one, which exchanges levels and
attenuations) does not change the classification, nor whether an exception is raised. -/
theorem C98_scale (hasFind : Bool) (rsl : List (Fl ℝ)) (wl : Nat) (thr fd : Fl ℝ) (w : List ℝ)
    (hw : ∃ v ∈ w, v ≠ 0) (fs : ℝ) (hfs : fs ≠ 0) (s e : Int) (hrsl : NoInf rsl) (c : ℝ) (hc : c ≠ 0) :
    (stft hasFind (rsl.map (Fl.fin c *ᶠ ·)) wl thr fd (some w) fs
      { tDryStart := some s, tDryStop := some e }).map (·.1) =
    (stft hasFind rsl wl thr fd (some w) fs
      { tDryStart := some s, tDryStop := some e }).map (·.1) := by
  unfold stft
  rw [Option.getD_some]
  by_cases hwl : w.length ≠ wl ∨ wl = 0
  · have : ∀ r, specgram w fs r wl = .error .valueError := fun r => by
      unfold specgram
      rw [if_pos hwl]
    unfold stftClassification spectrumOf
    simp [this]
  · push Not at hwl
    obtain ⟨rfl, hwl⟩ := hwl
    have hcpos : 0 < c ^ 2 := by positivity
    obtain ⟨P, f, hP⟩ : ∃ P f, specgram w fs rsl w.length = .ok (P, f) := by
      unfold specgram
      rw [if_neg (by push Not; exact ⟨rfl, hwl⟩)]
      exact ⟨_, _, rfl⟩
    have hP' : specgram w fs (rsl.map (Fl.fin c *ᶠ ·)) w.length =
        .ok (P.map fun row => row.map fun x => Fl.fin (c ^ 2) *ᶠ x, f) := by
      unfold specgram at hP ⊢
      rw [if_neg (by push Not; exact ⟨rfl, hwl⟩)] at hP ⊢
      injection hP with hP
      obtain ⟨rfl, rfl⟩ := Prod.mk.inj hP
      have hx : rsl.map (Fl.fin c *ᶠ ·) ++ List.replicate (w.length - rsl.length) (Fl.fin 0) =
          (rsl ++ List.replicate (w.length - rsl.length) (Fl.fin 0)).map (Fl.fin c *ᶠ ·) := by
        simp
      dsimp only
      rw [List.length_map, hx, List.length_map, List.map_map]
      congr 2
      refine List.map_congr_left fun k _ => ?_
      rw [Function.comp_apply, List.map_map]
      refine List.map_congr_left fun j hj => ?_
      rw [List.mem_range] at hj
      rw [Function.comp_apply, slice_map]
      apply psd_scale _ _ _ _ _ hc _ hfs hw
      · apply NoInf.slice
        intro x hx
        rcases List.mem_append.mp hx with h | h
        · exact hrsl x h
        · exact Or.inr ⟨0, (List.mem_replicate.mp h).2⟩
      · apply length_slice
        simp only [List.length_append, List.length_replicate] at hj ⊢
        omega
    rw [C56_computed hasFind _ _ w.length thr fd { tDryStart := some s, tDryStop := some e } rfl rfl _ _ hP',
      C56_computed hasFind _ _ w.length thr fd { tDryStart := some s, tDryStop := some e } rfl rfl _ _ hP]
    rw [← C56_scale hasFind (specgram w fs) rsl w.length thr fd
      { tDryStart := some s, tDryStop := some e, pxx := some P, f := some f } P rfl (c ^ 2) hcpos]
    unfold stftClassification
    have hl : (rsl.map (Fl.fin c *ᶠ ·)).length = rsl.length := List.length_map ..
    unfold spectrumOf dryPeriod
    dsimp only
    rw [hl]

/-! ### C98 time reversal -/

theorem spectralDensity_reverse (w : List ℝ) (hw : w.reverse = w) (fs : ℝ) (k : Nat) (x : Nat → ℝ) :
    spectralDensity w fs k (fun m => x (w.length - 1 - m)) = spectralDensity w fs k x := by
  have hsym : ∀ m < w.length, w.getD (w.length - 1 - m) 0 = w.getD m 0 := by
    intro m hm
    conv_rhs => rw [← hw]
    rw [List.getD_eq_getElem?_getD, List.getD_eq_getElem?_getD, List.getElem?_reverse hm]
  unfold spectralDensity
  congr 3
  set θ : ℕ → ℝ := fun m => 2 * Real.pi * k * m / w.length with hθ
  have e1 : ∑ m ∈ Finset.range w.length, ((x (w.length - 1 - m) * w.getD m 0 : ℝ) : ℂ) *
        Complex.exp (-(θ m : ℝ) * Complex.I) =
      ∑ m ∈ Finset.range w.length, ((x m * w.getD m 0 : ℝ) : ℂ) *
        Complex.exp (-(θ (w.length - 1 - m) : ℝ) * Complex.I) := by
    rw [← Finset.sum_range_reflect]
    refine Finset.sum_congr rfl fun m hm => ?_
    rw [Finset.mem_range] at hm
    rw [hsym m hm, show w.length - 1 - (w.length - 1 - m) = m by omega]
  have e2 : ∑ m ∈ Finset.range w.length, ((x m * w.getD m 0 : ℝ) : ℂ) *
        Complex.exp (-(θ (w.length - 1 - m) : ℝ) * Complex.I) =
      Complex.exp (-(θ (w.length - 1) : ℝ) * Complex.I) *
        (starRingEnd ℂ) (∑ m ∈ Finset.range w.length, ((x m * w.getD m 0 : ℝ) : ℂ) *
          Complex.exp (-(θ m : ℝ) * Complex.I)) := by
    rw [map_sum, Finset.mul_sum]
    refine Finset.sum_congr rfl fun m hm => ?_
    rw [Finset.mem_range] at hm
    rw [map_mul, Complex.conj_ofReal, ← Complex.exp_conj, mul_left_comm, ← Complex.exp_add]
    congr 2
    rw [map_mul, map_neg, Complex.conj_ofReal, Complex.conj_I, hθ]
    have : ((w.length - 1 - m : ℕ) : ℝ) = ((w.length - 1 : ℕ) : ℝ) - m := by
      rw [Nat.cast_sub (by omega)]
    dsimp only
    rw [this]
    push_cast
    ring
  have e3 : ‖Complex.exp (-(θ (w.length - 1) : ℝ) * Complex.I)‖ = 1 := by
    rw [← Complex.ofReal_neg]
    exact Complex.norm_exp_ofReal_mul_I _
  show ‖∑ m ∈ Finset.range w.length, ((x (w.length - 1 - m) * w.getD m 0 : ℝ) : ℂ) *
    Complex.exp (-(θ m : ℝ) * Complex.I)‖ = _
  rw [e1, e2, norm_mul, e3, one_mul, Complex.norm_conj]

theorem psd_reverse (w : List ℝ) (hsym : w.reverse = w) (fs : ℝ) (k : Nat) (seg : List (Fl ℝ))
    (h : seg.length = w.length) (hfs : fs ≠ 0) (hw : ∃ v ∈ w, v ≠ 0) (hseg : NoInf seg) :
    psd w fs k seg.reverse = psd w fs k seg := by
  rcases hseg.cases with hn | ⟨ys, rfl⟩
  · rw [psd_nan w fs k seg h hn, psd_nan w fs k _ (by simpa using h) (List.mem_reverse.mpr hn)]
  · rw [List.length_map] at h
    rw [← List.map_reverse, psd_fin w _ fs k (by simpa using h) hfs hw, psd_fin w _ fs k h hfs hw,
      ← spectralDensity_reverse w hsym fs k fun m => ys.getD m 0]
    congr 1
    apply spectralDensity_congr
    intro m hm
    rw [List.getD_eq_getElem?_getD, List.getD_eq_getElem?_getD, List.getElem?_reverse (by omega), h]

theorem slice_reverse {α : Type} (xs : List α) (a b : Nat) (hab : a ≤ b) (hb : b ≤ xs.length) :
    slice xs.reverse (xs.length - b) (xs.length - a) = (slice xs a b).reverse := by
  unfold slice
  rw [List.take_reverse, List.drop_reverse, List.length_drop]
  congr 1
  rw [show xs.length - (xs.length - a) = a by omega, show xs.length - a - (xs.length - b) = b - a by omega,
    List.drop_take]

theorem extRow_reverse {n : Nat} {row : List (Fl ℝ)} (h : (n - row.length) % 2 = 0) :
    extRow n row.reverse = (extRow n row).reverse := by
  unfold extRow
  simp only [List.reverse_append, List.reverse_replicate, List.length_reverse, List.append_assoc]
  congr 2
  · congr 1; omega
  · congr 1; omega

theorem npNanmean_reverse (xs : List (Fl ℝ)) : npNanmean xs.reverse = npNanmean xs := by
  unfold npNanmean
  exact Stats.npMean_perm ((List.reverse_perm xs).filter _)

/-- **C98** For an odd window length and a symmetric window, the reversed signal with the reversed dry period gets the
reversed flags. -/
theorem C98_reverse (hasFind : Bool) (rsl : List (Fl ℝ)) (thr fd : Fl ℝ) (w : List ℝ)
    (hw : ∃ v ∈ w, v ≠ 0) (hsym : w.reverse = w) (hodd : w.length % 2 = 1) (fs : ℝ) (hfs : fs ≠ 0)
    (s e : Nat) (hse : s ≤ e) (he : e ≤ rsl.length) (hn : w.length ≤ rsl.length) (hrsl : NoInf rsl) :
    ∃ wet info info', stft hasFind rsl w.length thr fd (some w) fs
        { tDryStart := some (s : Int), tDryStop := some (e : Int) } = .ok (wet, info) ∧
      stft hasFind rsl.reverse w.length thr fd (some w) fs
        { tDryStart := some ((rsl.length - e : Nat) : Int),
          tDryStop := some ((rsl.length - s : Nat) : Int) } = .ok (wet.reverse, info') := by
  have h0 : 0 < w.length := by omega
  obtain ⟨info, h, _⟩ := stft_ok hasFind rsl thr fd w fs s e h0 hn none
  obtain ⟨info', h', _⟩ := stft_ok hasFind rsl.reverse thr fd w fs ((rsl.length - e : Nat) : Int)
    ((rsl.length - s : Nat) : Int) h0 (by simpa using hn) none
  refine ⟨_, info, info', h, ?_⟩
  rw [h']
  congr 2
  have hrow : ∀ r < numFreqs w.length, (rowsOf w fs rsl.reverse).getD r [] =
      ((rowsOf w fs rsl).getD r []).reverse := by
    intro r hr
    rw [rowsOf_getD _ _ _ _ hr, rowsOf_getD _ _ _ _ hr, List.length_reverse]
    apply List.ext_getElem
    · simp
    · intro j h1 h2
      simp only [List.length_map, List.length_range] at h1
      simp only [List.getElem_map, List.getElem_range, List.getElem_reverse, List.length_map,
        List.length_range]
      have hj : rsl.length - w.length + 1 - 1 - j = rsl.length - w.length - j := by omega
      rw [hj, ← psd_reverse w hsym fs r (slice rsl _ _) (length_slice _ _ _ (by omega)) hfs hw
        (hrsl.slice _ _), ← slice_reverse _ _ _ (by omega) (by omega)]
      congr 2 <;> omega
  have hq : ∀ r < numFreqs w.length, ∀ t < rsl.length,
      quot rsl.reverse.length (rowsOf w fs rsl.reverse) ((rsl.length - e : Nat) : Int)
        ((rsl.length - s : Nat) : Int) r (rsl.length - 1 - t) =
      quot rsl.length (rowsOf w fs rsl) s e r t := by
    intro r hr t ht
    have hl : ((rowsOf w fs rsl).getD r []).length = rsl.length - w.length + 1 := by
      rw [rowsOf_getD _ _ _ _ hr]; simp
    unfold quot
    rw [hrow r hr, List.length_reverse, extRow_reverse (by omega)]
    have hel := extRow_length (n := rsl.length) (row := (rowsOf w fs rsl).getD r []) (by omega)
    set x := extRow rsl.length ((rowsOf w fs rsl).getD r []) with hx
    have e1 : rd x.reverse (rsl.length - 1 - t) = rd x t := by
      apply rd_of_getElem?
      rw [List.getElem?_reverse (by omega), hel, show rsl.length - 1 - (rsl.length - 1 - t) = t by omega,
        getElem?_eq_rd (by omega)]
    have e2 : pySlice x.reverse ((rsl.length - e : Nat) : Int) ((rsl.length - s : Nat) : Int) =
        (pySlice x s e).reverse := by
      unfold pySlice bound
      rw [List.length_reverse, hel, if_neg (by omega), if_neg (by omega), if_neg (by omega),
        if_neg (by omega)]
      simp only [Int.toNat_natCast]
      rw [Nat.min_eq_left (by omega), Nat.min_eq_left (by omega), Nat.min_eq_left (by omega),
        Nat.min_eq_left (by omega), ← slice_reverse x s e hse (by omega), hel]
    rw [e1, e2, npNanmean_reverse]
  have hD : ∀ t < rsl.length,
      sumDiff rsl.reverse.length (rowsOf w fs rsl.reverse) (freqsOf w fs) fd
        ((rsl.length - e : Nat) : Int) ((rsl.length - s : Nat) : Int) (rsl.length - 1 - t) =
      sumDiff rsl.length (rowsOf w fs rsl) (freqsOf w fs) fd s e t := by
    intro t ht
    apply sumDiff_congr
    intro r hr
    rw [length_freqsOf] at hr
    exact hq r hr t ht
  apply List.ext_getElem
  · simp
  · intro t h1 h2
    simp only [List.length_map, List.length_range, List.length_reverse] at h1
    simp only [List.getElem_map, List.getElem_range, List.getElem_reverse, List.length_map,
      List.length_range]
    rw [← hD (rsl.length - 1 - t) (by omega), show rsl.length - 1 - (rsl.length - 1 - t) = t by omega]

/-- The Hamming window is symmetric and positive, so that it meets the assumptions on `w` here. -/
theorem hamming_props (M : Nat) : (hamming M).length = M ∧ (hamming M).reverse = hamming M ∧
    ∀ v ∈ hamming M, 0 < v := by
  unfold hamming
  split_ifs with h
  · subst h; simp
  · refine ⟨by simp, ?_, ?_⟩
    · apply List.ext_getElem
      · simp
      · intro i h1 h2
        simp only [List.length_map, List.length_range, List.length_reverse] at h1
        simp only [List.getElem_reverse, List.getElem_map, List.getElem_range, List.length_map,
          List.length_range]
        congr 2
        rw [← Real.cos_neg]
        congr 1
        have : ((M - 1 - i : ℕ) : ℝ) = M - 1 - i := by
          rw [Nat.cast_sub (by omega), Nat.cast_sub (by omega)]
          simp
        rw [this, ← neg_div]
        congr 1
        ring
    · intro v hv
      obtain ⟨j, _, rfl⟩ := List.mem_map.mp hv
      have := Real.neg_one_le_cos (Real.pi * ((1 : ℝ) - M + 2 * j) / ((M : ℝ) - 1))
      norm_num
      linarith

/-! ### C98 constant offsets -/

theorem spectralDensity_two (v : ℝ) (hv : v ≠ 0) (fs : ℝ) (hfs : fs ≠ 0) (x : Nat → ℝ) :
    spectralDensity [v, v] fs 0 x = (x 0 + x 1) ^ 2 / (2 * fs) ∧
    spectralDensity [v, v] fs 1 x = (x 0 - x 1) ^ 2 / (2 * fs) := by
  have e : Complex.exp (-(Real.pi : ℂ) * Complex.I) = -1 := by
    rw [neg_mul, Complex.exp_neg, Complex.exp_pi_mul_I]
    norm_num
  constructor
  · unfold spectralDensity
    simp only [List.length_cons, List.length_nil, Finset.sum_range_succ, Finset.sum_range_zero]
    simp only [Nat.cast_zero, mul_zero, zero_mul, zero_div, Complex.ofReal_zero, neg_zero, zero_mul,
      Complex.exp_zero, mul_one, zero_add, List.getD_cons_zero, List.getD_cons_succ, true_or, if_true]
    rw [← Complex.ofReal_add, Complex.norm_real, Real.norm_eq_abs, sq_abs, one_mul]
    field_simp
    ring
  · unfold spectralDensity
    simp only [List.length_cons, List.length_nil, Finset.sum_range_succ, Finset.sum_range_zero]
    have h1 : (2 * Real.pi * ((1 : ℕ) : ℝ) * ((1 : ℕ) : ℝ) / ((0 + 1 + 1 : ℕ) : ℝ)) = Real.pi := by
      push_cast
      ring
    rw [h1, e]
    simp only [Nat.cast_zero, mul_zero, zero_div, Complex.ofReal_zero, neg_zero, zero_mul,
      Complex.exp_zero, mul_one, zero_add, List.getD_cons_zero, List.getD_cons_succ]
    rw [if_pos (by norm_num), mul_neg, mul_one, ← sub_eq_add_neg, ← Complex.ofReal_sub, Complex.norm_real,
      Real.norm_eq_abs, sq_abs, one_mul]
    field_simp
    ring

theorem two_sumDiff (xs : List ℝ) (v : ℝ) (hv : v ≠ 0) (fs fd : ℝ) (hfs : 0 < fs) (h1 : 0 ≤ fd)
    (h2 : fd < fs / 2) (t : Nat) (ht : t + 2 ≤ xs.length) (x0 x1 y0 y1 : ℝ)
    (hx0 : xs[0]? = some x0) (hx1 : xs[1]? = some x1) (hy0 : xs[t]? = some y0)
    (hy1 : xs[t + 1]? = some y1) (ha : x0 + x1 ≠ 0) (hb : x0 - x1 ≠ 0) :
    sumDiff (xs.map Fl.fin).length (rowsOf [v, v] fs (xs.map Fl.fin)) (freqsOf [v, v] fs) (.fin fd)
      ((0 : Nat) : Int) ((0 + 1 : Nat) : Int) t =
      .fin ((y0 + y1) ^ 2 / (x0 + x1) ^ 2 - (y0 - y1) ^ 2 / (x0 - x1) ^ 2) := by
  have hf : freqsOf [v, v] fs = [.fin 0, .fin (fs / 2)] := by
    simp [freqsOf, numFreqs, List.range_succ]
  have hseg : ∀ k j : Nat, j + 2 ≤ xs.length →
      psd [v, v] fs k (slice (xs.map Fl.fin) j (j + 2)) =
        .fin (spectralDensity [v, v] fs k fun m => (slice xs j (j + 2)).getD m 0) := by
    intro k j hj
    have hl : (slice xs j (j + 2)).length = [v, v].length := length_slice _ _ _ hj
    rw [slice_map, psd_fin [v, v] _ fs k hl hfs.ne' ⟨v, by simp, hv⟩]
  have hget : ∀ j i : Nat, i < 2 → ∀ y, xs[j + i]? = some y → (slice xs j (j + 2)).getD i 0 = y := by
    intro j i hi y hy
    rw [List.getD_eq_getElem?_getD, getElem?_slice_lt _ _ _ _ hi, hy]
    rfl
  have hq : ∀ k < 2, ∀ p q : ℝ,
      (spectralDensity [v, v] fs k fun m => (slice xs t (t + 2)).getD m 0) = p →
      (spectralDensity [v, v] fs k fun m => (slice xs 0 (0 + 2)).getD m 0) = q → q ≠ 0 →
      quot (xs.map Fl.fin).length (rowsOf [v, v] fs (xs.map Fl.fin)) ((0 : Nat) : Int)
        ((0 + 1 : Nat) : Int) k t = .fin (p / q) := by
    intro k hk p q hp hq hq0
    unfold quot
    rw [dry_slice [v, v] fs (xs.map Fl.fin) (by simp) (by simp; omega) k (by simpa [numFreqs] using hk) 0 1
      (by simp) (by simp; omega),
      rd_of_getElem? (ext_mid [v, v] fs (xs.map Fl.fin) (by simp) (by simp; omega) k
        (by simpa [numFreqs] using hk) t (by simp) (by simp; omega))]
    have e1 : psd [v, v] fs k (slice (xs.map Fl.fin) (t - ([v, v].length - 1) / 2)
        (t - ([v, v].length - 1) / 2 + [v, v].length)) = .fin p := by
      have : t - ([v, v].length - 1) / 2 = t := by simp
      rw [← hp, ← hseg k t ht, this]; rfl
    have e2 : psd [v, v] fs k (slice (xs.map Fl.fin) (0 + 0 - ([v, v].length - 1) / 2)
        (0 + 0 - ([v, v].length - 1) / 2 + [v, v].length)) = .fin q := by
      have : 0 + 0 - ([v, v].length - 1) / 2 = 0 := by simp
      rw [← hq, ← hseg k 0 (by omega), this]; rfl
    rw [e1, show List.range 1 = [0] from rfl, List.map_cons, List.map_nil, e2]
    have : npNanmean [Fl.fin q] = .fin q := by
      unfold npNanmean
      rw [List.filter_cons_of_pos (by rfl), List.filter_nil, npMean_singleton]
    rw [this, Fl.pf_div_fin, if_neg hq0]
  obtain ⟨a1, a2⟩ := spectralDensity_two v hv fs hfs.ne' fun m => (slice xs t (t + 2)).getD m 0
  obtain ⟨b1, b2⟩ := spectralDensity_two v hv fs hfs.ne' fun m => (slice xs 0 (0 + 2)).getD m 0
  rw [hget t 0 (by norm_num) y0 hy0, hget t 1 (by norm_num) y1 hy1] at a1 a2
  rw [hget 0 0 (by norm_num) x0 hx0, hget 0 1 (by norm_num) x1 (by simpa using hx1)] at b1 b2
  have hq0 := hq 0 (by norm_num) _ _ a1 b1 (by positivity)
  have hq1 := hq 1 (by norm_num) _ _ a2 b2 (by positivity)
  have hl : band (freqsOf [v, v] fs) (· ≤ᶠ Fl.fin fd) = [0] := by
    rw [hf]
    simp [band, List.range_succ, rd, h1, h2]
  have hh : band (freqsOf [v, v] fs) (Fl.fin fd <ᶠ ·) = [1] := by
    rw [hf]
    simp [band, List.range_succ, rd, h1, h2]
  unfold sumDiff
  rw [hl, hh, List.map_cons, List.map_nil, List.map_cons, List.map_nil, npMean_singleton, npMean_singleton,
    hq0, hq1, Fl.pf_ofInt, Fl.pf_div_fin, Fl.pf_div_fin, if_neg (by norm_num), if_neg (by norm_num),
    Fl.pf_sub_fin]
  congr 1
  field_simp
  push_cast
  ring

/-- **C98** Adding a constant to the signal can change the classification: the last sample but one of the series 1, 0, 2, 2
(windows of 2 samples, default window and sampling frequency, dry period the first sample, threshold 2) is wet, and
after adding 10 to all samples it is dry. -/
theorem C98_offset (hasFind : Bool) : ∃ wet info wet' info',
    stft hasFind [.fin 1, .fin 0, .fin 2, .fin 2] 2 (.fin 2) (.fin (1 / 240)) none (1 / 60)
      { tDryStart := some 0, tDryStop := some 1 } = .ok (wet, info) ∧
    stft hasFind [.fin 11, .fin 10, .fin 12, .fin 12] 2 (.fin 2) (.fin (1 / 240)) none (1 / 60)
      { tDryStart := some 0, tDryStop := some 1 } = .ok (wet', info') ∧
    wet[2]? = some true ∧ wet'[2]? = some false := by
  have hw : hamming 2 = [0.08, 0.08] := by
    unfold hamming
    norm_num [List.range_succ]
  have h2 : ∀ r : List (Fl ℝ), stft hasFind r 2 (.fin 2) (.fin (1 / 240)) none (1 / 60)
      { tDryStart := some 0, tDryStop := some 1 } =
      stft hasFind r ([0.08, 0.08] : List ℝ).length (.fin 2) (.fin (1 / 240)) (some [0.08, 0.08]) (1 / 60)
      { tDryStart := some ((0 : Nat) : Int), tDryStop := some ((0 + 1 : Nat) : Int) } := by
    intro r
    unfold stft
    rw [Option.getD_none, hw]
    rfl
  obtain ⟨info, h, _⟩ := stft_ok hasFind (([1, 0, 2, 2] : List ℝ).map Fl.fin) (.fin 2) (.fin (1 / 240))
    [0.08, 0.08] (1 / 60) ((0 : Nat) : Int) ((0 + 1 : Nat) : Int) (by simp) (by simp) none
  obtain ⟨info', h', _⟩ := stft_ok hasFind (([11, 10, 12, 12] : List ℝ).map Fl.fin) (.fin 2) (.fin (1 / 240))
    [0.08, 0.08] (1 / 60) ((0 : Nat) : Int) ((0 + 1 : Nat) : Int) (by simp) (by simp) none
  refine ⟨_, info, _, info', (h2 _).trans h, (h2 _).trans h', ?_, ?_⟩
  · rw [List.getElem?_map, List.getElem?_range (by simp), Option.map_some,
      two_sumDiff [1, 0, 2, 2] 0.08 (by norm_num) (1 / 60) (1 / 240) (by norm_num) (by norm_num) (by norm_num) 2
        (by simp) 1 0 2 2 rfl rfl rfl rfl (by norm_num) (by norm_num)]
    norm_num
  · rw [List.getElem?_map, List.getElem?_range (by simp), Option.map_some,
      two_sumDiff [11, 10, 12, 12] 0.08 (by norm_num) (1 / 60) (1 / 240) (by norm_num) (by norm_num) (by norm_num) 2
        (by simp) 11 10 12 12 rfl rfl rfl rfl (by norm_num) (by norm_num)]
    norm_num

/-! ### C99 steady signals -/

theorem spectralDensity_nonneg (w : List ℝ) (fs : ℝ) (hfs : 0 < fs) (k : Nat) (x : Nat → ℝ) :
    0 ≤ spectralDensity w fs k x := by
  unfold spectralDensity
  have h1 : (0 : ℝ) ≤ if k = 0 ∨ 2 * k = w.length then 1 else 2 := by split_ifs <;> norm_num
  have h2 : 0 ≤ ∑ m ∈ Finset.range w.length, w.getD m 0 ^ 2 := Finset.sum_nonneg fun _ _ => sq_nonneg _
  positivity

theorem npMean_ones {l : List (Fl ℝ)} (h : ∀ x ∈ l, x = .fin 1 ∨ x = .nan) :
    npMean l = .fin 1 ∨ npMean l = .nan := by
  by_cases hn : Fl.nan ∈ l
  · right
    unfold npMean
    rw [fsum_nan hn, Fl.pf_nan_div]
  · by_cases he : l = []
    · right; rw [he]; exact npMean_nil
    · left
      have hl : l = (List.replicate l.length (1 : ℝ)).map Fl.fin := by
        rw [List.map_replicate]
        rw [List.eq_replicate_iff]
        refine ⟨rfl, fun x hx => ?_⟩
        rcases h x hx with h | h
        · exact h
        · exact absurd (h ▸ hx) hn
      have hp : (l.length : ℝ) ≠ 0 := by
        exact_mod_cast (List.length_pos_of_ne_nil he).ne'
      rw [hl, npMean_map_fin (by simpa using he)]
      simp [hp]

/-- **C99** A sample whose window is the same as each window of the dry period is dry (for a threshold of at least 0). -/
theorem C99_steady (hasFind : Bool) (rsl : List (Fl ℝ)) (thr : ℝ) (hthr : 0 ≤ thr) (fd : Fl ℝ) (w : List ℝ)
    (hw : ∃ v ∈ w, v ≠ 0) (fs : ℝ) (hfs : fs ≠ 0) (s m t : Nat) (hm : 0 < m) (hrsl : NoInf rsl)
    (hs : (w.length - 1) / 2 ≤ s) (ht : (w.length - 1) / 2 ≤ t)
    (hse : s + m - (w.length - 1) / 2 + w.length ≤ rsl.length + 1)
    (hte : t - (w.length - 1) / 2 + w.length ≤ rsl.length)
    (hsame : ∀ j < m, ∀ i < w.length,
      rsl[s + j - (w.length - 1) / 2 + i]? = rsl[t - (w.length - 1) / 2 + i]?) :
    ∃ wet info, stft hasFind rsl w.length (.fin thr) fd (some w) fs
        { tDryStart := some (s : Int), tDryStop := some ((s + m : Nat) : Int) } = .ok (wet, info) ∧
      wet[t]? = some false := by
  have h0 : 0 < w.length := by
    obtain ⟨v, hv, _⟩ := hw
    exact List.length_pos_of_mem hv
  obtain ⟨info, h, _⟩ := stft_ok hasFind rsl (.fin thr) fd w fs s ((s + m : Nat) : Int) h0 (by omega) none
  refine ⟨_, info, h, ?_⟩
  have hq : ∀ r < numFreqs w.length,
      quot rsl.length (rowsOf w fs rsl) s ((s + m : Nat) : Int) r t = .fin 1 ∨
      quot rsl.length (rowsOf w fs rsl) s ((s + m : Nat) : Int) r t = .nan := by
    intro r hr
    unfold quot
    rw [dry_slice w fs rsl h0 (by omega) r hr s m hs hse,
      rd_of_getElem? (ext_mid w fs rsl h0 (by omega) r hr t ht hte)]
    set seg := slice rsl (t - (w.length - 1) / 2) (t - (w.length - 1) / 2 + w.length) with hseg
    have hmap : ((List.range m).map fun j => psd w fs r
        (slice rsl (s + j - (w.length - 1) / 2) (s + j - (w.length - 1) / 2 + w.length))) =
        List.replicate m (psd w fs r seg) := by
      rw [List.eq_replicate_iff]
      refine ⟨by simp, fun x hx => ?_⟩
      obtain ⟨j, hj, rfl⟩ := List.mem_map.mp hx
      rw [List.mem_range] at hj
      rw [slice_congr (by omega) hte (hsame j hj)]
    rw [hmap]
    have hlen : seg.length = w.length := length_slice _ _ _ hte
    have hni : NoInf seg := hrsl.slice _ _
    rcases hni.cases with hn | ⟨ys, hys⟩
    · right
      rw [psd_nan w fs r seg hlen hn, Fl.pf_nan_div]
    · rw [hys] at hlen ⊢
      rw [List.length_map] at hlen
      rw [psd_fin w ys fs r hlen hfs hw]
      set p := spectralDensity w fs r fun m => ys.getD m 0
      have hmean : npNanmean (List.replicate m (Fl.fin p)) = .fin p := by
        unfold npNanmean
        have : (List.replicate m (Fl.fin p)).filter (fun x => !(isNaN x)) =
            (List.replicate m p).map Fl.fin := by
          rw [List.map_replicate, List.filter_eq_self]
          intro x hx
          rw [(List.mem_replicate.mp hx).2]
          rfl
        have hm' : (m : ℝ) ≠ 0 := by exact_mod_cast hm.ne'
        rw [this, npMean_map_fin (by simpa using hm.ne')]
        simp [hm']
      rw [hmean, Fl.pf_div_fin]
      split_ifs with hp
      · right; rw [hp]; simp [Fl.infSign]
      · left; rw [div_self hp]
  have hmean : ∀ c : Fl ℝ → Bool,
      npMean ((band (freqsOf w fs) c).map fun r =>
        quot rsl.length (rowsOf w fs rsl) s ((s + m : Nat) : Int) r t) = .fin 1 ∨
      npMean ((band (freqsOf w fs) c).map fun r =>
        quot rsl.length (rowsOf w fs rsl) s ((s + m : Nat) : Int) r t) = .nan := by
    intro c
    apply npMean_ones
    intro x hx
    obtain ⟨r, hr, rfl⟩ := List.mem_map.mp hx
    have := mem_band hr
    rw [length_freqsOf] at this
    exact hq r this
  rw [List.getElem?_map, List.getElem?_range (by omega)]
  simp only [Option.map_some, Option.some.injEq]
  unfold sumDiff
  have h1 : (Fl.fin (1 : ℝ) /ᶠ PyFloat.ofInt 1) = .fin 1 := by
    rw [Fl.pf_ofInt, Fl.pf_div_fin]; norm_num
  rcases hmean (· ≤ᶠ fd) with ha | ha <;> rcases hmean (fd <ᶠ ·) with hb | hb <;> rw [ha, hb]
  · rw [h1, Fl.pf_sub_fin, sub_self]
    simp [hthr]
  all_goals simp

/-- **C99** A constant signal is dry throughout. -/
theorem C99_constant (hasFind : Bool) (n : Nat) (c thr : ℝ) (hthr : 0 ≤ thr) (fd : Fl ℝ) (w : List ℝ)
    (hw : ∃ v ∈ w, v ≠ 0) (fs : ℝ) (hfs : fs ≠ 0) (s m : Nat) (hm : 0 < m)
    (hs : (w.length - 1) / 2 ≤ s) (hse : s + m - (w.length - 1) / 2 + w.length ≤ n + 1) :
    ∃ info, stft hasFind (List.replicate n (.fin c)) w.length (.fin thr) fd (some w) fs
        { tDryStart := some (s : Int), tDryStop := some ((s + m : Nat) : Int) } =
      .ok (List.replicate n false, info) := by
  have h0 : 0 < w.length := by
    obtain ⟨v, hv, _⟩ := hw
    exact List.length_pos_of_mem hv
  obtain ⟨wet, info, h, hl, hwet⟩ := C96_missing hasFind (List.replicate n (.fin c)) (.fin thr) fd w fs s
    ((s + m : Nat) : Int) h0 (by rw [List.length_replicate]; omega)
  refine ⟨info, ?_⟩
  rw [h]
  rw [List.length_replicate] at hl
  congr 2
  rw [List.eq_replicate_iff]
  refine ⟨hl, fun b hb => ?_⟩
  rw [Bool.eq_false_iff]
  rintro rfl
  obtain ⟨t, ht⟩ := List.getElem?_of_mem hb
  obtain ⟨h1, h2⟩ := hwet t ht
  obtain ⟨x, hx, _⟩ := h2 (w.length - 1) (by omega)
  have hb1 := (List.getElem?_eq_some_iff.mp hx).1
  rw [List.length_replicate] at hb1
  obtain ⟨wet', info', h', hf⟩ := C99_steady hasFind (List.replicate n (.fin c)) thr hthr fd w hw fs hfs s m t
    hm (fun x hx => Or.inr ⟨c, (List.mem_replicate.mp hx).2⟩) hs h1
    (by rw [List.length_replicate]; omega) (by rw [List.length_replicate]; omega)
    (by
      intro j hj i hi
      rw [List.getElem?_replicate_of_lt (by omega), List.getElem?_replicate_of_lt (by omega)])
  rw [h] at h'
  injection h' with h'
  obtain ⟨rfl, rfl⟩ := Prod.mk.inj h'
  rw [ht] at hf
  cases hf

/-! ### The hypotheses are met by ordinary input -/

/-- the Hamming window of three samples -/
example : (hamming 3).length = 3 ∧ (hamming 3).reverse = hamming 3 ∧ ∃ v ∈ hamming 3, v ≠ 0 := by
  obtain ⟨h1, h2, h3⟩ := hamming_props 3
  refine ⟨h1, h2, ?_⟩
  obtain ⟨v, hv⟩ := List.exists_mem_of_length_pos (by rw [h1]; norm_num : 0 < (hamming 3).length)
  exact ⟨v, hv, (h3 v hv).ne'⟩

/-- C96: constant density of the mean in the first row -/
example : ∃ wet info, stft false (([5, 5, 5, 7] : List ℝ).map Fl.fin) 2 (.fin 1) (.fin (1 / 240)) (some [1, 1])
    (1 / 60) { tDryStart := some 0, tDryStop := some 1 } = .ok (wet, info) ∧
    rd (info.pxx.getD 0 []) 2 = .fin 4320 := by
  obtain ⟨wet, info, h, _, _, hk⟩ := C96_spectrum false [5, 5, 5, 7] (.fin 1) (.fin (1 / 240)) [1, 1] (1 / 60) 0 1
    ⟨1, by simp, one_ne_zero⟩ (by simp) (by norm_num)
  refine ⟨wet, info, h, ?_⟩
  have := (hk 0 (by norm_num)).2 2 (by simp)
  rw [(spectralDensity_two 1 one_ne_zero (1 / 60) (by norm_num) _).1] at this
  simp only [List.length_cons, List.length_nil] at this
  norm_num at this
  exact this

/-- C96: the missing value makes its neighbours dry; a series of two samples and a window of five -/
example : (∃ wet info, stft true [.fin 1, .fin 3, .nan, .fin 3, .fin 1] 2 (.fin (-5)) (.fin (1 / 240))
      (some [1, 1]) (1 / 60) { tDryStart := some 0, tDryStop := some 1 } = .ok (wet, info) ∧
      wet[2]? ≠ some true ∧ wet[1]? ≠ some true) ∧
    ∃ wet info, stft true [.fin 1, .fin 3] 5 (.fin (-5)) (.fin (1 / 240))
      (some [1, 1, 1, 1, 1]) (1 / 60) { tDryStart := some 0, tDryStop := some 1 } = .ok (wet, info) ∧
      wet[1]? ≠ some true := by
  constructor
  · obtain ⟨wet, info, h, _, hm⟩ := C96_missing true [.fin 1, .fin 3, .nan, .fin 3, .fin 1] (.fin (-5))
      (.fin (1 / 240)) [1, 1] (1 / 60) 0 1 (by simp) (by simp)
    refine ⟨wet, info, h, fun hc => ?_, fun hc => ?_⟩
    · obtain ⟨x, hx, hx'⟩ := (hm 2 hc).2 0 (by simp)
      simp at hx
      subst hx
      cases hx'
    · obtain ⟨x, hx, hx'⟩ := (hm 1 hc).2 1 (by simp)
      simp at hx
      subst hx
      cases hx'
  · obtain ⟨wet, info, h, _, hm⟩ := C96_short true [.fin 1, .fin 3] (.fin (-5))
      (.fin (1 / 240)) [1, 1, 1, 1, 1] (1 / 60) 0 1 (by simp) (by simp)
    exact ⟨wet, info, h, fun hc => absurd (hm 1 hc) (by norm_num)⟩

/-- C97: two series which differ in the first sample only -/
example : ∃ wet info wet' info',
    stft true [.fin 9, .fin 3, .fin 4, .fin 3, .fin 1] 2 (.fin 2) (.fin (1 / 240)) (some [1, 1]) (1 / 60)
      { tDryStart := some ((1 : Nat) : Int), tDryStop := some ((1 + 2 : Nat) : Int) } = .ok (wet, info) ∧
    stft true [.nan, .fin 3, .fin 4, .fin 3, .fin 1] 2 (.fin 2) (.fin (1 / 240)) (some [1, 1]) (1 / 60)
      { tDryStart := some ((1 : Nat) : Int), tDryStop := some ((1 + 2 : Nat) : Int) } = .ok (wet', info') ∧
    wet[3]? = wet'[3]? := by
  obtain ⟨wet, info, wet', info', h, h', ⟨b, h1, h2⟩, _⟩ := C97_local true
    [.fin 9, .fin 3, .fin 4, .fin 3, .fin 1] [.nan, .fin 3, .fin 4, .fin 3, .fin 1] (.fin 2) (.fin (1 / 240))
    [1, 1] (1 / 60) 1 1 2 3 3 (by simp) (by simp) (by simp) (by simp) (by simp) (by simp) (by simp) (by simp)
    (by simp) (by intro i _; rw [show 3 - ([(1 : ℝ), 1].length - 1) / 2 + i = (2 + i) + 1 by simp; omega]; rfl)
    (by intro i _; rw [show 1 - ([(1 : ℝ), 1].length - 1) / 2 + i = i + 1 by simp; omega]; rfl)
  exact ⟨wet, info, wet', info', h, h', by rw [h1, h2]⟩

/-- C98: attenuations instead of levels -/
example (thr fd : Fl ℝ) :
    (stft true [.fin (-9), .fin (-3), .nan] 2 thr fd (some [1, 1]) (1 / 60)
      { tDryStart := some 0, tDryStop := some 1 }).map (·.1) =
    (stft true [.fin 9, .fin 3, .nan] 2 thr fd (some [1, 1]) (1 / 60)
      { tDryStart := some 0, tDryStop := some 1 }).map (·.1) := by
  have := C98_scale true [.fin 9, .fin 3, .nan] 2 thr fd [1, 1] ⟨1, by simp, one_ne_zero⟩ (1 / 60) (by norm_num)
    0 1 (by intro x hx; simp at hx; rcases hx with rfl | rfl | rfl <;> simp) (-1) (by norm_num)
  rw [← this]
  simp

/-- C98: reversing a series of five samples, dry period the first two -/
example (thr fd : Fl ℝ) : ∃ wet info info',
    stft true [.fin 9, .fin 3, .fin 4, .fin 3, .fin 1] 3 thr fd (some [1, 2, 1]) (1 / 60)
      { tDryStart := some ((0 : Nat) : Int), tDryStop := some ((2 : Nat) : Int) } = .ok (wet, info) ∧
    stft true [.fin 1, .fin 3, .fin 4, .fin 3, .fin 9] 3 thr fd (some [1, 2, 1]) (1 / 60)
      { tDryStart := some ((3 : Nat) : Int), tDryStop := some ((5 : Nat) : Int) } = .ok (wet.reverse, info') :=
  C98_reverse true [.fin 9, .fin 3, .fin 4, .fin 3, .fin 1] thr fd [1, 2, 1] ⟨1, by simp, one_ne_zero⟩ rfl rfl
    (1 / 60) (by norm_num) 0 2 (by norm_num) (by simp) (by simp)
    (by intro x hx; simp at hx; rcases hx with rfl | rfl | rfl | rfl | rfl <;> simp)

/-- C99: a signal of period two has the same window at steps 0 and 2 -/
example : ∃ wet info, stft true [.fin 1, .fin 3, .fin 1, .fin 3, .fin 1] 2 (.fin 0) (.fin (1 / 240)) (some [1, 1])
    (1 / 60) { tDryStart := some ((0 : Nat) : Int), tDryStop := some ((0 + 1 : Nat) : Int) } = .ok (wet, info) ∧
    wet[2]? = some false :=
  C99_steady true [.fin 1, .fin 3, .fin 1, .fin 3, .fin 1] 0 le_rfl (.fin (1 / 240)) [1, 1]
    ⟨1, by simp, one_ne_zero⟩ (1 / 60) (by norm_num) 0 1 2 (by norm_num)
    (by intro x hx; simp at hx; rcases hx with rfl | rfl | rfl | rfl | rfl <;> simp) (by simp) (by simp) (by simp)
    (by simp)
    (by
      intro j hj i hi
      have h1 : j = 0 := by omega
      subst h1
      have h2 : i = 0 ∨ i = 1 := by simp at hi; omega
      rcases h2 with rfl | rfl <;> rfl)

end Verif.Props
