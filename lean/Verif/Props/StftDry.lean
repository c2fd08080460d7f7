import Verif.Props.Stft
import Verif.Props.Mlp
import Mathlib.Analysis.Real.Sqrt

/-!
# Property C57: the dry period of the rolling Fourier transform classification
-/

namespace Verif.Props
open Verif Verif.Stft

section min
variable {K : Type} [Field K] [LinearOrder K]

theorem npMinimum_fin (x y : K) : npMinimum (Fl.fin x) (Fl.fin y) = .fin (min x y) := by
  unfold npMinimum
  rw [Fl.pf_isNaN_fin, Fl.pf_isNaN_fin]
  simp only [Bool.false_eq_true, if_false]
  exact pyMin_fin x y

/-- `np.nanmin` of numbers and NaN is the smallest number. -/
theorem npNanmin_spec (l : List (Fl K)) (h : ∀ x ∈ l, IsSample x) (hex : ∃ x, Fl.fin x ∈ l) :
    ∃ m, npNanmin l = .fin m ∧ Fl.fin m ∈ l ∧ ∀ x, Fl.fin x ∈ l → m ≤ x := by
  have hfold : ∀ (r : List (Fl K)), (∀ x ∈ r, ∃ k, x = .fin k) → ∀ z : K,
      ∃ m, r.foldl npMinimum (.fin z) = .fin m ∧ (m = z ∨ Fl.fin m ∈ r) ∧ m ≤ z ∧
        ∀ x, Fl.fin x ∈ r → m ≤ x := by
    intro r
    induction r with
    | nil =>
      intro _ z
      exact ⟨z, rfl, Or.inl rfl, le_refl _, fun x hx => by cases hx⟩
    | cons y r ih =>
      intro hr z
      obtain ⟨k, rfl⟩ := hr y (List.mem_cons_self ..)
      obtain ⟨m, h1, h2, h3, h4⟩ := ih (fun x hx => hr x (List.mem_cons_of_mem _ hx)) (min z k)
      refine ⟨m, by rw [List.foldl_cons, npMinimum_fin, h1], ?_, le_trans h3 (min_le_left _ _), ?_⟩
      · rcases h2 with h2 | h2
        · rcases min_choice z k with h | h
          · left; rw [h2, h]
          · right; rw [h2, h]; exact List.mem_cons_self ..
        · exact Or.inr (List.mem_cons_of_mem _ h2)
      · intro x hx
        rcases List.mem_cons.mp hx with hx | hx
        · injection hx with hx
          rw [hx]
          exact le_trans h3 (min_le_right _ _)
        · exact h4 x hx
  have hmem : ∀ x, x ∈ (l.filter fun x => !(isNaN x)) ↔ x ∈ l ∧ x ≠ .nan := by
    intro x
    rw [List.mem_filter]
    simp only [Bool.not_eq_true', ← Bool.not_eq_true, Fl.isNaN_iff, ne_eq]
  unfold npNanmin
  cases hc : l.filter fun x => !(isNaN x) with
  | nil =>
    obtain ⟨x, hx⟩ := hex
    have := (hmem (.fin x)).mpr ⟨hx, by simp⟩
    rw [hc] at this
    cases this
  | cons y r =>
    rw [hc] at hmem
    have hfin : ∀ x ∈ y :: r, ∃ k, x = .fin k := by
      intro x hx
      obtain ⟨a, b⟩ := (hmem x).mp hx
      exact (h x a).resolve_left b
    obtain ⟨k, rfl⟩ := hfin y (List.mem_cons_self ..)
    obtain ⟨m, h1, h2, h3, h4⟩ := hfold r (fun x hx => hfin x (List.mem_cons_of_mem _ hx)) k
    refine ⟨m, h1, ?_, ?_⟩
    · apply ((hmem _).mp _).1
      rcases h2 with rfl | h2
      · exact List.mem_cons_self ..
      · exact List.mem_cons_of_mem _ h2
    · intro x hx
      have := (hmem (.fin x)).mpr ⟨hx, by simp⟩
      rcases List.mem_cons.mp this with hx | hx
      · injection hx with hx
        rw [hx]; exact h3
      · exact h4 x hx

end min

/-- sample standard deviation -/
noncomputable def sdOf (xs : List ℝ) : ℝ :=
  Real.sqrt ((xs.map fun x => (x - xs.sum / xs.length) ^ 2).sum / (xs.length - 1))

/-- the `w` samples ending at index `t` are the numbers `xs` -/
def CompleteWindow (rsl : List (Fl ℝ)) (w t : Nat) (xs : List ℝ) : Prop :=
  w ≤ t + 1 ∧ t < rsl.length ∧ xs.length = w ∧ (rsl.drop (t + 1 - w)).take w = xs.map Fl.fin

theorem sampleStd_fin (xs : List ℝ) (h : 2 ≤ xs.length) :
    sampleStd (xs.map Fl.fin) = .fin (sdOf xs) := by
  unfold sampleStd sdOf
  dsimp only
  rw [npMean_map_fin (by omega), List.map_map]
  have : ((fun x : Fl ℝ => (x -ᶠ Fl.fin (xs.sum / xs.length)) *ᶠ
      (x -ᶠ Fl.fin (xs.sum / xs.length))) ∘ Fl.fin) =
      Fl.fin ∘ fun x => (x - xs.sum / xs.length) ^ 2 := by
    funext x
    simp only [Function.comp_apply, Fl.pf_sub_fin, Fl.pf_mul_fin, pow_two]
  rw [this, ← List.map_map, fsum_map_fin, List.length_map, Fl.pf_ofInt]
  have hpos : (0 : ℝ) < (xs.length : ℝ) - 1 := by
    have : (2 : ℝ) ≤ xs.length := by exact_mod_cast h
    linarith
  have hc : (((xs.length : Int) - 1 : Int) : ℝ) = (xs.length : ℝ) - 1 := by push_cast; rfl
  rw [hc, Fl.pf_div_fin_ne _ _ hpos.ne']
  apply Fl.sqrt_fin
  apply div_nonneg _ hpos.le
  apply List.sum_nonneg
  intro y hy
  obtain ⟨x, _, rfl⟩ := List.mem_map.mp hy
  positivity

theorem rollStd_cases (rsl : List (Fl ℝ)) (hs : ∀ x ∈ rsl, IsSample x) (w : Nat) (hw : 2 ≤ w) (t : Nat)
    (ht : t < rsl.length) :
    (∃ xs, CompleteWindow rsl w t xs ∧ (rollStd rsl w)[t]? = some (.fin (sdOf xs))) ∨
    ((¬ ∃ xs, CompleteWindow rsl w t xs) ∧ (rollStd rsl w)[t]? = some .nan) := by
  unfold rollStd
  rw [List.getElem?_map, List.getElem?_range ht]
  simp only [Option.map_some]
  by_cases h1 : t + 1 < w
  · right
    rw [if_pos (Or.inl h1)]
    refine ⟨?_, rfl⟩
    rintro ⟨xs, h, _⟩
    omega
  · have hwin : window rsl w t = (rsl.drop (t + 1 - w)).take w := by
      unfold window slice
      rw [List.drop_take]
      congr 1
      omega
    by_cases h2 : (window rsl w t).any isNaN = true
    · right
      rw [if_pos (Or.inr (Or.inr h2))]
      refine ⟨?_, rfl⟩
      rintro ⟨xs, _, _, _, h⟩
      rw [hwin, h, List.any_eq_true] at h2
      obtain ⟨x, hx, hn⟩ := h2
      obtain ⟨y, _, rfl⟩ := List.mem_map.mp hx
      simp at hn
    · left
      have hex : ∃ xs : List ℝ, window rsl w t = xs.map Fl.fin := by
        have : ∀ l : List (Fl ℝ), (∀ x ∈ l, ∃ k, x = .fin k) → ∃ xs : List ℝ, l = xs.map Fl.fin := by
          intro l
          induction l with
          | nil => intro _; exact ⟨[], rfl⟩
          | cons x l ih =>
            intro h
            obtain ⟨k, rfl⟩ := h x (List.mem_cons_self ..)
            obtain ⟨xs, hxs⟩ := ih fun x hx => h x (List.mem_cons_of_mem _ hx)
            exact ⟨k :: xs, by rw [hxs]; rfl⟩
        apply this
        intro x hx
        have hm : x ∈ rsl := by
          rw [hwin] at hx
          exact List.mem_of_mem_drop (List.mem_of_mem_take hx)
        refine (hs x hm).resolve_left ?_
        rintro rfl
        exact h2 (List.any_eq_true.mpr ⟨_, hx, rfl⟩)
      obtain ⟨xs, hxs⟩ := hex
      have hlen : xs.length = w := by
        have := congrArg List.length hxs
        rw [List.length_map, hwin, List.length_take, List.length_drop] at this
        omega
      refine ⟨xs, ⟨by omega, ht, hlen, by rw [← hwin, hxs]⟩, ?_⟩
      rw [if_neg (by push Not; exact ⟨by omega, by omega, by simpa using h2⟩), hxs,
        sampleStd_fin xs (by omega)]

theorem completeWindow_unique {rsl : List (Fl ℝ)} {w t : Nat} {xs ys : List ℝ}
    (h : CompleteWindow rsl w t xs) (h' : CompleteWindow rsl w t ys) : xs = ys := by
  have := h.2.2.2.symm.trans h'.2.2.2
  exact List.map_injective_iff.mpr (fun a b hab => by injection hab) this

/-- **C57** (for a matplotlib that still has `mlab.find`) The result is `(stop - w, stop)`, where the `w`
samples ending at index `stop` form the first complete window of smallest standard deviation. The half-open range
returned therefore starts one sample before that window and misses its last sample. -/
theorem C57_lowest (rsl : List (Fl ℝ)) (hs : ∀ x ∈ rsl, IsSample x) (w : Nat) (hw : 2 ≤ w)
    (hex : ∃ t xs, CompleteWindow rsl w t xs) :
    ∃ (stop : Nat) (xs : List ℝ), findLowestStdDevPeriod true rsl w = .ok ((stop : Int) - w, (stop : Int)) ∧
      CompleteWindow rsl w stop xs ∧
      (∀ t ys, CompleteWindow rsl w t ys → sdOf xs ≤ sdOf ys) ∧
      (∀ (t : Nat) (ys : List ℝ), t < stop → CompleteWindow rsl w t ys → sdOf xs < sdOf ys) := by
  have hlen : (rollStd rsl w).length = rsl.length := by simp [rollStd]
  have hsam : ∀ x ∈ rollStd rsl w, IsSample x := by
    intro x hx
    obtain ⟨t, ht⟩ := List.mem_iff_getElem?.mp hx
    have htl := (List.getElem?_eq_some_iff.mp ht).1
    rcases rollStd_cases rsl hs w hw t (by omega) with ⟨xs, _, h⟩ | ⟨_, h⟩
    · rw [ht] at h
      exact Or.inr ⟨_, Option.some.inj h⟩
    · rw [ht] at h
      exact Or.inl (Option.some.inj h)
  have hval : ∀ t xs, CompleteWindow rsl w t xs → (rollStd rsl w)[t]? = some (.fin (sdOf xs)) := by
    intro t xs h
    rcases rollStd_cases rsl hs w hw t h.2.1 with ⟨ys, h1, h2⟩ | ⟨h1, _⟩
    · rw [completeWindow_unique h h1, h2]
    · exact absurd ⟨xs, h⟩ h1
  obtain ⟨t0, xs0, h0⟩ := hex
  obtain ⟨m, hm1, hm2, hm3⟩ := npNanmin_spec (rollStd rsl w) hsam
    ⟨_, List.mem_of_getElem? (hval t0 xs0 h0)⟩
  unfold findLowestStdDevPeriod
  dsimp only
  rw [if_neg (by simp), hm1]
  have hfind : ((rollStd rsl w).findIdx? fun x => x ==ᶠ Fl.fin m).isSome := by
    rw [List.findIdx?_isSome, List.any_eq_true]
    exact ⟨_, hm2, by simp⟩
  obtain ⟨stop, hstop⟩ := Option.isSome_iff_exists.mp hfind
  rw [hstop]
  rw [List.findIdx?_eq_some_iff_getElem] at hstop
  obtain ⟨hlt, heq, hbefore⟩ := hstop
  have hsl : stop < rsl.length := by omega
  have hg : (rollStd rsl w)[stop]? = some (rollStd rsl w)[stop] := List.getElem?_eq_getElem hlt
  rcases rollStd_cases rsl hs w hw stop hsl with ⟨xs, h1, h2⟩ | ⟨_, h2⟩
  · rw [hg] at h2
    have h2' := Option.some.inj h2
    rw [h2', Fl.pf_eq_fin, decide_eq_true_iff] at heq
    refine ⟨stop, xs, rfl, h1, ?_, ?_⟩
    · intro t ys h
      rw [heq]
      exact hm3 _ (List.mem_of_getElem? (hval t ys h))
    · intro t ys ht h
      have hv := hval t ys h
      have hle : m ≤ sdOf ys := hm3 _ (List.mem_of_getElem? hv)
      have hb := hbefore t ht
      rw [List.getElem?_eq_getElem (by omega)] at hv
      rw [Option.some.inj hv, Fl.pf_eq_fin, decide_eq_true_iff] at hb
      rw [heq]
      exact lt_of_le_of_ne hle (Ne.symm hb)
  · rw [hg] at h2
    rw [Option.some.inj h2] at heq
    simp at heq

/-- **C57** Without a complete window (or for windows of fewer than two samples) the call raises; with a
matplotlib without `mlab.find` it always raises. -/
theorem C57_errors (rsl : List (Fl ℝ)) (hs : ∀ x ∈ rsl, IsSample x) (w : Nat) :
    (w < 2 ∨ (¬ ∃ t xs, CompleteWindow rsl w t xs) →
      findLowestStdDevPeriod true rsl w = .error .indexError) ∧
    findLowestStdDevPeriod false rsl w = .error .attributeError := by
  refine ⟨?_, rfl⟩
  intro h
  have hnan : ∀ x ∈ rollStd rsl w, x = .nan := by
    intro x hx
    obtain ⟨t, ht⟩ := List.mem_iff_getElem?.mp hx
    have htl : t < rsl.length := by
      have := (List.getElem?_eq_some_iff.mp ht).1
      simpa [rollStd] using this
    by_cases hw : w < 2
    · unfold rollStd at ht
      rw [List.getElem?_map, List.getElem?_range htl] at ht
      simp only [Option.map_some] at ht
      rw [if_pos (Or.inr (Or.inl hw))] at ht
      exact (Option.some.inj ht).symm
    · rcases rollStd_cases rsl hs w (by omega) t htl with ⟨xs, h1, _⟩ | ⟨_, h2⟩
      · exact absurd ⟨t, xs, h1⟩ (h.resolve_left hw)
      · rw [ht] at h2
        exact Option.some.inj h2
  unfold findLowestStdDevPeriod
  dsimp only
  rw [if_neg (by simp)]
  have : ((rollStd rsl w).findIdx? fun x => x ==ᶠ npNanmin (rollStd rsl w)) = none := by
    rw [List.findIdx?_eq_none_iff]
    intro x hx
    rw [hnan x hx, Fl.pf_nan_eq]
  rw [this]

/-- **C57** If the first complete window is the quietest, the dry period starts at index -1, the slice
is empty and the whole series is classified dry, whatever the spectrogram and the threshold. -/
theorem C57_first_window_all_dry (rsl : List (Fl ℝ)) (hs : ∀ x ∈ rsl, IsSample x) (w : Nat)
    (hw : 2 ≤ w) (xs : List ℝ) (hfirst : CompleteWindow rsl w (w - 1) xs)
    (hbest : ∀ t ys, CompleteWindow rsl w t ys → sdOf xs ≤ sdOf ys)
    (specgram : List (Fl ℝ) → Nat → Except Err (List (List (Fl ℝ)) × List (Fl ℝ)))
    (windowLength : Nat) (thr fDivide : Fl ℝ) (a : Args (Fl ℝ))
    (P : List (List (Fl ℝ))) (f : List (Fl ℝ)) (c : Nat) (hm : a.mirror = false)
    (hp : a.pxx = some P) (hfa : a.f = some f) (hd1 : a.tDryStart = none) (hd2 : a.tDryStop = none)
    (hd3 : a.dryLength = some w) (hne : P ≠ []) (hrow : ∀ row ∈ P, row.length = c)
    (hc : c ≤ rsl.length) (hf : f.length ≤ P.length) :
    ∃ info, stftClassification true specgram rsl windowLength thr fDivide a =
      .ok (List.replicate rsl.length false, info) := by
  obtain ⟨stop, ys, h1, h2, h3, h4⟩ := C57_lowest rsl hs w hw ⟨_, xs, hfirst⟩
  have hstop : stop = w - 1 := by
    have hge := h2.1
    by_contra hne
    have hlt := h4 (w - 1) xs (by omega) hfirst
    exact absurd (hbest _ _ h2) (not_le.mpr hlt)
  have hn := hfirst.2.1
  apply C56_no_reference true specgram rsl windowLength thr fDivide a P f ((stop : Int) - w) stop c hm
    hp hfa _ hne hrow hc hf
  · right; right; right
    subst hstop
    omega
  · exact Or.inr ⟨hd1, hd2, w, hd3, h1⟩

/-! ## Examples -/

-- the quietest pair of samples ends at index 3 (5, 5); the period returned is [1, 3), i.e. (9, 5)
example : findLowestStdDevPeriod true ([.fin 0, .fin 9, .fin 5, .fin 5, .fin 7] : List (Fl ℝ)) 2 =
    .ok (1, 3) := by
  have hs : ∀ x ∈ ([.fin 0, .fin 9, .fin 5, .fin 5, .fin 7] : List (Fl ℝ)), IsSample x := by
    intro x hx
    right
    simp only [List.mem_cons, List.not_mem_nil, or_false] at hx
    rcases hx with rfl | rfl | rfl | rfl | rfl <;> exact ⟨_, rfl⟩
  have hc : CompleteWindow [.fin 0, .fin 9, .fin 5, .fin 5, .fin 7] 2 3 [5, 5] :=
    ⟨by norm_num, by norm_num, rfl, rfl⟩
  have hz : sdOf [5, 5] = 0 := by
    unfold sdOf
    norm_num
  have hsd : ∀ x y : ℝ, sdOf [x, y] = 0 → x = y := by
    intro x y h
    unfold sdOf at h
    simp only [List.map_cons, List.map_nil, List.sum_cons, List.sum_nil, List.length_cons,
      List.length_nil] at h
    norm_num at h
    rw [Real.sqrt_eq_zero (by positivity)] at h
    nlinarith [sq_nonneg (x - (x + y) / 2), sq_nonneg (y - (x + y) / 2), sq_nonneg (x - y)]
  obtain ⟨stop, xs, h1, h2, h3, h4⟩ := C57_lowest _ hs 2 (by norm_num) ⟨3, _, hc⟩
  have hle : sdOf xs ≤ 0 := hz ▸ h3 _ _ hc
  have h0 : sdOf xs = 0 := le_antisymm hle (Real.sqrt_nonneg _)
  have : stop = 3 := by
    obtain ⟨w1, w2, w3, w4⟩ := h2
    have hxs : ∀ a b : ℝ, xs.map Fl.fin = [.fin a, .fin b] → a = b := by
      intro a b h
      have : xs = [a, b] :=
        List.map_injective_iff.mpr (fun a b (hab : Fl.fin a = Fl.fin b) => by injection hab)
          (show xs.map Fl.fin = [a, b].map Fl.fin from h)
      subst this
      exact hsd _ _ h0
    have hst : stop = 1 ∨ stop = 2 ∨ stop = 3 ∨ stop = 4 := by
      simp only [List.length_cons, List.length_nil] at w2
      omega
    rcases hst with rfl | rfl | rfl | rfl
    · exact absurd (hxs _ _ w4.symm) (by norm_num)
    · exact absurd (hxs _ _ w4.symm) (by norm_num)
    · rfl
    · exact absurd (hxs _ _ w4.symm) (by norm_num)
  subst this
  exact h1

-- hypotheses of `C57_first_window_all_dry`
example : CompleteWindow [.fin 5, .fin 5, .fin 7] 2 (2 - 1) [5, 5] ∧
    ∀ t ys, CompleteWindow [.fin 5, .fin 5, .fin 7] 2 t ys → sdOf [5, 5] ≤ sdOf ys := by
  refine ⟨⟨by norm_num, by norm_num, rfl, rfl⟩, ?_⟩
  intro t ys _
  have : sdOf [5, 5] = 0 := by
    unfold sdOf
    norm_num
  rw [this]
  exact Real.sqrt_nonneg _

end Verif.Props
