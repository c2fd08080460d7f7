import Verif.Props.Stft

/-!
# Property C56: spectrograms and frequencies that do not fit
-/

namespace Verif.Props
open Verif Verif.Stft

variable {K : Type} [Field K] [LinearOrder K]

/-- **C56** A supplied spectrogram without rows is an IndexError, one with more columns than there are samples a ValueError (however the
dry period is given). -/
theorem C56_size_error [PySqrt (Fl K)] (hasFind : Bool)
    (specgram : List (Fl K) → Nat → Except Err (List (List (Fl K)) × List (Fl K)))
    (rsl : List (Fl K)) (windowLength : Nat) (thr fDivide : Fl K) (a : Args (Fl K)) (hm : a.mirror = false)
    (P : List (List (Fl K))) (f : List (Fl K)) (hp : a.pxx = some P) (hf : a.f = some f) :
    (P = [] → stftClassification hasFind specgram rsl windowLength thr fDivide a = .error .indexError) ∧
    (∀ row, P.head? = some row → rsl.length < row.length →
      stftClassification hasFind specgram rsl windowLength thr fDivide a = .error .valueError) := by
  have e : spectrumOf specgram rsl windowLength a = .ok (P, f) := by unfold spectrumOf; rw [hp, hf]
  unfold stftClassification
  rw [e]
  refine ⟨?_, ?_⟩
  · rintro rfl
    rfl
  · intro row hr hl
    cases P with
    | nil => cases hr
    | cons r P =>
      cases hr
      dsimp only
      rw [hm, if_neg (by decide), if_pos (by omega)]

/-- one column more than there are samples -/
example [PySqrt (Fl K)] : stftClassification (F := Fl K) true (fun _ _ => .error .typeError) [.fin 0, .fin 1] 2 (.fin 1) (.fin 1)
    { tDryStart := some 0, tDryStop := some 1, mirror := false, pxx := some [[.fin 1, .fin 1, .fin 2]], f := some [.fin 0] } =
      .error .valueError :=
  (C56_size_error _ _ _ _ _ _ _ rfl _ _ rfl rfl).2 _ rfl (by simp)

/-- **C56** A frequency that selects a row the spectrogram does not have (more frequencies than rows, the additional one comparable with
`f_divide`) is an IndexError, if the rest of the arguments is in order. -/
theorem C56_frequency_error [PySqrt (Fl K)] (hasFind : Bool)
    (specgram : List (Fl K) → Nat → Except Err (List (List (Fl K)) × List (Fl K)))
    (rsl : List (Fl K)) (windowLength : Nat) (thr fDivide : Fl K) (a : Args (Fl K)) (hm : a.mirror = false)
    (row : List (Fl K)) (P : List (List (Fl K))) (f : List (Fl K)) (hp : a.pxx = some (row :: P)) (hf : a.f = some f)
    (hlen : row.length ≤ rsl.length) (s e : Int) (hs : a.tDryStart = some s) (he : a.tDryStop = some e) (hl : a.dryLength = none)
    (r : Nat) (x : Fl K) (hr : P.length < r) (hx : f[r]? = some x) (hcmp : (x ≤ᶠ fDivide) = true ∨ (fDivide <ᶠ x) = true) :
    stftClassification hasFind specgram rsl windowLength thr fDivide a = .error .indexError := by
  have hd : dryPeriod hasFind rsl a = .ok (s, e) := by unfold dryPeriod; rw [hs, he, hl]
  have hrl : r < f.length := by
    by_contra hc
    rw [List.getElem?_eq_none (by omega)] at hx
    cases hx
  have hb : ∀ (p : List (List (Fl K))) n (g : Fl K → Bool), p.length = P.length + 1 → g x = true →
      bandMean p n (f.map g) = .error .indexError := by
    intro p n g hpl hg
    unfold bandMean
    rw [if_pos]
    rw [List.any_eq_true]
    refine ⟨r, ?_, by rw [hpl]; simpa using hr⟩
    rw [List.mem_filter, List.mem_range, List.length_map]
    refine ⟨hrl, ?_⟩
    unfold rdB
    rw [List.getD_eq_getElem?_getD, List.getElem?_map, hx]
    exact hg
  have hcase : ∀ (p : List (List (Fl K))) n (g : Fl K → Bool),
      (∃ l, bandMean p n (f.map g) = .ok l) ∨ bandMean p n (f.map g) = .error .indexError := by
    intro p n g
    unfold bandMean
    dsimp only
    split_ifs
    · exact .inr rfl
    · exact .inl ⟨_, rfl⟩
  unfold stftClassification
  rw [show spectrumOf specgram rsl windowLength a = .ok (row :: P, f) by unfold spectrumOf; rw [hp, hf]]
  dsimp only
  rw [hm, if_neg (by decide), if_neg (by omega), hd]
  dsimp only
  rcases hcmp with h | h
  · rw [hb _ _ _ (by simp) h]
  · split
    · rename_i e1 h1
      rcases hcase _ _ _ with ⟨l, e2⟩ | e2
      · rw [h1] at e2; cases e2
      · rw [h1] at e2; cases e2; rfl
    · rw [hb _ _ _ (by simp) h]

/-- two frequencies for one row -/
example [PySqrt (Fl ℚ)] : stftClassification (F := Fl ℚ) true (fun _ _ => .error .typeError) [.fin 0, .fin 1] 2 (.fin 1) (.fin 1)
    { tDryStart := some 0, tDryStop := some 1, mirror := false, pxx := some [[.fin 1, .fin 1]], f := some [.fin 0, .fin 3] } =
      .error .indexError :=
  C56_frequency_error _ _ _ _ _ _ _ rfl _ _ _ rfl rfl (by simp) 0 1 rfl rfl rfl 1 (.fin 3) (by simp) rfl (.inr (by simp))

end Verif.Props
