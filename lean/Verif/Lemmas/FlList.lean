import Verif.Np

/-! Lemmas about lists of floats and the numpy primitives on finite values. -/

namespace Verif

section generic
variable {F : Type} [PyFloat F] [LawfulPyFloat F]

theorem pyMin_le_left {a b : F} (ha : isNaN a = false) : pyMin a b ≤ᶠ a := by
  unfold pyMin
  split_ifs with h
  · exact LawfulPyFloat.le_of_lt h
  · exact LawfulPyFloat.le_refl ha

theorem pyMin_le_right {a b : F} (ha : isNaN a = false) (hb : isNaN b = false) :
    pyMin a b ≤ᶠ b := by
  unfold pyMin
  split_ifs with h
  · exact LawfulPyFloat.le_refl hb
  · exact LawfulPyFloat.le_of_not_lt ha hb (by simpa using h)

theorem pyMin_nan_left {a b : F} (ha : isNaN a = true) : pyMin a b = a := by
  unfold pyMin
  split_ifs with h
  · have := (LawfulPyFloat.lt_not_nan _ _ h).2
    rw [ha] at this; cases this
  · rfl

theorem pyMin_nan_right {a b : F} (hb : isNaN b = true) : pyMin a b = a := by
  unfold pyMin
  split_ifs with h
  · have := (LawfulPyFloat.lt_not_nan _ _ h).1
    rw [hb] at this; cases this
  · rfl

theorem pyMin_not_nan {a b : F} (ha : isNaN a = false) : isNaN (pyMin a b) = false := by
  unfold pyMin
  split_ifs with h
  · exact (LawfulPyFloat.lt_not_nan _ _ h).1
  · exact ha

end generic

section fl
variable {K : Type} [Field K] [LinearOrder K]

theorem fsum_map_fin (ys : List K) : fsum (ys.map Fl.fin) = Fl.fin ys.sum := by
  unfold fsum
  have : ∀ (c : K), (ys.map Fl.fin).foldl (fun a b : Fl K => a +ᶠ b) (Fl.fin c)
      = Fl.fin (c + ys.sum) := by
    induction ys with
    | nil => intro c; simp
    | cons y ys ih => intro c; simp [ih, add_assoc]
  simpa using this 0

variable [IsStrictOrderedRing K]

theorem npMean_map_fin {ys : List K} (h : ys.length ≠ 0) :
    npMean (ys.map Fl.fin) = Fl.fin (ys.sum / (ys.length : K)) := by
  unfold npMean
  rw [fsum_map_fin, Fl.pf_ofInt, Fl.pf_div_fin_ne]
  · simp
  · simpa using h

omit [IsStrictOrderedRing K] in
/-- A list of finite values is the image of a list over the field. -/
theorem exists_map_fin {l : List (Fl K)} (h : ∀ j, j < l.length → ∃ x, rd l j = Fl.fin x) :
    ∃ ys : List K, l = ys.map Fl.fin := by
  induction l with
  | nil => exact ⟨[], rfl⟩
  | cons a l ih =>
    obtain ⟨x, hx⟩ := h 0 (by simp)
    obtain ⟨ys, hys⟩ := ih fun j hj => by
      obtain ⟨y, hy⟩ := h (j+1) (by simpa using hj)
      exact ⟨y, by simpa [rd] using hy⟩
    refine ⟨x :: ys, ?_⟩
    have : a = Fl.fin x := by simpa [rd] using hx
    simp [this, ← hys]

omit [IsStrictOrderedRing K] in
theorem pyMin_fin (a b : K) : pyMin (Fl.fin a) (Fl.fin b) = Fl.fin (min a b) := by
  unfold pyMin
  rw [Fl.pf_lt_fin]
  by_cases h : b < a
  · simp [h, min_eq_right h.le]
  · simp [h, min_eq_left (not_lt.mp h)]

theorem npMean_singleton (a : Fl K) : npMean [a] = a := by
  have h : ¬ ((1:K) < 0) := not_lt.mpr zero_le_one
  cases a with
  | nan => rfl
  | ninf =>
    show (if (((1:Nat):Int):K) < 0 then _ else _) = _
    rw [if_neg (by simp)]
  | pinf =>
    show (if (((1:Nat):Int):K) < 0 then _ else _) = _
    rw [if_neg (by simp)]
  | fin x => simpa using npMean_map_fin (ys := [x]) (by simp)

end fl

end Verif
