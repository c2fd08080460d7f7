import Verif.Model.Nearby
import Verif.Lemmas.Rolling
import Mathlib.Algebra.Order.Ring.Rat

/-!
# Property C32: rolling maximum and `deltaP`
-/

namespace Verif.Props
open Verif Verif.Nearby

variable {K : Type} [Field K] [LinearOrder K]

/-- Number of values available in the last `period` steps up to `t`. -/
def available (xs : List (Fl K)) (period t : Nat) : Nat :=
  ((List.range (t + 1)).filter fun s => decide (t < s + period) && !(isNaN (rd xs s))).length

theorem range_filter_le (a b : Nat) :
    (List.range b).filter (fun s => decide (a ≤ s)) = List.range' a (b - a) := by
  induction b with
  | zero => simp
  | succ b ih =>
    rw [List.range_succ, List.filter_append, ih]
    by_cases h : a ≤ b
    · rw [Nat.succ_sub h, List.range'_1_concat]
      simp [h]
    · have e1 : b + 1 - a = 0 := by omega
      have e2 : b - a = 0 := by omega
      simp [h, e1, e2]

theorem slice_eq_map_rd (xs : List (Fl K)) (a b : Nat) (hb : b ≤ xs.length) :
    slice xs a b = (List.range' a (b - a)).map (rd xs) := by
  apply List.ext_getElem?
  intro k
  unfold slice
  rw [List.getElem?_drop, List.getElem?_map]
  by_cases hk : a + k < b
  · rw [List.getElem?_take_of_lt hk, getElem?_eq_rd (by omega), List.getElem?_range' (by omega)]
    simp
  · rw [List.getElem?_take_eq_none (by omega), List.getElem?_eq_none (by simp; omega)]
    rfl

theorem window_eq_map_rd (xs : List (Fl K)) (n t : Nat) (ht : t < xs.length) :
    window xs n t = ((List.range (t + 1)).filter fun s => decide (t < s + n)).map (rd xs) := by
  unfold window
  rw [slice_eq_map_rd xs _ _ (by omega), ← range_filter_le]
  congr 1
  apply List.filter_congr
  intro s hs
  apply decide_eq_decide.mpr
  omega

theorem available_eq (xs : List (Fl K)) (n t : Nat) (ht : t < xs.length) :
    available xs n t = (valid (window xs n t)).length := by
  unfold available valid
  rw [window_eq_map_rd xs n t ht, List.filter_map, List.length_map, List.filter_filter]
  congr 1
  apply List.filter_congr
  intro s _
  simp [Bool.and_comm]

theorem length_deltaP (period need : Nat) (xs : List (Fl K)) :
    (deltaP period need xs).length = xs.length := by
  simp [deltaP, maxPmin, length_rolling]

theorem getElem?_deltaP (period need : Nat) (xs : List (Fl K)) (t : Nat) (ht : t < xs.length) :
    (deltaP period need xs)[t]? = some (rd xs t -ᶠ
      (if available xs period t < need then PyFloat.nan
        else listMax (valid (window xs period t)))) := by
  unfold deltaP maxPmin
  rw [List.getElem?_zipWith, getElem?_eq_rd ht, getElem?_rolling _ _ _ _ _ ht, available_eq _ _ _ ht]

/-- **C32** Value of `deltaP` at step `t`: NaN if the current value is NaN or fewer than `need`
values are available in the last `period` steps; otherwise current value minus the largest value
of the last `period` steps. -/
theorem C32_value (period need : Nat) (xs : List (Fl K)) (hneed : 0 < need) (t : Nat)
    (x : Fl K) (hx : xs[t]? = some x) :
    ((x = .nan ∨ available xs period t < need) → (deltaP period need xs)[t]? = some .nan) ∧
    (need ≤ available xs period t →
      ∃ M, (∃ s, t < s + period ∧ s ≤ t ∧ xs[s]? = some M) ∧
        (∀ s y, t < s + period → s ≤ t → xs[s]? = some y → y = .nan ∨ y ≤ᶠ M) ∧
        (deltaP period need xs)[t]? = some (x -ᶠ M)) := by
  have ht : t < xs.length := (List.getElem?_eq_some_iff.mp hx).1
  rw [getElem?_deltaP _ _ _ _ ht, rd_of_getElem? hx]
  refine ⟨?_, ?_⟩
  · rintro (rfl | h)
    · simp
    · simp [h]
  · intro h
    rw [if_neg (by omega)]
    rw [available_eq _ _ _ ht] at h
    have hne : valid (window xs period t) ≠ [] := by
      intro e
      rw [e] at h
      simp at h
      omega
    obtain ⟨h1, h2⟩ := listMax_spec hne fun y hy => (mem_valid.mp hy).2
    refine ⟨_, mem_window.mp (mem_valid.mp h1).1, ?_, rfl⟩
    intro s y hs1 hs2 hy
    by_cases hn : PyFloat.isNaN y = true
    · exact Or.inl ((Fl.isNaN_iff y).mp hn)
    · exact Or.inr (h2 y (mem_valid.mpr ⟨mem_window.mpr ⟨s, hs1, hs2, hy⟩, by simpa using hn⟩))

/-- **C32** `deltaP` is never positive, and it is zero where the current value is
finite and the largest of the window. -/
theorem C32_nonpos [IsStrictOrderedRing K] (period need : Nat) (xs : List (Fl K))
    (hneed : 0 < need) (hper : 0 < period) (t : Nat) (d : Fl K)
    (hd : (deltaP period need xs)[t]? = some d) :
    (d = .nan ∨ d ≤ᶠ .fin 0) ∧
    (∀ x : K, xs[t]? = some (.fin x) → need ≤ available xs period t →
      (∀ s y, t < s + period → s ≤ t → xs[s]? = some y → y = .nan ∨ y ≤ᶠ .fin x) →
      d = .fin 0) := by
  have ht : t < xs.length := by
    have := (List.getElem?_eq_some_iff.mp hd).1
    rwa [length_deltaP] at this
  refine ⟨?_, ?_⟩
  · obtain ⟨h1, h2⟩ := C32_value period need xs hneed t _ (getElem?_eq_rd ht)
    by_cases h : available xs period t < need
    · rw [h1 (Or.inr h)] at hd
      cases hd; exact Or.inl rfl
    · obtain ⟨M, _, hM, e⟩ := h2 (by omega)
      rw [e] at hd
      cases hd
      rcases hM t _ (by omega) le_rfl (getElem?_eq_rd ht) with hn | hle
      · rw [hn]; left; simp
      · generalize rd xs t = x at hle
        cases x <;> cases M <;> first | (left; rfl) | (right; rfl) | skip
        · exact absurd hle Bool.false_ne_true
        · right
          rw [Fl.pf_le_fin, decide_eq_true_eq] at hle
          rw [Fl.pf_sub_fin, Fl.pf_le_fin, decide_eq_true_eq]
          linarith
        · exact absurd hle Bool.false_ne_true
        · exact absurd hle Bool.false_ne_true
  · intro x hx hav hmax
    obtain ⟨_, h2⟩ := C32_value period need xs hneed t _ hx
    obtain ⟨M, ⟨s, hs1, hs2, hs3⟩, hM, e⟩ := h2 hav
    rw [e] at hd
    cases hd
    have a1 : (Fl.fin x ≤ᶠ M) = true := by
      rcases hM t _ (by omega) le_rfl hx with h | h
      · cases h
      · exact h
    have a2 : (M ≤ᶠ Fl.fin x) = true := by
      rcases hmax s M hs1 hs2 hs3 with h | h
      · rw [h] at a1; simp at a1
      · exact h
    rw [← fl_le_antisymm a1 a2]
    simp

/-- **C32** `deltaP` at a step depends only on the last `period` values. -/
theorem C32_local (period need : Nat) (xs ys : List (Fl K)) (hper : 0 < period) (t : Nat)
    (hx : t < xs.length) (hy : t < ys.length)
    (h : ∀ s, t < s + period → s ≤ t → xs[s]? = ys[s]?) :
    (deltaP period need xs)[t]? = (deltaP period need ys)[t]? := by
  rw [getElem?_deltaP _ _ _ _ hx, getElem?_deltaP _ _ _ _ hy, available_eq _ _ _ hx,
    available_eq _ _ _ hy, window_congr hper h]
  have : rd xs t = rd ys t := by
    have := h t (by omega) le_rfl
    rw [getElem?_eq_rd hx, getElem?_eq_rd hy] at this
    exact Option.some.inj this
  rw [this]

/-- five steps, window 3, at least two values -/
example : deltaP 3 2 ([.fin (-50), .nan, .fin (-48), .fin (-51), .fin (-60)] : List (Fl ℚ)) =
    [.nan, .nan, .fin 0, .fin (-3), .fin (-12)] := by decide +kernel

example : available ([.fin (-50), .nan, .fin (-48), .fin (-51), .fin (-60)] : List (Fl ℚ)) 3 3 = 2 :=
  by decide +kernel

end Verif.Props
