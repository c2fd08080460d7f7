import Verif.Model.Calendar
import Mathlib.Tactic.IntervalCases

/-!
# Property C87: variogram parameters by calendar date
-/

namespace Verif.Props
open Verif Verif.Idw

/-- A date of the Gregorian calendar: month lengths 31, 28 or 29, 31, 30, … -/
def IsDate (y m d : Nat) : Prop :=
  1 ≤ d ∧ ((m ∈ [1, 3, 5, 7, 8, 10, 12] ∧ d ≤ 31) ∨ (m ∈ [4, 6, 9, 11] ∧ d ≤ 30) ∨ (m = 2 ∧ d ≤ 28) ∨
    (m = 2 ∧ d = 29 ∧ ((4 ∣ y ∧ ¬ 100 ∣ y) ∨ 400 ∣ y)))

/-- leap year -/
def LeapYear (y : Nat) : Prop := (4 ∣ y ∧ ¬ 100 ∣ y) ∨ 400 ∣ y

/-- The date after `y-m-d`: the next day of the month if there is one, else the first of the next month. -/
def IsNextDate (y m d y' m' d' : Nat) : Prop :=
  IsDate y m d ∧ ((IsDate y m (d + 1) ∧ (y', m', d') = (y, m, d + 1)) ∨
    (¬ IsDate y m (d + 1) ∧ m < 12 ∧ (y', m', d') = (y, m + 1, 1)) ∨
    (¬ IsDate y m (d + 1) ∧ m = 12 ∧ (y', m', d') = (y + 1, 1, 1)))

theorem isLeap_iff (y : Nat) : isLeap y = true ↔ LeapYear y := by
  unfold isLeap LeapYear
  simp only [Bool.and_eq_true, Bool.or_eq_true, Bool.not_eq_true', beq_iff_eq, beq_eq_false_iff_ne]
  omega

theorem isDate_iff (y m d : Nat) : IsDate y m d ↔ 1 ≤ d ∧ d ≤ daysInMonth y m := by
  have hl := isLeap_iff y
  unfold LeapYear at hl
  unfold IsDate
  by_cases hm : m ≤ 12
  · interval_cases m <;> simp [daysInMonth]
    · omega
    intro _
    split
    · rename_i h
      have := hl.mp h
      omega
    · rename_i h
      have := mt hl.mpr h
      omega
  · have : daysInMonth y m = 0 := by
      unfold daysInMonth
      split <;> first | omega | rfl
    rw [this]
    simp
    omega

theorem month_cases {y m d : Nat} (h : IsDate y m d) : 1 ≤ m ∧ m ≤ 12 := by
  unfold IsDate at h
  simp at h
  omega

theorem doy_next {y m d y' m' d' : Nat} (h : IsNextDate y m d y' m' d') :
    (y' = y ∧ dayOfYear y' m' d' = dayOfYear y m d + 1) ∨
      (y' = y + 1 ∧ m = 12 ∧ d = 31 ∧ dayOfYear y' m' d' = 1) := by
  obtain ⟨h0, h | h | h⟩ := h
  · obtain ⟨_, h⟩ := h
    obtain ⟨rfl, rfl, rfl⟩ : y' = y ∧ m' = m ∧ d' = d + 1 := by simpa using h
    exact Or.inl ⟨rfl, by unfold dayOfYear; omega⟩
  · obtain ⟨h1, h2, h⟩ := h
    obtain ⟨rfl, rfl, rfl⟩ : y' = y ∧ m' = m + 1 ∧ d' = 1 := by simpa using h
    rw [isDate_iff] at h0 h1
    refine Or.inl ⟨rfl, ?_⟩
    unfold dayOfYear
    rw [List.range_succ, List.map_append, List.sum_append]
    simp
    omega
  · obtain ⟨h1, h2, h⟩ := h
    obtain ⟨rfl, rfl, rfl⟩ : y' = y + 1 ∧ m' = 1 ∧ d' = 1 := by simpa using h
    subst h2
    rw [isDate_iff] at h0 h1
    simp only [daysInMonth] at h0 h1
    exact Or.inr ⟨rfl, rfl, by omega, by simp [dayOfYear, List.range_succ, daysInMonth]⟩

theorem doy_compare (y y' m d : Nat) (h : IsDate y m d) (h' : ¬ LeapYear y') :
    (m ≤ 2 → dayOfYear y m d = dayOfYear y' m d) ∧
    (3 ≤ m → LeapYear y → dayOfYear y m d = dayOfYear y' m d + 1) ∧
    (3 ≤ m → ¬ LeapYear y → dayOfYear y m d = dayOfYear y' m d) := by
  rw [← isLeap_iff] at *
  obtain ⟨h1, h2⟩ := month_cases h
  have e' : isLeap y' = false := by simpa using h'
  unfold dayOfYear
  interval_cases m <;> cases e : isLeap y <;>
    simp [List.range_succ, daysInMonth, e, e'] <;> omega

/-- **C87** The result is that of the day number, which counts the days of the year: 1 on 1 January, one more from
each date to the next within the year, 365 or in leap years 366 on 31 December. Dates that do not exist raise. -/
theorem C87_day_number : ∃ n : Nat → Nat → Nat → Nat,
    (∀ y, n y 1 1 = 1) ∧
    (∀ y m d m' d', IsNextDate y m d y m' d' → n y m' d' = n y m d + 1) ∧
    (∀ y, (LeapYear y → n y 12 31 = 366) ∧ (¬ LeapYear y → n y 12 31 = 365)) ∧
    (∀ y m d, IsDate y m d → 1 ≤ n y m d ∧ n y m d ≤ 366) ∧
    (∀ y m d t, IsDate y m d → climVarParamDate y m d t = .ok (climVarParam (n y m d : ℝ) t)) ∧
    (∀ y m d t, ¬ IsDate y m d → climVarParamDate y m d t = .error .valueError) := by
  refine ⟨dayOfYear, ?_, ?_, ?_, ?_, ?_, ?_⟩
  · intro y; simp [dayOfYear, List.range_succ, daysInMonth]
  · intro y m d m' d' h
    rcases doy_next h with ⟨_, h⟩ | ⟨h, _⟩
    · exact h
    · omega
  · intro y
    rw [← isLeap_iff y]
    cases e : isLeap y <;> simp [dayOfYear, List.range_succ, daysInMonth, e]
  · intro y m d h
    obtain ⟨h1, h2⟩ := month_cases h
    rw [isDate_iff] at h
    refine ⟨by unfold dayOfYear; omega, ?_⟩
    unfold dayOfYear
    interval_cases m <;> cases e : isLeap y <;> simp [List.range_succ, daysInMonth, e] at h ⊢ <;> omega
  · intro y m d t h
    rw [isDate_iff] at h
    unfold climVarParamDate
    rw [if_pos h]
  · intro y m d t h
    rw [isDate_iff] at h
    unfold climVarParamDate
    rw [if_neg h]

theorem climVar_365 (x t : ℝ) : climVarParam (x + 365) t = climVarParam x t := by
  unfold climVarParam
  dsimp only
  have key : ∀ c : ℝ, Real.cos (2 * Real.pi * (1 / 365) * (x + 365 - c)) =
      Real.cos (2 * Real.pi * (1 / 365) * (x - c)) := by
    intro c
    rw [← Real.cos_add_two_pi (2 * Real.pi * (1 / 365) * (x - c))]
    congr 1
    ring
  rw [key, key]

/-- **C87** The cycle has 365 days: 31 December of a leap year has the parameters of 1 January of any year. -/
theorem C87_leap_december (y y' : Nat) (h : LeapYear y) (t : ℝ) :
    ∃ v, climVarParamDate y 12 31 t = .ok v ∧ climVarParamDate y' 1 1 t = .ok v := by
  refine ⟨climVarParam 1 t, ?_, ?_⟩
  · unfold climVarParamDate
    rw [if_pos (by simp [daysInMonth])]
    have e : isLeap y = true := (isLeap_iff y).mpr h
    have : dayOfYear y 12 31 = 366 := by simp [dayOfYear, List.range_succ, daysInMonth, e]
    rw [this, ← climVar_365 1 t]
    norm_num
  · unfold climVarParamDate
    rw [if_pos (by simp [daysInMonth])]
    have : dayOfYear y' 1 1 = 1 := by simp [dayOfYear, List.range_succ, daysInMonth]
    rw [this]
    norm_num

/-- **C87** Dates up to 28 February have the same parameters in all years, later dates in all common years; from March
on a date of a leap year has the parameters of the following date in a common year. -/
theorem C87_leap_shift (y y' : Nat) (h' : ¬ LeapYear y') (m d : Nat) (t : ℝ) :
    (IsDate y' m d → m ≤ 2 ∨ ¬ LeapYear y → climVarParamDate y m d t = climVarParamDate y' m d t) ∧
    (∀ m' d', LeapYear y → 3 ≤ m → IsNextDate y' m d y' m' d' →
      climVarParamDate y m d t = climVarParamDate y' m' d' t) := by
  have hdate : ∀ y, IsDate y' m d → IsDate y m d := by
    intro y h
    obtain ⟨h1, h2 | h2 | h2 | h2⟩ := h
    · exact ⟨h1, Or.inl h2⟩
    · exact ⟨h1, Or.inr (Or.inl h2)⟩
    · exact ⟨h1, Or.inr (Or.inr (Or.inl h2))⟩
    · exact absurd h2.2.2 h'
  have hcv : ∀ y m d, IsDate y m d → climVarParamDate y m d t = .ok (climVarParam (dayOfYear y m d : ℝ) t) := by
    intro y m d h
    rw [isDate_iff] at h
    unfold climVarParamDate
    rw [if_pos h]
  refine ⟨?_, ?_⟩
  · intro h hc
    rw [hcv y m d (hdate y h), hcv y' m d h]
    obtain ⟨a, b, c⟩ := doy_compare y y' m d (hdate y h) h'
    rw [show dayOfYear y m d = dayOfYear y' m d by
      by_cases h3 : m ≤ 2
      · exact a h3
      · exact c (by omega) (hc.resolve_left h3)]
  · intro m' d' hy h3 hn
    have hd' : IsDate y' m' d' := by
      obtain ⟨h0, h | h | h⟩ := hn
      · obtain ⟨h1, h⟩ := h
        obtain ⟨-, rfl, rfl⟩ : y' = y' ∧ m' = m ∧ d' = d + 1 := by simpa using h
        exact h1
      · obtain ⟨_, h2, h⟩ := h
        obtain ⟨-, rfl, rfl⟩ : y' = y' ∧ m' = m + 1 ∧ d' = 1 := by simpa using h
        have := (month_cases h0).1
        rw [isDate_iff]
        interval_cases m <;> simp [daysInMonth]
      · obtain ⟨_, h2, h⟩ := h
        simp at h
    rw [hcv y m d (hdate y hn.1), hcv y' m' d' hd']
    obtain ⟨a, b, c⟩ := doy_compare y y' m d (hdate y hn.1) h'
    rcases doy_next hn with ⟨_, e⟩ | ⟨e, _⟩
    · rw [e, b h3 hy]
    · omega

/-- the hypotheses hold for 1 March 2024 and 2 March 2023 -/
example (t : ℝ) : climVarParamDate 2024 3 1 t = climVarParamDate 2023 3 2 t :=
  (C87_leap_shift 2024 2023 (by unfold LeapYear; omega) 3 1 t).2 3 2 (by unfold LeapYear; omega) (by omega)
    ⟨by unfold IsDate; simp, Or.inl ⟨by unfold IsDate; simp, rfl⟩⟩

/-- 1900 is a common year, 2000 a leap year -/
example : ¬ LeapYear 1900 ∧ LeapYear 2000 ∧ dayOfYear 2000 12 31 = 366 := by
  refine ⟨?_, ?_, by decide⟩ <;> unfold LeapYear <;> omega

end Verif.Props
