import Verif.Binary64
import Verif.FloatReal

/-!
# Square root and tests for infinity in rounded arithmetic, exact dyadic numbers of IEEE doubles
-/

namespace Verif

namespace RFl
variable {R : Rounding ℝ}

/-- `np.sqrt`: the exact square root, rounded (IEEE 754 section 5.4.1). -/
noncomputable instance : PySqrt (RFl R) := ⟨fun a => mk' R (Fl.sqrt a.val)⟩

theorem val_sqrt (a : RFl R) : (PySqrt.sqrt a).val = R.round (Fl.sqrt a.val) := rfl

/-- `np.isinf` -/
def isInf {K : Type} [Field K] [LinearOrder K] {R : Rounding K} (a : RFl R) : Bool := Fl.isInf a.val

end RFl

namespace Bin
open Verif.MinMax
variable {K : Type} [Field K] [LinearOrder K] [IsStrictOrderedRing K] [FloorRing K]

/-- Integer multiples of a power of two with at most 53 bits are doubles. -/
theorem binary64_dyadic {m : ℤ} {e : ℤ} (h0 : 0 ≤ m) (hm : m ≤ 2 ^ 53) (he : -1074 ≤ e)
    (he' : e ≤ 900) : (binary64 (K := K)).rnd ((m : K) * 2 ^ e) = .fin ((m : K) * 2 ^ e) := by
  show rndFmt 53 (-1074) 1024 _ = _
  have hnn : (0 : K) ≤ (m : K) * 2 ^ e :=
    mul_nonneg (by exact_mod_cast h0) (two_zpow_pos e).le
  have hmK : (m : K) ≤ 2 ^ (53 : ℤ) := by exact_mod_cast hm
  rw [rndFmt_self_iff, abs_of_nonneg hnn]
  constructor
  · rcases h0.eq_or_lt with rfl | hpos
    · simpa using rndPos_zero
    rcases hm.lt_or_eq with hlt | rfl
    · refine rndPos_mul_zpow (ulpExp_le ?_ he ?_)
      · exact mul_pos (by exact_mod_cast hpos) (two_zpow_pos e)
      · rw [zpow_add₀ two_ne_zero, mul_comm]
        refine mul_lt_mul_of_pos_left ?_ (two_zpow_pos e)
        exact_mod_cast hlt
    · have : (((2 : ℤ) ^ 53 : ℤ) : K) * 2 ^ e = 2 ^ (53 + e) := by
        rw [zpow_add₀ two_ne_zero]; norm_num
      rw [this]
      exact rndPos_two_zpow (by norm_num) (by omega)
  · calc (m : K) * 2 ^ e ≤ 2 ^ (53 : ℤ) * 2 ^ e := mul_le_mul_of_nonneg_right hmK (two_zpow_pos e).le
      _ = 2 ^ (53 + e) := (zpow_add₀ two_ne_zero _ _).symm
      _ < 2 ^ (1024 : ℤ) := zpow_lt_zpow_right₀ one_lt_two (by omega)

/-- Doubles in `[1/2, 1]`: multiples of `2^-53`, and the error is at most `2^-54`. -/
theorem binary64_half_one {x : K} (h1 : 1 / 2 ≤ x) (h2 : x ≤ 1) :
    ∃ m : ℤ, (binary64 (K := K)).rnd x = .fin ((m : K) * 2 ^ (-53 : ℤ)) ∧
      |x - (m : K) * 2 ^ (-53 : ℤ)| ≤ 2 ^ (-54 : ℤ) := by
  rcases h2.lt_or_eq with h2 | rfl
  · refine ⟨rintK (x / 2 ^ (-53 : ℤ)), ?_, ?_⟩
    · have := binary64_rnd (x := x) (k := -1) (m := rintK (x / 2 ^ (-53 : ℤ))) (by norm_num)
        (by norm_num) (by norm_num at h1 ⊢; linarith) (by norm_num; exact h2) (by norm_num)
      simpa using this
    · have h := (Props.C27_rint_nearest (x / 2 ^ (-53 : ℤ))).1
      have hp : (0 : K) < 2 ^ (-53 : ℤ) := two_zpow_pos _
      have e : x - (rintK (x / 2 ^ (-53 : ℤ)) : K) * 2 ^ (-53 : ℤ)
          = (x / 2 ^ (-53 : ℤ) - rintK (x / 2 ^ (-53 : ℤ))) * 2 ^ (-53 : ℤ) := by
        rw [sub_mul, div_mul_cancel₀ _ hp.ne']
      rw [e, abs_mul, abs_of_pos hp]
      calc _ ≤ (1 / 2 : K) * 2 ^ (-53 : ℤ) := mul_le_mul_of_nonneg_right h hp.le
        _ = 2 ^ (-54 : ℤ) := by norm_num
  · refine ⟨2 ^ 53, ?_, ?_⟩
    · have : (((2 : ℤ) ^ 53 : ℤ) : K) * 2 ^ (-53 : ℤ) = 1 := by norm_num
      rw [this]; exact binary64.one
    · have : (((2 : ℤ) ^ 53 : ℤ) : K) * 2 ^ (-53 : ℤ) = 1 := by norm_num
      rw [this]
      simp

/-- Numbers at most half a unit from 1 are rounded to 1 (ties to even). -/
theorem binary64_one_of_near {x : K} (h1 : 1 - 2 ^ (-54 : ℤ) ≤ x) (h2 : x ≤ 1 + 2 ^ (-53 : ℤ)) :
    (binary64 (K := K)).rnd x = .fin 1 := by
  have lo : (binary64 (K := K)).rnd (1 - 2 ^ (-54 : ℤ)) = .fin 1 := by
    have hr : rintK ((1 - 2 ^ (-54 : ℤ) : K) / 2 ^ ((-1 : ℤ) - 52)) = 2 ^ 53 := by
      have e : (1 - 2 ^ (-54 : ℤ) : K) / 2 ^ ((-1 : ℤ) - 52) = ((2 ^ 53 - 1 : ℤ) : K) + 1 / 2 := by
        norm_num
      rw [e]
      unfold rintK
      have f : ⌊((2 ^ 53 - 1 : ℤ) : K) + 1 / 2⌋ = 2 ^ 53 - 1 := by
        rw [Int.floor_eq_iff]
        constructor <;> linarith
      dsimp only
      rw [f]
      norm_num
    have := binary64_rnd (x := (1 - 2 ^ (-54 : ℤ) : K)) (k := -1) (m := 2 ^ 53) (by norm_num)
      (by norm_num) (by norm_num) (by norm_num) hr
    rw [this]
    norm_num
  have hi : (binary64 (K := K)).rnd (1 + 2 ^ (-53 : ℤ)) = .fin 1 := by
    have hr : rintK ((1 + 2 ^ (-53 : ℤ) : K) / 2 ^ ((0 : ℤ) - 52)) = 2 ^ 52 := by
      have e : (1 + 2 ^ (-53 : ℤ) : K) / 2 ^ ((0 : ℤ) - 52) = ((2 ^ 52 : ℤ) : K) + 1 / 2 := by
        norm_num
      rw [e]
      unfold rintK
      have f : ⌊((2 ^ 52 : ℤ) : K) + 1 / 2⌋ = 2 ^ 52 := by
        rw [Int.floor_eq_iff]
        constructor <;> linarith
      dsimp only
      rw [f]
      norm_num
    have := binary64_rnd (x := (1 + 2 ^ (-53 : ℤ) : K)) (k := 0) (m := 2 ^ 52) (by norm_num)
      (by norm_num) (by norm_num) (by norm_num) hr
    rw [this]
    norm_num
  have a := binary64.mono _ _ h1
  have b := binary64.mono _ _ h2
  rw [lo] at a
  rw [hi] at b
  cases h : (binary64 (K := K)).rnd x with
  | nan => rw [h] at a; cases a
  | ninf => rw [h] at a; cases a
  | pinf => rw [h] at b; cases b
  | fin z =>
    rw [h] at a b
    simp only [Fl.pf_le_fin, decide_eq_true_eq] at a b
    rw [le_antisymm b a]

theorem binary64_half : (binary64 (K := K)).rnd (1 / 2) = .fin (1 / 2) := by
  have := binary64_dyadic (K := K) (m := 1) (e := -1) (by norm_num) (by norm_num) (by norm_num) (by norm_num)
  norm_num at this ⊢
  exact this

end Bin
end Verif
