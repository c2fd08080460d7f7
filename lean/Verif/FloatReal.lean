import Verif.Float
import Mathlib.Analysis.SpecialFunctions.Pow.Real
import Mathlib.Analysis.SpecialFunctions.Sqrt

/-!
# Transcendental numpy functions on exact reals with NaN and infinities
-/

namespace Verif

/-- `np.sqrt` as an operation of the number type (no laws). -/
class PySqrt (F : Type) where
  sqrt : F → F

/-- `x ** y` of float arrays as an operation of the number type (no laws). -/
class PyPow (F : Type) where
  pow : F → F → F

namespace Fl

/-- `np.sqrt`: NaN for negative input. -/
noncomputable def sqrt : Fl ℝ → Fl ℝ
  | nan => nan
  | ninf => nan
  | fin x => if x < 0 then nan else fin (Real.sqrt x)
  | pinf => pinf

noncomputable instance : PySqrt (Fl ℝ) := ⟨sqrt⟩

theorem sqrt_fin {x : ℝ} (h : 0 ≤ x) : PySqrt.sqrt (fin x) = fin (Real.sqrt x) := by
  show (if x < 0 then nan else fin (Real.sqrt x)) = _
  rw [if_neg (not_lt.mpr h)]

/-- `np.exp` -/
noncomputable def exp : Fl ℝ → Fl ℝ
  | nan => nan
  | ninf => fin 0
  | fin x => fin (Real.exp x)
  | pinf => pinf

@[simp] theorem exp_fin (x : ℝ) : exp (fin x) = fin (Real.exp x) := rfl

/-- `np.log`: NaN for negative input, `-inf` at zero. -/
noncomputable def log : Fl ℝ → Fl ℝ
  | nan => nan
  | ninf => nan
  | fin x => if x < 0 then nan else if x = 0 then ninf else fin (Real.log x)
  | pinf => pinf

theorem log_fin {x : ℝ} (h : 0 < x) : log (fin x) = fin (Real.log x) := by
  show (if x < 0 then nan else if x = 0 then ninf else fin (Real.log x)) = _
  rw [if_neg (not_lt.mpr h.le), if_neg h.ne']

open Classical in
/-- `x ** y` (numpy float power, C99 `pow`); the sign of a zero is not modelled. A negative number has a power for integer
exponents only. -/
noncomputable def pow : Fl ℝ → Fl ℝ → Fl ℝ
  | fin x, fin y =>
    if y = 0 then fin 1
    else if 0 < x then fin (x ^ y)
    else if x = 0 then (if 0 < y then fin 0 else pinf)
    else if ∃ n : ℤ, y = n then fin (x ^ ⌊y⌋) else nan
  | fin x, pinf => if |x| = 1 then fin 1 else if 1 < |x| then pinf else fin 0
  | fin x, ninf => if |x| = 1 then fin 1 else if 1 < |x| then fin 0 else pinf
  | fin x, nan => if x = 1 then fin 1 else nan
  | pinf, fin y => if y = 0 then fin 1 else if 0 < y then pinf else fin 0
  | pinf, pinf => pinf
  | pinf, ninf => fin 0
  | ninf, fin y => if y = 0 then fin 1 else if y < 0 then fin 0 else if ∃ n : ℤ, y = 2 * n + 1 then ninf else pinf
  | ninf, pinf => pinf
  | ninf, ninf => fin 0
  | nan, fin y => if y = 0 then fin 1 else nan
  | pinf, nan => nan
  | ninf, nan => nan
  | nan, _ => nan

noncomputable instance : PyPow (Fl ℝ) := ⟨pow⟩

theorem pow_fin_pos {x y : ℝ} (hx : 0 < x) : pow (fin x) (fin y) = fin (x ^ y) := by
  by_cases hy : y = 0
  · subst hy; simp [pow]
  · simp [pow, hy, hx]

theorem pow_fin {x y : ℝ} (hx : 0 ≤ x) (hy : 0 < y) : pow (fin x) (fin y) = fin (x ^ y) := by
  rcases hx.lt_or_eq with h | h
  · exact pow_fin_pos h
  · subst h
    rw [Real.zero_rpow hy.ne']
    simp [pow, hy, hy.ne']

end Fl

end Verif

namespace Verif.Fl
variable {K : Type}

/-- `np.isinf` -/
def isInf : Fl K → Bool
  | pinf => true
  | ninf => true
  | _ => false

end Verif.Fl
