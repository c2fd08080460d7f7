import Verif.Model.WaaModels

/-!
# The grid of the look-up tables for every number type
-/

namespace Verif.WaaModels
open Verif

variable {F : Type} [PyFloat F] [PyPow F]

/-- `np.linspace(start, stop, num)` of numpy for numbers and `num ≥ 2`: `np.arange(0, num) * step + start` with
`step = (stop - start) / (num - 1)`, the last entry overwritten by `stop`. numpy uses another formula if `step == 0`, which does not
occur here. -/
def npLinspace (start stop : F) (num : ℕ) : List F :=
  let step := (stop -ᶠ start) /ᶠ PyFloat.ofInt (num - 1 : ℕ)
  (List.range num).map fun k => if k = num - 1 then stop else PyFloat.ofInt k *ᶠ step +ᶠ start

/-- `np.logspace(start, stop, num)`: `10.0 ** np.linspace(start, stop, num)` -/
def npLogspace (start stop : F) (num : ℕ) : List F := (npLinspace start stop num).map (PyPow.pow (PyFloat.ofInt 10))

/-- wet_antenna.py L183-L184 and L359-L360: `A_rain = np.logspace(-10, 3, 100); A_rain[0] = 0` -/
def rainGrid : List F := (npLogspace (PyFloat.ofInt (-10)) (PyFloat.ofInt 3) 100).set 0 (PyFloat.ofInt 0)

end Verif.WaaModels
