import Verif.Np

/-!
# Model of `waa_schleiss_2013` (`pycomlink/processing/wet_antenna.py` L28-L110)
-/

namespace Verif.Waa
open Verif

variable {F : Type} [PyFloat F]

/-- Body of the loop in `_numba_waa_schleiss_2013`, wet_antenna.py L56-L62. `wet[i] == True`
compares a float with `1.0`. Scalar division in compiled code raises for a zero divisor. -/
def schleissBody (A wet : List F) (waaMax deltaT tau : F) (i : Nat) (waa : List F) :
    Except Err (List F) :=
  if rd wet i ==ᶠ PyFloat.ofInt 1 then
    if tau ==ᶠ PyFloat.ofInt 0 then .error .zeroDivision
    else
      .ok (waa.set i (pyMin (pyMin (rd A i) waaMax)
        (rd waa (i-1) +ᶠ (waaMax -ᶠ rd waa (i-1)) *ᶠ PyFloat.ofInt 3 *ᶠ deltaT /ᶠ tau)))
  else .ok (waa.set i (pyMin (rd A i) waaMax))

/-- `waa_schleiss_2013`, wet_antenna.py L66-L110 with L28-L63. Arrays of different lengths: `rsl -
baseline` would broadcast or raise, a short `wet` would be read out of bounds; not modelled. -/
def waaSchleiss (rsl baseline wet : List F) (waaMax deltaT tau : F) : Except Err (List F) :=
  if rsl.length ≠ baseline.length ∨ wet.length < rsl.length then .error .outOfModel
  else
    let A := List.zipWith (fun a b => a -ᶠ b) rsl baseline          -- L54
    forRangeM 1 rsl.length (rsl.map fun _ => PyFloat.ofInt 0)       -- L53, L56
      (schleissBody A wet waaMax deltaT tau)

end Verif.Waa
