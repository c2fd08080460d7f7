import Verif.Rounding
import Mathlib.Algebra.Order.Floor.Ring

/-!
# Model of `pycomlink/processing/min_max.py`
-/

namespace Verif.MinMax
open Verif

variable {K : Type} [Field K] [LinearOrder K] [FloorRing K]

/-- `np.rint` on a number: nearest integer, ties to even. -/
def rintK (x : K) : Int :=
  let f := ⌊x⌋
  if x - f < 1 / 2 then f
  else if 1 / 2 < x - f then f + 1
  else if f % 2 = 0 then f else f + 1

/-- `np.rint` as an operation of the number type (min_max.py L29, L30). -/
class PyRint (F : Type) where
  rint : F → F

/-- `np.rint` on exact numbers; NaN and infinities stay. -/
def rint : Fl K → Fl K
  | .fin x => .fin (rintK x : K)
  | y => y

instance : PyRint (Fl K) := ⟨rint⟩

/-- `np.rint` on floats: the nearest integer, which is a float itself for doubles. -/
instance (R : Rounding K) : PyRint (RFl R) := ⟨fun x => RFl.mk' R (rint x.val)⟩

variable {F : Type} [PyFloat F] [PyRint F]

/-- `a[np.isnan(a)] = np.rint(np.nanmean(a))`, min_max.py L29 and L30. -/
def fillNan (xs : List F) : List F :=
  xs.map fun x => if isNaN x then PyRint.rint (npNanmean xs) else x

omit [PyRint F] in
/-- Body of the loop, min_max.py L34-L35. -/
def minMaxBody (acMax acMin : List F) (window i : Nat) (ar : List F) :
    Except Err (List F) :=
  (npMin (slice acMin (i - window) (i + 1))).map fun m => ar.set i (rd acMax i -ᶠ m)

/-- `_calc_A_min_max`, min_max.py L4-L39, on four float arrays of equal length (numpy would
raise or broadcast otherwise: not modelled), `window` non-negative. -/
def calcAMinMax (txMin txMax rxMin rxMax : List F) (gT gR : F) (window : Nat) :
    Except Err (List F) :=
  if txMax.length ≠ rxMin.length ∨ txMin.length ≠ rxMax.length ∨ txMax.length ≠ txMin.length then
    .error .outOfModel
  else
    let bias := (gT +ᶠ gR) /ᶠ PyFloat.ofInt 2
    let acMax := fillNan (List.zipWith (fun a b => a -ᶠ b -ᶠ bias) txMax rxMin)   -- L26, L29
    let acMin := fillNan (List.zipWith (fun a b => a -ᶠ b +ᶠ bias) txMin rxMax)   -- L27, L30
    (forRangeM window acMax.length (acMax.map fun _ => PyFloat.ofInt 0)           -- L33
      (minMaxBody acMax acMin window)).map fun ar =>
        let ar := ar.map fun x => if x <ᶠ PyFloat.ofInt 0 then PyFloat.ofInt 0 else x   -- L36
        fillSlice ar 0 (min window ar.length) PyFloat.nan                          -- L37

end Verif.MinMax
