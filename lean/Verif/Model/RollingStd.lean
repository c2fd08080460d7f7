import Verif.Rolling
import Verif.FloatReal

/-!
# Wet/dry classification of the documented workflow

`cml.trsl.rolling(time=60, center=True).std() > threshold` in docs/notebooks/Basic CML processing workflow.ipynb L636-L637, L842 (also in
three other notebooks); without the comparison in pycomlink/tests/test_xarray_workflow.py L18.
-/

namespace Verif.Rsd
open Verif

variable {F : Type} [PyFloat F]

/-- standard deviation with `ddof=0`, the default of xarray -/
def popStd [PySqrt F] (xs : List F) : F :=
  PySqrt.sqrt (npMean (xs.map fun x => (x -ᶠ npMean xs) *ᶠ (x -ᶠ npMean xs)))

/-- `da.rolling(time=w, center=True).std()` (workflow notebook L636): xarray appends `(w - 1) // 2` NaN, computes the trailing windows, which
need `w` values (`min_periods=None`), and drops the first `(w - 1) // 2` results. `ValueError` if the window does not fit. Exact
arithmetic for bottleneck's running sums. -/
def rollingStd [PySqrt F] (xs : List F) (w : Nat) : Except Err (List F) :=
  let padded := xs ++ List.replicate ((w - 1) / 2) PyFloat.nan
  if windowFits w w padded.length then .ok ((rolling w w popStd padded).drop ((w - 1) / 2)) else .error .valueError

/-- `cml.trsl.rolling(time=w, center=True).std() > threshold` (workflow notebook L637) -/
def wetRsd [PySqrt F] (xs : List F) (w : Nat) (threshold : F) : Except Err (List Bool) := do
  let s ← rollingStd xs w
  return s.map fun x => threshold <ᶠ x

end Verif.Rsd
