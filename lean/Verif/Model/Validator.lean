import Verif.Np
import Verif.Model.Stats

/-!
# Model of pycomlink/validation/validator.py

The intersection weights (`poligrain.spatial.calc_intersect_weights`) are a parameter.
-/

namespace Verif.Validator
open Verif

variable {F : Type} [PyFloat F]

/-- `np.where(mask)` for a 2D mask: the (row, column) pairs of true entries in row-major order -/
def whereTrue (mask : List (List Bool)) : List (Nat × Nat) :=
  mask.zipIdx.flatMap fun (row, i) => (row.zipIdx.filter fun p => p.1).map fun p => (i, p.2)

/-- smallest and largest element (`np.unique(ix).min()`, `.max()`), `none` for an empty array, for which numpy
raises `ValueError` -/
def bounds : List Nat → Option (Nat × Nat)
  | [] => none
  | i :: is => some (is.foldl min i, is.foldl max i)

/-- xarray's `.sum(dim=...)`: NaN is skipped -/
def nansum (xs : List F) : F := fsum (xs.filter fun x => !(isNaN x))

/-- `GridValidator.get_time_series` (validator.py L58-86). `times` and `values` are the time coordinate and the
variable of `xr_ds` with dimensions (time, y, x); `tStart` and `tStop` are the first stamp of channel 1 and the last
stamp of channel 2. Weights and values have the same spatial shape. -/
def getTimeSeries (weights : List (List F)) (times : List Int) (values : List (List (List F)))
    (tStart tStop : Int) : Except Err (List (Int × F)) :=
  let wMask := weights.map fun row => row.map fun w => PyFloat.ofInt 0 <ᶠ w
  let ix := whereTrue wMask
  match bounds (ix.map Prod.snd), bounds (ix.map Prod.fst) with
  | some (x0, x1), some (y0, y1) =>
    let box (grid : List (List F)) := (slice grid y0 (y1 + 1)).map fun row => slice row x0 (x1 + 1)
    .ok (((times.zip values).filter fun p => decide (tStart < p.1) && decide (p.1 < tStop)).map fun p =>
      (p.1, nansum ((List.zipWith (fun vr wr => List.zipWith (fun v w => v *ᶠ w) vr wr)
        (box p.2) (box weights)).flatten)))
  | _, _ => .error .valueError

/-- `calc_wet_dry_error` (validator.py L180-187, deprecated): (wet error, dry error). Flags as in `calcWetErrorRates`; the arrays have equal
length. -/
def calcWetDryError (truth wet : List F) : F × F :=
  let dryError := Stats.divNat (Stats.bsum (Stats.band (truth.map Stats.isFalse) (wet.map Stats.isTrue)))
    (Stats.bsum (truth.map Stats.isFalse))
  let wetError := Stats.divNat (Stats.bsum (Stats.band (truth.map Stats.isTrue) (wet.map Stats.isFalse)))
    (Stats.bsum (truth.map Stats.isTrue))
  (wetError, dryError)

end Verif.Validator
