import Verif.Np

/-!
# Preprocessing of the documented workflow

docs/notebooks/Basic CML processing workflow.ipynb: default values to NaN, `trsl = tsl - rsl`, short gaps filled by linear interpolation.
-/

namespace Verif.Preprocess
open Verif

variable {F : Type} [PyFloat F]

/-- `da.where(da != default)` (workflow notebook L536-L537): NaN where the value is the default value of the logger -/
def whereNot (default : F) (xs : List F) : List F := xs.map fun x => if x ==ᶠ default then PyFloat.nan else x

/-- index of the last value before step `i` that is not NaN -/
def lastValid (xs : List F) (i : Nat) : Option Nat := ((List.range i).filter fun j => !(isNaN (rd xs j))).getLast?

/-- index of the first value after step `i` that is not NaN -/
def nextValid (xs : List F) (i : Nat) : Option Nat :=
  (List.range xs.length).find? fun j => decide (i < j) && !(isNaN (rd xs j))

/-- `da.interpolate_na(dim='time', method='linear', max_gap=g)` (workflow notebook L595) for equidistant time stamps, with `g` in steps: xarray interpolates with `np.interp` between
the values before and after the gap (NaN outside) and sets gaps back to NaN whose length, from the last value before to the first value after the
gap, exceeds `max_gap`. -/
def interpolateNa (xs : List F) (g : Nat) : List F :=
  (List.range xs.length).map fun i =>
    if isNaN (rd xs i) then
      match lastValid xs i, nextValid xs i with
      | some p, some q =>
        if q - p ≤ g then
          ((rd xs q -ᶠ rd xs p) /ᶠ PyFloat.ofInt ((q : Int) - p)) *ᶠ PyFloat.ofInt ((i : Int) - p) +ᶠ rd xs p
        else PyFloat.nan
      | _, _ => PyFloat.nan
    else rd xs i

/-- from the logger to `trsl` (workflow notebook L536-L595): default values 255.0 and -99.9 to NaN, difference, short gaps filled -/
def preprocess (tslDefault rslDefault : F) (tsl rsl : List F) (g : Nat) : List F :=
  interpolateNa (List.zipWith (· -ᶠ ·) (whereNot tslDefault tsl) (whereNot rslDefault rsl)) g

/-- `rsl.where(rsl > -99.9)`, `tsl.where(tsl < 255.0)`, both gap-filled, then `rsl - tsl` (docs/notebooks/Nearby link approach processing
example.ipynb L501-L504 and L532): other than in the basic workflow notebook the gaps of the two are filled before the
difference is taken. Equidistant time stamps, `g` is `max_gap` in steps. -/
def preprocessSeparate (rslMin tslMax : F) (rsl tsl : List F) (g : Nat) : List F :=
  List.zipWith (· -ᶠ ·) (interpolateNa (rsl.map fun x => if rslMin <ᶠ x then x else PyFloat.nan) g)
    (interpolateNa (tsl.map fun x => if x <ᶠ tslMax then x else PyFloat.nan) g)

end Verif.Preprocess
