import Verif.Model.Validator
import Verif.Model.Idw

/-!
# Maps of rain amounts of the documented workflow

docs/notebooks/Basic CML processing workflow.ipynb: hourly means of the rain rates, their sum over time, links that are wet too often left out, inverse distance weighting.
-/

namespace Verif.HourlyMap
open Verif Verif.Idw

section
variable {F : Type} [PyFloat F]

/-- `m` consecutive values each, the last block possibly shorter -/
def blocks (m : Nat) (xs : List F) : List (List F) :=
  (List.range ((xs.length + m - 1) / m)).map fun h => (xs.drop (m * h)).take m

/-- `R.resample(time='1h', label='right').mean()` (workflow notebook L1869) for equidistant time stamps, `m` per hour, the first one at a full hour. The mean of xarray skips NaN and is
NaN if there is no value. The labels are not modelled. -/
def hourMeans (m : Nat) (xs : List F) : List F := (blocks m xs).map npNanmean

/-- `.sum(dim='time')` of the hourly means (workflow notebook L1948); the sum of xarray skips NaN and is 0 if there is no value -/
def amount (m : Nat) (xs : List F) : F := Validator.nansum (hourMeans m xs)

/-- `(cml.wet==1).sum() / len(cml.time)` (workflow notebook L844) -/
def wetFraction (wet : List F) : F :=
  PyFloat.ofInt ((wet.filter fun w => w ==ᶠ PyFloat.ofInt 1).length : Int) /ᶠ PyFloat.ofInt (wet.length : Int)

/-- `R.sum(dim='time').where(wet_fraction < 0.3)` (workflow notebook L1948), one link -/
def mapValue (limit : F) (m : Nat) (rates wet : List F) : F :=
  if wetFraction wet <ᶠ limit then amount m rates else PyFloat.nan

end

/-- a link for the map: its centre, rain rates and wet flags -/
structure MapLink where
  pos : Pt
  rates : List (Fl ℝ)
  wet : List (Fl ℝ)

/-- `idw_interpolator(x=lon_center, y=lat_center, z=...)` with the amounts (workflow notebook L1945-L1950) on given grids -/
noncomputable def amountMap (knn : Knn) (cfg : Config) (limit : Fl ℝ) (m : Nat) (links : List MapLink) (xg yg : Grid ℝ) :
    Except Err (Grid (Fl ℝ)) :=
  (interpolate knn cfg (fun _ => []) none (.own (links.map (·.pos.1))) (.own (links.map (·.pos.2)))
    (links.map fun l => mapValue limit m l.rates l.wet) (some xg) (some yg) none).1

end Verif.HourlyMap
