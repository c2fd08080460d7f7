import Verif.Model.HourlyMap
import Verif.Model.Stft
import Verif.Model.Nearby

/-!
# Minimum and maximum levels of the documented nearby link workflow

docs/notebooks/Nearby link approach processing example.ipynb: 15-minute minima and maxima of the levels as input of the nearby link approach.
-/

namespace Verif.NearbyWorkflow
open Verif Verif.Nearby

variable {F : Type} [PyFloat F]

/-- `np.nanmax`: largest value that is not NaN, NaN if there is none -/
def npNanmax (xs : List F) : F :=
  match xs.filter fun x => !(isNaN x) with
  | [] => PyFloat.nan
  | x :: r => r.foldl npMaximum x

/-- `rstl.resample(time="15min").min()` (nearby notebook L533) for equidistant time stamps, `m` per interval, the first one at the beginning of an interval. The minimum of xarray skips
NaN and is NaN if there is no value. The labels are not modelled. -/
def resampleMin (m : Nat) (xs : List F) : List F := (HourlyMap.blocks m xs).map Stft.npNanmin

/-- `rstl.resample(time="15min").max()` (nearby notebook L534) -/
def resampleMax (m : Nat) (xs : List F) : List F := (HourlyMap.blocks m xs).map npNanmax

/-- the network as given to `nearby_wetdry` (nearby notebook L533, L642-L651) -/
def minuteNet {Id : Type} (m : Nat) (ids : List Id) (length : List F) (levels : List (List F)) : Net F Id :=
  ⟨ids, length, levels.map (resampleMin m)⟩

end Verif.NearbyWorkflow
