import Verif.Float
import Verif.Model.Haversine
import Verif.Rounding
import Mathlib.Data.List.Dedup
import Mathlib.Data.List.Sort

/-!
# Model of pycomlink/io/cmlh5_to_xarray.py

An HDF5 file is the list of its groups in the order of `fh.keys()`. Missing members or attributes are `none`.
`X` is the type of attribute numbers, `V` of samples, `A` of other attributes, `T` of raw times.
-/

namespace Verif.Reader
open Verif

/-- a channel group (cmlh5_to_xarray.py L35-50): datasets `tx`, `rx`, `time`, attributes `frequency`, `polarization` -/
structure Channel (X V A T : Type) where
  tx : Option (List V)
  rx : Option (List V)
  time : Option (List T)
  frequency : Option X
  polarization : Option A

/-- a CML group (cmlh5_to_xarray.py L32-48): attributes and channels in the order of `cml_g.items()` -/
structure Cml (X V A T : Type) where
  cmlId : Option A
  siteALatitude : Option X
  siteBLatitude : Option X
  siteALongitude : Option X
  siteBLongitude : Option X
  channels : List (String × Channel X V A T)

/-- a coordinate of the concatenated dataset: one value, or one per channel -/
inductive Coord (α : Type)
  | scalar (a : α)
  | perChannel (as : List α)
  deriving DecidableEq, Repr

/-- value of a coordinate for channel number `j` -/
def Coord.at {α : Type} : Coord α → Nat → Option α
  | .scalar a, _ => some a
  | .perChannel as, j => as[j]?

/-- the dataset of one channel (cmlh5_to_xarray.py L36-58) -/
structure ChannelDs (X V A : Type) where
  tsl : List V
  rsl : List V
  time : List Int
  channelId : String
  cmlId : A
  siteALatitude : X
  siteBLatitude : X
  siteALongitude : X
  siteBLongitude : X
  frequency : X
  polarization : A
  length : X

/-- a dataset with dimensions `channel_id` and `time` -/
structure Ds (X V A : Type) where
  time : List Int
  channelId : List String
  tsl : List (List V)
  rsl : List (List V)
  cmlId : Coord A
  siteALatitude : Coord X
  siteBLatitude : Coord X
  siteALongitude : Coord X
  siteBLongitude : Coord X
  frequency : Coord X
  polarization : Coord A
  length : Coord X

section
variable {X V A T : Type}

/-- `obj[name]` for a member or attribute of an HDF5 group -/
def member {α : Type} : Option α → Except Err α
  | some a => .ok a
  | none => .error .keyError

/-- the dataset of one channel (cmlh5_to_xarray.py L35-58). `toNs` is `(t * 1e9).astype("datetime64[ns]")`, `ghz` is `/ 1e9`. Arrays of
different length for the dimension "time" raise. -/
def channelDs (hav : X → X → X → X → X) (ghz : X → X) (toNs : T → Int) (g : Cml X V A T) (name : String)
    (ch : Channel X V A T) : Except Err (ChannelDs X V A) := do
  let tx ← member ch.tx
  let rx ← member ch.rx
  let time ← member ch.time
  let cmlId ← member g.cmlId
  let aLat ← member g.siteALatitude
  let bLat ← member g.siteBLatitude
  let aLon ← member g.siteALongitude
  let bLon ← member g.siteBLongitude
  let freq ← member ch.frequency
  let pol ← member ch.polarization
  if tx.length = time.length ∧ rx.length = time.length then
    .ok { tsl := tx, rsl := rx, time := time.map toNs, channelId := name, cmlId := cmlId,
          siteALatitude := aLat, siteBLatitude := bLat, siteALongitude := aLon, siteBLongitude := bLon,
          frequency := ghz freq, polarization := pol, length := hav aLon aLat bLon bLat }
  else .error .valueError

/-- `xr.concat` with `coords="different"`: a coordinate that is equal in all datasets stays as it is -/
def concatCoord {α : Type} [DecidableEq α] (as : List α) : Coord α :=
  match as with
  | [] => .perChannel []
  | a :: rest => if rest.all (fun b => decide (b = a)) then .scalar a else .perChannel as

/-- time axis of the concatenated dataset: `xr.concat` with `join="outer"`. Not modelled: different axes that are not
strictly increasing. -/
def joinTimes : List (List Int) → Except Err (List Int)
  | [] => .error .valueError
  | ax :: rest =>
    if rest.all (fun b => decide (b = ax)) then .ok ax
    else if (ax :: rest).all (fun b => decide (b.Pairwise (· < ·))) then
      .ok (((ax :: rest).flatten.insertionSort (· ≤ ·)).dedup)
    else .error .outOfModel

/-- values of a channel on the joined time axis, NaN where it has no sample -/
def onAxis (nan : V) (axis : List Int) (time : List Int) (values : List V) : List V :=
  if time = axis then values
  else axis.map fun t => ((time.zip values).find? fun p => decide (p.1 = t)).elim nan Prod.snd

/-- `xr.concat(ds_channel_list, dim="channel_id")` (cmlh5_to_xarray.py L60); an empty list raises -/
def concat [DecidableEq X] [DecidableEq A] (nan : V) (dss : List (ChannelDs X V A)) : Except Err (Ds X V A) := do
  let axis ← joinTimes (dss.map (·.time))
  .ok { time := axis, channelId := dss.map (·.channelId),
        tsl := dss.map fun d => onAxis nan axis d.time d.tsl,
        rsl := dss.map fun d => onAxis nan axis d.time d.rsl,
        cmlId := concatCoord (dss.map (·.cmlId)),
        siteALatitude := concatCoord (dss.map (·.siteALatitude)),
        siteBLatitude := concatCoord (dss.map (·.siteBLatitude)),
        siteALongitude := concatCoord (dss.map (·.siteALongitude)),
        siteBLongitude := concatCoord (dss.map (·.siteBLongitude)),
        frequency := concatCoord (dss.map (·.frequency)),
        polarization := concatCoord (dss.map (·.polarization)),
        length := concatCoord (dss.map (·.length)) }

/-- one CML of the loop (cmlh5_to_xarray.py L32-60) -/
def cmlDs [DecidableEq X] [DecidableEq A] (hav : X → X → X → X → X) (ghz : X → X) (toNs : T → Int) (nan : V)
    (g : Cml X V A T) : Except Err (Ds X V A) := do
  let dss ← g.channels.mapM fun p => channelDs hav ghz toNs g p.1 p.2
  concat nan dss

/-- `read_cmlh5_file_to_xarray` (cmlh5_to_xarray.py L7-61), with the distance and unit conversion as parameters -/
def readWith [DecidableEq X] [DecidableEq A] (hav : X → X → X → X → X) (ghz : X → X) (toNs : T → Int) (nan : V)
    (file : List (String × Cml X V A T)) : Except Err (List (Ds X V A)) :=
  match file with
  | [] => .error .indexError
  | _ :: _ => file.mapM fun p => cmlDs hav ghz toNs nan p.2

end

open Classical in
/-- `read_cmlh5_file_to_xarray` (cmlh5_to_xarray.py L7-61) -/
noncomputable def readFile {V A T : Type} (toNs : T → Int) (nan : V) (file : List (String × Cml ℝ V A T)) :
    Except Err (List (Ds ℝ V A)) :=
  readWith Haversine.haversine (fun f => f / 1000000000) toNs nan file

/-! ### Time stamps in floating point -/

section times
variable {K : Type} [Field K] [LinearOrder K] [FloorRing K]

/-- `.astype("datetime64[ns]")` of a float (cmlh5_to_xarray.py L42): the number of nanoseconds, cut towards zero; NaN becomes NaT, i.e.
the smallest 64-bit integer. Infinities are taken alike (the C cast leaves this open). Domain: numbers below `2^63`. -/
def truncNs : Fl K → Int
  | .fin x => if 0 ≤ x then ⌊x⌋ else ⌈x⌉
  | _ => -2 ^ 63

/-- `(time[:] * 1e9).astype("datetime64[ns]")`, one element (cmlh5_to_xarray.py L42) -/
def timeNs {R : Rounding K} (t : RFl R) : Int := truncNs (t *ᶠ PyFloat.ofInt 1000000000).val

/-- `frequency / 1e9` (cmlh5_to_xarray.py L49) -/
def toGHz {R : Rounding K} (f : RFl R) : RFl R := f /ᶠ PyFloat.ofInt 1000000000

end times

end Verif.Reader
