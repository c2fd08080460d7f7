import Verif.Np

/-!
# Model of `Validator.calc_stats` and of the corner arrays of `GridValidator.plot_intersections`
(pycomlink/validation/validator.py L18-L27, L111-L158)
-/

namespace Verif.Validator
open Verif

/-- The index of a `DataFrame`: time stamps (`DatetimeIndex`) or text. -/
inductive Index
  | stamps (ts : List Int)
  | text (ts : List String)
deriving DecidableEq

/-- The part of `cml.data` that `calc_stats` uses: index and column `txrx_nf`. -/
structure CmlData (F : Type) where
  index : Index
  txrxNf : List F
deriving DecidableEq

/-- `index.strftime("%Y-%m-%d %H:%M:%S")` (validator.py L23); an index of text has no such attribute. `fmt` formats
one time stamp (external). -/
def Index.strftime (fmt : Int → String) : Index → Except Err Index
  | .stamps ts => .ok (.text (ts.map fmt))
  | .text _ => .error .attributeError

/-- validator.py L18-L27. `objs` are the cml objects of the program, `cml` is the position of the argument;
`cml_copy = cml` (L19) makes no copy, thus L23 writes to that object. `joinCorr` is the external `join` of the time
series with the data followed by `corr` (L25-L26). -/
def calcStats {F : Type} (fmt : Int → String) (joinCorr : List (Int × F) → List (String × F) → Except Err F)
    (objs : List (CmlData F)) (cml : Nat) (timeSeries : List (Int × F)) :
    Except Err F × List (CmlData F) :=
  match objs[cml]? with
  | none => (.error .nameError, objs)
  | some c =>
    match c.index.strftime fmt with                                              -- L23
    | .error e => (.error e, objs)
    | .ok idx =>
      let objs := objs.set cml { c with index := idx }
      let labels := match idx with
        | .text ts => ts
        | .stamps _ => []
      (joinCorr timeSeries (labels.zip c.txrxNf), objs)                          -- L25-L27

/-- a program that calls `calc_stats` repeatedly: the results and the final objects -/
def calcStatsRun {F : Type} (fmt : Int → String) (joinCorr : List (Int × F) → List (String × F) → Except Err F) :
    List (CmlData F) → List (Nat × List (Int × F)) → List (Except Err F) × List (CmlData F)
  | objs, [] => ([], objs)
  | objs, (cml, ts) :: calls =>
    let r := calcStats fmt joinCorr objs cml ts
    let rest := calcStatsRun fmt joinCorr r.2 calls
    (r.1 :: rest.1, rest.2)

/-- in-place assignment of `v i j` at all `(i, j)` with `p i j` -/
def setWhere {α : Type} (p : Nat → Nat → Bool) (v : Nat → Nat → α) (a : List (List α)) : List (List α) :=
  a.mapIdx fun i row => row.mapIdx fun j x => if p i j then v i j else x

/-- validator.py L118-L135: the corner array (longitudes, latitudes, or pairs of them) of a grid of `ny` x `nx`
pixels. The corner grids (`_calc_grid_corners_for_center_location` of poligrain) are parameters. -/
def cornerMesh {α : Type} (zero : α) (ll ul lr ur : Nat → Nat → α) (ny nx : Nat) : Except Err (List (List α)) :=
  if ny = 0 ∨ nx = 0 then .error .indexError
  else
    let a := List.replicate (ny + 1) (List.replicate (nx + 1) zero)                                -- L118
    let a := setWhere (fun i j => decide (i < ny) && decide (j < nx)) ll a                         -- L126
    let a := setWhere (fun i j => decide (i = ny) && decide (j < nx)) (fun _ j => ul (ny - 1) j) a -- L127
    let a := setWhere (fun i j => decide (i < ny) && decide (j = nx)) (fun i _ => lr i (nx - 1)) a -- L128
    let a := setWhere (fun i j => decide (i = ny) && decide (j = nx)) (fun _ _ => ur (ny - 1) (nx - 1)) a
    .ok a

end Verif.Validator
