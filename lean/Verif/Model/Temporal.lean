import Verif.Float
import Mathlib.Data.List.Dedup
import Mathlib.Data.List.Sort

/-!
# Model of the aggregation onto a new time index

pycomlink/util/temporal.py L4-74 and pycomlink/validation/validator.py L88-109.

Time stamps are integers: instants for an index with time zone, wall clock readings for an index without. A time zone
is its offset from UTC, taken as constant. A data frame is a list of (time stamp, row); `method` maps
the rows of a group to the aggregated row (pandas applies the function to every column).
-/

namespace Verif.Temporal
open Verif

variable {V R : Type}

/-- fill direction of `reindex` -/
inductive Fill
  | bfill
  | ffill
  deriving DecidableEq, Repr

/-- choice of the fill method (temporal.py L33-38, validator.py L97-105) -/
def fillMethod (label : String) : Except Err Fill :=
  if label = "right" then .ok .bfill
  else if label = "left" then .ok .ffill
  else .error .notImplemented

/-- the entry of a sorted index that `get_indexer` picks for `s` -/
def pick (index : List (Int × Int)) (fill : Fill) (s : Int) : Option Int :=
  match fill with
  | .bfill => (index.find? fun e => decide (s ≤ e.1)).map Prod.snd
  | .ffill => (index.reverse.find? fun e => decide (e.1 ≤ s)).map Prod.snd

/-- `df_new_t.reindex(index, method=fill)` (temporal.py L62, validator.py L106) for a frame whose rows are (index, "time" column): returned as it is if
the indices are equal, otherwise duplicates raise -/
def reindex (frame : List (Int × Int)) (target : List Int) (fill : Fill) : Except Err (List (Option Int)) :=
  if frame.map Prod.fst = target then .ok (frame.map fun e => some e.2)
  else if ¬ (frame.map Prod.fst).Nodup then .error .valueError
  else .ok (target.map (pick frame fill))

/-- `df.groupby(key).agg(method)` (temporal.py L65-66, validator.py L107-109): groups in increasing order of the key, rows without key left out -/
def groupbyAgg (rows : List (Option Int × V)) (method : List V → R) : List (Int × R) :=
  let keys := ((rows.filterMap Prod.fst).insertionSort (· ≤ ·)).dedup
  keys.map fun k => (k, method ((rows.filter fun r => decide (r.1 = some k)).map Prod.snd))

/-- `index.min()` (temporal.py L55) -/
def indexMin : List Int → Int
  | [] => 0
  | t :: ts => ts.foldl min t

/-- `index.max()` (temporal.py L56) -/
def indexMax : List Int → Int
  | [] => 0
  | t :: ts => ts.foldl max t

/-- `.loc[a:b]` (temporal.py L57-58) on a non-decreasing index -/
def loc {W : Type} (xs : List (Int × W)) (a b : Int) : List (Int × W) :=
  xs.filter fun x => decide (a ≤ x.1) && decide (x.1 ≤ b)

/-- a `DatetimeIndex` -/
structure DtIndex where
  times : List Int
  aware : Bool

/-- the new index with time zone information (temporal.py L48-49) -/
def localize (new : DtIndex) (zone : Option Int) : DtIndex :=
  if new.aware then new
  else match zone with
    | some off => ⟨new.times.map (· - off), true⟩
    | none => new

/-- `aggregate_df_onto_DatetimeIndex` (temporal.py L4-74). `zone` is the offset of `new_index_tz` (`none` for
Python's `None`). Not modelled: empty or non-sorted indices. Comparing stamps with and without time zone raises.
The labels of the result are instants if `aware`, an index without zone is taken as UTC (L69-72). -/
def aggregate (dfAware : Bool) (df : List (Int × V)) (new : DtIndex) (method : List V → R)
    (label : String := "right") (zone : Option Int := some 0) : Except Err (List (Int × R)) := do
  let fill ← fillMethod label
  let index := localize new zone
  let frame := index.times.zip new.times
  if dfAware ≠ index.aware then .error .typeError
  else if df = [] ∨ frame = [] then .error .outOfModel
  else if ¬ (df.map Prod.fst).Pairwise (· ≤ ·) ∨ ¬ (frame.map Prod.fst).Pairwise (· ≤ ·) then .error .outOfModel
  else
    let tStart := max (indexMin (df.map Prod.fst)) (indexMin (frame.map Prod.fst))
    let tStop := min (indexMax (df.map Prod.fst)) (indexMax (frame.map Prod.fst))
    let frame' := loc frame tStart tStop
    let df' := loc df tStart tStop
    let times ← reindex frame' (df'.map Prod.fst) fill
    .ok (groupbyAgg (times.zip (df'.map Prod.snd)) method)

/-- `GridValidator.resample_to_grid_time_series` (validator.py L88-109), `grid` is the index of
`weighted_grid_sum`, `zone` the offset of `grid_time_zone` (`none`: no localisation). Both indices are sorted, and
both have or both lack a time zone after the localisation. `method` stands for `mean`. The order of the
checks follows the code: the label is checked after the localisation. -/
def resampleToGrid (df : List (Int × V)) (grid : List Int) (method : List V → R) (label : String)
    (zone : Option Int) : Except Err (List (Int × R)) := do
  let frame := (match zone with
    | some off => grid.map (· - off)
    | none => grid).zip grid
  let fill ← fillMethod label
  let times ← reindex frame (df.map Prod.fst) fill
  .ok (groupbyAgg (times.zip (df.map Prod.snd)) method)

end Verif.Temporal
