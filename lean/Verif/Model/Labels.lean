import Verif.Model.Api

/-!
# DataArrays with coordinate labels

The decorated functions and the arithmetic of Verif/Model/Api.lean for DataArrays whose
dimensions have coordinate labels (`cml_id`, time stamps, ...), with xarray's alignment:
`join="exact"` in `apply_ufunc` (its default, not changed in xarray_wrapper.py L43-L49), the
inner join of labels in arithmetic (xarray's default `arithmetic_join`).
-/

namespace Verif.Labels

open Verif Verif.Wrapper Verif.Api

noncomputable section

variable {L : Type} [DecidableEq L]

/-- A DataArray (argument or result in xarray_wrapper.py L18-L49) with an index of labels for some of
its dimensions. Other coordinates are not modelled. -/
structure LArr (L : Type) where
  arr : NArr Val
  label : String → Option (List L)

/-- An argument (xarray_wrapper.py L18): an object without dimensions, or a DataArray. -/
inductive LArg (L : Type)
  | plain (v : Val)
  | named (a : LArr L)

/-- the index of a dimension of the array, if it has one (xarray_wrapper.py L43) -/
def LArr.index (a : LArr L) (d : String) : Option (List L) :=
  if a.arr.dims.any (·.1 == d) then a.label d else none

/-- the argument without its labels (xarray_wrapper.py L18) -/
def strip : LArg L → Arg Val
  | .plain v => .plain v
  | .named a => .named a.arr

/-- an object without labels (a default of the signature, xarray_wrapper.py L73-L74) -/
def lift : Arg Val → LArg L
  | .plain v => .plain v
  | .named a => .named ⟨a, fun _ => none⟩

/-- the indexes of an argument, by dimension (aligned by xarray_wrapper.py L43) -/
def indexes : LArg L → List (String × List L)
  | .plain _ => []
  | .named a => a.arr.dims.filterMap fun d => (a.label d.1).map fun ls => (d.1, ls)

/-- xarray_wrapper.py L43-L49, `apply_ufunc` with its default `join="exact"`: `ValueError` unless all indexes of the same dimension are equal;
the common index of each dimension. -/
def joinExact (vs : List (LArg L)) : Except Err (String → Option (List L)) :=
  let all := vs.flatMap indexes
  if all.all fun p => all.all fun q => p.1 != q.1 || p.2 == q.2 then
    .ok fun d => (all.find? (·.1 == d)).map (·.2)
  else .error .valueError

/-- the object handed on for an entry of the argument dictionary (xarray_wrapper.py L45) -/
def slotL : Slot (LArg L) → LArg L
  | .val a => a
  | .empty => .plain .empty

/-- a signature for labelled arguments (xarray_wrapper.py L68) -/
def sigL (sig : List (Param (Arg Val))) : List (Param (LArg L)) :=
  sig.map fun p => ⟨p.name, p.default.map lift⟩

/-- xarray_wrapper.py L18-L49 with labels: the arguments in the argument dictionary are aligned
before the function is called; the result has their labels. Without a time dimension nothing is
aligned (L41). -/
def callL (sig : List (Param (Arg Val))) (func : List (FArg Val) → Except Err (FOut Val))
    (args : List (LArg L)) (kwargs : List (String × LArg L)) : Except Err (LArr L) :=
  let values := (newArgsDict (sigL sig) args kwargs).map fun p => slotL p.2
  let call := callNd sig func (args.map strip) (kwargs.map fun p => (p.1, strip p.2))
  if values.any fun a => hasTime (strip a) then
    match joinExact values with
    | .error e => .error e
    | .ok idx => call.map fun r => ⟨r, idx⟩
  else call.map fun r => ⟨r, fun _ => none⟩

/-- Differences of DataArrays, docs/notebooks/Basic CML processing workflow.ipynb
L859: the index of a dimension after an inner join: the common one if equal, else the labels of the
left array that the right one has too, in the order of the left (`pandas.Index.intersection` without
sorting); if only one array has an index, that one. `ValueError` for different indexes of which
one has a label twice ("cannot reindex ... duplicate values"). -/
def joinInner (a b : LArr L) (d : String) : Option (List L) :=
  match a.index d, b.index d with
  | some x, some y => if x = y then some x else some (x.filter (· ∈ y))
  | some x, none => some x
  | none, some y => some y
  | none, none => none

/-- two indexes of the dimension differ and one of them has a label twice (same lines) -/
def ambiguous (a b : LArr L) (d : String) : Bool :=
  match a.index d, b.index d with
  | some x, some y => x != y && !(decide x.Nodup && decide y.Nodup)
  | _, _ => false

/-- `reindex` to the joined labels (same lines): the positions of the labels in the old index; nothing is done
for an equal index or without an index. -/
def take (a : LArr L) (joined : String → Option (List L)) : NArr Val :=
  let size (d : String × Nat) : Nat :=
    match a.index d.1, joined d.1 with
    | some x, some j => if x = j then d.2 else j.length
    | _, _ => d.2
  let pos (d : String × Nat) (k : Nat) : Nat :=
    match a.index d.1, joined d.1 with
    | some x, some j => if x = j then k else ((j[k]?).map fun l => x.idxOf l).getD 0
    | _, _ => k
  ⟨a.arr.dims.map fun d => (d.1, size d), fun idx => a.arr.val (List.zipWith pos a.arr.dims idx)⟩

/-- `a - b` of two DataArrays with labels (same lines) -/
def xrSubL (a b : LArr L) : Except Err (LArr L) :=
  if a.arr.dims.any fun d => ambiguous a b d.1 then .error .valueError
  else
    (xrSub (take a (joinInner a b)) (take b (joinInner a b))).map fun r => ⟨r, joinInner a b⟩

/-- `A.values[A < 0] = 0` (same notebook L865) -/
def xrClipL (a : LArr L) : LArr L := ⟨xrClip a.arr, a.label⟩

/-- The processing of `Api.processDataset` (docs/notebooks/Basic CML processing workflow.ipynb
L845-L869) on DataArrays with labels. -/
def processDatasetL (sp : KR.Spline) (trsl wet : LArr L)
    (n waa_max delta_t tau L_km f_GHz pol : LArg L) : Except Err (LArr L) := do
  let baseline ← callL baselineConstantSig baselineConstantFn []
    [("trsl", .named trsl), ("wet", .named wet), ("n_average_last_dry", n)]
  let waa ← callL waaSchleissSig waaSchleissFn []
    [("rsl", .named trsl), ("baseline", .named baseline), ("wet", .named wet),
     ("waa_max", waa_max), ("delta_t", delta_t), ("tau", tau)]
  let A0 ← xrSubL trsl baseline
  let A ← xrSubL A0 waa
  callL calcRSig (calcRFn sp) []
    [("A", .named (xrClipL A)), ("L_km", L_km), ("f_GHz", f_GHz), ("pol", pol)]

end

end Verif.Labels
