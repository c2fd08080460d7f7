import Verif.Float

/-!
# Model of `pycomlink/processing/xarray_wrapper.py`

A wrapped function is given by its signature (parameter names with optional defaults) and its
body on the list of bound values. Python's own argument binding, `xarray.apply_ufunc` and
`numpy.vectorize` are modelled as far as the wrapper uses them.
-/

namespace Verif.Wrapper

open Verif

/-! ### Argument binding -/

/-- A parameter of a signature: its name and its default, if it has one. -/
structure Param (α : Type) where
  name : String
  default : Option α

/-- A value in the argument dictionary; `empty` is `inspect.Parameter.empty`. -/
inductive Slot (α : Type)
  | val (a : α)
  | empty
  deriving DecidableEq, Repr

/-- the value of key `k` in a keyword dictionary -/
def kwGet {α : Type} (kwargs : List (String × α)) (k : String) : Option α :=
  (kwargs.find? fun p => p.1 == k).map (·.2)

/-- xarray_wrapper.py L56-L76 `_get_new_args_dict`, from parameter number `i` on: the
dictionary as a list of entries in insertion order (parameter names are distinct). -/
def newArgsDictFrom {α : Type} (i : Nat) : List (Param α) → List α → List (String × α) →
    List (String × Slot α)
  | [], _, _ => []
  | p :: ps, args, kwargs =>
    (p.name,
      match args[i]? with
      | some a => .val a
      | none =>
        match kwGet kwargs p.name with
        | some a => .val a
        | none =>
          match p.default with
          | some a => .val a
          | none => .empty) :: newArgsDictFrom (i + 1) ps args kwargs

/-- xarray_wrapper.py L56-L76 `_get_new_args_dict` -/
def newArgsDict {α : Type} (sig : List (Param α)) (args : List α) (kwargs : List (String × α)) :
    List (String × Slot α) :=
  newArgsDictFrom 0 sig args kwargs

/-- Python's calling convention for plain positional-or-keyword parameters (language reference
6.3.4): one slot per parameter; positional arguments fill the first slots; each keyword fills
the slot of its name, which must exist and be unfilled; unfilled slots take their defaults. -/
def pyKeywords {α : Type} (names : List String) : List (String × α) → List (Option α) →
    Except Err (List (Option α))
  | [], slots => .ok slots
  | (k, a) :: kw, slots =>
    let i := names.findIdx (· == k)
    match slots[i]? with
    | none => .error .typeError            -- unexpected keyword argument
    | some (some _) => .error .typeError   -- multiple values
    | some none => pyKeywords names kw (slots.set i (some a))

/-- filling unfilled slots with defaults -/
def pyDefaults {α : Type} : List (Param α) → List (Option α) → Except Err (List α)
  | [], _ => .ok []
  | p :: ps, slots =>
    match slots.head?.join with
    | some a => (pyDefaults ps slots.tail).map (a :: ·)
    | none =>
      match p.default with
      | some a => (pyDefaults ps slots.tail).map (a :: ·)
      | none => .error .typeError          -- missing argument

/-- Python's binding of a call: values in signature order -/
def pyBind {α : Type} (sig : List (Param α)) (args : List α) (kwargs : List (String × α)) :
    Except Err (List α) :=
  if sig.length < args.length then .error .typeError
  else
    (pyKeywords (sig.map (·.name)) kwargs
      (args.map some ++ List.replicate (sig.length - args.length) none)).bind (pyDefaults sig)

/-! ### Arrays with named dimensions, `apply_ufunc` -/

/-- Assignment of an index to each dimension name. -/
abbrev Coords := String → Nat

/-- `xarray.DataArray`: dimension names with sizes, and values by index tuple (in the order of
the dimensions). Coordinate labels are added in Verif/Model/Labels.lean. -/
structure NArr (V : Type) where
  dims : List (String × Nat)
  val : List Nat → V

/-- An argument: an object without `dims`, or a DataArray. -/
inductive Arg (V : Type)
  | plain (v : V)
  | named (a : NArr V)

/-- What the wrapped function sees of one argument. -/
inductive FArg (V : Type)
  | scalar (v : V)
  | series (xs : List V)

/-- What the wrapped function returns: one time series, or a tuple. -/
inductive FOut (V : Type)
  | one (xs : List V)
  | tuple (xss : List (List V))

def dimNames {V : Type} : Arg V → List (String × Nat)
  | .plain _ => []
  | .named a => a.dims

/-- xarray_wrapper.py L28-L36: does the argument have a dimension called time -/
def hasTime {V : Type} (a : Arg V) : Bool := (dimNames a).any (·.1 == "time")

/-- `unified_dim_sizes`: sizes of all dimensions in order of first appearance; `ValueError` if
two arguments disagree about a size. -/
def unify : List (String × Nat) → List (String × Nat) → Except Err (List (String × Nat))
  | acc, [] => .ok acc
  | acc, (d, n) :: rest =>
    match acc.find? (·.1 == d) with
    | none => unify (acc ++ [(d, n)]) rest
    | some (_, m) => if m = n then unify acc rest else .error .valueError

/-- `np.ndindex` -/
def ndindex : List Nat → List (List Nat)
  | [] => [[]]
  | n :: ns => (List.range n).flatMap fun i => (ndindex ns).map fun idx => i :: idx

/-- the coordinate assignment of an index tuple over the given dimension names -/
def coordsOf : List String → List Nat → Coords
  | d :: ds, i :: idx => fun k => if k == d then i else coordsOf ds idx k
  | _, _ => fun _ => 0

/-- the part of an argument at one index tuple: a time slice for an argument with a time
dimension, one value otherwise -/
def argAt {V : Type} (ntime : Nat) (a : Arg V) (c : Coords) : FArg V :=
  match a with
  | .plain v => .scalar v
  | .named x =>
    if hasTime a then
      .series ((List.range ntime).map fun t =>
        x.val (x.dims.map fun d => if d.1 == "time" then t else c d.1))
    else .scalar (x.val (x.dims.map fun d => c d.1))

/-- one call inside `np.vectorize`: one output is expected, of the length of the time
dimension -/
def vectorizeCall {V : Type} (func : List (FArg V) → Except Err (FOut V)) (ntime : Nat)
    (args : List (Arg V)) (c : Coords) : Except Err (List V) :=
  match func (args.map fun a => argAt ntime a c) with
  | .error e => .error e
  | .ok (.tuple xss) =>
    match xss with
    | [xs] => if xs.length = ntime then .ok xs else .error .valueError
    | _ => .error .valueError
  | .ok (.one xs) => if xs.length = ntime then .ok xs else .error .valueError

/-- the loop of `np.vectorize` over all index tuples, writing to the output array -/
def vectorizeLoop {V : Type} (call : List Nat → Except Err (List V)) :
    List (List Nat) → (List Nat → Option (List V)) → Except Err (List Nat → Option (List V))
  | [], out => .ok out
  | idx :: rest, out =>
    match call idx with
    | .error e => .error e
    | .ok xs => vectorizeLoop call rest fun j => if j = idx then some xs else out j

/-- `xr.apply_ufunc(func, *args, input_core_dims=.., output_core_dims=[["time"]],
vectorize=True)`. Result: the non-time dimensions, the length of the time dimension, and the
series at each index tuple. `np.vectorize` raises on zero index tuples. -/
def applyUfunc {V : Type} (func : List (FArg V) → Except Err (FOut V)) (args : List (Arg V)) :
    Except Err (List (String × Nat) × Nat × (List Nat → Option (List V))) :=
  match unify [] (args.flatMap dimNames) with
  | .error e => .error e
  | .ok sizes =>
    let ntime := ((sizes.find? (·.1 == "time")).map (·.2)).getD 0
    let bdims := sizes.filter fun p => p.1 != "time"
    let idxs := ndindex (bdims.map (·.2))
    if idxs.isEmpty then .error .valueError
    else
      (vectorizeLoop (fun idx => vectorizeCall func ntime args (coordsOf (bdims.map (·.1)) idx))
        idxs fun _ => none).map fun out => (bdims, ntime, out)

/-- Result of calling the wrapped function. -/
inductive Res (V : Type)
  /-- result of the plain call `func(*args, **kwargs)` -/
  | plain (r : FOut V)
  /-- DataArray: non-time dimensions, time length, series by index tuple -/
  | array (dims : List (String × Nat)) (ntime : Nat) (out : List Nat → Option (List V))

/-- the object handed on for a dictionary entry; a missing required argument is the object
`inspect.Parameter.empty`, here `emptyV` -/
def slotArg {V : Type} (emptyV : V) : Slot (Arg V) → Arg V
  | .val a => a
  | .empty => .plain emptyV

/-- xarray_wrapper.py L18-L49 `inner`. `func` works on bound values in signature order; `raw`
is the same function on unsliced arguments (L41). `emptyV` is the object
`inspect.Parameter.empty`, passed on when a required argument is missing. -/
def inner {V : Type} (sig : List (Param (Arg V))) (func : List (FArg V) → Except Err (FOut V))
    (raw : List (Arg V) → Except Err (FOut V)) (emptyV : V) (args : List (Arg V))
    (kwargs : List (String × Arg V)) : Except Err (Res V) :=
  let values := (newArgsDict sig args kwargs).map fun p => slotArg emptyV p.2
  if values.any hasTime then
    (applyUfunc func values).map fun r => .array r.1 r.2.1 r.2.2
  else
    match pyBind sig args kwargs with
    | .error e => .error e
    | .ok vs => (raw vs).map .plain

end Verif.Wrapper
