import Verif.Np

/-!
# Model of pycomlink/processing/tensorflow_utils/lazy_tf.py and of pycomlink/util/maintenance.py
-/

namespace Verif.LazyTf
open Verif

/-- What the outside world does during one call. -/
structure Env (M : Type) where
  /-- `import tensorflow` -/
  imp : Except Err M
  /-- whether `nvidia-smi` can be run successfully (lazy_tf.py L9-L16) -/
  nvidiaSmi : Bool
  /-- `os.getenv("ALLOW_TF_AUTOINSTALL")` -/
  allow : Option String
  /-- `pip install pkg`: `none` if the command fails (`CalledProcessError`), else what a following
  `import tensorflow` gives -/
  pip : String → Option (Except Err M)
  /-- whether `tf.config.list_physical_devices` raises (lazy_tf.py L40-L45) -/
  devices : M → Except Err Unit

/-- lazy_tf.py L25-L38 `ensure_tensorflow_installed`: result and the packages pip was run for -/
def ensureInstalled {M : Type} (e : Env M) (autoInstall : Bool) : Except Err M × List String :=
  match e.imp with
  | .ok m => (.ok m, [])                                                         -- L26-L28
  | .error .importError =>
    let pkg := if e.nvidiaSmi then "tensorflow[and-cuda]" else "tensorflow"      -- L30-L31
    if autoInstall || e.allow == some "1" then                                   -- L32
      match e.pip pkg with                                                       -- L33
      | none => (.error .exception, [pkg])
      | some r => (r, [pkg])                                                     -- L34-L35
    else (.error .importError, [])                                               -- L37
  | .error err => (.error err, [])

/-- lazy_tf.py L18-L23 `get_tf`: result, new value of the module global `tf`, and the packages pip was run for -/
def getTf {M : Type} (tf : Option M) (e : Env M) (autoInstall : Bool) : Except Err M × Option M × List String :=
  match tf with
  | some m => (.ok m, some m, [])
  | none =>
    match ensureInstalled e autoInstall with
    | (.error err, log) => (.error err, none, log)
    | (.ok m, log) =>
      match e.devices m with                                                     -- L22, after the assignment L21
      | .error err => (.error err, some m, log)
      | .ok _ => (.ok m, some m, log)

/-- a sequence of `get_tf` calls in changing environments: result and pip packages of each -/
def getTfRun {M : Type} : Option M → List (Env M × Bool) → List (Except Err M × List String)
  | _, [] => []
  | tf, (e, auto) :: calls =>
    let r := getTf tf e auto
    (r.1, r.2.2) :: getTfRun r.2.1 calls

end Verif.LazyTf

namespace Verif.Maintenance
open Verif

/-- Actions of Python's warning filters. -/
inductive Action
  | default | module | always | ignore | once | error
deriving DecidableEq

/-- The state of Python's `warnings` module: texts already shown under `once` (`onceregistry`) and the warnings
shown. The category is always `DeprecatedWarning`. -/
structure Warnings where
  onceSeen : List String := []
  shown : List String := []
deriving DecidableEq

/-- `warnings.warn_explicit(text, category, filename, lineno)` without `registry` (Python): the registry of warnings
that were already given is then empty at each call. `act` is the action the filters give for the text. -/
def warnExplicit (act : String → Action) (w : Warnings) (text : String) : Except Err Unit × Warnings :=
  match act text with
  | .ignore => (.ok (), w)
  | .error => (.error .exception, w)
  | .once =>
    if text ∈ w.onceSeen then (.ok (), w)
    else (.ok (), { onceSeen := text :: w.onceSeen, shown := w.shown ++ [text] })
  | _ => (.ok (), { w with shown := w.shown ++ [text] })

/-- maintenance.py L29-L31 -/
def message (name instructions : String) : String :=
  "Call to deprecated function " ++ name ++ ". " ++ instructions

/-- maintenance.py L27-L43 `wrapper`. `func` takes its arguments and the state `σ` of the program. The lookup of the calling
frame (L33) is not modelled. -/
def wrapper {A R σ : Type} (name instructions : String) (func : A → σ → Except Err R × σ) (act : String → Action)
    (args : A) (w : Warnings) (s : σ) : Except Err R × Warnings × σ :=
  match warnExplicit act w (message name instructions) with
  | (.error e, w) => (.error e, w, s)
  | (.ok _, w) =>
    let r := func args s
    (r.1, w, r.2)

/-- a sequence of calls of the wrapped function: the results, the warnings and the state -/
def wrapperRun {A R σ : Type} (name instructions : String) (func : A → σ → Except Err R × σ)
    (act : String → Action) : List A → Warnings → σ → List (Except Err R) × Warnings × σ
  | [], w, s => ([], w, s)
  | a :: as, w, s =>
    let r := wrapper name instructions func act a w s
    let rest := wrapperRun name instructions func act as r.2.1 r.2.2
    (r.1 :: rest.1, rest.2)

end Verif.Maintenance
