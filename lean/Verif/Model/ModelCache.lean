import Verif.Float

/-!
# Model of the model file caches

pycomlink/processing/pytorch_utils/inference_utils.py (L45-160) and
pycomlink/processing/tensorflow_utils/inference_utils.py (L94-162).

A cache directory is a map from file names to contents of an arbitrary type; the network is a function from
URLs to outcomes that may differ from call to call. Output of `print` is ignored.
-/

namespace Verif.ModelCache
open Verif

variable {C : Type}

/-- outcome of `urllib.request.urlretrieve`: the connection fails before the target file is opened,
the transfer breaks off after `c` has been written, or all of `c` is written -/
inductive Fetch (C : Type)
  | refused
  | broken (c : C)
  | complete (c : C)

/-- the files in a directory -/
abbrev Files (C : Type) := String → Option C

/-- a directory that may not exist -/
abbrev Store (C : Type) := Option (Files C)

/-- `path.mkdir(parents=True, exist_ok=True)` -/
def mkdir (st : Store C) : Files C := st.getD fun _ => none

/-- write a file -/
def write (files : Files C) (name : String) (c : C) : Files C :=
  fun n => if n = name then some c else files n

/-- `urllib.request.urlretrieve(url, path)` -/
def urlretrieve (files : Files C) (name : String) : Fetch C → Files C × Except Err Unit
  | .refused => (files, .error .osError)
  | .broken c => (write files name c, .error .osError)
  | .complete c => (write files name c, .ok ())

/-- result of a cache access: new directory, returned file name or exception, URLs retrieved -/
structure Access (C : Type) where
  store : Store C
  result : Except Err String
  retrieved : List String

/-! ## pytorch -/

/-- file name of a cached model (pytorch inference_utils.py L63-64); `md5` is the hex digest -/
def fileName (md5 : String → String) (url : String) : String := "model_" ++ md5 url ++ ".pt"

/-- `download_and_cache_model` (pytorch inference_utils.py L45-74) -/
def downloadAndCacheModel (md5 : String → String) (st : Store C) (url : String) (force : Bool)
    (net : String → Fetch C) : Access C :=
  let files := mkdir st
  let name := fileName md5 url
  if (files name).isNone || force then
    let r := urlretrieve files name (net url)
    match r.2 with
    | .error e => ⟨some r.1, .error e, [url]⟩
    | .ok () => ⟨some r.1, .ok name, [url]⟩
  else ⟨some files, .ok name, []⟩

/-- `clear_model_cache` (pytorch inference_utils.py L77-90); the directory contains no subdirectories -/
def clearModelCache (st : Store C) : Store C :=
  match st with
  | some _ => some fun _ => none
  | none => none

/-- `list_cached_models` (pytorch inference_utils.py L93-106) for a `suffix` without wildcard characters, as in the
default: `Path.glob` then matches exactly the file of that name. -/
def listCachedModels (st : Store C) (suffix : String) : List String :=
  match st with
  | some files => if (files suffix).isSome then [suffix] else []
  | none => []

/-- `s.startswith(p)` -/
def startsWith (s p : String) : Bool := p.toList.isPrefixOf s.toList

/-- `s.endswith(p)` -/
def endsWith (s p : String) : Bool := p.toList.isSuffixOf s.toList

/-- `load_model` (pytorch_utils.py L80-104): any failure of `torch.jit.load` becomes a `RuntimeError` -/
def loadModel {M : Type} (jitLoad : C → Option M) (content : Option C) : Except Err M :=
  match content.bind jitLoad with
  | some m => .ok m
  | none => .error .runtimeError

/-- `get_model` (pytorch inference_utils.py L109-160). `disk` are the local files, the cache directory is
separate from them. -/
def getModel {M : Type} (md5 : String → String) (jitLoad : C → Option M) (disk : Files C) (st : Store C)
    (src : String) (force : Bool) (net : String → Fetch C) : Store C × Except Err M × List String :=
  if startsWith src "http://" || startsWith src "https://" then
    let a := downloadAndCacheModel md5 st src force net
    match a.result with
    | .error e => (a.store, .error e, a.retrieved)
    | .ok name => (a.store, loadModel jitLoad (a.store.bind fun files => files name), a.retrieved)
  else if endsWith src ".pt" || src.toList.contains '/' then
    (st, loadModel jitLoad (disk src), [])
  else if endsWith src ".pth" || endsWith src ".pt2" then (st, .error .exception, [])
  else (st, .error .exception, [])

/-! ## tensorflow -/

/-- `is_url` (tensorflow inference_utils.py L94-104) -/
def isUrl (path : String) : Bool := startsWith path "http://" || startsWith path "https://"

/-- `url.split("/")[-1]` (tensorflow inference_utils.py L121) -/
def lastComponent (url : String) : String :=
  String.ofList (url.toList.reverse.takeWhile (fun c => decide (c ≠ '/'))).reverse

/-- names that denote a directory which exists whenever the cache directory does -/
def isDirName (name : String) : Bool := name == "" || name == "." || name == ".."

/-- `download_and_cache` (tensorflow inference_utils.py L107-130). Retrieving to a directory raises after the
connection was made. -/
def downloadAndCache (st : Store C) (url : String) (force : Bool) (net : String → Fetch C) : Access C :=
  let files := mkdir st
  let name := lastComponent url
  if !(isDirName name || (files name).isSome) || force then
    if isDirName name then ⟨some files, .error .osError, [url]⟩
    else
      let r := urlretrieve files name (net url)
      match r.2 with
      | .error e => ⟨some r.1, .error e, [url]⟩
      | .ok () => ⟨some r.1, .ok name, [url]⟩
  else ⟨some files, .ok name, []⟩

/-- a resolved path: a file in the cache directory or a path given by the user -/
inductive Resolved
  | cache (name : String)
  | given (path : String)
  deriving DecidableEq, Repr

/-- one source of `resolve_model_paths` (tensorflow inference_utils.py L151-160). For given paths the
normalisation by `pathlib` is left out. -/
def resolveOne (st : Store C) (src : String) (force : Bool) (net : String → Fetch C) :
    Store C × Except Err Resolved × List String :=
  if isUrl src then
    let a := downloadAndCache st src force net
    (a.store, a.result.map .cache, a.retrieved)
  else (st, .ok (.given src), [])

/-- `resolve_model_paths` (tensorflow inference_utils.py L133-162) -/
def resolveModelPaths (st : Store C) (json weights : String) (force : Bool) (net : String → Fetch C) :
    Store C × Except Err (Resolved × Resolved) × List String :=
  let st0 : Store C := some (mkdir st)
  match resolveOne st0 json force net with
  | (st1, .error e, l) => (st1, .error e, l)
  | (st1, .ok j, l1) =>
    match resolveOne st1 weights force net with
    | (st2, .error e, l2) => (st2, .error e, l1 ++ l2)
    | (st2, .ok w, l2) => (st2, .ok (j, w), l1 ++ l2)

/-! ## Histories -/

/-- a call by the user, with the state of the network at that time -/
inductive Op (C : Type)
  | get (url : String) (force : Bool) (net : String → Fetch C)
  | clear
  | list

/-- what the call returned -/
inductive Out
  | path (r : Except Err String) (retrieved : List String)
  | cleared
  | listed (names : List String)

/-- one call of the pytorch cache functions -/
def step (md5 : String → String) (st : Store C) : Op C → Store C × Out
  | .get url force net =>
    let a := downloadAndCacheModel md5 st url force net
    (a.store, .path a.result a.retrieved)
  | .clear => (clearModelCache st, .cleared)
  | .list => (st, .listed (listCachedModels st ".pt"))

/-- a sequence of calls -/
def run (md5 : String → String) (st : Store C) : List (Op C) → Store C × List Out
  | [] => (st, [])
  | op :: ops =>
    let r := step md5 st op
    let r' := run md5 r.1 ops
    (r'.1, r.2 :: r'.2)

/-- a sequence of tensorflow downloads -/
def runTf (st : Store C) : List (String × Bool × (String → Fetch C)) → Store C × List (Access C)
  | [] => (st, [])
  | (url, force, net) :: ops =>
    let a := downloadAndCache st url force net
    let r := runTf a.store ops
    (r.1, a :: r.2)

end Verif.ModelCache
