import Verif.Model.Torch
import Mathlib.Analysis.Real.Sqrt

/-!
# Model of pycomlink/processing/tensorflow_utils/inference_utils.py and run_inference.py

The network is a parameter; the casts to float32 are not modelled (exact numbers).
-/

namespace Verif.Tf
open Verif Verif.Torch

variable {ι K F : Type}

/-- The dataset: name of the link dimension, link ids, number of time steps and the variables,
each `[link][time]`. -/
structure Ds (ι K : Type) where
  dim : String
  ids : List ι
  nTime : Nat
  vars : List (String × List (List (Fl K)))

/-- position of `cml` found by `ds.sel(cml_id=cml)` (inference_utils.py L51): `KeyError` if the
dimension has another name or the id is unknown; repeated ids are not modelled. -/
def Ds.pos [DecidableEq ι] (ds : Ds ι K) (cml : ι) : Except Err Nat :=
  if ds.dim ≠ "cml_id" then .error .keyError
  else match ds.ids.findIdx? (fun i => decide (i = cml)) with
    | none => .error .keyError
    | some c => if ds.ids.count cml = 1 then .ok c else .error .outOfModel

/-- `ds_cml[var].values` (L53) -/
def Ds.col (ds : Ds ι K) (c : Nat) (var : String) : Except Err (List (Fl K)) :=
  match ds.vars.find? (fun e => e.1 == var) with
  | none => .error .keyError
  | some e => .ok (e.2.getD c [])

/-- the part of `create_samples` in the `try` block (L50-54): rows are time steps, columns the
variables. `np.stack` of nothing raises `ValueError`. -/
def inputsOf [DecidableEq ι] [Field K] [LinearOrder K] (ds : Ds ι K) (vars : List String) (cml : ι) :
    Except Err (List (List (Fl K))) :=
  match ds.pos cml with
  | .error e => .error e
  | .ok c =>
    if vars.length = 0 then .error .valueError
    else match vars.mapM (ds.col c) with
      | .error e => .error e
      | .ok cols => .ok ((List.range ds.nTime).map fun t => cols.map fun col => rd col t)

/-- `np.all(np.isfinite(x_seq))` -/
def allFinite (x : List (List (Fl K))) : Bool := x.all fun row => row.all Fl.isFin

/-- inner loop of `create_samples` (L58-66): windows of `seqLen` rows ending at `t` -/
def samplesOf (seqLen : Nat) (inputs : List (List (Fl K))) : List (List (List (Fl K)) × Nat) :=
  if inputs.length < seqLen then []
  else (List.range' (seqLen - 1) (inputs.length - (seqLen - 1))).filterMap fun t =>
    let x := slice inputs (t + 1 - seqLen) (t + 1)
    if allFinite x then some (x, t) else none

/-- arrays `X`, `ids`, `time_idx` returned by `create_samples` -/
structure Samples (ι K : Type) where
  x : List (List (List (Fl K)))
  ids : List ι
  tIdx : List Nat

/-- one link in `create_samples`: a `KeyError` skips the link (L55-56) -/
def samplesOne [DecidableEq ι] [Field K] [LinearOrder K] (ds : Ds ι K) (vars : List String)
    (seqLen : Nat) (cml : ι) : Except Err (Samples ι K) :=
  match inputsOf ds vars cml with
  | .error .keyError => .ok ⟨[], [], []⟩
  | .error e => .error e
  | .ok inputs =>
    let s := samplesOf seqLen inputs
    .ok ⟨s.map (·.1), s.map fun _ => cml, s.map (·.2)⟩

/-- `create_samples` (inference_utils.py L32-68). `seqLen = 0` is not modelled. -/
def createSamples [DecidableEq ι] [Field K] [LinearOrder K] (ds : Ds ι K) (cmlIds : List ι)
    (vars : List String) (seqLen : Nat) : Except Err (Samples ι K) :=
  if seqLen = 0 then .error .outOfModel
  else match cmlIds.mapM (samplesOne ds vars seqLen) with
    | .error e => .error e
    | .ok ss => .ok ⟨ss.flatMap (·.x), ss.flatMap (·.ids), ss.flatMap (·.tIdx)⟩

/-- mean of a list of reals -/
noncomputable def mean (xs : List ℝ) : ℝ := xs.sum / xs.length

/-- population variance, as used by `StandardScaler` -/
noncomputable def var (xs : List ℝ) : ℝ := (xs.map fun x => (x - mean xs) ^ 2).sum / xs.length

/-- `StandardScaler.fit_transform` on one column: zero variance is replaced by scale 1 (sklearn also
does so for variances within rounding error, which does not occur with exact numbers). -/
noncomputable def standardize (xs : List ℝ) (x : ℝ) : ℝ :=
  (x - mean xs) / (if var xs = 0 then 1 else Real.sqrt (var xs))

/-- `input_seq[:, :, i].reshape(-1, 1)` (L86) -/
def feature (X : List (List (List ℝ))) (i : Nat) : List ℝ :=
  X.flatMap fun w => w.map fun row => row.getD i 0

/-- `scale_features` (inference_utils.py L71-91). Without samples the array is one-dimensional and
the indexing raises `IndexError` (if there is a variable). Arrays with another number of
features than `nVars` are not modelled. -/
noncomputable def scaleFeatures (X : List (List (List ℝ))) (nVars : Nat) :
    Except Err (List (List (List ℝ))) :=
  if X.length = 0 then (if nVars = 0 then .ok [] else .error .indexError)
  else if X.all (fun w => w.all fun row => row.length == nVars) then
    .ok (X.map fun w => w.map fun row =>
      (List.range nVars).map fun i => standardize (feature X i) (row.getD i 0))
  else .error .outOfModel

/-- assignment `cnn_storage[t, c] = p` for one `t` that passed `t < n_time` (L283-284), negative
`t` count from the end -/
def storeCell (nTime c : Nat) (g : List (List F)) (e : Int × F) : List (List F) :=
  setCell g (if e.1 < 0 then e.1 + (nTime : Int) else e.1 : Int).toNat c e.2

/-- body of the loop of `store_predictions` (L269-284) -/
def storeOne [DecidableEq ι] (allIds : List ι) (nTime : Nat) (entries : List (ι × Int × F))
    (g : List (List F)) (cml : ι) : Except Err (List (List F)) :=
  let mine := entries.filter fun e => decide (e.1 = cml)
  if mine.length = 0 then .ok g
  else match allIds.findIdx? (fun i => decide (i = cml)) with
    | none => .ok g
    | some c =>
      let valid := (mine.map (·.2)).filter fun e => decide (e.1 < (nTime : Int))
      if valid.any fun e => decide (e.1 < -(nTime : Int)) then .error .indexError
      else .ok (valid.foldl (storeCell nTime c) g)

/-- `store_predictions` (inference_utils.py L219-295): the array `[time][link]`. `np.unique` sorts the
ids; their order does not matter because each id writes its own column. -/
def storePredictions [DecidableEq ι] [PyFloat F] (allIds : List ι) (nTime : Nat) (prob : List F)
    (ids : List ι) (tIdx : List Int) (use : Option (List ι)) : Except Err (List (List F)) :=
  if prob.length ≠ ids.length ∨ prob.length ≠ tIdx.length then .error .valueError
  else (use.getD ids.eraseDups).foldlM (storeOne allIds nTime (ids.zip (tIdx.zip prob)))
    (List.replicate nTime (List.replicate allIds.length PyFloat.nan))

/-- the real number in a finite entry -/
def val : Fl ℝ → ℝ
  | .fin x => x
  | _ => 0

/-- `wet_dry_1d_cnn` (run_inference.py L15-106) after the model is loaded: the array of
probabilities. `net` is `model.predict` followed by `np.ravel`. `idCoord` is only checked for presence
(L64-66) and used for the default of `cml_ids` (L69-70); `coords` are the names present. -/
noncomputable def wetDry1dCnn [DecidableEq ι] [PyFloat F] (net : List (List (List ℝ)) → List F)
    (ds : Ds ι ℝ) (coords : List String) (idCoord : String) (idValues : List ι)
    (vars : List String) (seqLen : Nat) (cmlIds : Option (List ι)) : Except Err (List (List F)) :=
  if idCoord ∉ coords then .error .keyError
  else match createSamples ds (cmlIds.getD idValues) vars seqLen with
    | .error e => .error e
    | .ok s =>
      match scaleFeatures (s.x.map fun w => w.map fun row => row.map val) vars.length with
      | .error e => .error e
      | .ok xs => storePredictions ds.ids ds.nTime (net xs) s.ids (s.tIdx.map Int.ofNat) none

end Verif.Tf
