import Verif.Np

/-!
# Model of pycomlink/processing/pytorch_utils/run_inference.py

The trained network is a parameter. Time stamps and link ids are any types with decidable equality.
-/

namespace Verif.Torch
open Verif

variable {ι τ α F : Type}

/-- Python list/array indexing `xs[i]` with one integer. -/
def pyGet (xs : List α) (i : Int) : Except Err α :=
  let j := if i < 0 then i + xs.length else i
  if j < 0 then .error .indexError
  else match xs[j.toNat]? with
    | some x => .ok x
    | none => .error .indexError

/-- one iteration of the loop of `rolling_window` (run_inference.py L55-64). `int(reflength / 2)`
truncates towards zero; `reflength` is an int. -/
def rollingStep (ts : List α) (vt : List τ) (w r : Int) (start : Nat) (s : List (List α) × List τ) :
    Except Err (List (List α) × List τ) :=
  let e : Int := start + w
  if e ≤ ts.length then
    let target := if 0 ≤ e - r.tdiv 2 then e - r.tdiv 2 else e - 1
    match pyGet vt target with
    | .error er => .error er
    | .ok t => .ok (s.1 ++ [slice ts start e.toNat], s.2 ++ [t])
  else .ok s

/-- `rolling_window` (run_inference.py L35-65): windows and target times. -/
def rollingWindow (ts : List α) (vt : List τ) (w r : Int) : Except Err (List (List α) × List τ) :=
  if ¬ 0 < w then .error .assertionError
  else if vt.length ≠ ts.length then .error .assertionError
  else forRangeM 0 ts.length ([], []) fun start s => rollingStep ts vt w r start s

/-- The DataArray passed to `cnn_wd`: `values[c][t]` is the vector of channels of link `c` at step
`t`. -/
structure Data (ι τ α : Type) where
  ids : List ι
  times : List τ
  values : List (List α)

/-- `data.sel(cml_id=cml)` (L84); several links with the same id are not modelled. -/
def Data.sel [DecidableEq ι] (d : Data ι τ α) (cml : ι) : Except Err (List α) :=
  match (d.ids.zip d.values).filter fun e => decide (e.1 = cml) with
  | [e] => .ok e.2
  | [] => .error .keyError
  | _ => .error .outOfModel

/-- the dictionary returned by `batchify_windows` -/
structure Samples (ι τ α : Type) where
  cmlId : List ι
  time : List τ
  data : List (List α)

/-- body of the loop of `batchify_windows` (L83-98) -/
def batchifyOne [DecidableEq ι] (d : Data ι τ α) (w r : Int) (cml : ι) :
    Except Err (Samples ι τ α) :=
  match d.sel cml with
  | .error e => .error e
  | .ok ts =>
    match rollingWindow ts d.times w r with
    | .error e => .error e
    | .ok (ws, tt) => .ok ⟨List.replicate ws.length cml, tt, ws⟩

/-- `batchify_windows` (L68-106). `np.concatenate` of an empty list raises `ValueError`. -/
def batchify [DecidableEq ι] (d : Data ι τ α) (w r : Int) : Except Err (Samples ι τ α) :=
  match d.ids.mapM (batchifyOne d w r) with
  | .error e => .error e
  | .ok samples =>
    if samples.length = 0 then .error .valueError
    else .ok ⟨samples.flatMap (·.cmlId), samples.flatMap (·.time), samples.flatMap (·.data)⟩

/-- batches of a `DataLoader` with `shuffle=False` (pytorch_utils.py L72-74): `b + 1` consecutive
rows each, the last batch may be shorter. -/
def chunks (b : Nat) : List α → List (List α)
  | [] => []
  | x :: xs => (x :: xs.take b) :: chunks b (xs.drop b)
termination_by xs => xs.length
decreasing_by simp; omega

/-- dictionary returned by `run_inference` -/
structure Results (ι τ F : Type) where
  predictions : List (List F)
  cmlIds : List ι
  times : List τ

/-- `run_inference` (L110-140) with `build_dataloader` (pytorch_utils.py L54-76) and `predict_batch`
(L45-50). `net` maps a batch of windows to a list of output rows; the `permute(0, 2, 1)` of
the windows and the conversion to float32 are part of it. Without any window the data array is
one-dimensional and `permute` raises `RuntimeError`. A batch size below 1 is rejected by torch with
`ValueError`. `windowSize` is the attribute of the model, if it has one. -/
def runInference [DecidableEq ι] (net : List (List α) → List (List F)) (windowSize : Option Int)
    (d : Data ι τ α) (batchSize r : Int) : Except Err (Results ι τ F) :=
  match batchify d (windowSize.getD 180) r with
  | .error e => .error e
  | .ok s =>
    if s.data.length = 0 then .error .runtimeError
    else if batchSize < 1 then .error .valueError
    else .ok ⟨((chunks (batchSize.toNat - 1) s.data).map net).flatten, s.cmlId, s.time⟩

/-- `pred_array[t, c] = v` -/
def setCell (g : List (List F)) (t c : Nat) (v : F) : List (List F) :=
  g.modify t fun row => row.set c v

/-- body of the loop of `redistribute_results` (L166-176): the first position with the id and the
time; unknown ids or times are skipped. A prediction row with one number is stored; numpy raises
`ValueError` for other lengths, which is swallowed. -/
def placeOne [DecidableEq ι] [DecidableEq τ] (ids : List ι) (times : List τ)
    (g : List (List F)) (e : ι × τ × List F) : List (List F) :=
  match ids.findIdx? (fun i => decide (i = e.1)) with
  | none => g
  | some c =>
    match times.findIdx? (fun t => decide (t = e.2.1)) with
    | none => g
    | some t =>
      match e.2.2 with
      | [v] => setCell g t c v
      | _ => g

/-- `redistribute_results` (L143-190): the array `predictions[t][c]` added to the dataset. -/
def redistribute [DecidableEq ι] [DecidableEq τ] [PyFloat F] (res : Results ι τ F)
    (d : Data ι τ α) : List (List F) :=
  (res.cmlIds.zip (res.times.zip res.predictions)).foldl (placeOne d.ids d.times)
    (List.replicate d.times.length (List.replicate d.ids.length PyFloat.nan))

/-- `cnn_wd` (L193-219) after `get_model`: the variable `predictions` of the returned dataset. -/
def cnnWd [DecidableEq ι] [DecidableEq τ] [PyFloat F] (net : List (List α) → List (List F))
    (windowSize : Option Int) (d : Data ι τ α) (batchSize r : Int) : Except Err (List (List F)) :=
  match runInference net windowSize d batchSize r with
  | .error e => .error e
  | .ok res => .ok (redistribute res d)

end Verif.Torch
