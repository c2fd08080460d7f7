import Verif.Model.TfInference
import Verif.Binary64

/-!
# Model of the single precision numbers in pycomlink/processing/tensorflow_utils/inference_utils.py
-/

namespace Verif.Tf
open Verif Verif.Torch Verif.Bin

variable {ι : Type}

/-- IEEE 754 binary32 (numpy `float32`), round to nearest even -/
noncomputable def binary32 : Rounding ℝ := fmt 24 (-149) 128 (by norm_num) (by norm_num) (by norm_num)

/-- `.astype(np.float32)` of a value: NaN and infinities stay, numbers are rounded and become infinite if too large -/
noncomputable def cast32 (v : Fl ℝ) : Fl ℝ := binary32.round v

/-- The dataset with all values cast, `ds_cml[var].values.astype(np.float32)` (inference_utils.py L53): the only place where
`create_samples` reads values. -/
noncomputable def Ds.cast32 (ds : Ds ι ℝ) : Ds ι ℝ :=
  { ds with vars := ds.vars.map fun e => (e.1, e.2.map fun xs => xs.map Tf.cast32) }

/-- `scale_features` (inference_utils.py L71-91) of single precision numbers. `scaler column x` is the value that
`StandardScaler.fit_transform` of the column puts in the place of the element `x` (the columns `input_seq[:, :, i]`, L86); the way
sklearn computes mean and scale of single precision numbers and rounds is left open. -/
noncomputable def scaleFeatures32 (scaler : List ℝ → ℝ → Fl ℝ) (X : List (List (List ℝ))) (nVars : Nat) :
    Except Err (List (List (List (Fl ℝ)))) :=
  if X.length = 0 then (if nVars = 0 then .ok [] else .error .indexError)
  else if X.all (fun w => w.all fun row => row.length == nVars) then
    .ok (X.map fun w => w.map fun row =>
      (List.range nVars).map fun i => Tf.cast32 (scaler (feature X i) (row.getD i 0)))
  else .error .outOfModel

/-- `wet_dry_1d_cnn` (run_inference.py L15-106) as `wetDry1dCnn`, with the casts to single precision: of the values of the dataset
(inference_utils.py L53), of the scaled features (L82, `input_scaled` is a `float32` array) and of the probabilities (L216, L247). -/
noncomputable def wetDry1dCnn32 [DecidableEq ι] (scaler : List ℝ → ℝ → Fl ℝ) (net : List (List (List (Fl ℝ))) → List (Fl ℝ))
    (ds : Ds ι ℝ) (coords : List String) (idCoord : String) (idValues : List ι)
    (vars : List String) (seqLen : Nat) (cmlIds : Option (List ι)) : Except Err (List (List (Fl ℝ))) :=
  if idCoord ∉ coords then .error .keyError
  else match createSamples ds.cast32 (cmlIds.getD idValues) vars seqLen with
    | .error e => .error e
    | .ok s =>
      match scaleFeatures32 scaler (s.x.map fun w => w.map fun row => row.map val) vars.length with
      | .error e => .error e
      | .ok xs => storePredictions ds.ids ds.nTime ((net xs).map Tf.cast32) s.ids (s.tIdx.map Int.ofNat) none

end Verif.Tf
