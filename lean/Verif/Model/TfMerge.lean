import Verif.Model.TfInference

/-!
# Model of the default result of `wet_dry_1d_cnn`: the dataset with the predictions merged in

pycomlink/processing/tensorflow_utils/run_inference.py L103-L104. `xr.merge` is called with its defaults
(`compat="no_conflicts"`): a variable that is in both datasets must have the same values wherever both have one, and the values of
the first are filled with those of the second. Variables of the dataset have the dimensions `cml_id` and `time` (with the
coordinates of the dataset, so nothing has to be aligned); attributes and number types are not modelled.
-/

namespace Verif.Tf
open Verif

variable {ι : Type}

/-- equal, or one of the two missing (`array_notnull_equiv` of xarray for one pair) -/
noncomputable def agree (x y : Fl ℝ) : Bool := PyFloat.isNaN x || PyFloat.isNaN y || (x ==ᶠ y)

/-- `fillna` for one pair -/
noncomputable def fillNaN (x y : Fl ℝ) : Fl ℝ := if PyFloat.isNaN x then y else x

/-- the array `[time][link]` of `store_predictions` as a variable `[link][time]` -/
noncomputable def asVar (n T : Nat) (g : List (List (Fl ℝ))) : List (List (Fl ℝ)) :=
  (List.range n).map fun c => (List.range T).map fun t => rd (g.getD t []) c

/-- `xr.merge` of the variables of a dataset with one more variable. `MergeError` is a `ValueError`. -/
noncomputable def mergeVar (vars : List (String × List (List (Fl ℝ)))) (name : String) (new : List (List (Fl ℝ))) :
    Except Err (List (String × List (List (Fl ℝ)))) :=
  match vars.find? (fun e => e.1 == name) with
  | none => .ok (vars ++ [(name, new)])
  | some old =>
    if (List.zipWith (fun a b => (List.zipWith agree a b).all id) old.2 new).all id then
      .ok (vars.map fun e => if e.1 == name then (e.1, List.zipWith (List.zipWith fillNaN) e.2 new) else e)
    else .error .valueError

/-- `wet_dry_1d_cnn` with `return_ds=True` (run_inference.py L15-L104). A `prob_name` that is the name of a coordinate is not
modelled. -/
noncomputable def wetDry1dCnnDs [DecidableEq ι] (net : List (List (List ℝ)) → List (Fl ℝ)) (ds : Ds ι ℝ) (coords : List String)
    (idCoord : String) (idValues : List ι) (vars : List String) (seqLen : Nat) (cmlIds : Option (List ι)) (probName : String) :
    Except Err (Ds ι ℝ) :=
  match wetDry1dCnn net ds coords idCoord idValues vars seqLen cmlIds with
  | .error e => .error e
  | .ok g =>
    if probName ∈ coords then .error .outOfModel
    else match mergeVar ds.vars probName (asVar ds.ids.length ds.nTime g) with
      | .error e => .error e
      | .ok vs => .ok { ds with vars := vs }

end Verif.Tf
