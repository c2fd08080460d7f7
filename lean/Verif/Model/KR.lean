import Verif.Np
import Verif.FloatReal
import Verif.Model.ItuTables

/-!
# Model of `pycomlink/processing/k_R_relation.py`

Arrays are one-dimensional lists of `Fl ℝ`; a scalar parameter is a list with one element.
-/

namespace Verif.KR

open Verif

/-- numpy broadcasting of a binary operation on two one-dimensional arrays -/
def bcast {α β γ : Type} (f : α → β → γ) (xs : List α) (ys : List β) : Except Err (List γ) :=
  if xs.length = ys.length then .ok (List.zipWith f xs ys)
  else match xs, ys with
    | xs, [y] => .ok (xs.map fun x => f x y)
    | [x], ys => .ok (ys.map fun y => f x y)
    | _, _ => .error .valueError

/-- writes the values one after the other to the positions where the mask is set -/
def place {α : Type} : List α → List Bool → List α → List α
  | _ :: rs, true :: ms, v :: vs => v :: place rs ms vs
  | r :: rs, _ :: ms, vs => r :: place rs ms vs
  | rs, _, _ => rs

/-- `R[mask] = vals` for a boolean mask: the number of values must be the number of set
positions, or one. -/
def assignMask {α : Type} (R : List α) (mask : List Bool) (vals : List α) :
    Except Err (List α) :=
  if vals.length = mask.count true then .ok (place R mask vals)
  else match vals with
    | [v] => .ok (place R mask (List.replicate (mask.count true) v))
    | _ => .error .valueError

/-- `xs[mask]` -/
def select {α : Type} (xs : List α) (mask : List Bool) : List α :=
  ((xs.zip mask).filter (·.2)).map (·.1)

/-! ### `a_b` -/

/-- k_R_relation.py L221 `pol_v_str_variants` -/
def polV : List String := ["v", "V", "vertical", "Vertical"]

/-- k_R_relation.py L222 `pol_h_str_variants` -/
def polH : List String := ["h", "H", "horizontal", "Horizontal"]

/-- row `r` of a table, as rationals -/
def row (t : List (List Nat)) (r : Nat) : List ℚ :=
  (t.getD r []).map fun n : Nat => (n : ℚ) / 10000000

/-- The external cubic spline of `scipy.interpolate.interp1d(xs, ys, kind="cubic")`,
evaluated at a real number. -/
abbrev Spline := List ℚ → List ℚ → ℝ → ℝ

/-- `interp1d(xs, ys, kind="cubic")(f)` for one value `f`: raises outside `[xs[0], xs[-1]]`,
NaN gives NaN. -/
noncomputable def interp (spline : Spline) (xs ys : List ℚ) (f : Fl ℝ) : Except Err (Fl ℝ) :=
  match f with
  | .nan => .ok .nan
  | .ninf => .error .valueError
  | .pinf => .error .valueError
  | .fin x =>
    if x < (xs.headD 0 : ℚ) ∨ ((xs.getLastD 0 : ℚ) : ℝ) < x then .error .valueError
    else .ok (.fin (spline xs ys x))

/-- `xs.max()` of a non-empty array (NaN propagates) -/
def npMax {F : Type} [PyFloat F] : List F → Except Err F
  | [] => .error .valueError
  | x :: xs => .ok (xs.foldl npMaximum x)

/-- k_R_relation.py L230-L235: the table of an approximation type -/
def selectTable (approx_type : String) : Except Err (List (List Nat)) :=
  if approx_type = "ITU_2003" then .ok rawTable2003
  else if approx_type = "ITU_2005" then .ok rawTable2005
  else .error .valueError

/-- k_R_relation.py L237-L257: interpolation in one table and selection by polarization -/
noncomputable def a_b_table (spline : Spline) (f_GHz : List (Fl ℝ)) (pol : List String)
    (table : List (List Nat)) : Except Err (List (Fl ℝ) × List (Fl ℝ)) := do
  let a_v ← f_GHz.mapM (interp spline (row table 0) (row table 2))
  let b_v ← f_GHz.mapM (interp spline (row table 0) (row table 4))
  let a_h ← f_GHz.mapM (interp spline (row table 0) (row table 1))
  let b_h ← f_GHz.mapM (interp spline (row table 0) (row table 3))
  let a : List (Fl ℝ) := List.replicate f_GHz.length .nan
  let b : List (Fl ℝ) := List.replicate f_GHz.length .nan
  let mask_v := pol.map fun p => polV.contains p
  let mask_h := pol.map fun p => polH.contains p
  let a ← assignMask a mask_h (select a_h mask_h)
  let a ← assignMask a mask_v (select a_v mask_v)
  let b ← assignMask b mask_h (select b_h mask_h)
  let b ← assignMask b mask_v (select b_v mask_v)
  return (a, b)

/-- k_R_relation.py L164-L264 `a_b` for a one-dimensional frequency array and an array of
polarization strings (a polarization given as one string is expanded by `a_b_str` below).
Result: the arrays `a` and `b`. xarray input/output containers are not modelled. -/
noncomputable def a_b (spline : Spline) (f_GHz : List (Fl ℝ)) (pol : List String)
    (approx_type : String) : Except Err (List (Fl ℝ) × List (Fl ℝ)) :=
  if f_GHz.length ≠ pol.length then .error .valueError
  else do
    let mn ← npMin f_GHz
    let mx ← npMax f_GHz
    if (mn <ᶠ PyFloat.ofInt 1) || (PyFloat.ofInt 100 <ᶠ mx) then .error .valueError
    else if ¬ pol.all (fun p => (polV ++ polH).contains p) then .error .valueError
    else
      let table ← selectTable approx_type
      a_b_table spline f_GHz pol table

/-- k_R_relation.py L211-L212: a polarization given as a string is expanded to the shape of
the frequency array. -/
noncomputable def a_b_str (spline : Spline) (f_GHz : List (Fl ℝ)) (pol : String)
    (approx_type : String) : Except Err (List (Fl ℝ) × List (Fl ℝ)) :=
  a_b spline f_GHz (List.replicate f_GHz.length pol) approx_type

/-! ### `calc_R_from_A` -/

/-- k_R_relation.py L93-L103: rain rates from attenuations, given `a` and `b`. Also L150-L161
with `a = a_max`. For every number type with a power function. Division is numpy's: a plain Python number `b = 0` would
raise `ZeroDivisionError` in `1 / b` where numpy (and the model) gives inf. -/
def rainRates {F : Type} [PyFloat F] [PyPow F] (A : List F) (L_km : F) (a b : List F) (R_min : F) :
    Except Err (List F) := do
  let R : List F := List.replicate A.length (PyFloat.ofInt 0)
  let nan_index := A.map isNaN
  let R ← assignMask R nan_index [PyFloat.nan]
  let mask := List.zipWith (fun n x => !n && (PyFloat.ofInt 0 ≤ᶠ x)) nan_index A
  let q ← bcast (· /ᶠ ·) (select A mask) (a.map (· *ᶠ L_km))
  let vals ← bcast PyPow.pow q (b.map fun b => PyFloat.ofInt 1 /ᶠ b)
  let R ← assignMask R mask vals
  let mask2 := List.zipWith (fun n r => !n && (r <ᶠ R_min)) nan_index R
  assignMask R mask2 [PyFloat.ofInt 0]

/-- k_R_relation.py L14-L103 `calc_R_from_A`, undecorated, for a one-dimensional array `A`, every number type and every function
`ab` in place of `a_b`. `f_GHz` and `pol` are the arrays after `np.atleast_1d` (L81-L82). -/
def calcR {F : Type} [PyFloat F] [PyPow F] (ab : List F → List String → String → Except Err (List F × List F))
    (A : List F) (L_km : F) (f_GHz : Option (List F)) (pol : Option (List String))
    (a b : Option (List F)) (approx : String) (R_min : F) :
    Except Err (List F) := do
  let (a, b) ← match f_GHz, pol, a, b with
    | some f, some p, none, none => ab f p approx
    | none, none, some a, some b => .ok (a, b)
    | _, _, _, _ => .error .valueError
  rainRates A L_km a b R_min

/-- `calc_R_from_A` in exact real arithmetic (k_R_relation.py L14-L103) -/
noncomputable def calc_R_from_A (spline : Spline) (A : List (Fl ℝ)) (L_km : Fl ℝ)
    (f_GHz : Option (List (Fl ℝ))) (pol : Option (List String))
    (a b : Option (List (Fl ℝ))) (approx : String) (R_min : Fl ℝ) :
    Except Err (List (Fl ℝ)) :=
  calcR (a_b spline) A L_km f_GHz pol a b approx R_min

/-- The constant of k_R_relation.py L143. -/
noncomputable def eulerGamma : ℝ := 57721566 / 100000000

/-- `np.log` as an operation of the number type (k_R_relation.py L147). -/
class PyLog (F : Type) where
  log : F → F

noncomputable instance : PyLog (Fl ℝ) := ⟨Fl.log⟩

/-- k_R_relation.py L106-L161 `calc_R_from_A_min_max`, for a one-dimensional array `Ar_max`
and one polarization string, every number type, every function `ab` in place of `a_b` and the constant `euler_gamma` of L143 in
this number type. `None * x` and `x ** None` raise `TypeError`. -/
def calcRMinMax {F : Type} [PyFloat F] [PyPow F] [PyLog F] (ab : List F → String → String → Except Err (List F × List F))
    (euler_gamma : F) (Ar_max : List F) (L : F) (f_GHz : Option (List F)) (a b : Option (List F)) (pol : String) (R_min k : F) :
    Except Err (List F) := do
  let (a, b) ← match f_GHz, a, b with
    | some f, _, _ => ab f pol "ITU_2005"
    | none, some a, some b => .ok (a, b)
    | none, _, _ => .error .typeError
  let base := PyLog.log k +ᶠ euler_gamma
  let a_max ← bcast (· *ᶠ ·) a (b.map fun b => PyPow.pow base b)
  rainRates Ar_max L a_max b R_min

/-- `calc_R_from_A_min_max` in exact real arithmetic (k_R_relation.py L106-L161) -/
noncomputable def calc_R_from_A_min_max (spline : Spline) (Ar_max : List (Fl ℝ)) (L : Fl ℝ)
    (f_GHz : Option (List (Fl ℝ))) (a b : Option (List (Fl ℝ))) (pol : String) (R_min : Fl ℝ)
    (k : Fl ℝ) : Except Err (List (Fl ℝ)) :=
  calcRMinMax (a_b_str spline) (.fin eulerGamma) Ar_max L f_GHz a b pol R_min k

end Verif.KR
