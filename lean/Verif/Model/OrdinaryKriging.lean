import Verif.Model.Kriging
import Mathlib.LinearAlgebra.Matrix.NonsingularInverse
import Mathlib.Analysis.SpecialFunctions.Pow.Real

/-!
# Model of the ordinary kriging done by PyKrige for `OrdinaryKrigingInterpolator`

interpolator.py L154-L171 creates `pykrige.OrdinaryKriging` and calls `execute(style="points", …)`. PyKrige is an external
library; this file states what it computes (in exact real arithmetic), as an instance of the parameter `PyKrige` of
`Verif.Model.Kriging`. The variogram is a parameter where its form does not matter.
-/

namespace Verif.Kriging
open Verif Verif.Idw Matrix

/-- PyKrige's kriging matrix for the data points `p`: `-γ(distance)`, zeros in the diagonal, a border of ones, and zero in the
corner (`OrdinaryKriging._get_kriging_matrix`; interpolator.py L154-L165 passes no anisotropy) -/
noncomputable def krMatrix (γ : ℝ → ℝ) {n : Nat} (p : Fin n → Pt) : Matrix (Fin n ⊕ Unit) (Fin n ⊕ Unit) ℝ :=
  Matrix.of fun a b => match a, b with
    | .inl i, .inl j => if i = j then 0 else -γ (euclid (p i) (p j))
    | .inl _, .inr _ => 1
    | .inr _, .inl _ => 1
    | .inr _, .inr _ => 0

/-- The right side for one query point; `exact_values`: an entry is zero where the query point is at the data point (distance
at most `eps = 1e-10`). -/
noncomputable def krRhs (γ : ℝ → ℝ) {n : Nat} (p : Fin n → Pt) (q : Pt) : Fin n ⊕ Unit → ℝ
  | .inl i => if euclid q (p i) ≤ 1 / 10 ^ 10 then 0 else -γ (euclid q (p i))
  | .inr _ => 1

/-- The solution of the kriging system: the weights of the points and the Lagrange multiplier. -/
noncomputable def krSolve (γ : ℝ → ℝ) {n : Nat} (p : Fin n → Pt) (q : Pt) : Fin n ⊕ Unit → ℝ :=
  (krMatrix γ p)⁻¹ *ᵥ krRhs γ p q

/-- Estimate `Σ λᵢ zᵢ` and variance `Σ x · (-b)` at the query point `q`. -/
noncomputable def krEst (γ : ℝ → ℝ) {n : Nat} (p : Fin n → Pt) (z : Fin n → Fl ℝ) (q : Pt) : Fl ℝ × Fl ℝ :=
  (fsum (List.ofFn fun i => Fl.fin (krSolve γ p q (.inl i)) *ᶠ z i),
   .fin (∑ a, krSolve γ p q a * -(krRhs γ p q a)))

/-- the same for a list of points with their values -/
noncomputable def krEstimate (γ : ℝ → ℝ) (pts : List (Pt × Fl ℝ)) (q : Pt) : Fl ℝ × Fl ℝ :=
  krEst γ (fun i : Fin pts.length => pts[i].1) (fun i : Fin pts.length => pts[i].2) q

/-- the kriging matrix of these points has an inverse -/
def KrRegular (γ : ℝ → ℝ) (pts : List (Pt × Fl ℝ)) : Prop :=
  IsUnit (krMatrix γ fun i : Fin pts.length => pts[i].1).det

/-- The part of the points used for the query point `q` with `n_closest_points = k`: the `k` nearest, from a k-d tree. A missing
neighbour (`k` larger than the number of points) has the number of points as index, which raises `IndexError`. -/
noncomputable def krWindow (knn : Knn) (pts : List (Pt × Fl ℝ)) (k : Nat) (q : Pt) : Except Err (List (Pt × Fl ℝ)) :=
  (knn (pts.map (·.1)) k 0 .pinf q).mapM fun e =>
    match pts[e.2]? with
    | some v => .ok v
    | none => .error .indexError

open Classical in
/-- Estimate and variance at one query point. A singular matrix raises `LinAlgError`, which is a `ValueError`. -/
noncomputable def krQuery (knn : Knn) (nClosest : Option Int) (γ : ℝ → ℝ) (pts : List (Pt × Fl ℝ)) (q : Pt) :
    Except Err (Fl ℝ × Fl ℝ) :=
  match nClosest with
  | none => if KrRegular γ pts then .ok (krEstimate γ pts q) else .error .valueError
  | some k =>
    if k ≤ 1 then .error .valueError
    else match krWindow knn pts k.toNat q with
      | .error e => .error e
      | .ok sub => if KrRegular γ sub then .ok (krEstimate γ sub q) else .error .valueError

/-- `pykrige.OrdinaryKriging(x, y, z, …).execute("points", xi, yi, …)` (interpolator.py L154-L171). `variogram` gives the function
for the name of the model and the dictionary of parameters (or raises). With less than two points the constructor raises
`ValueError` (maximum of an empty array of pairwise distances), and so does `execute` for coordinates of different lengths.
`nlags` and `weight` are used by PyKrige only to fit a variogram, which is not done when the parameters are given; the
backends differ only in speed. -/
noncomputable def pykrige (variogram : String → Dict ℝ → Except Err (ℝ → ℝ)) (knn : Knn) : PyKrige ℝ :=
  fun cfg d x y z xi yi =>
    match variogram cfg.variogramModel d with
    | .error e => .error e
    | .ok γ =>
      if x.length < 2 ∨ xi.length ≠ yi.length then .error .valueError
      else match (xi.zip yi).mapM (krQuery knn cfg.nClosest γ ((x.zip y).zip z)) with
        | .error e => .error e
        | .ok r => .ok (r.map (·.1), r.map (·.2))

/-- `pykrige.variogram_models.spherical_variogram_model` -/
noncomputable def sphericalVariogram (psill range nugget : ℝ) (h : ℝ) : ℝ :=
  if h ≤ range then psill * (3 * h / (2 * range) - h ^ 3 / (2 * range ^ 3)) + nugget else psill + nugget

/-- the value of a key, `KeyError` if it is missing -/
def dictGet (d : Dict ℝ) (k : String) : Except Err ℝ :=
  match d.lookup k with
  | some v => .ok v
  | none => .error .keyError

/-- The variogram for `variogram_model="spherical"` and a dictionary with `range`, `nugget`, and `sill` or `psill` (PyKrige's
`_make_variogram_parameter_list`): the partial sill is `sill - nugget`, or `psill` if there is no `sill`. Other models are taken
from `other`. -/
noncomputable def pykrigeVariogram (other : String → Dict ℝ → Except Err (ℝ → ℝ)) (model : String) (d : Dict ℝ) :
    Except Err (ℝ → ℝ) :=
  if model = "spherical" then do
    let range ← dictGet d "range"
    let nugget ← dictGet d "nugget"
    match d.lookup "sill" with
    | some sill => .ok (sphericalVariogram (sill - nugget) range nugget)
    | none => do
      let psill ← dictGet d "psill"
      .ok (sphericalVariogram psill range nugget)
  else other model d

end Verif.Kriging
