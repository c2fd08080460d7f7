import Verif.Model.Idw
import Verif.Model.Kriging

/-!
# Interpolation onto grids of integers (pycomlink/spatial/interpolator.py)

`Idw.interpolate` and `Kriging.call` are the calls for float grids. Here the arrays carry their numpy type, because
`np.zeros_like(self.xgrid)` (L57) takes over the type of the grid and an integer array cannot hold NaN.
-/

namespace Verif.IntGrid
open Verif Verif.Idw

/-- Type of a number or of the elements of an array: integers or floats. -/
inductive Dtype
  | int
  | float
  deriving DecidableEq

/-- interpolator.py L177-L208 `_parse_grid_kwargs`, type of the grid returned for `x`: a given pair of grids is passed on;
`np.arange(min(x_list) - resolution, max(x_list) + resolution, resolution)` has integer elements exactly if all its arguments
are integers; `np.meshgrid` keeps the type. -/
def gridDtype (x : Dtype) (xgrid ygrid resolution : Option Dtype) : Dtype :=
  match xgrid, ygrid with
  | some d, some _ => d
  | _, _ => if x = .int ∧ resolution = some .int then .int else .float

/-- interpolator.py L57-L58 `zgrid = np.zeros_like(self.xgrid)`, `zgrid[:] = np.nan`: numpy raises `ValueError` ("cannot convert
float NaN to integer") if the array has integer elements. Grids with at least one cell. -/
def nanGrid {α β : Type} : Dtype → Grid α → Except Err (Grid (Fl β))
  | .int, _ => .error .valueError
  | .float, g => .ok (g.map fun r => r.map fun _ => .nan)

/-- interpolator.py L30-L67 `__call__` of `IdwKdtreeInterpolator` with typed coordinates `x`, grids and resolution. Integers
are turned into floats before they are used otherwise (idw.py L70, L76). -/
noncomputable def interpolate (knn : Knn) (cfg : Config) (h : Heap (List ℝ)) (m : Option Memo)
    (xt : Dtype) (x y : Src (List ℝ)) (z : List (Fl ℝ)) (xgrid ygrid : Option (Dtype × Grid ℝ))
    (resolution : Option (Dtype × ℝ)) : Except Err (Grid (Fl ℝ)) × Option Memo :=
  if (x.get h).length ≠ (y.get h).length ∨ (y.get h).length ≠ z.length then
    (.error .assertionError, m)                                                       -- L49
  else match parseGrid (x.get h) (y.get h) (xgrid.map (·.2)) (ygrid.map (·.2)) (resolution.map (·.2)) with   -- L53-L55
    | .error e => (.error e, m)
    | .ok (xg, yg) =>
      if (z.filter fun v => !(PyFloat.isNaN v)).length = 0 then                       -- L56
        (nanGrid (gridDtype xt (xgrid.map (·.1)) (ygrid.map (·.1)) (resolution.map (·.1))) xg, m)   -- L57-L59
      else
        let r := interpolFunc knn cfg h m x y z xg.flatten yg.flatten                 -- L62-L64
        (match r.1 with
          | .error e => .error e
          | .ok zi =>
            if zi.length = xg.flatten.length then .ok (reshape xg zi)                 -- L65
            else .error .valueError, r.2)

/-- interpolator.py L30-L67 `__call__` of `OrdinaryKrigingInterpolator` with typed coordinates `x`, grids and resolution.
`self.xgrid` and `self.ygrid` are set (L53) before filling the grid with NaN can fail (L58). -/
noncomputable def krige (ok : Kriging.PyKrige ℝ) (cfg : Kriging.Config) (d : Kriging.Dict ℝ) (a : Kriging.Attrs ℝ) (xt : Dtype)
    (x y : List ℝ) (z : List (Fl ℝ)) (xgrid ygrid : Option (Dtype × Grid ℝ)) (resolution : Option (Dtype × ℝ)) :
    Except Err (Grid (Fl ℝ)) × Kriging.Attrs ℝ :=
  if x.length ≠ y.length ∨ y.length ≠ z.length then (.error .assertionError, a)       -- L49
  else match parseGrid x y (xgrid.map (·.2)) (ygrid.map (·.2)) (resolution.map (·.2)) with   -- L53-L55
    | .error e => (.error e, a)
    | .ok (xg, yg) =>
      let a := { a with xgrid := some xg, ygrid := some yg }
      if (z.filter fun v => !(PyFloat.isNaN v)).length = 0 then                       -- L56
        match nanGrid (gridDtype xt (xgrid.map (·.1)) (ygrid.map (·.1)) (resolution.map (·.1))) xg with   -- L57-L58
        | .error e => (.error e, a)
        | .ok zg => (.ok zg, { a with zgrid := some zg })                             -- L59
      else
        match Kriging.interpolFunc ok cfg d a x y z xg.flatten yg.flatten with        -- L62-L64
        | (.error e, a) => (.error e, a)
        | (.ok zi, a) =>
          if zi.length = xg.flatten.length then                                       -- L65
            (.ok (reshape xg zi), { a with zgrid := some (reshape xg zi) })
          else (.error .valueError, a)

end Verif.IntGrid
