import Verif.Float

/-!
# Model of pycomlink/spatial/coverage.py

The geometry operations of shapely are parameters.
-/

namespace Verif.Coverage
open Verif

/-- the shapely operations used, for coordinates in `X` and polygons in `G` -/
structure Geometry (X G : Type) where
  /-- `LineString([a, b]).buffer(d, cap_style=1)` -/
  buffer : X × X → X × X → X → G
  /-- `ops.cascaded_union(polygons)` -/
  union : List G → G
  /-- `Point(p).intersects(polygon)` -/
  intersects : X × X → G → Bool

/-- what the shapely documentation promises of the union: it has the points of its members -/
def Geometry.Lawful {X G : Type} (geo : Geometry X G) : Prop :=
  ∀ p gs, geo.intersects p (geo.union gs) = true ↔ ∃ g ∈ gs, geo.intersects p g = true

/-- end points of a CML, (longitude, latitude) as in `cml.metadata` -/
structure Cml (X : Type) where
  a : X × X
  b : X × X

/-- `np.array(flat).reshape(grid.shape)` when the sizes agree -/
def reshape {α β : Type} : List (List α) → List β → List (List β)
  | [], _ => []
  | r :: rs, flat => flat.take r.length :: reshape rs (flat.drop r.length)

/-- `calc_coverage_mask` (coverage.py L8-71). Grids are lists of rows; `zip` stops at the end of the shorter
of the raveled grids, then `reshape` raises. -/
def calcCoverageMask {X G : Type} (geo : Geometry X G) (cmls : List (Cml X)) (xgrid ygrid : List (List X))
    (maxDist : X) : Except Err (List (List Bool)) :=
  let cmlLines := cmls.map fun cml => geo.buffer cml.a cml.b maxDist
  let cmlMultiLine := geo.union cmlLines
  let gridPoints := xgrid.flatten.zip ygrid.flatten
  let covered := gridPoints.map fun p => if geo.intersects p cmlMultiLine then true else false
  if covered.length = xgrid.flatten.length then .ok (reshape xgrid covered)
  else .error .valueError

end Verif.Coverage
