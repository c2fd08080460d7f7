import Verif.Model.Coverage
import Mathlib.Analysis.SpecialFunctions.Complex.Arg
import Mathlib.Analysis.Convex.Hull

/-!
# The buffer polygons of GEOS

The geometry operations behind spatial/coverage.py L43-L67 with the polygons that GEOS builds, in exact arithmetic.
Points are complex numbers `x + i y`.
-/

namespace Verif.Coverage
open Verif

/-- point of the plane -/
def toC (p : ℝ × ℝ) : ℂ := ⟨p.1, p.2⟩

/-- the vertex at distance `d` from `c` in direction `φ` -/
noncomputable def vertex (c : ℂ) (d φ : ℝ) : ℂ := c + d * Complex.exp (φ * Complex.I)

/-- `LineString([a, b]).buffer(d, cap_style=1)` (spatial/coverage.py L44-L49) with shapely's 16 segments per quarter circle: empty for
`d ≤ 0`, a polygon with 64 vertices around the point for `a = b`, else the two sides and two half circles of 32 segments
around the end points (GEOS `addLineEndCap`, `addDirectedFillet`, clockwise). -/
noncomputable def bufferRing (a b : ℝ × ℝ) (d : ℝ) : List ℂ :=
  if d ≤ 0 then []
  else if a = b then (List.range 64).map fun k : ℕ => vertex (toC a) d (-(k * (Real.pi / 32)))
  else
    let θ := Complex.arg (toC b - toC a)
    ((List.range 33).map fun k : ℕ => vertex (toC b) d (θ + Real.pi / 2 - k * (Real.pi / 32))) ++
      (List.range 33).map fun k : ℕ => vertex (toC a) d (θ - Real.pi / 2 - k * (Real.pi / 32))

open Classical in
/-- The shapely operations of spatial/coverage.py L43-L67: a geometry is a list of convex polygons, given by their vertices; the union
has the points of its members; a point intersects a polygon if it lies in the convex hull of the vertices. -/
noncomputable def geos : Geometry ℝ (List (List ℂ)) where
  buffer a b d := [bufferRing a b d]
  union gs := gs.flatten
  intersects p g := decide (∃ ring ∈ g, toC p ∈ convexHull ℝ {z | z ∈ ring})

end Verif.Coverage
