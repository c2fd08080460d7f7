import Verif.FloatReal
import Mathlib.Analysis.SpecialFunctions.Complex.Arg
import Mathlib.Analysis.SpecialFunctions.Pow.Real

/-!
# Model of `pycomlink/spatial/helper.py` and of the distance matrix in
`pycomlink/processing/wet_dry/nearby_wetdry.py`
-/

namespace Verif.Haversine

open Verif

/-- `np.radians`, used by spatial/helper.py L22: degrees to radians. -/
noncomputable def radians (x : ℝ) : ℝ := x * (Real.pi / 180)

/-- `np.arctan2(y, x)`, used by spatial/helper.py L27: the argument of the complex number
`x + i y` (external numpy function, modelled by its mathematical meaning). -/
noncomputable def arctan2 (y x : ℝ) : ℝ := Complex.arg ⟨x, y⟩

/-- helper.py L17-L29 `haversine`, exact real arithmetic (NaN input not modelled) -/
noncomputable def haversine (lon1 lat1 lon2 lat2 : ℝ) : ℝ :=
  let lon1 := radians lon1
  let lat1 := radians lat1
  let lon2 := radians lon2
  let lat2 := radians lat2
  let dlon := lon2 - lon1
  let dlat := lat2 - lat1
  let a := Real.sin (dlat / 2) ^ 2 + Real.cos lat1 * Real.cos lat2 * Real.sin (dlon / 2) ^ 2
  let c := 2 * arctan2 (a ^ (0.5 : ℝ)) ((1 - a) ^ (0.5 : ℝ))
  6367 * c

/-- One end point of a CML (nearby_wetdry.py L55-L76: `site_a_longitude`, `site_a_latitude`, …). -/
structure Site where
  lon : ℝ
  lat : ℝ

/-- nearby_wetdry.py L55-L76: one call of `haversine` with the four coordinates. -/
noncomputable def dist (p q : Site) : ℝ := haversine p.lon p.lat q.lon q.lat

/-- A data variable with dims `(cml_id1, cml_id2)` (nearby_wetdry.py L44-L52) with values in `V`. -/
abbrev Matrix' (V : Type) := List (List V)

/-- the same with exact values -/
abbrev Matrix := Matrix' (Fl ℝ)

section matrix
variable {V S Id : Type} [DecidableEq Id]

/-- nearby_wetdry.py L54-L77 `ds.loc[dict(cml_id1=cmlid)][name][:] = row`: the row labelled `cmlid` (ids distinct) -/
def setRow (ids : List Id) (m : Matrix' V) (cmlid : Id) (row : List V) : Matrix' V :=
  m.set (ids.findIdx (· = cmlid)) row

/-- nearby_wetdry.py L53-L77: the loop filling one of the four matrices; `d` is the distance of two end points -/
def fillLoop (d : S → S → V) (ids : List Id) (dst : List S) : List (Id × S) → Matrix' V → Matrix' V
  | [], m => m
  | (cmlid, s) :: rest, m => fillLoop d ids dst rest (setRow ids m cmlid (dst.map fun q => d s q))

/-- nearby_wetdry.py L83 `xr.where(ds.cml_id1 == ds.cml_id2, 0, ds)` -/
def zeroDiag (zero : V) (ids : List Id) (m : Matrix' V) : Matrix' V :=
  List.zipWith (fun id1 row => List.zipWith (fun id2 x => if id1 = id2 then zero else x) ids row)
    ids m

/-- One variable of the returned dataset: NaN initialisation (nearby_wetdry.py L44-L52), loop,
zeroed diagonal. -/
def distMatrixOf (nan zero : V) (d : S → S → V) (ids : List Id) (src dst : List S) : Matrix' V :=
  zeroDiag zero ids (fillLoop d ids dst (ids.zip src)
    (List.replicate ids.length (List.replicate ids.length nan)))

end matrix

/-- the same with the exact distances -/
noncomputable def distMatrix {Id : Type} [DecidableEq Id] (ids : List Id)
    (src dst : List Site) : Matrix :=
  distMatrixOf .nan (.fin 0) (fun p q => .fin (dist p q)) ids src dst

/-- The dataset returned by nearby_wetdry.py L44-L84. -/
structure Distances where
  a_to_all_a : Matrix
  a_to_all_b : Matrix
  b_to_all_a : Matrix
  b_to_all_b : Matrix

/-- nearby_wetdry.py L8-L84 `calc_distance_between_cml_endpoints`, for coordinate lists of the
length of `cml_ids` -/
noncomputable def calcDistances {Id : Type} [DecidableEq Id] (ids : List Id)
    (siteA siteB : List Site) : Distances where
  a_to_all_a := distMatrix ids siteA siteA
  a_to_all_b := distMatrix ids siteA siteB
  b_to_all_a := distMatrix ids siteB siteA
  b_to_all_b := distMatrix ids siteB siteB

/-! ### Floating point -/

/-- The numpy functions used by `haversine` (spatial/helper.py L22-L27) as operations of the number type (no laws).
`sq x` is `x ** 2` and `half x` is `x ** 0.5`. -/
class PyTrig (F : Type) where
  radians : F → F
  sin : F → F
  cos : F → F
  sq : F → F
  half : F → F
  arctan2 : F → F → F

section float
variable {F : Type} [PyFloat F] [PyTrig F]

/-- helper.py L17-L29 `haversine` on one pair of points, operation by operation -/
def haversineF (lon1 lat1 lon2 lat2 : F) : F :=
  let lon1 := PyTrig.radians lon1                               -- L22
  let lat1 := PyTrig.radians lat1
  let lon2 := PyTrig.radians lon2
  let lat2 := PyTrig.radians lat2
  let dlon := lon2 -ᶠ lon1                                      -- L24
  let dlat := lat2 -ᶠ lat1                                      -- L25
  let a := PyTrig.sq (PyTrig.sin (dlat /ᶠ PyFloat.ofInt 2)) +ᶠ  -- L26
    (PyTrig.cos lat1 *ᶠ PyTrig.cos lat2) *ᶠ PyTrig.sq (PyTrig.sin (dlon /ᶠ PyFloat.ofInt 2))
  let c := PyFloat.ofInt 2 *ᶠ PyTrig.arctan2 (PyTrig.half a) (PyTrig.half (PyFloat.ofInt 1 -ᶠ a))  -- L27
  PyFloat.ofInt 6367 *ᶠ c                                       -- L28

/-- One end point of a CML (nearby_wetdry.py L55-L76) with float coordinates. -/
structure SiteF (F : Type) where
  lon : F
  lat : F

/-- nearby_wetdry.py L55-L76: one entry of a row -/
def distF (p q : SiteF F) : F := haversineF p.lon p.lat q.lon q.lat

/-- The dataset returned by nearby_wetdry.py L44-L84, with float values. -/
structure DistancesF (F : Type) where
  a_to_all_a : Matrix' F
  a_to_all_b : Matrix' F
  b_to_all_a : Matrix' F
  b_to_all_b : Matrix' F

/-- nearby_wetdry.py L8-L84 `calc_distance_between_cml_endpoints` in floating point, for coordinate lists of the
length of `cml_ids` -/
def calcDistancesF {Id : Type} [DecidableEq Id] (ids : List Id) (siteA siteB : List (SiteF F)) : DistancesF F where
  a_to_all_a := distMatrixOf PyFloat.nan (PyFloat.ofInt 0) distF ids siteA siteA
  a_to_all_b := distMatrixOf PyFloat.nan (PyFloat.ofInt 0) distF ids siteA siteB
  b_to_all_a := distMatrixOf PyFloat.nan (PyFloat.ofInt 0) distF ids siteB siteA
  b_to_all_b := distMatrixOf PyFloat.nan (PyFloat.ofInt 0) distF ids siteB siteB

end float

end Verif.Haversine
