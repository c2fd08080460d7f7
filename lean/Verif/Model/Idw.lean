import Verif.Np
import Verif.FloatReal
import Verif.Model.KR
import Mathlib.Algebra.Order.Floor.Ring

/-!
# Model of `pycomlink/spatial/idw.py` and of the grid and IDW parts of
`pycomlink/spatial/interpolator.py`

Coordinates are finite real numbers, data values are `Fl ℝ`. Arrays the caller may change in
place between calls are kept in a heap, so that the aliasing done by `np.asarray` is visible.
-/

namespace Verif.Idw

open Verif

/-- A data or query point `(x, y)` (idw.py L70, L76). -/
abbrev Pt := ℝ × ℝ

/-- The Euclidean distance computed by the k-d tree (external). -/
noncomputable def euclid (p q : Pt) : ℝ := Real.sqrt ((p.1 - q.1) ^ 2 + (p.2 - q.2) ^ 2)

/-- Result of `cKDTree.query` for one point: `(distance, index)` for each of the `k` neighbours;
a missing neighbour is `(inf, n)`. -/
abbrev Nbrs := List (Fl ℝ × Nat)

/-- The external function `KDTree(X).query(q, k, eps, distance_upper_bound)` (idw.py L107-L109),
for one query point: arguments `X k eps distance_upper_bound q`. -/
abbrev Knn := List Pt → Nat → ℝ → Fl ℝ → Pt → Nbrs

/-- Documented behaviour of `cKDTree.query` for `eps = 0` (exact search): `k` entries by
increasing distance, each either missing or one of the data points closer than the bound, no data
point twice, and none left out that is closer than a reported one or for which there is room. -/
structure IsKnn (knn : Knn) : Prop where
  length_eq : ∀ X k ub q, (knn X k 0 ub q).length = k
  sorted : ∀ X k ub q, (knn X k 0 ub q).Pairwise fun a b => (a.1 ≤ᶠ b.1) = true
  entry : ∀ X k ub q, ∀ e ∈ knn X k 0 ub q,
    (e.2 = X.length ∧ e.1 = .pinf) ∨
    (∃ x, X[e.2]? = some x ∧ e.1 = .fin (euclid q x) ∧ ((Fl.fin (euclid q x)) <ᶠ ub) = true)
  nodup : ∀ X k ub q, (((knn X k 0 ub q).map (·.2)).filter (· < X.length)).Nodup
  complete : ∀ X k ub q, ∀ i x, X[i]? = some x → ((Fl.fin (euclid q x)) <ᶠ ub) = true →
    i ∈ (knn X k 0 ub q).map (·.2) ∨
    ∀ e ∈ knn X k 0 ub q, e.2 < X.length ∧ (e.1 ≤ᶠ Fl.fin (euclid q x)) = true

/-- idw.py L128-L151 `_numba_idw_loop`: the value for one query point, for one-dimensional `z` and every number type;
`sum` and `dot` are `np.sum` and `np.dot`, `tiny` the literal `1e-10`. -/
def idwVal {F : Type} [PyFloat F] [PyPow F] (sum : List F → F) (dot : List F → List F → F) (tiny : F) (z : List F) (p : F)
    (nb : List (F × Nat)) : F :=
  let nb := nb.filter fun e => decide (e.2 < z.length)                    -- L137-L138
  match nb with
  | [] => PyFloat.nan                                                     -- L140-L141
  | e :: _ =>
    if e.1 <ᶠ tiny then rd z e.2                                          -- L142-L143
    else
      let w := nb.map fun e => PyFloat.ofInt 1 /ᶠ PyPow.pow e.1 p         -- L145
      let s := sum w
      let w := w.map (· /ᶠ s)                                             -- L146
      dot w (nb.map fun e => rd z e.2)                                    -- L147

/-- The same with exact numbers. -/
noncomputable def idwOne (z : List (Fl ℝ)) (p : ℝ) (nb : Nbrs) : Fl ℝ :=
  idwVal fsum (fun w v => fsum (List.zipWith (· *ᶠ ·) w v)) (.fin (1 / 10 ^ 10)) z (.fin p) nb

/-- idw.py L128-L151: the loop over query points -/
noncomputable def idwLoop (nbs : List Nbrs) (z : List (Fl ℝ)) (p : ℝ) : List (Fl ℝ) :=
  nbs.map (idwOne z p)

/-! ### Arrays by value or by reference -/

/-- Where an array comes from: a fresh object (list, copy), or an array object that the caller
still holds (`np.asarray` of a float array returns the array itself). -/
inductive Src (α : Type)
  | own (v : α)
  | alias (r : Nat)

/-- Contents of the caller's array objects. -/
abbrev Heap (α : Type) := Nat → α

/-- present contents of an array -/
def Src.get {α : Type} (h : Heap α) : Src α → α
  | .own v => v
  | .alias r => h r

/-! ### Invdisttree -/

/-- The attributes `q`, `nnear`, `eps`, `distances`, `ix` (idw.py L107-L112). -/
structure Cache where
  q : Src (List Pt)
  nnear : Int
  eps : ℝ
  nb : List Nbrs

/-- `Invdisttree` object. Domain: `X` not empty (the k-d tree rejects an empty list). -/
structure Tree where
  X : List Pt
  cache : Option Cache

/-- idw.py L69-L73 `__init__` -/
def Tree.new (X : List Pt) : Tree := { X := X, cache := none }

/-- The argument `q`: one point (1-D) or a batch (2-D). -/
inductive Query
  | point (p : Pt)
  | batch (s : Src (List Pt))

/-- idw.py L76, L89-L91: the 2-D array; one point is copied into a new array -/
def Query.src : Query → Src (List Pt)
  | .point p => .own [p]
  | .batch s => s

/-- Result: a value for one point, an array for a batch (idw.py L124). -/
inductive Out
  | one (v : Fl ℝ)
  | many (vs : List (Fl ℝ))

/-- idw.py L124 -/
noncomputable def mkOut (q : Query) (vs : List (Fl ℝ)) : Out :=
  match q with
  | .point _ => .one (rd vs 0)
  | .batch _ => .many vs

/-- Arguments of a call that do not concern the query points (idw.py L75). -/
structure CallArgs where
  z : List (Fl ℝ)
  nnear : Int
  eps : ℝ
  p : ℝ
  maxDistance : Option (Fl ℝ)

/-- idw.py L81-L82 -/
def ubOf (d : Option (Fl ℝ)) : Fl ℝ := d.getD .pinf

open Classical in
/-- idw.py L95-L102: may the stored neighbours be reused -/
noncomputable def cacheHit (h : Heap (List Pt)) (c : Cache) (pts : List Pt) (nnear : Int)
    (eps : ℝ) : Bool :=
  decide (pts = c.q.get h) && decide (nnear = c.nnear) && decide (eps = c.eps)

/-- idw.py L95-L112: the neighbours to be used, and the object afterwards -/
noncomputable def neighbours (knn : Knn) (h : Heap (List Pt)) (T : Tree) (s : Src (List Pt))
    (nnear : Int) (eps : ℝ) (ub : Fl ℝ) : List Nbrs × Tree :=
  let pts := s.get h
  let fresh := pts.map (knn T.X nnear.toNat eps ub)
  match T.cache with
  | some c =>
    if cacheHit h c pts nnear eps then (c.nb, T)
    else (fresh, { T with cache := some ⟨s, nnear, eps, fresh⟩ })
  | none => (fresh, { T with cache := some ⟨s, nnear, eps, fresh⟩ })

/-- idw.py L75-L124 `__call__`: the result, and the object afterwards. An empty batch has the
wrong shape for the tree (`ValueError`). -/
noncomputable def Tree.call (knn : Knn) (h : Heap (List Pt)) (T : Tree) (q : Query)
    (a : CallArgs) : Except Err Out × Tree :=
  if T.X.length ≠ a.z.length then (.error .assertionError, T)               -- L79
  else if a.nnear ≤ 1 then (.error .valueError, T)                          -- L84-L85
  else if (q.src.get h) = [] then (.error .valueError, T)
  else
    let r := neighbours knn h T q.src a.nnear a.eps (ubOf a.maxDistance)
    (.ok (mkOut q (idwLoop r.1 a.z a.p)), r.2)

/-! ### Grids -/

section
variable {K : Type} [Field K] [LinearOrder K] [FloorRing K]

/-- `np.arange(start, stop, step)` (external): `ceil((stop - start) / step)` values -/
def arange (start stop step : K) : List K :=
  (List.range (⌈(stop - start) / step⌉.toNat)).map fun i : Nat => start + i * step

/-- `min(xs)` / `max(xs)` of the builtin functions, on a non-empty list -/
def listMinK : List K → Except Err K
  | [] => .error .valueError
  | x :: xs => .ok (xs.foldl min x)

/-- see `listMinK` -/
def listMaxK : List K → Except Err K
  | [] => .error .valueError
  | x :: xs => .ok (xs.foldl max x)

/-- A two-dimensional grid as a list of rows. -/
abbrev Grid (K : Type) := List (List K)

/-- interpolator.py L199-L204: `np.arange(min(x) - r, max(x) + r, r)`. A resolution of 0 raises `ZeroDivisionError` for
Python numbers and `ValueError` (array too large) for numpy numbers; only the former is modelled, and the theorems
do not use which error it is. -/
def gridCoords (xs : List K) (r : K) : Except Err (List K) :=
  if r = 0 then .error .zeroDivision
  else do
    let lo ← listMinK xs
    let hi ← listMaxK xs
    return arange (lo - r) (hi + r) r

/-- `np.meshgrid` (external) -/
def meshgrid (xs ys : List K) : Grid K × Grid K :=
  (ys.map fun _ => xs, ys.map fun y => xs.map fun _ => y)

/-- interpolator.py L177-L208 `_parse_grid_kwargs` -/
def parseGrid (x y : List K) (xgrid ygrid : Option (Grid K)) (resolution : Option K) :
    Except Err (Grid K × Grid K) :=
  match xgrid, ygrid with
  | some xg, some yg => .ok (xg, yg)
  | _, _ =>
    match resolution with
    | none => .error .valueError
    | some r => do
      let xc ← gridCoords x r
      let yc ← gridCoords y r
      return meshgrid xc yc

end

/-! ### IdwKdtreeInterpolator -/

/-- Configuration, interpolator.py L76-L83. -/
structure Config where
  nnear : Int
  p : ℝ
  excludeNan : Bool
  maxDistance : Option (Fl ℝ)

/-- The mutable attributes `x`, `y`, `idw` (interpolator.py L82-L83, L104-L107). -/
structure Memo where
  x : Src (List ℝ)
  y : Src (List ℝ)
  tree : Tree

/-- interpolator.py L92-L97: the points that take part; boolean indexing copies -/
noncomputable def usedPoints (cfg : Config) (h : Heap (List ℝ)) (x y : Src (List ℝ)) (z : List (Fl ℝ)) :
    Src (List ℝ) × Src (List ℝ) × List (Fl ℝ) :=
  if cfg.excludeNan then
    let ok := z.map fun v => !(isNaN v)
    (.own (KR.select (x.get h) ok), .own (KR.select (y.get h) ok), KR.select z ok)
  else (x, y, z)

open Classical in
/-- interpolator.py L99-L107: reuse or build the tree -/
noncomputable def pickTree (h : Heap (List ℝ)) (m : Option Memo) (x y : Src (List ℝ)) : Memo :=
  match m with
  | some m =>
    if x.get h = m.x.get h ∧ y.get h = m.y.get h then m
    else ⟨x, y, Tree.new ((x.get h).zip (y.get h))⟩
  | none => ⟨x, y, Tree.new ((x.get h).zip (y.get h))⟩

/-- interpolator.py L85-L116 `_interpol_func` -/
noncomputable def interpolFunc (knn : Knn) (cfg : Config) (h : Heap (List ℝ)) (m : Option Memo)
    (x y : Src (List ℝ)) (z : List (Fl ℝ)) (xi yi : List ℝ) :
    Except Err (List (Fl ℝ)) × Option Memo :=
  let u := usedPoints cfg h x y z
  let m := pickTree h m u.1 u.2.1
  let r := m.tree.call knn (fun _ => []) (.batch (.own (xi.zip yi)))
    ⟨u.2.2, cfg.nnear, 0, cfg.p, cfg.maxDistance⟩
  (match r.1 with
    | .ok (.many vs) => .ok vs
    | .ok (.one v) => .ok [v]
    | .error e => .error e, some { m with tree := r.2 })

/-- `np.reshape(zi, shape)` for the shape of a grid -/
def reshape {α β : Type} : List (List α) → List β → List (List β)
  | [], _ => []
  | r :: rs, zi => zi.take r.length :: reshape rs (zi.drop r.length)

/-- interpolator.py L30-L67 `__call__` of `IdwKdtreeInterpolator`. The grids and the results are
float arrays. (For an integer `xgrid` and all-NaN data the code raises, L57-L58; see Model/IntGrid.lean.) -/
noncomputable def interpolate (knn : Knn) (cfg : Config) (h : Heap (List ℝ)) (m : Option Memo)
    (x y : Src (List ℝ)) (z : List (Fl ℝ)) (xgrid ygrid : Option (Grid ℝ))
    (resolution : Option ℝ) : Except Err (Grid (Fl ℝ)) × Option Memo :=
  if (x.get h).length ≠ (y.get h).length ∨ (y.get h).length ≠ z.length then
    (.error .assertionError, m)                                                       -- L49
  else match parseGrid (x.get h) (y.get h) xgrid ygrid resolution with                -- L53-L55
    | .error e => (.error e, m)
    | .ok (xg, yg) =>
      if (z.filter fun v => !(isNaN v)).length = 0 then                               -- L56
        (.ok (xg.map fun r => r.map fun _ => .nan), m)                                -- L57-L59
      else
        let r := interpolFunc knn cfg h m x y z xg.flatten yg.flatten                 -- L62-L64
        (match r.1 with
          | .error e => .error e
          | .ok zi =>
            if zi.length = xg.flatten.length then .ok (reshape xg zi)                 -- L65
            else .error .valueError, r.2)

/-! ### Climatological variogram -/

/-- interpolator.py L211-L260 `clim_var_param` for the day of the year and a positive time scale in
hours; result `(sill, range, nugget)`. Exact reals, `math.pi` exact. -/
noncomputable def climVarParam (julian_day time_scale_hours : ℝ) : ℝ × ℝ × ℝ :=
  let frequency_years : ℝ := 1 / 365
  let range_m := (15.51 * time_scale_hours ^ (0.09 : ℝ)
    + 2.06 * time_scale_hours ^ (-0.12 : ℝ)
    * Real.cos (2 * Real.pi * frequency_years * (julian_day - 7.37 * time_scale_hours ^ (0.22 : ℝ)))) ^ 4
  let sill := (0.84 * time_scale_hours ^ (-0.25 : ℝ)
    + 0.20 * time_scale_hours ^ (-0.37 : ℝ)
    * Real.cos (2 * Real.pi * frequency_years * (julian_day - 162 * time_scale_hours ^ (-0.03 : ℝ)))) ^ 4
  let nugget := 0.1 * sill
  let range_km := range_m / 1000
  (sill, range_km, nugget)

end Verif.Idw
