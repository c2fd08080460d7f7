import Verif.Model.Idw

/-!
# Model of `OrdinaryKrigingInterpolator` (pycomlink/spatial/interpolator.py L119-174)

PyKrige is a parameter. Objects and dictionaries live in a `World`, because the default of
`variogram_parameters` is one dictionary for all objects. Coordinates are finite numbers, `z` is a float array.
-/

namespace Verif.Kriging
open Verif Verif.Idw

variable {K : Type} [Field K] [LinearOrder K] [FloorRing K]

/-- A Python dictionary with text keys, in insertion order. -/
abbrev Dict (K : Type) := List (String × K)

/-- `d[k] = v` (Python): replaces the value of an existing key, else appends -/
def dictSet (d : Dict K) (k : String) (v : K) : Dict K :=
  if d.any (fun e => e.1 == k) then d.map fun e => if e.1 == k then (k, v) else e else d ++ [(k, v)]

/-- Configuration of an object (interpolator.py L120-L140); `params` is the reference to the dictionary. -/
structure Config where
  nlags : Int := 100
  variogramModel : String := "spherical"
  params : Nat
  weight : Bool := true
  nClosest : Option Int := none
  excludeNan : Bool := true
  backend : String := "C"

/-- The attributes set by calls (interpolator.py L53, L59, L65, L152, L173); `none`: not set yet, reading it
raises `AttributeError`. -/
structure Attrs (K : Type) where
  xgrid : Option (Grid K) := none
  ygrid : Option (Grid K) := none
  zgrid : Option (Grid (Fl K)) := none
  z : Option (List (Fl K)) := none
  sigma : Option (List (Fl K)) := none

/-- The external `OrdinaryKriging(x, y, z, nlags=…, variogram_model=…, variogram_parameters=…, weight=…)
.execute(style="points", xpoints=xi, ypoints=yi, n_closest_points=…, backend=…)` (interpolator.py L154-L171): for
a configuration, the content of the dictionary, the points and the query points it returns estimates and variances,
or raises. It does not write to the dictionary. -/
abbrev PyKrige (K : Type) := Config → Dict K → List K → List K → List (Fl K) → List K → List K →
  Except Err (List (Fl K) × List (Fl K))

/-- interpolator.py L142-L174 `_interpol_func`; `d` is the content of the dictionary -/
def interpolFunc (ok : PyKrige K) (cfg : Config) (d : Dict K) (a : Attrs K) (x y : List K)
    (z : List (Fl K)) (xi yi : List K) : Except Err (List (Fl K)) × Attrs K :=
  let mask := z.map fun v => !(PyFloat.isNaN v)
  let x := if cfg.excludeNan then KR.select x mask else x                             -- L147-L151
  let y := if cfg.excludeNan then KR.select y mask else y
  let z := if cfg.excludeNan then KR.select z mask else z
  let a := { a with z := some z }                                                     -- L152
  match ok cfg d x y z xi yi with                                                     -- L154-L171
  | .error e => (.error e, a)
  | .ok (zi, sigma) => (.ok zi, { a with sigma := some sigma })                       -- L173-L174

/-- interpolator.py L30-L67 `__call__` -/
def call (ok : PyKrige K) (cfg : Config) (d : Dict K) (a : Attrs K) (x y : List K) (z : List (Fl K))
    (xgrid ygrid : Option (Grid K)) (resolution : Option K) :
    Except Err (Grid (Fl K)) × Attrs K :=
  if x.length ≠ y.length ∨ y.length ≠ z.length then (.error .assertionError, a)       -- L49
  else match parseGrid x y xgrid ygrid resolution with                                -- L53-L55
    | .error e => (.error e, a)
    | .ok (xg, yg) =>
      let a := { a with xgrid := some xg, ygrid := some yg }
      if (z.filter fun v => !(PyFloat.isNaN v)).length = 0 then                       -- L56
        let zg := xg.map fun r => r.map fun _ => Fl.nan                               -- L57-L59
        (.ok zg, { a with zgrid := some zg })
      else
        match interpolFunc ok cfg d a x y z xg.flatten yg.flatten with                -- L62-L64
        | (.error e, a) => (.error e, a)
        | (.ok zi, a) =>
          if zi.length = xg.flatten.length then                                       -- L65
            (.ok (reshape xg zi), { a with zgrid := some (reshape xg zi) })
          else (.error .valueError, a)

/-- An interpolator object. -/
structure Obj (K : Type) where
  cfg : Config
  attrs : Attrs K

/-- All dictionaries and interpolators of a program. Dictionary 0 is the default value of `variogram_parameters`
(interpolator.py L124), which Python creates once, when the class is defined. -/
structure World (K : Type) where
  dicts : List (Dict K)
  objs : List (Obj K)

/-- interpolator.py L124: the state when the class has just been defined -/
def World.init : World K :=
  { dicts := [[("sill", 0.9), ("range", 1), ("nugget", 0.1)]], objs := [] }

/-- What a program can do with interpolators and dictionaries. -/
inductive Op (K : Type)
  /-- create a dictionary -/
  | newDict (d : Dict K)
  /-- `OrdinaryKrigingInterpolator(…)`; `params` is the dictionary passed as `variogram_parameters`, `none` if the
  argument is left out; the other arguments are taken from `cfg` -/
  | new (params : Option Nat) (cfg : Config)
  /-- `dict[k] = v` -/
  | setDict (ref : Nat) (k : String) (v : K)
  /-- `obj.variogram_parameters[k] = v` -/
  | setParam (obj : Nat) (k : String) (v : K)
  /-- `obj(x, y, z, xgrid, ygrid, resolution)` -/
  | call (obj : Nat) (x y : List K) (z : List (Fl K)) (xgrid ygrid : Option (Grid K)) (resolution : Option K)

/-- the dictionary an object uses -/
def World.paramsOf (w : World K) (i : Nat) : Option (Dict K) :=
  w.objs[i]?.bind fun o => w.dicts[o.cfg.params]?

/-- result of a call of object `i` (`nameError` if there is no such object) -/
def World.callResult (ok : PyKrige K) (w : World K) (i : Nat) (x y : List K) (z : List (Fl K))
    (xgrid ygrid : Option (Grid K)) (resolution : Option K) : Except Err (Grid (Fl K)) :=
  match w.objs[i]?, w.paramsOf i with
  | some o, some d => (Kriging.call ok o.cfg d o.attrs x y z xgrid ygrid resolution).1
  | _, _ => .error .nameError

/-- effect of one operation; operations on objects or dictionaries that do not exist have none -/
def World.step (ok : PyKrige K) (w : World K) : Op K → World K
  | .newDict d => { w with dicts := w.dicts ++ [d] }
  | .new none cfg => { w with objs := w.objs ++ [⟨{ cfg with params := 0 }, {}⟩] }     -- L120-L140
  | .new (some r) cfg =>
    if r < w.dicts.length then { w with objs := w.objs ++ [⟨{ cfg with params := r }, {}⟩] } else w
  | .setDict r k v => { w with dicts := w.dicts.modify r fun d => dictSet d k v }
  | .setParam i k v =>
    match w.objs[i]? with
    | some o => { w with dicts := w.dicts.modify o.cfg.params fun d => dictSet d k v }
    | none => w
  | .call i x y z xg yg res =>
    match w.objs[i]?, w.paramsOf i with
    | some o, some d =>
      { w with objs := w.objs.set i ⟨o.cfg, (Kriging.call ok o.cfg d o.attrs x y z xg yg res).2⟩ }
    | _, _ => w

/-- effect of a program -/
def World.run (ok : PyKrige K) (w : World K) (ops : List (Op K)) : World K := ops.foldl (World.step ok) w

end Verif.Kriging
