import Verif.Model.KR
import Mathlib.Analysis.SpecialFunctions.Pow.Complex
import Mathlib.Analysis.SpecialFunctions.Log.Base

/-!
# Model of the rain-rate based wet antenna functions of
`pycomlink/processing/wet_antenna.py`
-/

namespace Verif.WaaModels

open Verif

/-! ### External: `scipy.interpolate.interp1d(x, y, assume_sorted=True, kind="linear")` -/

section
variable {F : Type} [PyFloat F]

/-- `np.interp` for a query at or right of the first node (`interp1d` with kind "linear"
delegates to it): in the segment left of which the query lies, the straight line; at or beyond
the last node, the last value. -/
def npInterp : List (F × F) → F → F
  | [], _ => PyFloat.nan
  | [p], _ => p.2
  | p :: q :: rest, x =>
    if x <ᶠ q.1 then (q.2 -ᶠ p.2) /ᶠ (q.1 -ᶠ p.1) *ᶠ (x -ᶠ p.1) +ᶠ p.2
    else npInterp (q :: rest) x

/-- One query of the mapping: NaN gives NaN; `bounds_error` raises `ValueError` for a query
outside the nodes. -/
def interp1dLinear (xs ys : List F) (x : F) : Except Err F :=
  if isNaN x then .ok x
  else match xs.head?, xs.getLast? with
    | some lo, some hi =>
      if (x <ᶠ lo) || (hi <ᶠ x) then .error .valueError
      else .ok (npInterp (xs.zip ys) x)
    | _, _ => .error .valueError

end

/-! ### Pastorek et al. 2021 -/

/-- `np.exp` as an operation of the number type (wet_antenna.py L416). -/
class PyExp (F : Type) where
  exp : F → F

noncomputable instance : PyExp (Fl ℝ) := ⟨Fl.exp⟩

/-- wet_antenna.py L416-L419: one element of the array. The sign change `-d` is `0 - d`, which differs from it in the sign
of a zero only. -/
def pastorekElem {F : Type} [PyFloat F] [PyPow F] [PyExp F] (A_max zeta d R : F) : F :=
  if R ==ᶠ PyFloat.ofInt 0 then PyFloat.ofInt 0
  else A_max *ᶠ (PyFloat.ofInt 1 -ᶠ PyExp.exp ((PyFloat.ofInt 0 -ᶠ d) *ᶠ PyPow.pow R zeta))

/-- The argument `R`: a scalar (or 0-d array) or a one-dimensional array. -/
inductive Arg (F : Type)
  | scalar (x : F)
  | array (xs : List F)

/-- wet_antenna.py L377-L421 `waa_pastorek_2021`, for every number type. For a scalar the arithmetic of L416 gives a
numpy scalar, and the item assignment L419 raises `TypeError`. -/
def waa_pastorek_2021 {F : Type} [PyFloat F] [PyPow F] [PyExp F] (R : Arg F) (A_max zeta d : F) :
    Except Err (List F) :=
  match R with
  | .scalar _ => .error .typeError
  | .array R => .ok (R.map (pastorekElem A_max zeta d))

/-- `np.logspace(-10, 3, 100)` with entry 0 replaced by 0 (wet_antenna.py L183-L184 and
L359-L360) -/
noncomputable def aRain : List (Fl ℝ) :=
  (List.range 100).map fun k : Nat =>
    Fl.fin (if k = 0 then 0 else (10 : ℝ) ^ (-10 + 13 * (k : ℝ) / 99))

/-- the look-up of wet_antenna.py L198-L203 and L368-L374, given the grid of attenuations and the table of WAA values, for every
number type -/
def lookupOn {F : Type} [PyFloat F] (A_rain A_obs waa : List F) : Except Err (List F) :=
  let A_obs_theoretical := List.zipWith (· +ᶠ ·) A_rain waa
  A_obs.mapM (interp1dLinear A_obs_theoretical waa)

/-- the look-up on the grid of the code in exact arithmetic -/
noncomputable def lookup (A_obs waa : List (Fl ℝ)) : Except Err (List (Fl ℝ)) := lookupOn aRain A_obs waa

/-- wet_antenna.py L301-L374 `waa_pastorek_2021_from_A_obs`, undecorated, for a one-dimensional array `A_obs`, scalar frequency
and one polarization string, for every number type, every function `ab` in place of `a_b` and the grid `A_rain` of L359-L360
in this number type. -/
def pastorekFromAObs {F : Type} [PyFloat F] [PyPow F] [PyExp F]
    (ab : List F → List String → String → Except Err (List F × List F)) (A_rain A_obs : List F)
    (f_Hz : F) (pol : String) (L_km A_max zeta d : F) : Except Err (List F) :=
  if A_obs.any (fun x => x <ᶠ PyFloat.ofInt 0) then .error .valueError
  else do
    let R ← KR.calcR ab A_rain L_km (some [f_Hz /ᶠ PyFloat.ofInt 1000000000])
      (some [pol]) none none "ITU_2005" (PyFloat.ofInt 0)
    let waa ← waa_pastorek_2021 (.array R) A_max zeta d
    lookupOn A_rain A_obs waa

/-- `waa_pastorek_2021_from_A_obs` in exact real arithmetic (wet_antenna.py L301-L374) -/
noncomputable def waa_pastorek_2021_from_A_obs (spline : KR.Spline) (A_obs : List (Fl ℝ))
    (f_Hz : Fl ℝ) (pol : String) (L_km A_max zeta d : Fl ℝ) : Except Err (List (Fl ℝ)) :=
  pastorekFromAObs (KR.a_b spline) aRain A_obs f_Hz pol L_km A_max zeta d

theorem from_A_obs_eq (spline : KR.Spline) (A_obs : List (Fl ℝ))
    (f_Hz : Fl ℝ) (pol : String) (L_km A_max zeta d : Fl ℝ) :
    waa_pastorek_2021_from_A_obs spline A_obs f_Hz pol L_km A_max zeta d =
      if A_obs.any (fun x => x <ᶠ PyFloat.ofInt 0) then .error .valueError
      else (do
        let R ← KR.calc_R_from_A spline aRain L_km (some [f_Hz /ᶠ PyFloat.ofInt 1000000000])
          (some [pol]) none none "ITU_2005" (PyFloat.ofInt 0)
        let waa ← waa_pastorek_2021 (.array R) A_max zeta d
        lookup A_obs waa) := rfl

/-! ### Water permittivity -/

/-- wet_antenna.py L450: `teta` -/
noncomputable def teta (T_K : ℝ) : ℝ := 1 - 300 / T_K
/-- wet_antenna.py L451 -/
noncomputable def e0 (T_K : ℝ) : ℝ := 77.66 - 103.3 * teta T_K
/-- wet_antenna.py L452 -/
noncomputable def e1 (T_K : ℝ) : ℝ := 0.0671 * e0 T_K
/-- wet_antenna.py L453 -/
noncomputable def f1 (T_K : ℝ) : ℝ := 20.2 + 146.4 * teta T_K + 316 * teta T_K * teta T_K
/-- wet_antenna.py L454 -/
noncomputable def e2 (T_K : ℝ) : ℝ := 3.52 + 7.52 * teta T_K
/-- wet_antenna.py L460 -/
noncomputable def f2 (T_K : ℝ) : ℝ := 39.8 * f1 T_K

/-- wet_antenna.py L424-L462 `eps_water`, for one real frequency and temperature. The real
numbers are exact; division by zero (excluded by theorem C18) is Lean's. -/
noncomputable def eps_water (f_Hz T_K : ℝ) : ℂ :=
  let f_GHz : ℝ := f_Hz * 1e-9
  (e2 T_K : ℂ) + ((e1 T_K : ℂ) - e2 T_K) / (1 - Complex.I * f_GHz / f2 T_K)
    + ((e0 T_K : ℂ) - e1 T_K) / (1 - Complex.I * f_GHz / f1 T_K)

/-! ### Leijnse et al. 2008 -/

/-- wet_antenna.py L264-L293: the quotient whose squared modulus is taken, for water film
thickness `l`. `n_air = 1`. -/
noncomputable def filmRatio (f_Hz : ℝ) (n_water n_antenna : ℂ) (l_antenna l : ℝ) : ℂ :=
  let c : ℂ := 299792458
  let expo : ℂ := Complex.I * 2 * Real.pi * f_Hz / c
  let x1 := (1 + n_water) * (n_water + n_antenna) * (n_antenna + 1)
    * Complex.exp (-expo * (n_antenna * l_antenna + n_water * l))
  let x2 := (1 - n_water) * (n_water - n_antenna) * (n_antenna + 1)
    * Complex.exp (-expo * (n_antenna * l_antenna - n_water * l))
  let x3 := (1 + n_water) * (n_water - n_antenna) * (n_antenna - 1)
    * Complex.exp (expo * (n_antenna * l_antenna - n_water * l))
  let x4 := (1 - n_water) * (n_water + n_antenna) * (n_antenna - 1)
    * Complex.exp (expo * (n_antenna * l_antenna + n_water * l))
  let y1 := (1 + n_antenna) ^ 2 * Complex.exp (-expo * n_antenna * l_antenna)
  let y2 := -((1 - n_antenna) ^ 2) * Complex.exp (expo * n_antenna * l_antenna)
  (x1 + x2 + x3 + x4) / (2 * n_water * (y1 + y2))

/-- wet_antenna.py L293: `10 * np.log10(np.abs(..) ** 2)` for a finite argument;
`log10(0)` is `-inf`. -/
noncomputable def dB (z : ℂ) : Fl ℝ :=
  if z = 0 then .ninf else .fin (10 * Real.logb 10 (‖z‖ ^ 2))

/-- wet_antenna.py L262: `np.sqrt` of a complex number (principal value) -/
noncomputable def nWater (f_Hz T_K : ℝ) : ℂ := (eps_water f_Hz T_K) ^ (1 / 2 : ℂ)

/-- wet_antenna.py L255-L296: one element. An infinite or NaN film thickness gives NaN
(simplification: for infinities this is what complex arithmetic with infinities produces). -/
noncomputable def leijnseElem (f_Hz T_K gamma delta : ℝ) (n_antenna : ℂ) (l_antenna : ℝ)
    (R : Fl ℝ) : Fl ℝ :=
  if R ==ᶠ PyFloat.ofInt 0 then PyFloat.ofInt 0
  else match Fl.fin gamma *ᶠ Fl.pow R (.fin delta) with
    | .fin l => dB (filmRatio f_Hz (nWater f_Hz T_K) n_antenna l_antenna l)
    | _ => .nan

/-- wet_antenna.py L206-L298 `waa_leijnse_2008`; scalar `R` raises `TypeError` at L296. -/
noncomputable def waa_leijnse_2008 (R : Arg (Fl ℝ)) (f_Hz T_K gamma delta : ℝ) (n_antenna : ℂ)
    (l_antenna : ℝ) : Except Err (List (Fl ℝ)) :=
  match R with
  | .scalar _ => .error .typeError
  | .array R => .ok (R.map (leijnseElem f_Hz T_K gamma delta n_antenna l_antenna))

/-- wet_antenna.py L113-L203 `waa_leijnse_2008_from_A_obs`, undecorated, for a one-dimensional
array `A_obs`, scalar frequency and one polarization string. -/
noncomputable def waa_leijnse_2008_from_A_obs (spline : KR.Spline) (A_obs : List (Fl ℝ))
    (f_Hz : ℝ) (pol : String) (L_km : Fl ℝ) (T_K gamma delta : ℝ) (n_antenna : ℂ)
    (l_antenna : ℝ) : Except Err (List (Fl ℝ)) :=
  if A_obs.any (fun x => x <ᶠ PyFloat.ofInt 0) then .error .valueError
  else do
    let R ← KR.calc_R_from_A spline aRain L_km (some [Fl.fin f_Hz /ᶠ PyFloat.ofInt 1000000000])
      (some [pol]) none none "ITU_2005" (PyFloat.ofInt 0)
    let waa ← waa_leijnse_2008 (.array R) f_Hz T_K gamma delta n_antenna l_antenna
    lookup A_obs waa

end Verif.WaaModels
