import Verif.Model.Wrapper
import Verif.Model.Baseline
import Verif.Model.WetAntennaSchleiss
import Verif.Model.WaaModels
import Verif.Model.Nearby
import Verif.Model.Blackout

/-!
# The decorated functions with their signatures

The functions decorated with `xarray_apply_along_time_dim()`, with the parameter names, the
parameter order and the default values of the source, called through the model of the
decorator (Verif/Model/Wrapper.lean), and the arithmetic `a - b` of two DataArrays.
-/

namespace Verif.Api

open Verif Verif.Wrapper

noncomputable section

/-- The Python objects that occur as arguments or array entries. -/
inductive Val
  | num (x : Fl ℝ)
  | int (n : Int)
  | bool (b : Bool)
  | str (s : String)
  | cplx (z : ℂ)
  | none
  /-- a one-dimensional numpy array of floats -/
  | arr (xs : List (Fl ℝ))
  /-- the class `inspect.Parameter.empty` -/
  | empty

/-- conversion to a float, of the objects that have one. Other objects (strings, `None`) are
not modelled as numbers. -/
def Val.toNum : Val → Except Err (Fl ℝ)
  | .num x => .ok x
  | .int n => .ok (PyFloat.ofInt n)
  | .bool b => .ok (PyFloat.ofInt (if b then 1 else 0))
  | _ => .error .outOfModel

/-- a time series of numbers -/
def floats : FArg Val → Except Err (List (Fl ℝ))
  | .series xs => xs.mapM Val.toNum
  | .scalar (.arr xs) => .ok xs
  | .scalar _ => .error .outOfModel

/-- one number -/
def float1 : FArg Val → Except Err (Fl ℝ)
  | .scalar v => v.toNum
  | .series _ => .error .outOfModel

/-- one finite number -/
def real1 (a : FArg Val) : Except Err ℝ :=
  match float1 a with
  | .ok (.fin x) => .ok x
  | _ => .error .outOfModel

/-- a number of time steps -/
def nat1 : FArg Val → Except Err Nat
  | .scalar (.int n) => if 0 ≤ n then .ok n.toNat else .error .outOfModel
  | _ => .error .outOfModel

/-- a string -/
def str1 : FArg Val → Except Err String
  | .scalar (.str s) => .ok s
  | _ => .error .outOfModel

/-- a complex number -/
def cplx1 : FArg Val → Except Err ℂ
  | .scalar (.cplx z) => .ok z
  | _ => .error .outOfModel

/-- `None` or one number, as the array of `np.atleast_1d` -/
def optFloats : FArg Val → Except Err (Option (List (Fl ℝ)))
  | .scalar .none => .ok none
  | .scalar (.arr xs) => .ok (some xs)
  | .scalar v => (v.toNum).map fun x => some [x]
  | .series xs => (xs.mapM Val.toNum).map some

/-- `None` or one string -/
def optStr : FArg Val → Except Err (Option (List String))
  | .scalar .none => .ok none
  | .scalar (.str s) => .ok (some [s])
  | _ => .error .outOfModel

/-- `None` or one number -/
def optFloat1 : FArg Val → Except Err (Option (Fl ℝ))
  | .scalar .none => .ok none
  | .scalar v => (v.toNum).map some
  | .series _ => .error .outOfModel

/-- a function result: one float series -/
def oneSeries (xs : List (Fl ℝ)) : FOut Val := .one (xs.map .num)

/-- The call outside of `apply_ufunc` (xarray_wrapper.py L41). DataArrays without a time
dimension are not modelled as arguments of the undecorated functions. -/
def rawOf (func : List (FArg Val) → Except Err (FOut Val)) (vs : List (Arg Val)) :
    Except Err (FOut Val) := do
  let xs ← vs.mapM fun a => match a with
    | .plain v => (.ok (.scalar v) : Except Err (FArg Val))
    | .named _ => .error .outOfModel
  func xs

/-- The DataArray returned by `apply_ufunc`: the non-time dimensions, then time
(xarray_wrapper.py L43-L49 `output_core_dims=[["time"]]`). -/
def resArray : Res Val → Except Err (NArr Val)
  | .array dims nt out => .ok ⟨dims ++ [("time", nt)], fun idx =>
      ((out idx.dropLast).getD []).getD (idx.getLastD 0) .empty⟩
  | .plain _ => .error .outOfModel

/-- a decorated function called on DataArrays -/
def callNd (sig : List (Param (Arg Val))) (func : List (FArg Val) → Except Err (FOut Val))
    (args : List (Arg Val)) (kwargs : List (String × Arg Val)) : Except Err (NArr Val) :=
  match inner sig func (rawOf func) .empty args kwargs with
  | .error e => .error e
  | .ok r => resArray r

/-- difference of two entries -/
def subVal (x y : Val) : Val :=
  match x.toNum, y.toNum with
  | .ok x, .ok y => .num (x -ᶠ y)
  | _, _ => .empty

/-- `a - b` of two DataArrays: broadcasting by dimension name, dimensions in order of first
appearance; `ValueError` if sizes differ. (Coordinate labels: Verif/Model/Labels.lean.) -/
def xrSub (a b : NArr Val) : Except Err (NArr Val) :=
  match unify [] (a.dims ++ b.dims) with
  | .error e => .error e
  | .ok sizes => .ok ⟨sizes, fun idx =>
      let c := coordsOf (sizes.map (·.1)) idx
      subVal (a.val (a.dims.map fun d => c d.1)) (b.val (b.dims.map fun d => c d.1))⟩

/-- one entry of `A.values[A < 0] = 0` -/
def clipVal (x : Val) : Val :=
  match x.toNum with
  | .ok y => if y <ᶠ PyFloat.ofInt 0 then .num (PyFloat.ofInt 0) else x
  | _ => x

/-- `A.values[A < 0] = 0` -/
def xrClip (a : NArr Val) : NArr Val := ⟨a.dims, fun idx => clipVal (a.val idx)⟩

/-! ### The functions -/

/-- baseline.py L15-L48 `baseline_constant` on bound arguments -/
def baselineConstantFn : List (FArg Val) → Except Err (FOut Val)
  | [trsl, wet, n] => do
    let trsl ← floats trsl
    let wet ← floats wet
    let n ← nat1 n
    let r ← Baseline.baselineConstantF trsl wet n
    .ok (oneSeries r)
  | _ => .error .typeError

/-- baseline.py L16: `def baseline_constant(trsl, wet, n_average_last_dry=1)` -/
def baselineConstantSig : List (Param (Arg Val)) :=
  [⟨"trsl", none⟩, ⟨"wet", none⟩, ⟨"n_average_last_dry", some (.plain (.int 1))⟩]

/-- `baseline_constant` -/
def baseline_constant := callNd baselineConstantSig baselineConstantFn

/-- wet_antenna.py L66-L110 `waa_schleiss_2013` on bound arguments -/
def waaSchleissFn : List (FArg Val) → Except Err (FOut Val)
  | [rsl, baseline, wet, waa_max, delta_t, tau] => do
    let rsl ← floats rsl
    let baseline ← floats baseline
    let wet ← floats wet
    let waa_max ← float1 waa_max
    let delta_t ← float1 delta_t
    let tau ← float1 tau
    let r ← Waa.waaSchleiss rsl baseline wet waa_max delta_t tau
    .ok (oneSeries r)
  | _ => .error .typeError

/-- wet_antenna.py L67: `def waa_schleiss_2013(rsl, baseline, wet, waa_max, delta_t, tau)` -/
def waaSchleissSig : List (Param (Arg Val)) :=
  [⟨"rsl", none⟩, ⟨"baseline", none⟩, ⟨"wet", none⟩, ⟨"waa_max", none⟩, ⟨"delta_t", none⟩,
   ⟨"tau", none⟩]

/-- `waa_schleiss_2013` -/
def waa_schleiss_2013 := callNd waaSchleissSig waaSchleissFn

/-- wet_antenna.py L113-L203 `waa_leijnse_2008_from_A_obs` on bound arguments -/
def waaLeijnseFn (sp : KR.Spline) : List (FArg Val) → Except Err (FOut Val)
  | [A_obs, f_Hz, pol, L_km, T_K, gamma, delta, n_antenna, l_antenna] => do
    let A_obs ← floats A_obs
    let f_Hz ← real1 f_Hz
    let pol ← str1 pol
    let L_km ← float1 L_km
    let T_K ← real1 T_K
    let gamma ← real1 gamma
    let delta ← real1 delta
    let n_antenna ← cplx1 n_antenna
    let l_antenna ← real1 l_antenna
    let r ← WaaModels.waa_leijnse_2008_from_A_obs sp A_obs f_Hz pol L_km T_K gamma delta n_antenna
      l_antenna
    .ok (oneSeries r)
  | _ => .error .typeError

/-- wet_antenna.py L114-L124: the signature of `waa_leijnse_2008_from_A_obs` -/
def waaLeijnseSig : List (Param (Arg Val)) :=
  [⟨"A_obs", none⟩, ⟨"f_Hz", none⟩, ⟨"pol", none⟩, ⟨"L_km", none⟩,
   ⟨"T_K", some (.plain (.num (.fin 293)))⟩,
   ⟨"gamma", some (.plain (.num (.fin (206 / 10000000))))⟩,
   ⟨"delta", some (.plain (.num (.fin (24 / 100))))⟩,
   ⟨"n_antenna", some (.plain (.cplx ⟨173 / 100, 14 / 1000⟩))⟩,
   ⟨"l_antenna", some (.plain (.num (.fin (1 / 1000))))⟩]

/-- `waa_leijnse_2008_from_A_obs` -/
def waa_leijnse_2008_from_A_obs (sp : KR.Spline) :=
  callNd waaLeijnseSig (waaLeijnseFn sp)

/-- wet_antenna.py L301-L374 `waa_pastorek_2021_from_A_obs` on bound arguments -/
def waaPastorekFn (sp : KR.Spline) : List (FArg Val) → Except Err (FOut Val)
  | [A_obs, f_Hz, pol, L_km, A_max, zeta, d] => do
    let A_obs ← floats A_obs
    let f_Hz ← float1 f_Hz
    let pol ← str1 pol
    let L_km ← float1 L_km
    let A_max ← float1 A_max
    let zeta ← float1 zeta
    let d ← float1 d
    let r ← WaaModels.waa_pastorek_2021_from_A_obs sp A_obs f_Hz pol L_km A_max zeta d
    .ok (oneSeries r)
  | _ => .error .typeError

/-- wet_antenna.py L302-L310: the signature of `waa_pastorek_2021_from_A_obs` -/
def waaPastorekSig : List (Param (Arg Val)) :=
  [⟨"A_obs", none⟩, ⟨"f_Hz", none⟩, ⟨"pol", none⟩, ⟨"L_km", none⟩,
   ⟨"A_max", some (.plain (.int 14))⟩,
   ⟨"zeta", some (.plain (.num (.fin (55 / 100))))⟩,
   ⟨"d", some (.plain (.num (.fin (1 / 10))))⟩]

/-- `waa_pastorek_2021_from_A_obs` -/
def waa_pastorek_2021_from_A_obs (sp : KR.Spline) :=
  callNd waaPastorekSig (waaPastorekFn sp)

/-- k_R_relation.py L14-L103 `calc_R_from_A` on bound arguments -/
def calcRFn (sp : KR.Spline) : List (FArg Val) → Except Err (FOut Val)
  | [A, L_km, f_GHz, pol, a, b, approx, R_min] => do
    let A ← floats A
    let L_km ← float1 L_km
    let f_GHz ← optFloats f_GHz
    let pol ← optStr pol
    let a ← optFloats a
    let b ← optFloats b
    let approx ← str1 approx
    let R_min ← float1 R_min
    let r ← KR.calc_R_from_A sp A L_km f_GHz pol a b approx R_min
    .ok (oneSeries r)
  | _ => .error .typeError

/-- k_R_relation.py L15-L24: the signature of `calc_R_from_A` -/
def calcRSig : List (Param (Arg Val)) :=
  [⟨"A", none⟩, ⟨"L_km", none⟩, ⟨"f_GHz", some (.plain .none)⟩, ⟨"pol", some (.plain .none)⟩,
   ⟨"a", some (.plain .none)⟩, ⟨"b", some (.plain .none)⟩,
   ⟨"a_b_approximation", some (.plain (.str "ITU_2005"))⟩,
   ⟨"R_min", some (.plain (.num (.fin (1 / 10))))⟩]

/-- `calc_R_from_A` -/
def calc_R_from_A (sp : KR.Spline) := callNd calcRSig (calcRFn sp)

/-- nearby_rain_retrival.py L102-L232 `nearby_rainfall_retrival` on bound arguments -/
def nearbyRainFn (sp : KR.Spline) : List (FArg Val) → Except Err (FOut Val)
  | [pref, p_c_min, p_c_max, F, length, f_GHz, pol, a, b, approx, waa_max, alpha, thr] => do
    let pref ← floats pref
    let p_c_min ← floats p_c_min
    let p_c_max ← floats p_c_max
    let F ← floats F
    let length ← float1 length
    let f_GHz ← optFloats f_GHz
    let pol ← optStr pol
    let a ← optFloats a
    let b ← optFloats b
    let approx ← str1 approx
    let waa_max ← float1 waa_max
    let alpha ← float1 alpha
    let thr ← optFloat1 thr
    let r ← Nearby.rainfall_retrival sp pref p_c_min p_c_max F length f_GHz pol a b approx waa_max
      alpha thr
    .ok (oneSeries r)
  | _ => .error .typeError

/-- nearby_rain_retrival.py L103-L117: the signature of `nearby_rainfall_retrival` -/
def nearbyRainSig : List (Param (Arg Val)) :=
  [⟨"pref", none⟩, ⟨"p_c_min", none⟩, ⟨"p_c_max", none⟩, ⟨"F", none⟩, ⟨"length", none⟩,
   ⟨"f_GHz", some (.plain .none)⟩, ⟨"pol", some (.plain .none)⟩,
   ⟨"a", some (.plain .none)⟩, ⟨"b", some (.plain .none)⟩,
   ⟨"a_b_approximation", some (.plain (.str "ITU_2005"))⟩,
   ⟨"waa_max", some (.plain (.num (.fin (23 / 10))))⟩,
   ⟨"alpha", some (.plain (.num (.fin (33 / 100))))⟩,
   ⟨"F_value_threshold", some (.plain (.num (.fin (-(325 / 10)))))⟩]

/-- `nearby_rainfall_retrival` -/
def nearby_rainfall_retrival (sp : KR.Spline) :=
  callNd nearbyRainSig (nearbyRainFn sp)

/-- blackout_gap_detection.py L6-L33 `get_blackout_start_and_end` on bound arguments: a tuple -/
def blackoutFn : List (FArg Val) → Except Err (FOut Val)
  | [rsl, rsl_threshold] => do
    let rsl ← floats rsl
    let thr ← float1 rsl_threshold
    let r := Blackout.startEnd rsl thr
    .ok (.tuple [r.1.map .bool, r.2.map .bool])
  | _ => .error .typeError

/-- blackout_gap_detection.py L7: `def get_blackout_start_and_end(rsl, rsl_threshold)` -/
def blackoutSig : List (Param (Arg Val)) := [⟨"rsl", none⟩, ⟨"rsl_threshold", none⟩]

/-- `get_blackout_start_and_end` -/
def get_blackout_start_and_end := callNd blackoutSig blackoutFn

/-! ### The notebook -/

/-- docs/notebooks/Basic CML processing workflow.ipynb L845-L869, the loop over all CMLs after the
wet/dry classification: the calls with their keywords, on DataArrays. In the notebook `n` is 5,
`waa_max` 2.2, `delta_t` 1, `tau` 15. -/
def processDataset (sp : KR.Spline) (trsl wet : NArr Val)
    (n waa_max delta_t tau L_km f_GHz pol : Arg Val) : Except Err (NArr Val) := do
  let baseline ← baseline_constant []
    [("trsl", .named trsl), ("wet", .named wet), ("n_average_last_dry", n)]
  let waa ← waa_schleiss_2013 []
    [("rsl", .named trsl), ("baseline", .named baseline), ("wet", .named wet),
     ("waa_max", waa_max), ("delta_t", delta_t), ("tau", tau)]
  let A0 ← xrSub trsl baseline
  let A ← xrSub A0 waa
  calc_R_from_A sp []
    [("A", .named (xrClip A)), ("L_km", L_km), ("f_GHz", f_GHz), ("pol", pol)]

end

end Verif.Api
