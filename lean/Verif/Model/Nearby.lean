import Verif.Rolling
import Verif.Model.KR

/-!
# Model of `nearby_wetdry` (pycomlink/processing/wet_dry/nearby_wetdry.py) and of
`pycomlink/processing/nearby_rain_retrival.py`

Data arrays with dims `(cml_id, time)` are lists of time series. The dataset of distances has its
own list of row labels: rows are selected by label, columns by position.
-/

namespace Verif.Nearby

open Verif

variable {F Id : Type}

/-- `pmin` with its coordinates (nearby_wetdry.py L105-L106, L155). A network without links has no time steps either. -/
structure Net (F Id : Type) where
  ids : List Id
  length : List F
  pmin : List (List F)

/-- `ds_dist` (nearby_wetdry.py L107-L109): row labels `cml_id1` and the four matrices. -/
structure Dist (F Id : Type) where
  ids : List Id
  aa : List (List F)
  ab : List (List F)
  ba : List (List F)
  bb : List (List F)

/-- Parameters of `nearby_wetdry` (nearby_wetdry.py L87-L97), integers where the documentation
says so. -/
structure Params (F : Type) where
  radius : F
  threshP : F
  threshPL : F
  minLinks : Nat
  interval : Nat
  timeperiod : Nat
  minHours : Nat

section
variable [PyFloat F]

/-- nearby_wetdry.py L149-L152 `max_pmin` of one link -/
def maxPmin (period need : Nat) (xs : List F) : List F := rolling period need listMax xs

/-- nearby_wetdry.py L154 `deltaP` of one link -/
def deltaP (period need : Nat) (xs : List F) : List F :=
  List.zipWith (· -ᶠ ·) xs (maxPmin period need xs)

/-- nearby_wetdry.py L155 `deltaPL` of one link -/
def deltaPL (period need : Nat) (xs : List F) (len : F) : List F :=
  (deltaP period need xs).map (· /ᶠ len)

/-- nearby_wetdry.py L158-L163: one row of `within_r`. (The function also stores `within_r` in
the caller's `ds_dist`; it is recomputed by each call and has no further effect.) -/
def withinRow (radius : F) (aa ab ba bb : List F) : List Bool :=
  List.zipWith (· && ·)
    (List.zipWith (· && ·)
      (List.zipWith (· && ·) (aa.map (· <ᶠ radius)) (ab.map (· <ᶠ radius)))
      (ba.map (· <ᶠ radius)))
    (bb.map (· <ᶠ radius))

/-- The column at time `t` of a selection of links. -/
def column (rows : List (List F)) (t : Nat) : List F := rows.map fun r => rd r t

/-- nearby_wetdry.py L185-L191 and L193-L197: median at time `t` of the values `rows`, NaN unless
more than `minLinks` of the `dP` have data. -/
def medianAt (minLinks : Nat) (dP rows : List (List F)) (t : Nat) : F :=
  if minLinks < (valid (column dP t)).length then nanMedian (column rows t) else PyFloat.nan

/-- nearby_wetdry.py L201-L205 -/
def classify (threshP threshPL : F) (medP medPL : F) : F :=
  if isNaN medP || isNaN medPL then PyFloat.nan
  else if (medP <ᶠ threshP) && (medPL <ᶠ threshPL) then PyFloat.ofInt 1
  else PyFloat.ofInt 0

/-- nearby_wetdry.py L224-L226 `cond.shift(time=k)`, read as a condition: the position `t - k`,
where positions outside the series are NaN, which is truthy. -/
def shifted (cond : List Bool) (k : Int) (t : Nat) : Bool :=
  if 0 ≤ (t : Int) - k ∧ (t : Int) - k < cond.length then rdB cond ((t : Int) - k).toNat else true

/-- nearby_wetdry.py L219-L229, one pass of the loop over shifts -/
def smearStep (cond : List Bool) (wet : List F) (k : Int) : List F :=
  wet.mapIdx fun t w => if shifted cond k t then PyFloat.ofInt 1 else w

/-- nearby_wetdry.py L213-L236 for the row of one link -/
def smear (wet dP : List F) : List F :=
  let cond := List.zipWith (fun w d => (w ==ᶠ PyFloat.ofInt 1) && (d <ᶠ PyFloat.ofInt (-2))) wet dP
  let w := [1, -1, -2].foldl (smearStep cond) wet
  List.zipWith (fun w0 w => if isNaN w0 then PyFloat.nan else w) wet w

/-- nearby_wetdry.py L201-L205: the classification of one link before smearing -/
def rowRule (p : Params F) (T : Nat) (dP dPL : List (List F)) : List F :=
  (List.range T).map fun t =>
    classify p.threshP p.threshPL (medianAt p.minLinks dP dP t) (medianAt p.minLinks dP dPL t)

/-- nearby_wetdry.py L208-L211: the row of `F` of one link -/
def rowF (p : Params F) (T : Nat) (dP dPL : List (List F)) (ownPL : List F) : List F :=
  (rolling (p.timeperiod * 4) (p.timeperiod * 4) fsum
    (List.zipWith (· -ᶠ ·) ownPL ((List.range T).map fun t => medianAt p.minLinks dP dPL t))).map
    (· *ᶠ (PyFloat.ofInt p.interval /ᶠ PyFloat.ofInt 60))

/-- number of time steps -/
def Net.T (N : Net F Id) : Nat := (N.pmin.headD []).length

/-- nearby_wetdry.py L145 -/
def Params.period (p : Params F) : Nat := p.timeperiod * 60 / p.interval

/-- nearby_wetdry.py L147 -/
def Params.need (p : Params F) : Nat := p.minHours * 60 / p.interval

/-- nearby_wetdry.py L154, L167: `deltaP` of all links -/
def dPs (N : Net F Id) (p : Params F) : List (List F) := N.pmin.map (deltaP p.period p.need)

/-- nearby_wetdry.py L155, L168: `deltaPL` of all links -/
def dPLs (N : Net F Id) (p : Params F) : List (List F) :=
  List.zipWith (deltaPL p.period p.need) N.pmin N.length

variable [DecidableEq Id]

/-- nearby_wetdry.py L177 `ds_dist.within_r.sel(cml_id1=cmlid).values` -/
def within (d : Dist F Id) (radius : F) (cmlid : Id) : Except Err (List Bool) :=
  match d.ids.idxOf? cmlid with
  | none => .error .keyError
  | some r => .ok (withinRow radius (d.aa.getD r []) (d.ab.getD r []) (d.ba.getD r [])
      (d.bb.getD r []))

/-- nearby_wetdry.py L175-L236: the body of the loop for the link at position `i`, as the new rows
of `wet` and `F`. A mask of wrong length raises `IndexError`; if the link itself is not selected,
`.sel` raises `KeyError`; a window for `F` that does not fit raises `ValueError`. -/
def linkRows (N : Net F Id) (d : Dist F Id) (p : Params F) (i : Nat) (cmlid : Id) :
    Except Err (List F × List F) := do
  let mask ← within d p.radius cmlid
  if p.minLinks < mask.count true then
    if mask.length ≠ N.ids.length then .error .indexError
    else if rdB mask i = false then .error .keyError
    else if !windowFits (p.timeperiod * 4) (p.timeperiod * 4) N.T then .error .valueError   -- L209
    else
      let dP := KR.select (dPs N p) mask
      let dPL := KR.select (dPLs N p) mask
      .ok (smear (rowRule p N.T dP dPL) ((dPs N p).getD i []),
        rowF p N.T dP dPL ((dPLs N p).getD i []))
  else .ok (List.replicate N.T PyFloat.nan, List.replicate N.T PyFloat.nan)

/-- nearby_wetdry.py L87-L238 `nearby_wetdry`, for distinct ids. Result: the rows of `wet` and of
`F`, in link order. -/
def nearby_wetdry (N : Net F Id) (d : Dist F Id) (p : Params F) :
    Except Err (List (List F × List F)) :=
  if p.interval = 0 then .error .zeroDivision                                       -- L145-L147
  else if !windowFits p.period p.need N.T then .error .valueError                  -- L149-L152
  else (List.range N.ids.length).zip N.ids |>.mapM fun (i, c) => linkRows N d p i c

end

/-! ### nearby_rain_retrival.py -/

section
variable [PyFloat F]

/-- nearby_rain_retrival.py L49-L51: mean level at dry steps, NaN elsewhere.
`(wet == 0).where(~isnan(wet)) == 1` holds exactly where `wet == 0`. -/
def dryLevel (pmin pmax wet : F) : F :=
  let dry : F := if isNaN wet then PyFloat.nan
    else if wet ==ᶠ PyFloat.ofInt 0 then PyFloat.ofInt 1 else PyFloat.ofInt 0
  if dry ==ᶠ PyFloat.ofInt 1 then (pmin +ᶠ pmax) /ᶠ PyFloat.ofInt 2 else PyFloat.nan

/-- element-wise application of a function of three arguments (aligned series) -/
def zip3 {α β γ δ : Type} (f : α → β → γ → δ) (xs : List α) (ys : List β) (zs : List γ) : List δ :=
  List.zipWith (fun p z => f p.1 p.2 z) (xs.zip ys) zs

/-- nearby_rain_retrival.py L6-L55 `nearby_determine_reference_level`, one link. Domain: `windowFits n_average_dry
min_periods` for the length of the series (`reference_level_checked`). -/
def determine_reference_level (pmin pmax wet : List F) (n_average_dry min_periods : Nat) :
    List F :=
  rolling n_average_dry min_periods median (zip3 dryLevel pmin pmax wet)

/-- nearby_rain_retrival.py L6-L55 `nearby_determine_reference_level`, one link: `ValueError` if the window does not fit (L53) -/
def reference_level_checked (pmin pmax wet : List F) (n_average_dry min_periods : Nat) : Except Err (List F) :=
  if windowFits n_average_dry min_periods pmin.length then .ok (determine_reference_level pmin pmax wet n_average_dry min_periods)
  else .error .valueError

/-- nearby_rain_retrival.py L97, one element -/
def corrMin (pmin wet pref : F) : F :=
  if (pmin <ᶠ pref) && (wet ==ᶠ PyFloat.ofInt 1) then pmin else pref

/-- nearby_rain_retrival.py L98, one element -/
def corrMax (p_c_min pmax pref : F) : F :=
  if (p_c_min <ᶠ pref) && (pmax <ᶠ pref) then pmax else pref

/-- nearby_rain_retrival.py L58-L100 `nearby_correct_received_signals`, one link -/
def correct_received_signals (pmin pmax wet pref : List F) : List F × List F :=
  let p_c_min := zip3 corrMin pmin wet pref
  (p_c_min, zip3 corrMax p_c_min pmax pref)

/-- nearby_rain_retrival.py L210-L219: attenuation without wet antenna effect, clipped at 0 -/
def netAtten (waa_max pref pc : F) : F :=
  let A := (pref -ᶠ pc) -ᶠ waa_max
  if A <ᶠ PyFloat.ofInt 0 then PyFloat.ofInt 0 else A

/-- nearby_rain_retrival.py L222-L223: `(A / (a * length)) ** (1 / b)` with numpy broadcasting -/
def powerLaw [PyPow F] (A a b : List F) (length : F) : Except Err (List F) := do
  let q ← KR.bcast (· /ᶠ ·) A (a.map (· *ᶠ length))
  KR.bcast PyPow.pow q (b.map fun b => PyFloat.ofInt 1 /ᶠ b)

/-- nearby_rain_retrival.py L102-L232 `nearby_rainfall_retrival`, undecorated, for
one-dimensional series, every number type and every function `ab` in place of `a_b`; `f_GHz` and `pol` after
`np.atleast_1d` (L197-L198). `Fs` is the argument `F`. -/
def retrieval [PyPow F] (ab : List F → List String → String → Except Err (List F × List F))
    (pref p_c_min p_c_max Fs : List F) (length : F) (f_GHz : Option (List F)) (pol : Option (List String))
    (a b : Option (List F)) (approx : String) (waa_max alpha : F)
    (F_value_threshold : Option F) : Except Err (List F) := do
  let (a, b) ← match f_GHz, pol, a, b with
    | some f, some p, none, none => ab f p approx
    | none, none, some a, some b => .ok (a, b)
    | _, _, _, _ => .error .valueError
  let A_min ← KR.bcast (netAtten waa_max) pref p_c_max
  let A_max ← KR.bcast (netAtten waa_max) pref p_c_min
  let r_min ← powerLaw A_min a b length
  let r_max ← powerLaw A_max a b length
  let R ← KR.bcast (fun mx mn => (alpha *ᶠ mx) +ᶠ ((PyFloat.ofInt 1 -ᶠ alpha) *ᶠ mn)) r_max r_min
  match F_value_threshold with
  | none => .ok R
  | some thr =>
    if Fs.length = R.length then KR.assignMask R (Fs.map (· ≤ᶠ thr)) [PyFloat.nan]
    else .error .indexError

end

/-- `nearby_rainfall_retrival` in exact real arithmetic (nearby_rain_retrival.py L102-L232) -/
noncomputable def rainfall_retrival (spline : KR.Spline) (pref p_c_min p_c_max F : List (Fl ℝ))
    (length : Fl ℝ) (f_GHz : Option (List (Fl ℝ))) (pol : Option (List String))
    (a b : Option (List (Fl ℝ))) (approx : String) (waa_max alpha : Fl ℝ)
    (F_value_threshold : Option (Fl ℝ)) : Except Err (List (Fl ℝ)) :=
  retrieval (KR.a_b spline) pref p_c_min p_c_max F length f_GHz pol a b approx waa_max alpha F_value_threshold

end Verif.Nearby
