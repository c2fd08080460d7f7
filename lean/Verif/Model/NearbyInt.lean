import Verif.Model.Nearby
import Verif.FloatReal
import Mathlib.Algebra.Order.Floor.Ring

/-!
# `nearby_wetdry` for levels of an integer type (pycomlink/processing/wet_dry/nearby_wetdry.py)

`Nearby.nearby_wetdry` is the function for float levels. `xr.full_like(ds_cml.pmin, np.nan)` (L170-L171) takes over the type of
`pmin`; for levels in whole dB stored as integers the arrays for the results are integer arrays. numpy then turns the floats
assigned to them into integers by C casts: fractions are cut off, and NaN becomes whatever the machine makes of it.
-/

namespace Verif.NearbyInt
open Verif

variable {K Id : Type} [Field K] [LinearOrder K] [FloorRing K]

/-- Assignment of a float to an element of an integer array (numpy, C cast): numbers are rounded towards zero; NaN and infinite
values give `c`, which depends on the machine (`-2^63` on x86, 0 on ARM). Numbers beyond the range of the integer type are not
modelled. -/
def castInt (c : Int) : Fl K → Int
  | .fin x => if 0 ≤ x then ⌊x⌋ else ⌈x⌉
  | _ => c

/-- `pmin` with integer elements and its coordinates (nearby_wetdry.py L105-L106, L155) -/
structure Net (K Id : Type) where
  ids : List Id
  length : List (Fl K)
  pmin : List (List Int)

/-- The levels as floats. `rolling(…).max()`, `pmin - max_pmin` and `deltaP / pmin.length` (L149-L155) compute with these. -/
def Net.toFloat (N : Net K Id) : Nearby.Net (Fl K) Id :=
  ⟨N.ids, N.length, N.pmin.map fun (xs : List Int) => xs.map fun (n : Int) => Fl.fin (n : K)⟩

/-- nearby_wetdry.py L219-L229, one pass of the loop over shifts: `xr.where(…, 1, wet)` -/
def smearStep (cond : List Bool) (wet : List Int) (k : Int) : List Int :=
  wet.mapIdx fun t w => if Nearby.shifted cond k t then 1 else w

/-- nearby_wetdry.py L213-L236 for the row of one link. `np.isnan` (L232) of integers is false. -/
def smear (c : Int) (wet : List Int) (dP : List (Fl K)) : List Int :=
  let cond := List.zipWith (fun (w : Int) (d : Fl K) => (w == 1) && (d <ᶠ PyFloat.ofInt (-2))) wet dP
  let w := [1, -1, -2].foldl (smearStep cond) wet
  List.zipWith (fun (w0 w : Int) => castInt c (if PyFloat.isNaN (Fl.fin (w0 : K)) then Fl.nan else Fl.fin (w : K))) wet w

variable [DecidableEq Id]

/-- nearby_wetdry.py L175-L236: the body of the loop for the link at position `i`, as `Nearby.linkRows`; each assignment to
`wet` (L201) and to `F` (L209) casts, and so does filling with NaN (L170-L171) -/
def linkRows (c : Int) (N : Net K Id) (d : Nearby.Dist (Fl K) Id) (p : Nearby.Params (Fl K)) (i : Nat) (cmlid : Id) :
    Except Err (List Int × List Int) := do
  let M := N.toFloat
  let mask ← Nearby.within d p.radius cmlid
  if p.minLinks < mask.count true then
    if mask.length ≠ N.ids.length then .error .indexError
    else if rdB mask i = false then .error .keyError
    else if !windowFits (p.timeperiod * 4) (p.timeperiod * 4) M.T then .error .valueError   -- L209
    else
      let dP := KR.select (Nearby.dPs M p) mask
      let dPL := KR.select (Nearby.dPLs M p) mask
      .ok (smear c ((Nearby.rowRule p M.T dP dPL).map (castInt c)) ((Nearby.dPs M p).getD i []),
        (Nearby.rowF p M.T dP dPL ((Nearby.dPLs M p).getD i [])).map (castInt c))
  else .ok (List.replicate M.T (castInt c (.nan : Fl K)), List.replicate M.T (castInt c (.nan : Fl K)))

/-- nearby_wetdry.py L87-L238 `nearby_wetdry` for integer levels and distinct ids -/
def nearby_wetdry (c : Int) (N : Net K Id) (d : Nearby.Dist (Fl K) Id) (p : Nearby.Params (Fl K)) :
    Except Err (List (List Int × List Int)) :=
  if p.interval = 0 then .error .zeroDivision                                       -- L145-L147
  else if !windowFits p.period p.need N.toFloat.T then .error .valueError           -- L149-L152
  else (List.range N.ids.length).zip N.ids |>.mapM fun (i, id) => linkRows c N d p i id

end Verif.NearbyInt
