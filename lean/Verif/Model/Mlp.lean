import Verif.Rolling
import Verif.Model.KR

/-!
# Model of pycomlink/processing/wet_dry/mlp.py

The four pickled scikit-learn classifiers are parameters.
-/

namespace Verif.Mlp
open Verif Verif.KR

variable {F : Type}

/-- `model.predict_proba`: class probabilities (dry, wet) of each row, or an error -/
abbrev Clf (F : Type) := List (List F) → Except Err (List (F × F))

/-- the classifiers loaded at import (mlp.py L10-20) -/
structure Models (F : Type) where
  rg : Clf F
  rad : Clf F
  rgOnline : Clf F
  radOnline : Clf F

/-- model selection (mlp.py L80-93) -/
def selectModel (M : Models F) (sel : String) : Except Err (Clf F) :=
  if sel = "rg" then .ok M.rg
  else if sel = "rad" then .ok M.rad
  else if sel = "rad_online" then .ok M.radOnline
  else if sel = "rg_online" then .ok M.rgOnline
  else .error .valueError

/-- `sliding_window_view(xs, window_shape=w)` for one dimension: all windows of `w` values;
`ValueError` if the series is shorter. -/
def slidingWindows (xs : List F) (w : Nat) : Except Err (List (List F)) :=
  if xs.length < w then .error .valueError
  else .ok ((List.range (xs.length - w + 1)).map fun k => slice xs k (k + w))

variable [PyFloat F]

/-- `da.rolling(time=n, min_periods=mc, center=True).median()`: window from `t - n//2` to
`t + (n-1)//2`, cut at the ends of the series. xarray appends `(n-1)//2` NaN and has bottleneck compute trailing windows,
which raises `ValueError` if the padded series is shorter than `n` (`mlpWetDry`). -/
def centeredMedian (n mc : Nat) (xs : List F) : List F :=
  (List.range xs.length).map fun t =>
    let v := valid (slice xs (t + (n - 1) / 2 + 1 - n) (t + (n - 1) / 2 + 1))
    if v.length < mc then PyFloat.nan else median v

/-- detrending by a 12 hour median (mlp.py L98-109) -/
def detrend (xs : List F) : List F := List.zipWith (· -ᶠ ·) xs (centeredMedian (12 * 60) (2 * 60) xs)

/-- `da.diff(dim='time', n=1)` (mlp.py L125-126) -/
def diff (xs : List F) : List F :=
  (List.range (xs.length - 1)).map fun k => rd xs (k + 1) -ᶠ rd xs k

/-- design matrix: windows of both channels side by side between rows of NaN
(mlp.py L112-121 and L129-137); `np.hstack` raises `ValueError` for different numbers of rows. -/
def design (before after w : Nat) (a b : List F) : Except Err (List (List F)) :=
  match slidingWindows a w with
  | .error e => .error e
  | .ok wa =>
    match slidingWindows b w with
    | .error e => .error e
    | .ok wb =>
      if wa.length ≠ wb.length then .error .valueError
      else .ok (List.replicate before (List.replicate (w * 2) PyFloat.nan) ++
        List.zipWith (· ++ ·) wa wb ++ List.replicate after (List.replicate (w * 2) PyFloat.nan))

/-- rows without NaN are classified, the others stay NaN (mlp.py L139-147) -/
def predictRows (clf : Clf F) (x : List (List F)) : Except Err (List (F × F)) :=
  let mask := x.map fun row => !(row.any isNaN)
  let pred := x.map fun _ => ((PyFloat.nan, PyFloat.nan) : F × F)
  if (select x mask).length = 0 then .ok pred
  else match clf (select x mask) with
    | .error e => .error e
    | .ok p => assignMask pred mask p

/-- `mlp_wet_dry` (mlp.py L23-149) -/
def mlpWetDry (M : Models F) (ch1 ch2 : List F) (sel : String) : Except Err (List (F × F)) :=
  match selectModel M sel with
  | .error e => .error e
  | .ok clf =>
    let x := if sel = "rad" ∨ sel = "rg" then
        if ch1.length + (12 * 60 - 1) / 2 < 12 * 60 ∨ ch2.length + (12 * 60 - 1) / 2 < 12 * 60 then .error .valueError
        else design (40 / 2) (40 / 2 - 1) 40 (detrend ch1) (detrend ch2)
      else design 40 0 40 (diff ch1) (diff ch2)
    match x with
    | .error e => .error e
    | .ok x => predictRows clf x

end Verif.Mlp
