import Verif.Rolling
import Verif.FloatReal

/-!
# Model of pycomlink/processing/wet_dry/stft.py

`matplotlib.mlab.specgram` is a parameter. `mlab.find` exists only in matplotlib before 3.1; whether
it exists is a parameter as well.
-/

namespace Verif.Stft
open Verif

variable {F : Type}

/-- resolution of a slice bound against the length of the axis -/
def bound (n : Nat) (i : Int) : Nat := if i < 0 then (i + n).toNat else min i.toNat n

/-- `xs[a:b]` for Python integers -/
def pySlice {α : Type} (xs : List α) (a b : Int) : List α :=
  slice xs (bound xs.length a) (bound xs.length b)

/-- the optional arguments of `stft_classification` (stft.py L28-34); `window` and `f_sampling` only reach
`specgram` -/
structure Args (F : Type) where
  tDryStart : Option Int := none
  tDryStop : Option Int := none
  dryLength : Option Nat := none
  mirror : Bool := false
  pxx : Option (List (List F)) := none
  f : Option (List F) := none

/-- second return value (stft.py L188-194) -/
structure Info (F : Type) where
  pNorm : List (List F)
  pSumDiff : List F
  pxx : List (List F)
  pDryMean : List F
  f : List F

variable [PyFloat F]

/-- sample standard deviation (`ddof=1`) of a window of numbers -/
def sampleStd [PySqrt F] (xs : List F) : F :=
  let m := npMean xs
  PySqrt.sqrt (fsum (xs.map fun x => (x -ᶠ m) *ᶠ (x -ᶠ m)) /ᶠ PyFloat.ofInt ((xs.length : Int) - 1))

/-- `pd.DataFrame(rsl).rolling(w).std()` (stft.py L219): NaN where the window is incomplete, contains a
NaN or has fewer than two values. Exact arithmetic; infinities are out of the domain. -/
def rollStd [PySqrt F] (xs : List F) (w : Nat) : List F :=
  (List.range xs.length).map fun t =>
    if t + 1 < w ∨ w < 2 ∨ (window xs w t).any isNaN = true then PyFloat.nan
    else sampleStd (window xs w t)

/-- `np.nanmin`: smallest value that is not NaN, NaN if there is none -/
def npNanmin (xs : List F) : F :=
  match xs.filter fun x => !(isNaN x) with
  | [] => PyFloat.nan
  | x :: r => r.foldl npMinimum x

/-- `find_lowest_std_dev_period` (stft.py L199-223). `mlab.find(c)` is `np.nonzero(np.ravel(c))[0]`. -/
def findLowestStdDevPeriod [PySqrt F] (hasFind : Bool) (rsl : List F) (w : Nat) :
    Except Err (Int × Int) :=
  let r := rollStd rsl w
  if hasFind = false then .error .attributeError
  else match r.findIdx? fun x => x ==ᶠ npNanmin r with
    | none => .error .indexError
    | some stop => .ok ((stop : Int) - w, (stop : Int))

/-- stft.py L96-124: the spectrogram and its frequencies. `specgram rsl nfft` stands for the `specg` call of
L111-113. -/
def spectrumOf (specgram : List F → Nat → Except Err (List (List F) × List F)) (rsl : List F)
    (windowLength : Nat) (a : Args F) : Except Err (List (List F) × List F) :=
  match a.pxx, a.f with
  | none, _ =>
    let nfft := if a.mirror then if windowLength % 2 = 0 then windowLength else windowLength + 1
      else windowLength
    specgram rsl nfft
  | some p, some f => .ok (p, f)
  | some _, none => .error .valueError

/-- stft.py L153-165: the dry period -/
def dryPeriod [PySqrt F] (hasFind : Bool) (rsl : List F) (a : Args F) : Except Err (Int × Int) :=
  match a.tDryStart, a.tDryStop, a.dryLength with
  | none, none, some l => findLowestStdDevPeriod hasFind rsl l
  | some s, some e, none => .ok (s, e)
  | _, _, _ => .error .attributeError

/-- `np.mean(p[np.where(sel)], axis=0)` (stft.py L175-181); an index outside the array raises -/
def bandMean (p : List (List F)) (n : Nat) (sel : List Bool) : Except Err (List F) :=
  let idx := (List.range sel.length).filter fun r => rdB sel r
  if idx.any (fun r => decide (p.length ≤ r)) then .error .indexError
  else .ok ((List.range n).map fun t => npMean (idx.map fun r => rd (p.getD r []) t))

/-- `stft_classification` (stft.py L23-196). With `mirror=True` the code always fails at L132: `NFFT / 2` is a
float, which `range` rejects, and `NFFT` is unbound if `Pxx` was supplied (`UnboundLocalError`, a
`NameError`). `Pxx` is a rectangular array. -/
def stftClassification [PySqrt F] (hasFind : Bool)
    (specgram : List F → Nat → Except Err (List (List F) × List F)) (rsl : List F)
    (windowLength : Nat) (threshold fDivide : F) (a : Args F) :
    Except Err (List Bool × Info F) :=
  match spectrumOf specgram rsl windowLength a with
  | .error e => .error e
  | .ok (pxx, f) =>
    match pxx with
    | [] => .error .indexError
    | row0 :: _ =>
      let nDiff : Int := (rsl.length : Int) - row0.length
      let nStart := nDiff / 2
      if a.mirror then .error (if a.pxx.isSome then .nameError else .typeError)
      else
        let nEnd := nDiff - nStart
        if nStart < 0 ∨ nEnd < 0 then .error .valueError
        else
          let ext := pxx.map fun row => List.replicate nStart.toNat PyFloat.nan ++ row ++
            List.replicate nEnd.toNat PyFloat.nan
          match dryPeriod hasFind rsl a with
          | .error e => .error e
          | .ok (s, e) =>
            let dryMean := ext.map fun row => npNanmean (pySlice row s e)
            let pNorm := List.zipWith (fun row m => row.map fun x => x /ᶠ m) ext dryMean
            match bandMean pNorm rsl.length (f.map fun x => x ≤ᶠ fDivide) with
            | .error e => .error e
            | .ok low =>
              match bandMean pNorm rsl.length (f.map fun x => fDivide <ᶠ x) with
              | .error e => .error e
              | .ok high =>
                let d := List.zipWith
                  (fun l h => l /ᶠ PyFloat.ofInt 1 -ᶠ h /ᶠ PyFloat.ofInt 1) low high
                .ok (d.map fun x => !(isNaN x) && threshold <ᶠ x,
                  { pNorm := pNorm, pSumDiff := d, pxx := ext, pDryMean := dryMean, f := f })

end Verif.Stft
