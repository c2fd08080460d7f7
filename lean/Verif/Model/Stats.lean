import Verif.Np
import Verif.FloatReal

/-!
# Model of `pycomlink/validation/stats.py`

Inputs are numpy arrays of any shape (`Arr`); most properties are about one-dimensional arrays, given
as lists. Arithmetic on counts is exact (no int64 overflow).
-/

namespace Verif.Stats

/-- A numpy array: shape and elements in C order (as many as the product of the shape). -/
structure Arr (F : Type) where
  shape : List Nat
  data : List F
  deriving DecidableEq, Repr

/-- a one-dimensional array -/
def Arr.of {F : Type} (xs : List F) : Arr F := ⟨[xs.length], xs⟩

/-- `len(a)`: the length of the first dimension; `TypeError` without dimensions -/
def Arr.len {F : Type} (a : Arr F) : Except Err Nat :=
  match a.shape with
  | [] => .error .typeError
  | n :: _ => .ok n

/-- `xs[mask]` for a boolean array `mask` of the same shape (for several dimensions numpy returns the
selected elements in C order) -/
def boolIndex {α : Type} (xs : List α) (mask : List Bool) : List α :=
  ((xs.zip mask).filter (·.2)).map (·.1)

/-- `mask.sum()` of a boolean array -/
def bsum (mask : List Bool) : Nat := mask.count true

/-- elementwise `a & b` -/
def band (a b : List Bool) : List Bool := List.zipWith (· && ·) a b

/-- elementwise `~a` / `a == False` -/
def bnot (a : List Bool) : List Bool := a.map not

section
variable {F : Type} [PyFloat F]

/-- `nan_index = np.isnan(reference) | np.isnan(predicted)`, stats.py L159 and L269 -/
def nanIndex (reference predicted : List F) : List Bool :=
  List.zipWith (· || ·) (reference.map isNaN) (predicted.map isNaN)

/-- The counts computed in stats.py L159-L190. -/
structure WetDryCounts where
  nNanPairs : Nat
  nAllPairs : Nat
  nNanReferenceOnly : Nat
  nNanPredictedOnly : Nat
  nTp : Nat
  nTn : Nat
  nFp : Nat
  nFn : Nat
  nWetReference : Nat
  nDryReference : Nat
  /-- `np.nansum(predicted)` of L209, after the conversion to booleans in L172 -/
  nPredictedWet : Nat
  deriving DecidableEq, Repr

/-- stats.py L156-L190: first part of `calc_wet_dry_performance_metrics`. -/
def wetDryCountsArr (r p : Arr F) : Except Err WetDryCounts :=
  if r.shape ≠ p.shape then .error .assertionError
  else do
    let reference := r.data
    let predicted := p.data
    let nanIdx := nanIndex reference predicted
    let nAll ← r.len
    let reference' := boolIndex reference (bnot nanIdx)
    let predicted' := boolIndex predicted (bnot nanIdx)
    let refWet := reference'.map fun x => PyFloat.ofInt 0 <ᶠ x
    let predWet := predicted'.map fun x => PyFloat.ofInt 0 <ᶠ x
    return {
        nNanPairs := bsum nanIdx
        nAllPairs := nAll
        nNanReferenceOnly := bsum (reference.map isNaN)
        nNanPredictedOnly := bsum (predicted.map isNaN)
        nTp := bsum (band refWet predWet)
        nTn := bsum (band (bnot refWet) (bnot predWet))
        nFp := bsum (band (bnot refWet) predWet)
        nFn := bsum (band refWet (bnot predWet))
        nWetReference := bsum refWet
        nDryReference := bsum (bnot refWet)
        nPredictedWet := bsum predWet }

/-- stats.py L156-L190 for one-dimensional arrays -/
def wetDryCounts (reference predicted : List F) : Except Err WetDryCounts :=
  wetDryCountsArr (.of reference) (.of predicted)

/-- The named tuple `WetDryError`, stats.py L7-L28. -/
structure WetDryError (F : Type) where
  falseWetRate : F
  missedWetRate : F
  matthewsCorrelation : F
  trueWetRate : F
  trueDryRate : F
  counts : WetDryCounts

/-- `n / m` for numpy integers: float division -/
def divNat (n m : Nat) : F := PyFloat.ofInt n /ᶠ PyFloat.ofInt m

variable [PySqrt F]

/-- stats.py L198-L210. `isInf x` is `np.isinf`. -/
def matthews (isInf : F → Bool) (c : WetDryCounts) : F :=
  let a : F := PySqrt.sqrt (PyFloat.ofInt (c.nTp + c.nFp))
  let b : F := PySqrt.sqrt (PyFloat.ofInt (c.nTp + c.nFn))
  let c' : F := PySqrt.sqrt (PyFloat.ofInt (c.nTn + c.nFp))
  let d : F := PySqrt.sqrt (PyFloat.ofInt (c.nTn + c.nFn))
  let m : F := PyFloat.ofInt ((c.nTp * c.nTn : Int) - c.nFp * c.nFn) /ᶠ (a *ᶠ b *ᶠ c' *ᶠ d)
  let m := if isInf m then PyFloat.ofInt 0 else m
  if c.nPredictedWet = 0 then PyFloat.ofInt 0 else m

/-- stats.py L136-L228 `calc_wet_dry_performance_metrics` -/
def calcWetDryPerformanceMetricsArr (isInf : F → Bool) (reference predicted : Arr F) :
    Except Err (WetDryError F) := do
  let c ← wetDryCountsArr reference predicted
  return {
    trueWetRate := divNat c.nTp c.nWetReference
    trueDryRate := divNat c.nTn c.nDryReference
    falseWetRate := divNat c.nFp c.nDryReference
    missedWetRate := divNat c.nFn c.nWetReference
    matthewsCorrelation := matthews isInf c
    counts := c }

/-- stats.py L136-L228 `calc_wet_dry_performance_metrics` for one-dimensional arrays -/
def calcWetDryPerformanceMetrics (isInf : F → Bool) (reference predicted : List F) :
    Except Err (WetDryError F) :=
  calcWetDryPerformanceMetricsArr isInf (.of reference) (.of predicted)

/-- The named tuple `RainError`, stats.py L66-L89. -/
structure RainError (F : Type) where
  pearsonCorrelation : F
  coefficientOfVariation : F
  rootMeanSquareError : F
  meanAbsoluteError : F
  rSumReference : F
  rSumPredicted : F
  rMeanReference : F
  rMeanPredicted : F
  falseWetRate : F
  missedWetRate : F
  falseWetPrecipitationRate : F
  missedWetPrecipitationRate : F
  rainfallThresholdWet : F
  nAllPairs : Nat
  nNanPairs : Nat
  nNanReferenceOnly : Nat
  nNanPredictedOnly : Nat

/-- elementwise difference of two arrays -/
def vsub (xs ys : List F) : List F := List.zipWith (· -ᶠ ·) xs ys

/-- elementwise product of two arrays -/
def vmul (xs ys : List F) : List F := List.zipWith (· *ᶠ ·) xs ys

/-- `np.abs` -/
def fabs (x : F) : F := if x <ᶠ PyFloat.ofInt 0 then PyFloat.ofInt 0 -ᶠ x else x

/-- `np.mean`; `sum` is `np.sum`, which does not promise an order of additions -/
def meanBy (sum : List F → F) (xs : List F) : F := sum xs /ᶠ PyFloat.ofInt xs.length

/-- `np.std` (population): square root of the mean squared deviation from the mean -/
def npStdBy (sum : List F → F) (xs : List F) : F :=
  let m := meanBy sum xs
  PySqrt.sqrt (meanBy sum (xs.map fun x => (x -ᶠ m) *ᶠ (x -ᶠ m)))

/-- entry of `np.cov` (`ddof = 1`): `dot(X - mean, Y - mean) * (1 / (n - 1))`, where
numpy replaces a negative `n - 1` by 0 -/
def npCovBy (sum : List F → F) (dot : List F → List F → F) (xs ys : List F) : F :=
  let mx := meanBy sum xs
  let my := meanBy sum ys
  dot (xs.map (· -ᶠ mx)) (ys.map (· -ᶠ my)) *ᶠ
    (PyFloat.ofInt 1 /ᶠ PyFloat.ofInt ((xs.length - 1 : Nat) : Int))

/-- `np.clip(x, -1, 1)`; NaN stays NaN -/
def clip1 (x : F) : F :=
  if x <ᶠ PyFloat.ofInt (-1) then PyFloat.ofInt (-1)
  else if PyFloat.ofInt 1 <ᶠ x then PyFloat.ofInt 1 else x

/-- `np.corrcoef(xs, ys)[0, 1]`: covariance divided by both standard deviations,
clipped to `[-1, 1]` -/
def npCorrcoefBy (sum : List F → F) (dot : List F → List F → F) (xs ys : List F) : F :=
  clip1 (npCovBy sum dot xs ys /ᶠ PySqrt.sqrt (npCovBy sum dot xs xs) /ᶠ PySqrt.sqrt (npCovBy sum dot ys ys))

/-- stats.py L231-L329 `calc_rain_error_performance_metrics`, for arrays of any shape; `sum` and `dot` are
`np.sum` and `np.dot`. -/
def rainErrorArr (sum : List F → F) (dot : List F → List F → F) (r p : Arr F) (thr : F) :
    Except Err (RainError F) :=
  if r.shape ≠ p.shape then .error .assertionError
  else do
    let reference := r.data
    let predicted := p.data
    let nanIdx := nanIndex reference predicted
    let nAll ← r.len
    let ref := boolIndex reference (bnot nanIdx)
    let pred := boolIndex predicted (bnot nanIdx)
    let diff := vsub pred ref
    let refWet := ref.map fun x => thr <ᶠ x
    let refDry := bnot refWet
    let predWet := pred.map fun x => thr <ᶠ x
    let predDry := bnot predWet
    return {
        pearsonCorrelation := npCorrcoefBy sum dot ref pred
        coefficientOfVariation := npStdBy sum diff /ᶠ meanBy sum ref
        rootMeanSquareError := PySqrt.sqrt (meanBy sum (diff.map fun d => d *ᶠ d))
        meanAbsoluteError := meanBy sum (diff.map fabs)
        rSumReference := sum ref
        rSumPredicted := sum pred
        rMeanReference := meanBy sum ref
        rMeanPredicted := meanBy sum pred
        falseWetRate := divNat (bsum (band refDry predWet)) (bsum refDry)
        missedWetRate := divNat (bsum (band refWet predDry)) (bsum refWet)
        falseWetPrecipitationRate := meanBy sum (boolIndex pred (band refDry predWet))
        missedWetPrecipitationRate := meanBy sum (boolIndex ref (band refWet predDry))
        rainfallThresholdWet := thr
        nAllPairs := nAll
        nNanPairs := bsum nanIdx
        nNanReferenceOnly := bsum (reference.map isNaN)
        nNanPredictedOnly := bsum (predicted.map isNaN) }

/-- stats.py L231-L329 `calc_rain_error_performance_metrics` for one-dimensional arrays, with sums in index
order (in exact arithmetic every order gives the same result) -/
def calcRainErrorPerformanceMetrics (reference predicted : List F) (thr : F) :
    Except Err (RainError F) :=
  rainErrorArr fsum (fun xs ys => fsum (vmul xs ys)) (.of reference) (.of predicted) thr

/-- `np.std` with sums in index order -/
def npStd (xs : List F) : F := npStdBy fsum xs

/-- `np.cov` with sums in index order -/
def npCov (xs ys : List F) : F := npCovBy fsum (fun xs ys => fsum (vmul xs ys)) xs ys

/-- `np.corrcoef` with sums in index order -/
def npCorrcoef (xs ys : List F) : F := npCorrcoefBy fsum (fun xs ys => fsum (vmul xs ys)) xs ys

end

/-- `x == True` for a flag given as number (or boolean cast to a number) -/
def isTrue {F : Type} [PyFloat F] (x : F) : Bool := x ==ᶠ PyFloat.ofInt 1

/-- `x == False` -/
def isFalse {F : Type} [PyFloat F] (x : F) : Bool := x ==ᶠ PyFloat.ofInt 0

/-- stats.py L333-L342 `calc_wet_error_rates`, for arrays of equal length: (false wet rate, missed wet rate).
NaN flags are neither true nor false. -/
def calcWetErrorRates {F : Type} [PyFloat F] (truth wet : List F) : F × F :=
  (divNat (bsum (band (truth.map isFalse) (wet.map isTrue))) (bsum (truth.map isFalse)),
   divNat (bsum (band (truth.map isTrue) (wet.map isFalse))) (bsum (truth.map isTrue)))

end Verif.Stats
