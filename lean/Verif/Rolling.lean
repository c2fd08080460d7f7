import Verif.Np
import Mathlib.Data.List.Sort

/-!
# xarray rolling windows and NaN-skipping reductions

External functions, modelled by their documented meaning (exact arithmetic; `bottleneck`'s running
sum differs from this in rounding and after an infinity has entered the window).
-/

namespace Verif

/-- The trailing window of width `n` that ends at (and includes) index `t`; shorter at the
start of the series. -/
def window {α : Type} (xs : List α) (n t : Nat) : List α := slice xs (t + 1 - n) (t + 1)

section
variable {F : Type} [PyFloat F]

/-- The values that are not NaN. -/
def valid (xs : List F) : List F := xs.filter fun x => !(isNaN x)

/-- The windows that `da.rolling(time=n, min_periods=mc)` accepts for a series of `len` steps. xarray raises `ValueError` for
`n = 0` and `mc = 0`; bottleneck, which does the reductions, for `mc > n` ("min_count cannot be greater than window") and
for `n > len` ("Moving window must between 1 and len"). -/
def windowFits (n mc len : Nat) : Bool := decide (0 < n) && decide (0 < mc) && decide (mc ≤ n) && decide (n ≤ len)

/-- `da.rolling(time=n, min_periods=mc).agg()`: the aggregate of the non-NaN values of each
trailing window, NaN if there are fewer than `mc` of them. Domain: `windowFits n mc xs.length`. -/
def rolling (n mc : Nat) (agg : List F → F) (xs : List F) : List F :=
  (List.range xs.length).map fun t =>
    if (valid (window xs n t)).length < mc then PyFloat.nan else agg (valid (window xs n t))

/-- maximum of a list (of numbers) -/
def listMax : List F → F
  | [] => PyFloat.nan
  | x :: xs => xs.foldl npMaximum x

/-- ascending sort (of numbers) -/
def sortF (xs : List F) : List F := xs.insertionSort fun a b => (a ≤ᶠ b) = true

/-- `np.median` of numbers: the middle element of the sorted list, or the mean of the two
middle elements; NaN for the empty list. -/
def median (xs : List F) : F :=
  let s := sortF xs
  if s.length = 0 then PyFloat.nan
  else if s.length % 2 = 1 then rd s (s.length / 2)
  else (rd s (s.length / 2 - 1) +ᶠ rd s (s.length / 2)) /ᶠ PyFloat.ofInt 2

/-- `np.nanmedian` -/
def nanMedian (xs : List F) : F := median (valid xs)

end

end Verif
