import Verif.Np

/-!
# Model of `pycomlink/processing/baseline.py`

Signals are `List F` for an arbitrary float type `F`. The
`xarray_apply_along_time_dim` decorator of `baseline_constant` is modelled
separately (`Model/Wrapper.lean`).
-/

namespace Verif.Baseline
open Verif

variable {F : Type} [PyFloat F]

/-- `np.isnan` of a boolean array entry (baseline.py L56 after the cast in L46): always false. -/
def isNaNBool (_ : Bool) : Bool := false

/-- Index `i - 1` into an array of length `len`, with numba's wrap-around of
`-1` (baseline.py L58, L60; only happens for `n_average_last_dry = 0`). -/
def prevIdx (len i : Nat) : Nat := if i = 0 then len - 1 else i - 1

/-- Body of the loop in `_numba_baseline_constant`, baseline.py L55-L63. -/
def constBody (trsl : List F) (wet : List Bool) (n : Nat) (i : Nat) (b : List F) : List F :=
  if isNaNBool (rdB wet i) then b.set i PyFloat.nan
  else if rdB wet i && !rdB wet (prevIdx wet.length i) then
    b.set i (npMean (slice b (i - n) i))
  else if rdB wet i && rdB wet (prevIdx wet.length i) then b.set i (rd b (prevIdx b.length i))
  else b.set i (rd trsl i)

/-- `_numba_baseline_constant`, baseline.py L51-L64. `n` is `n_average_last_dry`,
a non-negative integer. For `n = 0` the mean at the start of a wet event is one of an empty slice: NaN here, while
numba versions differ (NaN or `ZeroDivisionError`); no property speaks about it. -/
def constLoop (trsl : List F) (wet : List Bool) (n : Nat) : List F :=
  let zeros := trsl.map fun _ => PyFloat.ofInt 0                -- L53
  let b0 := setSlice zeros 0 (trsl.take n)                      -- L54
  forRange n trsl.length b0 (constBody trsl wet n)              -- L55-L63

/-- `baseline_constant` on boolean flags, baseline.py L15-L48.
If `wet` is shorter than `trsl` the compiled loop reads outside the array: not modelled. -/
def baselineConstant (trsl : List F) (wet : List Bool) (n : Nat) : Except Err (List F) :=
  if wet.length < trsl.length then .error .outOfModel
  else .ok (constLoop trsl wet n)

/-- `baseline_constant` on float flags: `np.asarray(wet, dtype=bool)`
(baseline.py L46) maps 0.0 to False and everything else, NaN included, to True. -/
def baselineConstantF (trsl wet : List F) (n : Nat) : Except Err (List F) :=
  baselineConstant trsl (wet.map truthy) n

/-- Local variables of `_numba_baseline_linear`, baseline.py L106-L111. -/
structure LinSt (F : Type) where
  baseline : List F
  lastDryI : Nat
  lastDryRsl : F
  lastIsWet : Bool
  foundNan : Bool

/-- Body of the loop in `_numba_baseline_linear`, baseline.py L113-L160.
`is_wet` only occurs in boolean context, so its truth value is stored; a NaN is
truthy in compiled code. The final `else: raise` (L158-L160) is unreachable as
the three conditions before it are exhaustive. -/
def linBody (rsl wet : List F) (ignoreNan : Bool) (i : Nat) (s : LinSt F) : LinSt F :=
  let rslI := rd rsl i                                            -- L114
  let wetI := rd wet i                                            -- L115
  let isWet := if isNaN wetI && ignoreNan then s.lastIsWet else truthy wetI  -- L116-L122
  let foundNan := if isNaN wetI && !ignoreNan then true else s.foundNan      -- L123-L124
  let lastIsWet := if isWet && !s.lastIsWet then true else s.lastIsWet       -- L129-L130
  if isWet && lastIsWet then                                      -- L132-L133
    { s with lastIsWet := true, foundNan := foundNan }
  else if lastIsWet && !isWet then                                -- L135-L147
    { baseline :=
        if foundNan then fillSlice s.baseline s.lastDryI (i + 1) PyFloat.nan
        else setSlice s.baseline s.lastDryI
          (linspace s.lastDryRsl rslI (i - s.lastDryI + 1))
      lastDryI := i, lastDryRsl := rslI, lastIsWet := false, foundNan := false }
  else                                                            -- L149-L157
    { baseline := if foundNan then s.baseline.set i PyFloat.nan else s.baseline.set i rslI
      lastDryI := i, lastDryRsl := rslI, lastIsWet := false, foundNan := false }

/-- Initial values, baseline.py L106-L111. -/
def linInit (rsl : List F) : LinSt F where
  baseline := (rsl.map fun _ => PyFloat.ofInt 0).set 0 (rd rsl 0)
  lastDryI := 0
  lastDryRsl := rd rsl 0
  lastIsWet := false
  foundNan := false

/-- `baseline_linear`, baseline.py L67-L161, on 1-D arrays. An empty signal or a
flag series shorter than the signal makes the compiled code read outside the
arrays: not modelled. -/
def baselineLinear (rsl wet : List F) (ignoreNan : Bool) : Except Err (List F) :=
  if rsl.length = 0 ∨ wet.length < rsl.length then .error .outOfModel
  else .ok (forRange 1 rsl.length (linInit rsl) (linBody rsl wet ignoreNan)).baseline

end Verif.Baseline
