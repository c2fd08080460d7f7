import Verif.Np

/-!
# Model of `pycomlink/processing/blackout_gap_detection.py`
-/

namespace Verif.Blackout
open Verif

variable {F : Type} [PyFloat F]

/-- `get_blackout_start_and_end` without its decorator, blackout_gap_detection.py L7-L33,
for a 1-D series. Returns `(gap_start, gap_end)`. -/
def startEnd (rsl : List F) (threshold : F) : List Bool × List Bool :=
  let below := rsl.map fun x => x <ᶠ threshold                   -- L28
  let rslNan := rsl.map fun x => isNaN x                         -- L29
  (List.zipWith (· && ·) (rollLeft rslNan) below,                -- L30
   List.zipWith (· && ·) (rollRight rslNan) below)               -- L31

/-- Body of the loop of `created_blackout_gap_mask_from_start_end_markers`,
blackout_gap_detection.py L58-L66. The state is `(mask, in_blackout_gap)`. -/
def maskBody (rsl : List F) (gapStart gapEnd : List Bool) (i : Nat) (s : List Bool × Bool) :
    List Bool × Bool :=
  let inGap := s.2
  let inGap := if rdB gapStart i == true then true else inGap                         -- L59-L60
  let inGap := if rdB gapStart i == false && !(isNaN (rd rsl i)) then false else inGap -- L61-L62
  let inGap := if rdB gapEnd i == true then false else inGap                          -- L63-L64
  let mask := if inGap && isNaN (rd rsl i) then s.1.set i true else s.1               -- L65-L66
  (mask, inGap)

/-- `created_blackout_gap_mask_from_start_end_markers`, blackout_gap_detection.py L36-L67.
Marker arrays shorter than the signal would be read out of bounds: not modelled. -/
def gapMask (rsl : List F) (gapStart gapEnd : List Bool) : Except Err (List Bool) :=
  if gapStart.length < rsl.length ∨ gapEnd.length < rsl.length then .error .outOfModel
  else .ok (forRange 0 rsl.length (rsl.map fun _ => false, false)
    (maskBody rsl gapStart gapEnd)).1

/-- The forward mask with the markers of the same series. -/
def forwardMask (rsl : List F) (threshold : F) : Except Err (List Bool) :=
  gapMask rsl (startEnd rsl threshold).1 (startEnd rsl threshold).2

/-- The documented two-sided use (docs/notebooks/Blackout gap detection examples.ipynb
L78-L89): `mask | mask_reverse[::-1]`. -/
def twoSidedMask (rsl : List F) (threshold : F) : Except Err (List Bool) := do
  let m ← gapMask rsl (startEnd rsl threshold).1 (startEnd rsl threshold).2
  let r ← gapMask rsl.reverse (startEnd rsl threshold).2.reverse (startEnd rsl threshold).1.reverse
  return List.zipWith (· || ·) m r.reverse

end Verif.Blackout
