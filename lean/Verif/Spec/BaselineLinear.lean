import Verif.Float

/-!
# What a linear baseline should be

Stated with functions of the time index, without reference to the loop.
`wet k` says whether step `k` counts as wet, `bad k` whether the flag of step `k` is
unknown. A wet event is described by the dry steps `p < q` around it.
-/

namespace Verif.Spec
open Verif

/-- The steps strictly between the dry steps `p` and `q` form a (non-empty) wet event. -/
def WetEvent (wet : Nat → Prop) (p q : Nat) : Prop :=
  p + 1 < q ∧ ¬ wet p ∧ ¬ wet q ∧ ∀ k, p < k → k < q → wet k

/-- Some flag inside the event is unknown. -/
def BadEvent (bad : Nat → Prop) (p q : Nat) : Prop := ∃ k, p < k ∧ k < q ∧ bad k

/-- Value at `i` of the straight line through `(p, a)` and `(q, b)`, computed in
float arithmetic as `a + (i-p) * ((b-a)/(q-p))`. -/
def lineAt {F : Type} [PyFloat F] (a b : F) (p q i : Nat) : F :=
  a +ᶠ (PyFloat.ofInt ((i : Int) - p) *ᶠ ((b -ᶠ a) /ᶠ PyFloat.ofInt ((q : Int) - p)))

/-- Complete description of the baseline `out` of a signal `sig` of length `N`. -/
structure IsLinearBaseline {F : Type} [PyFloat F] (sig : Nat → F) (wet bad : Nat → Prop)
    (N : Nat) (out : List F) : Prop where
  length : out.length = N
  /-- from the dry step before a finished event up to its last wet step -/
  inside : ∀ p q i, WetEvent wet p q → q < N → p ≤ i → i < q →
    (BadEvent bad p q → out[i]? = some PyFloat.nan) ∧
    (¬ BadEvent bad p q → out[i]? = some (lineAt (sig p) (sig q) p q i))
  /-- at the dry step after a finished event, if no finished event starts right there -/
  stop : ∀ p q, WetEvent wet p q → q < N → (∀ r, WetEvent wet q r → N ≤ r) →
    (BadEvent bad p q → out[q]? = some PyFloat.nan) ∧
    (¬ BadEvent bad p q → out[q]? = some (sig q))
  /-- at a dry step that touches no finished event -/
  dry : ∀ i, i < N → ¬ wet i → (∀ p, ¬ WetEvent wet p i) → (∀ r, WetEvent wet i r → N ≤ r) →
    out[i]? = some (sig i)
  /-- in an event that is not finished at the end of the series -/
  unfinished : ∀ i, i < N → (∀ k, i ≤ k → k < N → wet k) → out[i]? = some (PyFloat.ofInt 0)

end Verif.Spec
