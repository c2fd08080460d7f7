import Verif.Model.KR
import Mathlib.Algebra.Polynomial.Derivative

/-!
# The cubic spline behind `scipy.interpolate.interp1d(kind="cubic")`

k_R_relation.py L237-L240 interpolates the rows of an ITU table with `interp1d(…, kind="cubic")`. scipy computes it with
`make_interp_spline(k=3)`, the interpolating cubic spline with the "not-a-knot" end conditions. This file states
what this spline is, in exact real arithmetic.
-/

namespace Verif.KR

/-- element `i` of an array, as a real number -/
noncomputable def knot (xs : List ℚ) (i : Nat) : ℝ := ((xs.getD i 0 : ℚ) : ℝ)

/-- `s` is the cubic spline through the points `(xs[i], ys[i])` with not-a-knot end conditions: a polynomial `p i` of degree at
most three between `xs[i]` and `xs[i+1]`, with continuous first and second derivative, and the same polynomial in the first two
and in the last two intervals (`interp1d` of k_R_relation.py L237-L240). -/
def IsCubicSpline (xs ys : List ℚ) (s : ℝ → ℝ) : Prop :=
  ∃ p : Nat → Polynomial ℝ,
    (∀ i, (p i).natDegree ≤ 3) ∧
    (∀ i, i + 1 < xs.length → ∀ t, knot xs i ≤ t → t ≤ knot xs (i + 1) → s t = (p i).eval t) ∧
    (∀ i, i < xs.length → s (knot xs i) = knot ys i) ∧
    (∀ i, i + 2 < xs.length →
      (p i).derivative.eval (knot xs (i + 1)) = (p (i + 1)).derivative.eval (knot xs (i + 1)) ∧
      (p i).derivative.derivative.eval (knot xs (i + 1)) =
        (p (i + 1)).derivative.derivative.eval (knot xs (i + 1))) ∧
    p 0 = p 1 ∧ p (xs.length - 3) = p (xs.length - 2)

open Classical in
/-- `interp1d(xs, ys, kind="cubic")` (k_R_relation.py L237-L240) inside the range of `xs`: the cubic spline. -/
noncomputable def cubicSpline : Spline := fun xs ys =>
  if h : ∃ s, IsCubicSpline xs ys s then Classical.choose h else fun _ => 0

end Verif.KR
