import Verif.Float

/-!
# Loops, array access and numpy primitives
-/

namespace Verif

/-- `for i in range(lo, hi): s = f i s` -/
def forRange {σ : Type} (lo hi : Nat) (s : σ) (f : Nat → σ → σ) : σ :=
  (List.range' lo (hi - lo)).foldl (fun s i => f i s) s

theorem forRange_empty {σ : Type} {lo hi : Nat} (s : σ) (f : Nat → σ → σ) (h : hi ≤ lo) :
    forRange lo hi s f = s := by
  unfold forRange
  rw [Nat.sub_eq_zero_of_le h]; rfl

theorem forRange_succ {σ : Type} {lo hi : Nat} (s : σ) (f : Nat → σ → σ) (h : lo ≤ hi) :
    forRange lo (hi + 1) s f = f hi (forRange lo hi s f) := by
  unfold forRange
  rw [Nat.succ_sub h, List.range'_1_concat, List.foldl_append]
  simp only [List.foldl_cons, List.foldl_nil]
  congr 1
  omega

/-- Loop invariant rule. -/
theorem forRange_induct {σ : Type} {lo hi : Nat} {s : σ} {f : Nat → σ → σ}
    (P : Nat → σ → Prop) (hle : lo ≤ hi) (h0 : P lo s)
    (step : ∀ i s, lo ≤ i → i < hi → P i s → P (i + 1) (f i s)) :
    P hi (forRange lo hi s f) := by
  induction hi, hle using Nat.le_induction with
  | base => rw [forRange_empty _ _ (Nat.le_refl lo)]; exact h0
  | succ m hm ih =>
    rw [forRange_succ _ _ hm]
    exact step m _ hm (Nat.lt_succ_self m)
      (ih fun i s h1 h2 h3 => step i s h1 (Nat.lt_succ_of_lt h2) h3)

/-- Two loops whose bodies agree give the same result. -/
theorem forRange_congr {σ : Type} {lo hi : Nat} {s : σ} {f g : Nat → σ → σ}
    (h : ∀ i s, lo ≤ i → i < hi → f i s = g i s) :
    forRange lo hi s f = forRange lo hi s g := by
  rcases Nat.le_total hi lo with hle | hle
  · rw [forRange_empty _ _ hle, forRange_empty _ _ hle]
  · induction hi, hle using Nat.le_induction with
    | base => rw [forRange_empty _ _ (Nat.le_refl lo), forRange_empty _ _ (Nat.le_refl lo)]
    | succ m hm ih =>
      rw [forRange_succ _ _ hm, forRange_succ _ _ hm, h m _ hm (Nat.lt_succ_self m),
        ih fun i s h1 h2 => h i s h1 (Nat.lt_succ_of_lt h2)]

/-- Loop with exceptions: the first error ends it. -/
def forRangeM {σ : Type} (lo hi : Nat) (s : σ) (f : Nat → σ → Except Err σ) : Except Err σ :=
  (List.range' lo (hi - lo)).foldlM (fun s i => f i s) s

variable {F : Type}

/-- Element read `xs[i]` of a float array, for `i` in range. -/
def rd [PyFloat F] (xs : List F) (i : Nat) : F := xs.getD i PyFloat.nan

/-- Element read of a boolean array, for `i` in range. -/
def rdB (xs : List Bool) (i : Nat) : Bool := xs.getD i false

theorem rd_of_getElem? [PyFloat F] {xs : List F} {i : Nat} {x : F} (h : xs[i]? = some x) :
    rd xs i = x := by
  simp [rd, List.getD_eq_getElem?_getD, h]

theorem getElem?_eq_rd [PyFloat F] {xs : List F} {i : Nat} (h : i < xs.length) :
    xs[i]? = some (rd xs i) := by
  simp [rd, List.getD_eq_getElem?_getD, h]

theorem getElem?_eq_rdB {xs : List Bool} {i : Nat} (h : i < xs.length) :
    xs[i]? = some (rdB xs i) := by
  simp [rdB, List.getD_eq_getElem?_getD, h]

theorem rd_set_self [PyFloat F] {xs : List F} {i : Nat} (x : F) (h : i < xs.length) :
    rd (xs.set i x) i = x := by
  simp [rd, List.getD_eq_getElem?_getD, h]

theorem rd_set_ne [PyFloat F] {xs : List F} {i j : Nat} (x : F) (h : i ≠ j) :
    rd (xs.set i x) j = rd xs j := by
  simp [rd, List.getD_eq_getElem?_getD, h]

theorem rd_map_fin {K : Type} [Field K] [LinearOrder K] {xs : List K} {i : Nat}
    (h : i < xs.length) : rd (xs.map Fl.fin) i = Fl.fin xs[i] := by
  simp [rd, List.getD_eq_getElem?_getD, h]

/-- `xs[a:b]` for `0 <= a` -/
def slice {α : Type} (xs : List α) (a b : Nat) : List α := (xs.take b).drop a

/-- `xs[a:a+len(ys)] = ys`, for a slice inside the array -/
def setSlice {α : Type} (xs : List α) (a : Nat) (ys : List α) : List α :=
  xs.take a ++ ys ++ xs.drop (a + ys.length)

theorem length_setSlice {α : Type} {xs : List α} {a : Nat} {ys : List α}
    (h : a + ys.length ≤ xs.length) : (setSlice xs a ys).length = xs.length := by
  simp [setSlice]; omega

theorem getElem?_setSlice {α : Type} {xs : List α} {a : Nat} {ys : List α}
    (h : a + ys.length ≤ xs.length) (i : Nat) :
    (setSlice xs a ys)[i]? =
      if a ≤ i ∧ i < a + ys.length then ys[i - a]? else xs[i]? := by
  unfold setSlice
  rw [List.getElem?_append, List.getElem?_append]
  simp only [List.length_append, List.length_take]
  rw [Nat.min_eq_left (by omega : a ≤ xs.length)]
  by_cases h1 : i < a
  · rw [if_pos (by omega), if_pos h1, if_neg (by omega), List.getElem?_take_of_lt h1]
  · by_cases h2 : i < a + ys.length
    · rw [if_pos h2, if_neg h1, if_pos ⟨by omega, h2⟩]
    · rw [if_neg h2, if_neg (by omega), List.getElem?_drop]
      congr 1
      omega

/-- `a[: n] = v` style fill of the slice `[lo, hi)` with one value -/
def fillSlice {α : Type} (xs : List α) (lo hi : Nat) (v : α) : List α :=
  setSlice xs lo (List.replicate (hi - lo) v)

section numpy
variable [PyFloat F]

/-- Sum of a float array in index order, starting from `0.0`. -/
def fsum (xs : List F) : F := xs.foldl (· +ᶠ ·) (PyFloat.ofInt 0)

/-- `np.mean` as compiled by numba: sum divided by the number of elements. -/
def npMean (xs : List F) : F := fsum xs /ᶠ PyFloat.ofInt xs.length

/-- Python's `min(a, b)`: `b` if `b < a`, else `a`. -/
def pyMin (a b : F) : F := if b <ᶠ a then b else a

/-- `np.linspace(start, stop, num)` as compiled by numba: `start + i*step`
with the last element replaced by `stop`. -/
def linspace (start stop : F) (num : Nat) : List F :=
  let step := (stop -ᶠ start) /ᶠ PyFloat.ofInt ((num : Int) - 1)
  (List.range num).map fun i =>
    if num = 1 then start
    else if i + 1 = num then stop
    else start +ᶠ (PyFloat.ofInt i *ᶠ step)

/-- `bool(x)` for a float: NaN is truthy. -/
def truthy (x : F) : Bool := !(x ==ᶠ PyFloat.ofInt 0)

end numpy

theorem length_linspace [PyFloat F] (a b : F) (n : Nat) : (linspace a b n).length = n := by
  simp [linspace]

/-- `np.roll(xs, 1)` -/
def rollRight {α : Type} (xs : List α) : List α :=
  xs.drop (xs.length - 1) ++ xs.take (xs.length - 1)

/-- `np.roll(xs, -1)` -/
def rollLeft {α : Type} (xs : List α) : List α := xs.drop 1 ++ xs.take 1

end Verif

namespace Verif

theorem forRangeM_empty {σ : Type} {lo hi : Nat} (s : σ) (f : Nat → σ → Except Err σ)
    (h : hi ≤ lo) : forRangeM lo hi s f = .ok s := by
  unfold forRangeM
  rw [Nat.sub_eq_zero_of_le h]; rfl

theorem forRangeM_succ {σ : Type} {lo hi : Nat} (s : σ) (f : Nat → σ → Except Err σ)
    (h : lo ≤ hi) :
    forRangeM lo (hi + 1) s f = (forRangeM lo hi s f).bind (f hi) := by
  unfold forRangeM
  rw [Nat.succ_sub h, List.range'_1_concat, List.foldlM_append]
  have : lo + (hi - lo) = hi := by omega
  simp only [List.foldlM_cons, List.foldlM_nil, this, bind_pure]
  rfl

/-- A loop whose body never fails is the plain loop. -/
theorem forRangeM_pure {σ : Type} {lo hi : Nat} (s : σ) (f : Nat → σ → Except Err σ)
    (g : Nat → σ → σ) (h : ∀ i s, lo ≤ i → i < hi → f i s = .ok (g i s)) :
    forRangeM lo hi s f = .ok (forRange lo hi s g) := by
  rcases Nat.le_total hi lo with hle | hle
  · rw [forRangeM_empty _ _ hle, forRange_empty _ _ hle]
  · induction hi, hle using Nat.le_induction with
    | base => rw [forRangeM_empty _ _ (Nat.le_refl lo), forRange_empty _ _ (Nat.le_refl lo)]
    | succ m hm ih =>
      rw [forRangeM_succ _ _ hm, forRange_succ _ _ hm,
        ih fun i s h1 h2 => h i s h1 (Nat.lt_succ_of_lt h2)]
      exact h m _ hm (Nat.lt_succ_self m)

section
variable {F : Type} [PyFloat F]

/-- `np.minimum` on scalars: NaN wins. -/
def npMinimum (a b : F) : F := if isNaN a then a else if isNaN b then b else pyMin a b

/-- `np.maximum` on scalars: NaN wins. -/
def npMaximum (a b : F) : F :=
  if isNaN a then a else if isNaN b then b else if a <ᶠ b then b else a

/-- `xs.min()` of a non-empty array (NaN propagates); `numpy` raises on an empty one. -/
def npMin : List F → Except Err F
  | [] => .error .valueError
  | x :: xs => .ok (xs.foldl npMinimum x)

/-- `np.nanmean`: mean of the values that are not NaN, NaN if there is none (`0/0`). -/
def npNanmean (xs : List F) : F := npMean (xs.filter fun x => !(isNaN x))

end

end Verif
