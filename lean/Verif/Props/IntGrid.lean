import Verif.Model.IntGrid
import Verif.Props.Interpolator
import Verif.Props.Grid

/-!
# Property C159: interpolation onto grids of integers
-/

namespace Verif.Props
open Verif Verif.Idw Verif.IntGrid

/-- the test of interpolator.py L56 -/
theorem noNumber_iff (z : List (Fl ℝ)) : (z.filter fun v => !(PyFloat.isNaN v)).length = 0 ↔ ∀ v ∈ z, v = Fl.nan := by
  rw [List.length_eq_zero_iff, List.filter_eq_nil_iff]
  refine forall₂_congr fun v _ => ?_
  cases v <;> simp [PyFloat.isNaN, Fl.isNaN]

/-- **C159** Given grids, the one for x with integer elements: without any number among the values both interpolators raise
`ValueError` (C48 and C84: a grid full of NaN, if the elements are floats). The remembered tree of the IDW interpolator does not
change; the kriging interpolator has the new grids as attributes, but `zgrid`, `z` and `sigma` of earlier calls. -/
theorem C159_raises (xt yt : Dtype) (z : List (Fl ℝ)) (xg yg : Grid ℝ) (res : Option (Dtype × ℝ)) (hz : ∀ v ∈ z, v = Fl.nan) :
    (∀ (knn : Knn) (cfg : Config) (h : Heap (List ℝ)) (m : Option Memo) (x y : Src (List ℝ)),
      (x.get h).length = z.length → (y.get h).length = z.length →
      IntGrid.interpolate knn cfg h m xt x y z (some (.int, xg)) (some (yt, yg)) res = (.error .valueError, m)) ∧
    ∀ (ok : Kriging.PyKrige ℝ) (cfg : Kriging.Config) (d : Kriging.Dict ℝ) (a : Kriging.Attrs ℝ) (x y : List ℝ),
      x.length = z.length → y.length = z.length →
      krige ok cfg d a xt x y z (some (.int, xg)) (some (yt, yg)) res =
        (.error .valueError, { a with xgrid := some xg, ygrid := some yg }) := by
  have h0 := (noNumber_iff z).2 hz
  constructor
  · intro knn cfg h m x y h1 h2
    unfold IntGrid.interpolate
    rw [if_neg (by simp [h1, h2])]
    simp only [Option.map_some, parseGrid]
    rw [if_pos h0]
    rfl
  · intro ok cfg d a x y h1 h2
    unfold krige
    rw [if_neg (by simp [h1, h2])]
    simp only [Option.map_some, parseGrid]
    rw [if_pos h0]
    rfl

/-- **C159** In all other cases, that is if the grid for x has floats, or one of the values is a number, the types do not
matter: result and state are those of the calls with floats. -/
theorem C159_otherwise (xt : Dtype) (z : List (Fl ℝ)) (xgrid ygrid : Option (Dtype × Grid ℝ))
    (res : Option (Dtype × ℝ))
    (hok : gridDtype xt (xgrid.map (·.1)) (ygrid.map (·.1)) (res.map (·.1)) = .float ∨ ∃ v ∈ z, v ≠ Fl.nan) :
    (∀ (knn : Knn) (cfg : Config) (h : Heap (List ℝ)) (m : Option Memo) (x y : Src (List ℝ)),
      IntGrid.interpolate knn cfg h m xt x y z xgrid ygrid res =
        Idw.interpolate knn cfg h m x y z (xgrid.map (·.2)) (ygrid.map (·.2)) (res.map (·.2))) ∧
    ∀ (ok : Kriging.PyKrige ℝ) (cfg : Kriging.Config) (d : Kriging.Dict ℝ) (a : Kriging.Attrs ℝ) (x y : List ℝ),
      krige ok cfg d a xt x y z xgrid ygrid res =
        Kriging.call ok cfg d a x y z (xgrid.map (·.2)) (ygrid.map (·.2)) (res.map (·.2)) := by
  have key : (z.filter fun v => !(PyFloat.isNaN v)).length = 0 →
      gridDtype xt (xgrid.map (·.1)) (ygrid.map (·.1)) (res.map (·.1)) = .float := by
    intro h0
    rcases hok with h | ⟨v, hv, hn⟩
    · exact h
    · exact absurd ((noNumber_iff z).1 h0 v hv) hn
  constructor
  · intro knn cfg h m x y
    unfold IntGrid.interpolate Idw.interpolate
    by_cases h1 : (x.get h).length ≠ (y.get h).length ∨ (y.get h).length ≠ z.length
    · rw [if_pos h1, if_pos h1]
    · rw [if_neg h1, if_neg h1]
      cases parseGrid (x.get h) (y.get h) (xgrid.map (·.2)) (ygrid.map (·.2)) (res.map (·.2)) with
      | error e => rfl
      | ok g =>
        dsimp only
        by_cases h2 : (z.filter fun v => !(PyFloat.isNaN v)).length = 0
        · rw [if_pos h2, if_pos h2, key h2]; rfl
        · rw [if_neg h2, if_neg h2]; rfl
  · intro ok cfg d a x y
    unfold krige Kriging.call
    by_cases h1 : x.length ≠ y.length ∨ y.length ≠ z.length
    · rw [if_pos h1, if_pos h1]
    · rw [if_neg h1, if_neg h1]
      cases parseGrid x y (xgrid.map (·.2)) (ygrid.map (·.2)) (res.map (·.2)) with
      | error e => rfl
      | ok g =>
        dsimp only
        by_cases h2 : (z.filter fun v => !(PyFloat.isNaN v)).length = 0
        · rw [if_pos h2, if_pos h2, key h2]; rfl
        · rw [if_neg h2, if_neg h2]
          generalize Kriging.interpolFunc ok cfg d _ x y z _ _ = r
          rcases r with ⟨_ | _, _⟩ <;> rfl

/-- **C159** Without grids the result depends on the types of the coordinates and of the resolution: a grid generated from
integer coordinates with an integer resolution has integers, so values without any number raise `ValueError`; if the
coordinates or the resolution are floats the result is a grid full of NaN that covers the points (`CoversAxis`, C49). -/
theorem C159_generated (xt rt : Dtype) (knn : Knn) (cfg : Config) (h : Heap (List ℝ)) (m : Option Memo) (x y : Src (List ℝ))
    (z : List (Fl ℝ)) (hne : z ≠ []) (r : ℝ) (hr : 0 < r) (h1 : (x.get h).length = z.length)
    (h2 : (y.get h).length = z.length) (hz : ∀ v ∈ z, v = Fl.nan) :
    (xt = .int ∧ rt = .int →
      (IntGrid.interpolate knn cfg h m xt x y z none none (some (rt, r))).1 = .error .valueError) ∧
    (¬(xt = .int ∧ rt = .int) → ∃ xc yc, CoversAxis (x.get h) r xc ∧ CoversAxis (y.get h) r yc ∧
      (IntGrid.interpolate knn cfg h m xt x y z none none (some (rt, r))).1 =
        .ok (List.replicate yc.length (List.replicate xc.length .nan))) := by
  have h0 := (noNumber_iff z).2 hz
  have hx : x.get h ≠ [] := by
    intro hc; rw [hc] at h1; exact hne (List.length_eq_zero_iff.1 h1.symm)
  have hy : y.get h ≠ [] := by
    intro hc; rw [hc] at h2; exact hne (List.length_eq_zero_iff.1 h2.symm)
  obtain ⟨xc, yc, e, cx, cy⟩ := C49_generated (x.get h) (y.get h) hx hy none none (Or.inl rfl) r hr
  have hd : gridDtype xt none none (some rt) = if xt = .int ∧ rt = .int then .int else .float := by
    simp [gridDtype]
  constructor
  · intro hi
    unfold IntGrid.interpolate
    rw [if_neg (by simp [h1, h2])]
    simp only [Option.map_some, Option.map_none, e]
    rw [if_pos h0, hd, if_pos hi]
    rfl
  · intro hi
    refine ⟨xc, yc, cx, cy, ?_⟩
    unfold IntGrid.interpolate
    rw [if_neg (by simp [h1, h2])]
    simp only [Option.map_some, Option.map_none, e]
    rw [if_pos h0, hd, if_neg hi]
    simp [nanGrid, List.map_const']

/-- Something that happens to an interpolator: its user overwrites an array, or calls it with typed arguments. -/
inductive TypedOp
  | write (r : Nat) (xs : List ℝ)
  | call (xt : Dtype) (x y : Src (List ℝ)) (z : List (Fl ℝ)) (xg yg : Option (Dtype × Grid ℝ)) (res : Option (Dtype × ℝ))

/-- results of the calls of a history on one interpolator -/
noncomputable def typedRun (knn : Knn) (cfg : Config) :
    Heap (List ℝ) → Option Memo → List TypedOp → List (Except Err (Grid (Fl ℝ)))
  | _, _, [] => []
  | h, m, .write r xs :: ops => typedRun knn cfg (heapWrite h r xs) m ops
  | h, m, .call xt x y z xg yg res :: ops =>
    (IntGrid.interpolate knn cfg h m xt x y z xg yg res).1 ::
      typedRun knn cfg h (IntGrid.interpolate knn cfg h m xt x y z xg yg res).2 ops

/-- results if every call used a new interpolator -/
noncomputable def typedFresh (knn : Knn) (cfg : Config) :
    Heap (List ℝ) → List TypedOp → List (Except Err (Grid (Fl ℝ)))
  | _, [] => []
  | h, .write r xs :: ops => typedFresh knn cfg (heapWrite h r xs) ops
  | h, .call xt x y z xg yg res :: ops =>
    (IntGrid.interpolate knn cfg h none xt x y z xg yg res).1 :: typedFresh knn cfg h ops

/-- a typed call is the call with floats, or leaves the state alone and does not depend on it -/
theorem typed_or (xt : Dtype) (z : List (Fl ℝ)) (xgrid ygrid : Option (Dtype × Grid ℝ)) (res : Option (Dtype × ℝ))
    (knn : Knn) (cfg : Config) (h : Heap (List ℝ)) (x y : Src (List ℝ)) :
    (∀ m, IntGrid.interpolate knn cfg h m xt x y z xgrid ygrid res =
        Idw.interpolate knn cfg h m x y z (xgrid.map (·.2)) (ygrid.map (·.2)) (res.map (·.2))) ∨
    ∃ r, ∀ m, IntGrid.interpolate knn cfg h m xt x y z xgrid ygrid res = (r, m) := by
  by_cases h0 : (z.filter fun v => !(PyFloat.isNaN v)).length = 0
  · refine Or.inr ?_
    unfold IntGrid.interpolate
    by_cases h1 : (x.get h).length ≠ (y.get h).length ∨ (y.get h).length ≠ z.length
    · simp only [if_pos h1]; exact ⟨_, fun m => rfl⟩
    · simp only [if_neg h1]
      cases parseGrid (x.get h) (y.get h) (xgrid.map (·.2)) (ygrid.map (·.2)) (res.map (·.2)) with
      | error e => exact ⟨_, fun m => rfl⟩
      | ok g => simp only [if_pos h0]; exact ⟨_, fun m => rfl⟩
  · refine Or.inl fun m => (C159_otherwise xt z xgrid ygrid res (Or.inr ?_)).1 knn cfg h m x y
    by_contra hc
    push Not at hc
    exact h0 ((noNumber_iff z).2 hc)

/-- **C159** Histories: each call returns what a new interpolator would return, also after calls that raised because of an
integer grid, and for calls with changing types. (As in C48, with `exclude_nan=False` for histories without writes.) -/
theorem C159_history (knn : Knn) (cfg : Config) (h : Heap (List ℝ)) (ops : List TypedOp)
    (hok : cfg.excludeNan = true ∨ ∀ r xs, TypedOp.write r xs ∉ ops) :
    typedRun knn cfg h none ops = typedFresh knn cfg h ops := by
  have key : ∀ (ops : List TypedOp) (h : Heap (List ℝ)) (m : Option Memo), MemoOk knn cfg h m →
      ((cfg.excludeNan = true ∧ MemoOwn m) ∨ ∀ r xs, TypedOp.write r xs ∉ ops) →
      typedRun knn cfg h m ops = typedFresh knn cfg h ops := by
    intro ops
    induction ops with
    | nil => intros; rfl
    | cons op ops ih =>
      intro h m hm hc
      cases op with
      | write r xs =>
        rcases hc with ⟨hx, ho⟩ | hc
        · refine ih _ _ ?_ (Or.inl ⟨hx, ho⟩)
          intro k hk
          obtain ⟨⟨a, ha⟩, ⟨b, hb⟩⟩ := ho k hk
          obtain ⟨p, q⟩ := hm k hk
          refine ⟨?_, q⟩
          rw [p, ha, hb]
          rfl
        · exact absurd (List.mem_cons_self ..) (hc r xs)
      | call xt x y z xg yg res =>
        have hc' : ∀ m', (cfg.excludeNan = true → MemoOwn m → MemoOwn m') →
            ((cfg.excludeNan = true ∧ MemoOwn m') ∨ ∀ r xs, TypedOp.write r xs ∉ ops) := by
          intro m' hm'
          rcases hc with ⟨hx, ho⟩ | hc
          · exact Or.inl ⟨hx, hm' hx ho⟩
          · exact Or.inr fun r xs hin => hc r xs (List.mem_cons_of_mem _ hin)
        simp only [typedRun, typedFresh]
        rcases typed_or xt z xg yg res knn cfg h x y with he | ⟨v, hv⟩
        · obtain ⟨p, q⟩ := interpolate_ok hm x y z (xg.map (·.2)) (yg.map (·.2)) (res.map (·.2))
          rw [he, he, p, ih _ _ q (hc' _ fun hx ho => interpolate_own hx ho _ _ _ _ _ _)]
        · rw [hv, hv, ih _ _ hm (hc' _ fun _ ho => ho)]
  exact key ops h none (fun k hk => by cases hk) (by
    rcases hok with hx | hw
    · exact Or.inl ⟨hx, fun k hk => by cases hk⟩
    · exact Or.inr hw)

/-- two points with integer coordinates, both values missing, spacing 1: raises; with spacing 1.0 it does not -/
example (knn : Knn) : (IntGrid.interpolate knn ⟨8, 2, true, none⟩ (fun _ => []) none .int (.own [0, 3]) (.own [0, 4])
      [.nan, .nan] none none (some (.int, 1))).1 = .error .valueError ∧
    (IntGrid.interpolate knn ⟨8, 2, true, none⟩ (fun _ => []) none .int (.own [0, 3]) (.own [0, 4])
      [.nan, .nan] none none (some (.float, 1))).1 ≠ .error .valueError := by
  have g := fun rt => C159_generated .int rt knn ⟨8, 2, true, none⟩ (fun _ => []) none (.own [0, 3])
    (.own [0, 4]) [.nan, .nan] (by simp) 1 one_pos rfl rfl (by simp)
  refine ⟨(g .int).1 ⟨rfl, rfl⟩, ?_⟩
  obtain ⟨xc, yc, _, _, e⟩ := (g .float).2 (by simp)
  rw [e]
  simp

/-- **C49** A call of either interpolator without both grids, but with a positive resolution, is the call with grids generated from
its coordinates: rows of `xgrid` are an axis over x, columns of `ygrid` an axis over y, each as in `C49_generated`. The result is
the same, and so is what the interpolator remembers. -/
theorem C49_calls (xs ys : List ℝ) (hx : xs ≠ []) (hy : ys ≠ []) (xg yg : Option (Grid ℝ)) (hmiss : xg = none ∨ yg = none)
    (r : ℝ) (hr : 0 < r) (z : List (Fl ℝ)) :
    ∃ xc yc, CoversAxis xs r xc ∧ CoversAxis ys r yc ∧
      (∀ (knn : Knn) (cfg : Config) (h : Heap (List ℝ)) (m : Option Memo) (x y : Src (List ℝ)), x.get h = xs → y.get h = ys →
        Idw.interpolate knn cfg h m x y z xg yg (some r) =
          Idw.interpolate knn cfg h m x y z (some (yc.map fun _ => xc)) (some (yc.map fun c => xc.map fun _ => c)) none) ∧
      ∀ (ok : Kriging.PyKrige ℝ) (cfg : Kriging.Config) (d : Kriging.Dict ℝ) (a : Kriging.Attrs ℝ),
        Kriging.call ok cfg d a xs ys z xg yg (some r) =
          Kriging.call ok cfg d a xs ys z (some (yc.map fun _ => xc)) (some (yc.map fun c => xc.map fun _ => c)) none := by
  obtain ⟨xc, yc, h1, h2, h3⟩ := C49_generated xs ys hx hy xg yg hmiss r hr
  have hg : ∀ xg' yg', parseGrid xs ys (some xg') (some yg') none = .ok (xg', yg') := fun _ _ => rfl
  refine ⟨xc, yc, h2, h3, ?_, ?_⟩
  · rintro knn cfg h m x y rfl rfl
    unfold Idw.interpolate
    rw [h1, hg]
  · intro ok cfg d a
    unfold Kriging.call
    rw [h1, hg]

/-- **C49** Without a resolution a call with a missing grid raises `ValueError`, and nothing changes. -/
theorem C49_calls_error (xg yg : Option (Grid ℝ)) (hmiss : xg = none ∨ yg = none) (z : List (Fl ℝ)) :
    (∀ (knn : Knn) (cfg : Config) (h : Heap (List ℝ)) (m : Option Memo) (x y : Src (List ℝ)), (x.get h).length = z.length →
      (y.get h).length = z.length → Idw.interpolate knn cfg h m x y z xg yg none = (.error .valueError, m)) ∧
    ∀ (ok : Kriging.PyKrige ℝ) (cfg : Kriging.Config) (d : Kriging.Dict ℝ) (a : Kriging.Attrs ℝ) (x y : List ℝ),
      x.length = z.length → y.length = z.length → Kriging.call ok cfg d a x y z xg yg none = (.error .valueError, a) := by
  constructor
  · intro knn cfg h m x y h1 h2
    unfold Idw.interpolate
    rw [if_neg (by omega), (C49_given_or_error _ _ none).2.1 xg yg hmiss]
  · intro ok cfg d a x y h1 h2
    unfold Kriging.call
    rw [if_neg (by omega), (C49_given_or_error _ _ none).2.1 xg yg hmiss]

/-- two points, only a grid for y, resolution 1/2 -/
example : ∃ xc yc, CoversAxis ([0, 1] : List ℝ) (1 / 2) xc ∧ CoversAxis ([5, 6] : List ℝ) (1 / 2) yc := by
  obtain ⟨xc, yc, h1, h2, _⟩ := C49_calls [0, 1] [5, 6] (by simp) (by simp) none (some [[0]]) (Or.inl rfl) (1 / 2) (by norm_num)
    [Fl.fin 1, Fl.nan]
  exact ⟨xc, yc, h1, h2⟩

end Verif.Props
