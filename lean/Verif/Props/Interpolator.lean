import Verif.Props.Idw

/-!
# Properties C48, C70: the IDW interpolator object
-/

namespace Verif.Props
open Verif Verif.Idw

/-- Something that happens to an interpolator and the arrays its user holds: the user overwrites an
array, or calls the interpolator. -/
inductive InterpOp
  | write (r : Nat) (xs : List ℝ)
  | call (x y : Src (List ℝ)) (z : List (Fl ℝ)) (xg yg : Option (Grid ℝ)) (res : Option ℝ)

/-- overwriting an array -/
def heapWrite {α : Type} (h : Heap α) (r : Nat) (v : α) : Heap α :=
  fun i => if i = r then v else h i

/-- results of the calls of a history on one interpolator -/
noncomputable def interpRun (knn : Knn) (cfg : Config) :
    Heap (List ℝ) → Option Memo → List InterpOp → List (Except Err (Grid (Fl ℝ)))
  | _, _, [] => []
  | h, m, .write r xs :: ops => interpRun knn cfg (heapWrite h r xs) m ops
  | h, m, .call x y z xg yg res :: ops =>
    (interpolate knn cfg h m x y z xg yg res).1 ::
      interpRun knn cfg h (interpolate knn cfg h m x y z xg yg res).2 ops

/-- results if every call used a new interpolator -/
noncomputable def freshRun (knn : Knn) (cfg : Config) :
    Heap (List ℝ) → List InterpOp → List (Except Err (Grid (Fl ℝ)))
  | _, [] => []
  | h, .write r xs :: ops => freshRun knn cfg (heapWrite h r xs) ops
  | h, .call x y z xg yg res :: ops =>
    (interpolate knn cfg h none x y z xg yg res).1 :: freshRun knn cfg h ops

/-- The remembered tree belongs to the remembered coordinates, and its stored neighbours to the
configured maximum distance. -/
def MemoOk (knn : Knn) (cfg : Config) (h : Heap (List ℝ)) (m : Option Memo) : Prop :=
  ∀ k, m = some k → k.tree.X = (k.x.get h).zip (k.y.get h) ∧
    Consistent47 knn (fun _ => []) cfg.maxDistance k.tree

theorem pickTree_ok {knn : Knn} {cfg : Config} {h : Heap (List ℝ)} {m : Option Memo}
    (hm : MemoOk knn cfg h m) (x y : Src (List ℝ)) :
    (pickTree h m x y).tree.X = (x.get h).zip (y.get h) ∧
      MemoOk knn cfg h (some (pickTree h m x y)) := by
  have hnew : MemoOk knn cfg h (some ⟨x, y, Tree.new ((x.get h).zip (y.get h))⟩) := by
    intro k hk
    simp only [Option.some.injEq] at hk
    subst hk
    exact ⟨rfl, fun c hc => by cases hc⟩
  cases m with
  | none => exact ⟨rfl, hnew⟩
  | some k =>
    unfold pickTree
    dsimp only
    split_ifs with hc
    · refine ⟨?_, hm⟩
      rw [(hm k rfl).1, hc.1, hc.2]
    · exact ⟨rfl, hnew⟩

theorem interpolFunc_ok {knn : Knn} {cfg : Config} {h : Heap (List ℝ)} {m : Option Memo}
    (hm : MemoOk knn cfg h m) (x y : Src (List ℝ)) (z : List (Fl ℝ)) (xi yi : List ℝ) :
    (interpolFunc knn cfg h m x y z xi yi).1 = (interpolFunc knn cfg h none x y z xi yi).1 ∧
      MemoOk knn cfg h (interpolFunc knn cfg h m x y z xi yi).2 := by
  unfold interpolFunc
  dsimp only
  have h0 : MemoOk knn cfg h none := by intro k hk; cases hk
  obtain ⟨a1, a2⟩ := pickTree_ok hm (usedPoints cfg h x y z).1 (usedPoints cfg h x y z).2.1
  obtain ⟨b1, b2⟩ := pickTree_ok h0 (usedPoints cfg h x y z).1 (usedPoints cfg h x y z).2.1
  obtain ⟨c1, c2, c3⟩ := call_consistent (a2 _ rfl).2 (.batch (.own (xi.zip yi)))
    ⟨(usedPoints cfg h x y z).2.2, cfg.nnear, 0, cfg.p, cfg.maxDistance⟩ rfl
  obtain ⟨d1, _, _⟩ := call_consistent (b2 _ rfl).2 (.batch (.own (xi.zip yi)))
    ⟨(usedPoints cfg h x y z).2.2, cfg.nnear, 0, cfg.p, cfg.maxDistance⟩ rfl
  rw [c1, d1, a1, b1]
  refine ⟨rfl, ?_⟩
  intro k hk
  simp only [Option.some.injEq] at hk
  subst hk
  exact ⟨by dsimp only; rw [c2]; exact (a2 _ rfl).1, c3⟩

theorem interpolate_ok {knn : Knn} {cfg : Config} {h : Heap (List ℝ)} {m : Option Memo}
    (hm : MemoOk knn cfg h m) (x y : Src (List ℝ)) (z : List (Fl ℝ))
    (xg yg : Option (Grid ℝ)) (res : Option ℝ) :
    (interpolate knn cfg h m x y z xg yg res).1 =
        (interpolate knn cfg h none x y z xg yg res).1 ∧
      MemoOk knn cfg h (interpolate knn cfg h m x y z xg yg res).2 := by
  unfold interpolate
  by_cases h1 : (x.get h).length ≠ (y.get h).length ∨ (y.get h).length ≠ z.length
  · rw [if_pos h1, if_pos h1]; exact ⟨rfl, hm⟩
  · rw [if_neg h1, if_neg h1]
    cases hp : parseGrid (x.get h) (y.get h) xg yg res with
    | error e => exact ⟨rfl, hm⟩
    | ok g =>
      dsimp only
      by_cases h2 : (z.filter fun v => !(PyFloat.isNaN v)).length = 0
      · rw [if_pos h2, if_pos h2]; exact ⟨rfl, hm⟩
      · rw [if_neg h2, if_neg h2]
        obtain ⟨e1, e2⟩ := interpolFunc_ok hm x y z g.1.flatten g.2.flatten
        dsimp only
        rw [e1]
        exact ⟨rfl, e2⟩

/-- what is remembered does not refer to the caller's arrays -/
def MemoOwn (m : Option Memo) : Prop :=
  ∀ k, m = some k → (∃ xs, k.x = .own xs) ∧ ∃ ys, k.y = .own ys

theorem interpolate_own {knn : Knn} {cfg : Config} (hcfg : cfg.excludeNan = true)
    {h : Heap (List ℝ)} {m : Option Memo} (hm : MemoOwn m) (x y : Src (List ℝ))
    (z : List (Fl ℝ)) (xg yg : Option (Grid ℝ)) (res : Option ℝ) :
    MemoOwn (interpolate knn cfg h m x y z xg yg res).2 := by
  unfold interpolate
  by_cases h1 : (x.get h).length ≠ (y.get h).length ∨ (y.get h).length ≠ z.length
  · rw [if_pos h1]; exact hm
  · rw [if_neg h1]
    cases hp : parseGrid (x.get h) (y.get h) xg yg res with
    | error e => exact hm
    | ok g =>
      dsimp only
      by_cases h2 : (z.filter fun v => !(PyFloat.isNaN v)).length = 0
      · rw [if_pos h2]; exact hm
      · rw [if_neg h2]
        dsimp only
        unfold interpolFunc usedPoints
        rw [if_pos hcfg]
        intro k hk
        simp only [Option.some.injEq] at hk
        subst hk
        dsimp only
        cases m with
        | none => exact ⟨⟨_, rfl⟩, ⟨_, rfl⟩⟩
        | some k =>
          unfold pickTree
          dsimp only
          split_ifs with hc
          · exact hm k rfl
          · exact ⟨⟨_, rfl⟩, ⟨_, rfl⟩⟩

/-- **C48** For every history of calls on one interpolator (changing points, values, NaN patterns
and grids), each call returns what a new interpolator would return. With `exclude_nan=True` (the
default) this holds even if the user overwrites the passed arrays between calls; with
`exclude_nan=False` it holds for histories without such writes. -/
theorem C48_history (knn : Knn) (cfg : Config) (h : Heap (List ℝ)) (ops : List InterpOp)
    (hok : cfg.excludeNan = true ∨ ∀ r xs, InterpOp.write r xs ∉ ops) :
    interpRun knn cfg h none ops = freshRun knn cfg h ops := by
  have gen : ∀ (h : Heap (List ℝ)) (m : Option Memo), MemoOk knn cfg h m →
      (cfg.excludeNan = true → MemoOwn m) →
      interpRun knn cfg h m ops = freshRun knn cfg h ops := by
    induction ops with
    | nil => intro h m _ _; rfl
    | cons op ops ih =>
      have hok' : cfg.excludeNan = true ∨ ∀ r xs, InterpOp.write r xs ∉ ops := by
        rcases hok with h | h
        · exact Or.inl h
        · exact Or.inr fun r xs hc => h r xs (by simp [hc])
      intro h m hm hown
      cases op with
      | write r xs =>
        rcases hok with hc | hc
        · rw [interpRun, freshRun]
          apply ih hok' _ _ _ hown
          intro k hk
          obtain ⟨⟨xs', hx⟩, ⟨ys', hy⟩⟩ := hown hc k hk
          have := hm k hk
          rw [hx, hy] at this ⊢
          exact this
        · exact absurd (by simp) (hc r xs)
      | call x y z xg yg res =>
        obtain ⟨e1, e2⟩ := interpolate_ok hm x y z xg yg res
        rw [interpRun, freshRun, e1, ih hok' _ _ e2 fun hc => interpolate_own hc (hown hc) _ _ _ _ _ _]
  exact gen h none (by intro k hk; cases hk) (fun _ => by intro k hk; cases hk)

/-- **C48** Data without any number give a grid full of NaN, of the shape of `xgrid`. -/
theorem C48_all_nan (knn : Knn) (cfg : Config) (h : Heap (List ℝ)) (m : Option Memo)
    (x y : Src (List ℝ)) (z : List (Fl ℝ)) (xg yg : Grid ℝ) (res : Option ℝ)
    (h1 : (x.get h).length = z.length) (h2 : (y.get h).length = z.length)
    (hz : ∀ v ∈ z, v = Fl.nan) :
    (interpolate knn cfg h m x y z (some xg) (some yg) res).1 =
      .ok (xg.map fun r => List.replicate r.length .nan) := by
  unfold interpolate
  rw [if_neg (by rw [h1, h2]; simp)]
  have hp : parseGrid (x.get h) (y.get h) (some xg) (some yg) res = .ok (xg, yg) := rfl
  rw [hp]
  dsimp only
  rw [if_pos (by
    rw [List.length_eq_zero_iff, List.filter_eq_nil_iff]
    intro v hv
    rw [hz v hv]
    simp)]
  simp only [List.map_const']

theorem reshape_get {α β : Type} : ∀ (g : List (List α)) (zi : List β),
    zi.length = g.flatten.length →
    (reshape g zi).map List.length = g.map List.length ∧ (reshape g zi).flatten = zi
  | [], zi, h => by
    have : zi = [] := by simpa using h
    subst this
    exact ⟨rfl, rfl⟩
  | r :: rs, zi, h => by
    rw [List.flatten_cons, List.length_append] at h
    obtain ⟨e1, e2⟩ := reshape_get rs (zi.drop r.length) (by rw [List.length_drop]; omega)
    refine ⟨?_, ?_⟩
    · rw [reshape, List.map_cons, List.map_cons, e1, List.length_take]
      congr 1
      omega
    · rw [reshape, List.flatten_cons, e2, List.take_append_drop]

theorem select_mem_sublist {α β : Type} (f : α → β) (xs : List α) (mask : List Bool) :
    KR.select (xs.map f) mask = (KR.select xs mask).map f := by
  unfold KR.select
  rw [List.zip_map_left, List.filter_map, List.map_map, List.map_map]
  rfl

theorem select_own_mask {α : Type} (f : α → Bool) (xs : List α) :
    KR.select xs (xs.map f) = xs.filter f := by
  unfold KR.select
  induction xs with
  | nil => rfl
  | cons a l ih =>
    rw [List.map_cons, List.zip_cons_cons, List.filter_cons, List.filter_cons]
    cases f a <;> simp [ih]

/-- **C48** What a call on a new interpolator computes, and by `C48_history` any later call (`exclude_nan`,
given grids of equal shape): the result has the shape of the grid, and each cell is the inverse
distance value (see C46) of the points with a number as value, seen from the cell's coordinates. -/
theorem C48_value {knn : Knn} (hk : IsKnn knn) (cfg : Config) (hcfg : cfg.excludeNan = true)
    (hn : 1 < cfg.nnear) (h : Heap (List ℝ))
    (pts : List (Pt × Fl ℝ)) (xg yg : Grid ℝ)
    (hshape : xg.map List.length = yg.map List.length) (hne : xg.flatten ≠ [])
    (good : List (Pt × ℝ)) (hgood : (pts.filter fun e => !(isNaN e.2)) =
      good.map fun e => (e.1, Fl.fin e.2)) (hne' : good ≠ []) (res : Option ℝ) :
    ∃ zg, (interpolate knn cfg h none (.own (pts.map (·.1.1))) (.own (pts.map (·.1.2)))
        (pts.map (·.2)) (some xg) (some yg) res).1 = .ok zg ∧
      zg.map List.length = xg.map List.length ∧
      ∀ j : Nat, ∀ a b v, xg.flatten[j]? = some a → yg.flatten[j]? = some b →
        zg.flatten[j]? = some v →
        ∃ S, IdwIs (good.map (·.1)) (good.map (·.2)) (a, b) cfg.maxDistance cfg.nnear.toNat cfg.p
          v S := by
  have hlen : xg.flatten.length = yg.flatten.length := by
    rw [List.length_flatten, List.length_flatten, hshape]
  have hzlen : (xg.flatten.zip yg.flatten).length = xg.flatten.length := by
    rw [List.length_zip, hlen, min_self]
  have hzne : xg.flatten.zip yg.flatten ≠ [] := by
    intro e
    apply hne
    rw [← List.length_eq_zero_iff, ← hzlen, e]
    rfl
  obtain ⟨vs, hv1, hv2, hv3⟩ := C46_value hk (good.map (·.1)) (good.map (·.2)) (by simp)
    (xg.flatten.zip yg.flatten) hzne cfg.nnear hn cfg.p cfg.maxDistance (fun _ => [])
  have hsel : ∀ {β : Type} (f : Pt × Fl ℝ → β), KR.select (pts.map f)
      ((pts.map (·.2)).map fun v => !(PyFloat.isNaN v)) =
      good.map fun e => f (e.1, Fl.fin e.2) := by
    intro β f
    rw [select_mem_sublist, List.map_map]
    have := select_own_mask (fun e : Pt × Fl ℝ => !(PyFloat.isNaN e.2)) pts
    rw [Function.comp_def, this, hgood, List.map_map]
    rfl
  have hzip : ((good.map fun e => e.1.1).zip (good.map fun e => e.1.2)) = good.map (·.1) := by
    rw [List.zip_map']
  refine ⟨reshape xg vs, ?_, (reshape_get xg vs (by rw [hv2, hzlen])).1, ?_⟩
  · unfold interpolate
    rw [if_neg (by simp [Src.get])]
    have hp : parseGrid ((Src.own (pts.map (·.1.1))).get h) ((Src.own (pts.map (·.1.2))).get h)
      (some xg) (some yg) res = .ok (xg, yg) := rfl
    rw [hp]
    dsimp only
    rw [if_neg (by
      intro e
      rw [List.filter_map, List.length_map] at e
      have : (pts.filter fun e => !(PyFloat.isNaN e.2)).length = 0 := e
      rw [hgood, List.length_map, List.length_eq_zero_iff] at this
      exact hne' this)]
    have hif : interpolFunc knn cfg h none (.own (pts.map (·.1.1))) (.own (pts.map (·.1.2)))
        (pts.map (·.2)) xg.flatten yg.flatten =
        (match freshCall knn (good.map (·.1)) (.batch (.own (xg.flatten.zip yg.flatten)))
            (fun _ => []) ⟨(good.map (·.2)).map .fin, cfg.nnear, 0, cfg.p, cfg.maxDistance⟩ with
          | .ok (.many vs) => .ok vs
          | .ok (.one v) => .ok [v]
          | .error e => .error e,
          (interpolFunc knn cfg h none (.own (pts.map (·.1.1))) (.own (pts.map (·.1.2)))
            (pts.map (·.2)) xg.flatten yg.flatten).2) := by
      unfold interpolFunc usedPoints
      rw [if_pos hcfg]
      simp only [Src.get, hsel, pickTree, hzip]
      rw [List.map_map]
      rfl
    rw [hif, hv1]
    dsimp only
    rw [if_pos (by rw [hv2, hzlen])]
  · intro j a b v ha hb hv
    rw [(reshape_get xg vs (by rw [hv2, hzlen])).2] at hv
    exact hv3 j (a, b) v (by rw [List.getElem?_zip_eq_some]; exact ⟨ha, hb⟩) hv

/-- hypotheses of C48_value are met by a fresh interpolator and data with a NaN -/
example : ∃ zg, (interpolate bruteKnn ⟨8, 2, true, none⟩ (fun _ => []) none
    (.own [0, 1, 2]) (.own [0, 0, 0]) [.fin 1, .nan, .fin 3] (some [[0, 1]]) (some [[5, 5]]) none).1
    = .ok zg ∧ zg.map List.length = [2] := by
  obtain ⟨zg, h1, h2, _⟩ := C48_value bruteKnn_isKnn ⟨8, 2, true, none⟩ rfl (by norm_num)
    (fun _ => [])
    [((0, 0), .fin 1), ((1, 0), .nan), ((2, 0), .fin 3)] [[0, 1]] [[5, 5]] rfl (by simp)
    [((0, 0), 1), ((2, 0), 3)] (by simp) (by simp) none
  exact ⟨zg, h1, h2⟩

/-! ### C70 -/

/-- **C70** With `exclude_nan=False` the coordinate arrays are kept by reference: after a call with
array objects, the user may overwrite them with other coordinates (of the same number), and
the next call with these objects still uses the tree of the old coordinates. -/
theorem C70_aliased_points (knn : Knn) (cfg : Config) (hcfg : cfg.excludeNan = false)
    (h h' : Heap (List ℝ)) (rx ry : Nat) (z z' : List (Fl ℝ)) (xg yg xg' yg' : Grid ℝ)
    (res : Option ℝ) (h1 : (h rx).length = (h ry).length) (h2 : (h ry).length = z.length)
    (h1' : (h' rx).length = (h rx).length) (h2' : (h' ry).length = (h ry).length)
    (hz : z'.length = z.length) (hnz : ∃ v ∈ z, isNaN v = false) (hnz' : ∃ v ∈ z', isNaN v = false) :
    (interpolate knn cfg h' (interpolate knn cfg h none (.alias rx) (.alias ry) z (some xg) (some yg)
        res).2 (.alias rx) (.alias ry) z' (some xg') (some yg') res).1 =
      (interpolate knn cfg h none (.alias rx) (.alias ry) z' (some xg') (some yg') res).1 := by
  have hg : ∀ (g : Heap (List ℝ)) (r : Nat), (Src.alias r : Src (List ℝ)).get g = g r :=
    fun _ _ => rfl
  have hf : ∀ w : List (Fl ℝ), (∃ v ∈ w, PyFloat.isNaN v = false) →
      ¬ (w.filter fun v => !(PyFloat.isNaN v)).length = 0 := by
    rintro w ⟨v, hv, hvn⟩ e
    rw [List.length_eq_zero_iff, List.filter_eq_nil_iff] at e
    have := e v hv
    rw [hvn] at this
    exact this rfl
  have hu : ∀ (g : Heap (List ℝ)) (w : List (Fl ℝ)),
      usedPoints cfg g (.alias rx) (.alias ry) w = (.alias rx, .alias ry, w) := by
    intro g w
    unfold usedPoints
    rw [if_neg (by rw [hcfg]; simp)]
  -- state after the first call
  have hok : MemoOk knn cfg h (interpolate knn cfg h none (.alias rx) (.alias ry) z (some xg)
      (some yg) res).2 := (interpolate_ok (by intro k hk; cases hk) _ _ _ _ _ _).2
  have hst : ∃ T, (interpolate knn cfg h none (.alias rx) (.alias ry) z (some xg) (some yg) res).2 =
      some ⟨.alias rx, .alias ry, T⟩ := by
    unfold interpolate
    rw [hg, hg, if_neg (by rw [h1, h2]; simp)]
    have hp : parseGrid (h rx) (h ry) (some xg) (some yg) res = .ok (xg, yg) := rfl
    rw [hp]
    dsimp only
    rw [if_neg (hf z hnz)]
    dsimp only
    unfold interpolFunc
    rw [hu]
    exact ⟨_, rfl⟩
  obtain ⟨T, hT⟩ := hst
  rw [hT] at hok ⊢
  rw [← (interpolate_ok hok (.alias rx) (.alias ry) z' (some xg') (some yg') res).1]
  unfold interpolate
  rw [hg, hg, hg, hg, if_neg (by rw [h1', h2', h1, h2, hz]; simp), if_neg (by rw [h1, h2, hz]; simp)]
  have hp : ∀ g : Heap (List ℝ), parseGrid (g rx) (g ry) (some xg') (some yg') res = .ok (xg', yg') :=
    fun _ => rfl
  rw [hp, hp]
  dsimp only
  rw [if_neg (hf z' hnz'), if_neg (hf z' hnz')]
  dsimp only
  have : ∀ g : Heap (List ℝ), interpolFunc knn cfg g (some ⟨.alias rx, .alias ry, T⟩) (.alias rx)
      (.alias ry) z' xg'.flatten yg'.flatten =
      interpolFunc knn cfg h (some ⟨.alias rx, .alias ry, T⟩) (.alias rx)
      (.alias ry) z' xg'.flatten yg'.flatten := by
    intro g
    unfold interpolFunc
    rw [hu, hu]
    have hpk : ∀ g : Heap (List ℝ), pickTree g (some ⟨.alias rx, .alias ry, T⟩) (.alias rx)
        (.alias ry) = ⟨.alias rx, .alias ry, T⟩ := by
      intro g
      unfold pickTree
      dsimp only
      rw [if_pos ⟨rfl, rfl⟩]
    dsimp only
    rw [hpk, hpk]
  rw [this h']

/-- hypotheses can be met: two array objects overwritten by other coordinates -/
example (knn : Knn) :
    (interpolate knn ⟨8, 2, false, none⟩ (fun _ => [5, 6]) (interpolate knn ⟨8, 2, false, none⟩
        (fun _ => [0, 1]) none (.alias 0) (.alias 1) [.fin 1, .fin 2] (some [[0]]) (some [[0]])
        none).2 (.alias 0) (.alias 1) [.fin 1, .fin 2] (some [[0]]) (some [[0]]) none).1 =
      (interpolate knn ⟨8, 2, false, none⟩ (fun _ => [0, 1]) none (.alias 0) (.alias 1)
        [.fin 1, .fin 2] (some [[0]]) (some [[0]]) none).1 :=
  C70_aliased_points knn _ rfl _ _ 0 1 _ _ _ _ _ _ none rfl rfl rfl rfl rfl
    ⟨.fin 1, by simp, rfl⟩ ⟨.fin 1, by simp, rfl⟩

end Verif.Props
