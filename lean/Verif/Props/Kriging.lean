import Verif.Model.Kriging
import Verif.Props.Interpolator

/-!
# Properties C84-C86: the ordinary kriging interpolator
-/

namespace Verif.Props
open Verif Verif.Idw Verif.Kriging

section
variable {K : Type} [Field K] [LinearOrder K] [FloorRing K]

/-- the points whose value is a number -/
def krGood (pts : List ((K × K) × Fl K)) : List ((K × K) × Fl K) := pts.filter fun e => !(PyFloat.isNaN e.2)

theorem krSelect {α : Type} (pts : List ((K × K) × Fl K)) (f : ((K × K) × Fl K) → α) :
    KR.select (pts.map f) ((pts.map fun e => e.2).map fun v => !(PyFloat.isNaN v)) = (krGood pts).map f := by
  rw [select_mem_sublist, List.map_map]
  exact congrArg _ (select_own_mask _ pts)

theorem krNone (pts : List ((K × K) × Fl K)) :
    ((pts.map fun e => e.2).filter fun v => !(PyFloat.isNaN v)).length = 0 ↔ krGood pts = [] := by
  rw [List.filter_map, List.length_map, List.length_eq_zero_iff]
  rfl

theorem krCall (ok : PyKrige K) (cfg : Kriging.Config) (d : Dict K) (a : Attrs K) (hex : cfg.excludeNan = true)
    (pts : List ((K × K) × Fl K)) (xg yg : Grid K) (res : Option K) (hne : krGood pts ≠ []) :
    Kriging.call ok cfg d a (pts.map (·.1.1)) (pts.map (·.1.2)) (pts.map (·.2)) (some xg) (some yg) res =
      match ok cfg d ((krGood pts).map (·.1.1)) ((krGood pts).map (·.1.2)) ((krGood pts).map (·.2))
          xg.flatten yg.flatten with
      | .error e => (.error e, { a with xgrid := some xg, ygrid := some yg, z := some ((krGood pts).map (·.2)) })
      | .ok (zi, s) =>
        if zi.length = xg.flatten.length then
          (.ok (reshape xg zi), { a with xgrid := some xg, ygrid := some yg, z := some ((krGood pts).map (·.2)), sigma := some s, zgrid := some (reshape xg zi) })
        else (.error .valueError, { a with xgrid := some xg, ygrid := some yg, z := some ((krGood pts).map (·.2)), sigma := some s }) := by
  unfold Kriging.call
  rw [if_neg (by simp)]
  have hp : parseGrid (pts.map (·.1.1)) (pts.map (·.1.2)) (some xg) (some yg) res = .ok (xg, yg) := rfl
  rw [hp]
  dsimp only
  rw [if_neg (by rw [krNone]; exact hne)]
  unfold Kriging.interpolFunc
  dsimp only
  rw [if_pos hex, if_pos hex, if_pos hex, krSelect pts (fun e => e.1.1), krSelect pts (fun e => e.1.2),
    krSelect pts (fun e => e.2)]
  cases ok cfg d ((krGood pts).map (·.1.1)) ((krGood pts).map (·.1.2)) ((krGood pts).map (·.2))
      xg.flatten yg.flatten with
  | error e => rfl
  | ok r => rfl

theorem krCallNan (ok : PyKrige K) (cfg : Kriging.Config) (d : Dict K) (a : Attrs K)
    (pts : List ((K × K) × Fl K)) (xg yg : Grid K) (res : Option K) (hne : krGood pts = []) :
    Kriging.call ok cfg d a (pts.map (·.1.1)) (pts.map (·.1.2)) (pts.map (·.2)) (some xg) (some yg) res =
      (.ok (xg.map fun r => r.map fun _ => Fl.nan), { a with xgrid := some xg, ygrid := some yg, zgrid := some (xg.map fun r => r.map fun _ => Fl.nan) }) := by
  unfold Kriging.call
  rw [if_neg (by simp)]
  have hp : parseGrid (pts.map (·.1.1)) (pts.map (·.1.2)) (some xg) (some yg) res = .ok (xg, yg) := rfl
  rw [hp]
  dsimp only
  rw [if_pos (by rw [krNone]; exact hne)]

theorem krCall_attrs (ok : PyKrige K) (cfg : Kriging.Config) (d : Dict K) (a a' : Attrs K) (x y : List K)
    (z : List (Fl K)) (xg yg : Option (Grid K)) (res : Option K) :
    (Kriging.call ok cfg d a x y z xg yg res).1 = (Kriging.call ok cfg d a' x y z xg yg res).1 := by
  unfold Kriging.call
  split
  · rfl
  · cases parseGrid x y xg yg res with
    | error e => rfl
    | ok g =>
      dsimp only
      split
      · rfl
      · unfold Kriging.interpolFunc
        dsimp only
        generalize ok cfg d _ _ _ _ _ = r
        cases r with
        | error e => rfl
        | ok r => dsimp only; split <;> rfl

/-- **C84** What a call returns, in every state of the program: if PyKrige, given exactly the points that have a number as
value and the coordinates of the grid cells in row order, returns estimates `zi`, then the result consists of these in the
grid's shape. -/
theorem C84_value (ok : PyKrige K) (w : World K) (i : Nat) (o : Obj K) (d : Dict K)
    (ho : w.objs[i]? = some o) (hd : w.dicts[o.cfg.params]? = some d) (hex : o.cfg.excludeNan = true)
    (pts : List ((K × K) × Fl K)) (xg yg : Grid K) (res : Option K) (good : List ((K × K) × Fl K))
    (hgood : good = pts.filter fun e => !(PyFloat.isNaN e.2)) (hne : good ≠ [])
    (zi s : List (Fl K))
    (hok : ok o.cfg d (good.map (·.1.1)) (good.map (·.1.2)) (good.map (·.2)) xg.flatten yg.flatten
      = .ok (zi, s)) (hlen : zi.length = xg.flatten.length) :
    ∃ zg, w.callResult ok i (pts.map (·.1.1)) (pts.map (·.1.2)) (pts.map (·.2)) (some xg) (some yg) res = .ok zg ∧
      zg.map List.length = xg.map List.length ∧ zg.flatten = zi := by
  have hg : krGood pts = good := hgood.symm
  obtain ⟨e1, e2⟩ := reshape_get xg zi hlen
  refine ⟨reshape xg zi, ?_, e1, e2⟩
  have hp : w.paramsOf i = some d := by simp [World.paramsOf, ho, hd]
  unfold World.callResult
  rw [ho, hp]
  dsimp only
  rw [krCall ok o.cfg d o.attrs hex pts xg yg res (by rw [hg]; exact hne), hg, hok]
  dsimp only
  rw [if_pos hlen]

/-- **C84** Calls of any interpolators, also failed ones, have no influence on the result of a later call. -/
theorem C84_history (ok : PyKrige K) (w : World K) (ops : List (Op K))
    (hcalls : ∀ op ∈ ops, ∃ j x y z xg yg res, op = Op.call j x y z xg yg res)
    (i : Nat) (x y : List K) (z : List (Fl K)) (xg yg : Option (Grid K)) (res : Option K) :
    (w.run ok ops).callResult ok i x y z xg yg res = w.callResult ok i x y z xg yg res := by
  have key : ∀ (w' : World K), w'.dicts = w.dicts →
      (∀ k : Nat, (w'.objs[k]?).map Obj.cfg = (w.objs[k]?).map Obj.cfg) →
      w'.callResult ok i x y z xg yg res = w.callResult ok i x y z xg yg res := by
    intro w' h1 h2
    unfold World.callResult World.paramsOf
    rw [h1]
    have h3 := h2 i
    cases h4 : w'.objs[i]? with
    | none =>
      rw [h4] at h3
      cases h5 : w.objs[i]? with
      | none => rfl
      | some o => rw [h5] at h3; cases h3
    | some o' =>
      rw [h4] at h3
      cases h5 : w.objs[i]? with
      | none => rw [h5] at h3; cases h3
      | some o =>
        rw [h5] at h3
        have h6 : o'.cfg = o.cfg := by simpa using h3
        simp only [Option.bind_some, h6]
        cases w.dicts[o.cfg.params]? with
        | none => rfl
        | some d =>
          dsimp only
          rw [h6]
          exact krCall_attrs ok o.cfg d o'.attrs o.attrs x y z xg yg res
  suffices h : ∀ (ops : List (Op K)) (w' : World K),
      (∀ op ∈ ops, ∃ j x y z xg yg res, op = Op.call j x y z xg yg res) → w'.dicts = w.dicts →
      (∀ k : Nat, (w'.objs[k]?).map Obj.cfg = (w.objs[k]?).map Obj.cfg) →
      (w'.run ok ops).dicts = w.dicts ∧
      (∀ k : Nat, ((w'.run ok ops).objs[k]?).map Obj.cfg = (w.objs[k]?).map Obj.cfg) by
    obtain ⟨a, b⟩ := h ops w hcalls rfl (fun _ => rfl)
    exact key _ a b
  intro ops
  induction ops with
  | nil => intro w' _ h1 h2; exact ⟨h1, h2⟩
  | cons op ops ih =>
    intro w' hc h1 h2
    obtain ⟨j, x, y, z, xg, yg, res, rfl⟩ := hc op (by simp)
    show ((World.run ok (w'.step ok _) ops).dicts = _) ∧ _
    apply ih _ (fun o ho => hc o (by simp [ho]))
    · unfold World.step
      dsimp only
      split <;> exact h1
    · intro k
      rw [← h2 k]
      unfold World.step
      dsimp only
      split
      · rename_i o d ho hd
        dsimp only
        rw [List.getElem?_set]
        split
        · rename_i e
          subst e
          split
          · rw [ho]; rfl
          · rename_i hlt
            rw [List.getElem?_eq_none (by omega)]
        · rfl
      · rfl

/-- **C84** Points with NaN value do not matter: two data sets that agree after leaving those out give the same result. -/
theorem C84_nan_points (ok : PyKrige K) (w : World K) (i : Nat) (o : Obj K)
    (ho : w.objs[i]? = some o) (hex : o.cfg.excludeNan = true)
    (pts pts' : List ((K × K) × Fl K)) (xg yg : Grid K) (res res' : Option K)
    (h : (pts.filter fun e => !(PyFloat.isNaN e.2)) = pts'.filter fun e => !(PyFloat.isNaN e.2)) :
    w.callResult ok i (pts.map (·.1.1)) (pts.map (·.1.2)) (pts.map (·.2)) (some xg) (some yg) res =
      w.callResult ok i (pts'.map (·.1.1)) (pts'.map (·.1.2)) (pts'.map (·.2)) (some xg) (some yg) res' := by
  have hg : krGood pts = krGood pts' := h
  unfold World.callResult
  cases hp : w.paramsOf i with
  | none => simp only [ho]
  | some d =>
    simp only [ho]
    by_cases hne : krGood pts = []
    · rw [krCallNan ok o.cfg d o.attrs pts xg yg res hne, krCallNan ok o.cfg d o.attrs pts' xg yg res' (hg ▸ hne)]
    · rw [krCall ok o.cfg d o.attrs hex pts xg yg res hne, krCall ok o.cfg d o.attrs hex pts' xg yg res' (hg ▸ hne),
        hg]

/-- **C84** Data without any number give a grid of NaNs, whatever PyKrige would do; lists of unequal length give
`AssertionError`; an exception of PyKrige is passed on. -/
theorem C84_special (ok : PyKrige K) (w : World K) (i : Nat) (o : Obj K) (d : Dict K)
    (ho : w.objs[i]? = some o) (hd : w.dicts[o.cfg.params]? = some d) (x y : List K) (z : List (Fl K))
    (xg yg : Grid K) (res : Option K) (e : Err) :
    (x.length = y.length → y.length = z.length → (∀ v ∈ z, v = Fl.nan) →
      w.callResult ok i x y z (some xg) (some yg) res = .ok (xg.map fun r => List.replicate r.length Fl.nan)) ∧
    (¬ (x.length = y.length ∧ y.length = z.length) →
      w.callResult ok i x y z (some xg) (some yg) res = .error .assertionError) ∧
    (x.length = y.length → y.length = z.length → (∃ v ∈ z, v ≠ Fl.nan) →
      (∀ xs ys zs, ok o.cfg d xs ys zs xg.flatten yg.flatten = .error e) →
      w.callResult ok i x y z (some xg) (some yg) res = .error e) := by
  have hp : w.paramsOf i = some d := by simp [World.paramsOf, ho, hd]
  have hgrid : parseGrid x y (some xg) (some yg) res = .ok (xg, yg) := rfl
  unfold World.callResult
  rw [ho, hp]
  dsimp only
  refine ⟨?_, ?_, ?_⟩
  · intro h1 h2 h3
    unfold Kriging.call
    rw [if_neg (by rw [h1, h2]; simp), hgrid]
    dsimp only
    rw [if_pos (by
      rw [List.length_eq_zero_iff, List.filter_eq_nil_iff]
      intro v hv
      rw [h3 v hv]
      simp)]
    simp only [List.map_const']
  · intro h
    unfold Kriging.call
    rw [if_pos (by by_contra hc; push Not at hc; exact h hc)]
  · intro h1 h2 ⟨v, hv, hvn⟩ hok
    unfold Kriging.call
    rw [if_neg (by rw [h1, h2]; simp), hgrid]
    dsimp only
    rw [if_neg (by
      rw [List.length_eq_zero_iff, List.filter_eq_nil_iff]
      intro hc
      apply hvn
      exact (Fl.isNaN_iff v).mp (by simpa using hc v hv))]
    unfold Kriging.interpolFunc
    dsimp only
    rw [hok]

/-! ### C85 -/

theorem krCallAllNan (ok : PyKrige K) (cfg : Kriging.Config) (d : Dict K) (a : Attrs K) (x y : List K)
    (z : List (Fl K)) (xg yg : Option (Grid K)) (res : Option K) (hz : ∀ v ∈ z, v = Fl.nan) :
    (Kriging.call ok cfg d a x y z xg yg res).2.sigma = a.sigma ∧
      (Kriging.call ok cfg d a x y z xg yg res).2.z = a.z := by
  unfold Kriging.call
  split
  · exact ⟨rfl, rfl⟩
  · cases parseGrid x y xg yg res with
    | error e => exact ⟨rfl, rfl⟩
    | ok g =>
      dsimp only
      rw [if_pos (by
        rw [List.length_eq_zero_iff, List.filter_eq_nil_iff]
        intro v hv
        rw [hz v hv]
        simp)]
      exact ⟨rfl, rfl⟩

/-- An operation other than a call of object `i` with some number among its values leaves the attributes `sigma` and
`z` of object `i`. -/
theorem krStep_keeps (ok : PyKrige K) (w : World K) (op : Op K) (i : Nat) (o : Obj K) (ho : w.objs[i]? = some o)
    (hop : ∀ x y z xg yg res, op = Op.call i x y z xg yg res → ∀ v ∈ z, v = Fl.nan) :
    ∃ o', (w.step ok op).objs[i]? = some o' ∧ o'.cfg = o.cfg ∧ o'.attrs.sigma = o.attrs.sigma ∧
      o'.attrs.z = o.attrs.z := by
  have happ : ∀ q, (w.objs ++ [q])[i]? = some o := by
    intro q
    rw [List.getElem?_append_left]
    · exact ho
    · exact (List.getElem?_eq_some_iff.mp ho).1
  unfold World.step
  cases op with
  | newDict d => exact ⟨o, ho, rfl, rfl, rfl⟩
  | new p cfg =>
    cases p with
    | none => exact ⟨o, happ _, rfl, rfl, rfl⟩
    | some r =>
      dsimp only
      split
      · exact ⟨o, happ _, rfl, rfl, rfl⟩
      · exact ⟨o, ho, rfl, rfl, rfl⟩
  | setDict r k v => exact ⟨o, ho, rfl, rfl, rfl⟩
  | setParam j k v => dsimp only; split <;> exact ⟨o, ho, rfl, rfl, rfl⟩
  | call j x y z xg yg res =>
    dsimp only
    split
    · rename_i o1 d h1 h2
      dsimp only
      by_cases hj : j = i
      · subst hj
        have e : o1 = o := by rw [ho] at h1; exact (Option.some.inj h1).symm
        subst e
        have hlt := (List.getElem?_eq_some_iff.mp ho).1
        refine ⟨⟨o1.cfg, (Kriging.call ok o1.cfg d o1.attrs x y z xg yg res).2⟩,
          by rw [List.getElem?_set_self hlt], rfl, ?_⟩
        exact krCallAllNan ok o1.cfg d o1.attrs x y z xg yg res (hop x y z xg yg res rfl)
      · exact ⟨o, by rw [List.getElem?_set_ne hj]; exact ho, rfl, rfl, rfl⟩
    · exact ⟨o, ho, rfl, rfl, rfl⟩

theorem krRun_keeps (ok : PyKrige K) (i : Nat) (ops : List (Op K)) : ∀ (w : World K) (o : Obj K),
    w.objs[i]? = some o →
    (∀ x y z xg yg res, Op.call i x y z xg yg res ∈ ops → ∀ v ∈ z, v = Fl.nan) →
    ∃ o', (w.run ok ops).objs[i]? = some o' ∧ o'.cfg = o.cfg ∧ o'.attrs.sigma = o.attrs.sigma ∧
      o'.attrs.z = o.attrs.z := by
  induction ops with
  | nil => intro w o ho _; exact ⟨o, ho, rfl, rfl, rfl⟩
  | cons op ops ih =>
    intro w o ho hops
    obtain ⟨o1, a0, a1, a2, a3⟩ := krStep_keeps ok w op i o ho
      (fun x y z xg yg res e => hops x y z xg yg res (by simp [e]))
    obtain ⟨o2, b0, b1, b2, b3⟩ := ih (w.step ok op) o1 a0
      (fun x y z xg yg res e => hops x y z xg yg res (by simp [e]))
    exact ⟨o2, b0, b1.trans a1, b2.trans a2, b3.trans a3⟩

theorem krStepCall (ok : PyKrige K) (w : World K) (i : Nat) (o : Obj K) (d : Dict K)
    (ho : w.objs[i]? = some o) (hd : w.dicts[o.cfg.params]? = some d) (x y : List K) (z : List (Fl K))
    (xg yg : Option (Grid K)) (res : Option K) :
    (w.step ok (.call i x y z xg yg res)).objs[i]? =
      some ⟨o.cfg, (Kriging.call ok o.cfg d o.attrs x y z xg yg res).2⟩ := by
  have hp : w.paramsOf i = some d := by simp [World.paramsOf, ho, hd]
  unfold World.step
  simp only [ho, hp]
  exact List.getElem?_set_self (List.getElem?_eq_some_iff.mp ho).1

/-- **C85** (negative) A call for which PyKrige returned the variances `s` determines `sigma` and `z` during
everything that happens afterwards, as long as the object gets only data without numbers: those calls
return maps to which the attributes do not belong. -/
theorem C85_stale (ok : PyKrige K) (w : World K) (i : Nat) (o : Obj K) (d : Dict K)
    (ho : w.objs[i]? = some o) (hd : w.dicts[o.cfg.params]? = some d) (hex : o.cfg.excludeNan = true)
    (pts : List ((K × K) × Fl K)) (xg yg : Grid K) (res : Option K) (good : List ((K × K) × Fl K))
    (hgood : good = pts.filter fun e => !(PyFloat.isNaN e.2)) (hne : good ≠ []) (zi s : List (Fl K))
    (hok : ok o.cfg d (good.map (·.1.1)) (good.map (·.1.2)) (good.map (·.2)) xg.flatten yg.flatten = .ok (zi, s))
    (ops : List (Op K))
    (hops : ∀ x y z xg yg res, Op.call i x y z xg yg res ∈ ops → ∀ v ∈ z, v = Fl.nan) :
    ∃ o', (w.run ok (.call i (pts.map (·.1.1)) (pts.map (·.1.2)) (pts.map (·.2)) (some xg) (some yg) res ::
        ops)).objs[i]? = some o' ∧
      o'.attrs.sigma = some s ∧ o'.attrs.z = some (good.map (·.2)) := by
  have hg : krGood pts = good := hgood.symm
  have h1 := krStepCall ok w i o d ho hd (pts.map (·.1.1)) (pts.map (·.1.2)) (pts.map (·.2)) (some xg) (some yg) res
  rw [krCall ok o.cfg d o.attrs hex pts xg yg res (by rw [hg]; exact hne), hg, hok] at h1
  dsimp only at h1
  obtain ⟨o', b0, _, b2, b3⟩ := krRun_keeps ok i ops _ _ h1 hops
  refine ⟨o', b0, ?_, ?_⟩
  · rw [b2]; dsimp only; split <;> rfl
  · rw [b3]; dsimp only; split <;> rfl

/-- **C85** A call without numbers sets `zgrid` to NaNs and leaves `sigma` and `z`; an object that never got a
number has neither (reading them raises `AttributeError`). -/
theorem C85_after_nan (ok : PyKrige K) (w : World K) :
    (∀ (i : Nat) (o : Obj K) (d : Dict K), w.objs[i]? = some o → w.dicts[o.cfg.params]? = some d →
      ∀ (x y : List K) (z : List (Fl K)) (xg yg : Grid K) (res : Option K),
        x.length = y.length → y.length = z.length → (∀ v ∈ z, v = Fl.nan) →
        ∃ o', (w.step ok (.call i x y z (some xg) (some yg) res)).objs[i]? = some o' ∧
          o'.attrs.zgrid = some (xg.map fun r => List.replicate r.length Fl.nan) ∧
          o'.attrs.sigma = o.attrs.sigma ∧ o'.attrs.z = o.attrs.z) ∧
    (∀ (cfg : Kriging.Config) (ops : List (Op K)),
      (∀ x y z xg yg res, Op.call w.objs.length x y z xg yg res ∈ ops → ∀ v ∈ z, v = Fl.nan) →
      ∃ o', (w.run ok (.new none cfg :: ops)).objs[w.objs.length]? = some o' ∧
        o'.attrs.sigma = none ∧ o'.attrs.z = none) := by
  refine ⟨?_, ?_⟩
  · intro i o d ho hd x y z xg yg res h1 h2 h3
    have h := krStepCall ok w i o d ho hd x y z (some xg) (some yg) res
    refine ⟨_, h, ?_, krCallAllNan ok o.cfg d o.attrs x y z (some xg) (some yg) res h3⟩
    have hgrid : parseGrid x y (some xg) (some yg) res = .ok (xg, yg) := rfl
    unfold Kriging.call
    rw [if_neg (by rw [h1, h2]; simp), hgrid]
    dsimp only
    rw [if_pos (by
      rw [List.length_eq_zero_iff, List.filter_eq_nil_iff]
      intro v hv
      rw [h3 v hv]
      simp)]
    simp only [List.map_const']
  · intro cfg ops hops
    have h : (w.step ok (.new none cfg)).objs[w.objs.length]? = some ⟨{ cfg with params := 0 }, {}⟩ := by
      simp [World.step]
    obtain ⟨o', b0, _, b2, b3⟩ := krRun_keeps ok _ ops _ _ h hops
    exact ⟨o', b0, b2, b3⟩

/-- **C85** (negative) If PyKrige raises, `z` is already that of the failed call, while `sigma` and `zgrid` belong to
an earlier one. -/
theorem C85_raise (ok : PyKrige K) (w : World K) (i : Nat) (o : Obj K) (d : Dict K)
    (ho : w.objs[i]? = some o) (hd : w.dicts[o.cfg.params]? = some d) (hex : o.cfg.excludeNan = true)
    (pts : List ((K × K) × Fl K)) (xg yg : Grid K) (res : Option K) (good : List ((K × K) × Fl K))
    (hgood : good = pts.filter fun e => !(PyFloat.isNaN e.2)) (hne : good ≠ []) (e : Err)
    (hok : ok o.cfg d (good.map (·.1.1)) (good.map (·.1.2)) (good.map (·.2)) xg.flatten yg.flatten = .error e) :
    ∃ o', (w.step ok (.call i (pts.map (·.1.1)) (pts.map (·.1.2)) (pts.map (·.2)) (some xg) (some yg)
        res)).objs[i]? = some o' ∧
      o'.attrs.z = some (good.map (·.2)) ∧ o'.attrs.sigma = o.attrs.sigma ∧ o'.attrs.zgrid = o.attrs.zgrid ∧
      o'.attrs.xgrid = some xg := by
  have hg : krGood pts = good := hgood.symm
  have h1 := krStepCall ok w i o d ho hd (pts.map (·.1.1)) (pts.map (·.1.2)) (pts.map (·.2)) (some xg) (some yg) res
  rw [krCall ok o.cfg d o.attrs hex pts xg yg res (by rw [hg]; exact hne), hg, hok] at h1
  exact ⟨_, h1, rfl, rfl, rfl, rfl⟩

/-! ### C86 -/

theorem krStep_cfg (ok : PyKrige K) (w : World K) (op : Op K) (i : Nat) (o : Obj K) (ho : w.objs[i]? = some o) :
    ∃ o', (w.step ok op).objs[i]? = some o' ∧ o'.cfg = o.cfg := by
  by_cases h : ∃ x y z xg yg res, op = Op.call i x y z xg yg res
  · obtain ⟨x, y, z, xg, yg, res, rfl⟩ := h
    unfold World.step
    dsimp only
    split
    · rename_i o1 d h1 h2
      refine ⟨_, List.getElem?_set_self (List.getElem?_eq_some_iff.mp ho).1, ?_⟩
      rw [ho] at h1
      rw [Option.some.inj h1]
    · exact ⟨o, ho, rfl⟩
  · obtain ⟨o', a, b, _⟩ := krStep_keeps ok w op i o ho
      (fun x y z xg yg res e => absurd ⟨x, y, z, xg, yg, res, e⟩ h)
    exact ⟨o', a, b⟩

theorem krRun_cfg (ok : PyKrige K) (i : Nat) (ops : List (Op K)) : ∀ (w : World K) (o : Obj K),
    w.objs[i]? = some o → ∃ o', (w.run ok ops).objs[i]? = some o' ∧ o'.cfg = o.cfg := by
  induction ops with
  | nil => intro w o ho; exact ⟨o, ho, rfl⟩
  | cons op ops ih =>
    intro w o ho
    obtain ⟨o1, a0, a1⟩ := krStep_cfg ok w op i o ho
    obtain ⟨o2, b0, b1⟩ := ih (w.step ok op) o1 a0
    exact ⟨o2, b0, b1.trans a1⟩

theorem krStep_dict (ok : PyKrige K) (w : World K) (op : Op K) (r : Nat) (d : Dict K) (hd : w.dicts[r]? = some d) :
    ∃ d', (w.step ok op).dicts[r]? = some d' ∧
      ((∀ k v, op ≠ .setDict r k v) →
       (∀ j k v o, op = .setParam j k v → w.objs[j]? = some o → o.cfg.params ≠ r) → d' = d) := by
  unfold World.step
  cases op with
  | newDict d1 =>
    refine ⟨d, ?_, fun _ _ => rfl⟩
    dsimp only
    rw [List.getElem?_append_left (List.getElem?_eq_some_iff.mp hd).1]
    exact hd
  | new p cfg =>
    cases p with
    | none => exact ⟨d, hd, fun _ _ => rfl⟩
    | some r =>
      dsimp only
      split <;> exact ⟨d, hd, fun _ _ => rfl⟩
  | setDict r1 k v =>
    dsimp only
    rw [List.getElem?_modify]
    by_cases h : r1 = r
    · subst h
      exact ⟨_, by rw [hd]; rfl, fun h1 _ => absurd rfl (h1 k v)⟩
    · rw [hd]
      simp only [if_neg h]
      exact ⟨d, rfl, fun _ _ => rfl⟩
  | setParam j k v =>
    dsimp only
    split
    · rename_i o ho
      dsimp only
      rw [List.getElem?_modify]
      by_cases h : o.cfg.params = r
      · subst h
        exact ⟨_, by rw [hd]; rfl, fun _ h1 => absurd rfl (h1 j k v o rfl ho)⟩
      · rw [hd]
        simp only [if_neg h]
        exact ⟨d, rfl, fun _ _ => rfl⟩
    · exact ⟨d, hd, fun _ _ => rfl⟩
  | call j x y z xg yg res =>
    dsimp only
    split <;> exact ⟨d, hd, fun _ _ => rfl⟩

theorem krRun_dict (ok : PyKrige K) (r : Nat) (ops : List (Op K)) : ∀ (w : World K) (d : Dict K),
    w.dicts[r]? = some d → ∃ d', (w.run ok ops).dicts[r]? = some d' ∧
      ((∀ k v, Op.setDict r k v ∉ ops) →
       (∀ j k v o, Op.setParam j k v ∈ ops → (w.run ok ops).objs[j]? = some o → o.cfg.params ≠ r) → d' = d) := by
  induction ops with
  | nil => intro w d hd; exact ⟨d, hd, fun _ _ => rfl⟩
  | cons op ops ih =>
    intro w d hd
    obtain ⟨d1, a0, a1⟩ := krStep_dict ok w op r d hd
    obtain ⟨d2, b0, b1⟩ := ih (w.step ok op) d1 a0
    refine ⟨d2, b0, fun h1 h2 => ?_⟩
    rw [b1 (fun k v hc => h1 k v (by simp [hc])) (fun j k v o hc => h2 j k v o (by simp [hc])),
      a1 (fun k v hc => h1 k v (by simp [hc]))]
    intro j k v o e hj
    obtain ⟨o1, c0, c1⟩ := krRun_cfg ok j (op :: ops) w o hj
    rw [← c1]
    exact h2 j k v o1 (by simp [e]) c0

theorem lookup_dictSet (d : Dict K) (k : String) (v : K) : (dictSet d k v).lookup k = some v := by
  unfold dictSet
  split
  · rename_i h
    induction d with
    | nil => simp at h
    | cons e d ih =>
      rw [List.map_cons]
      by_cases he : e.1 = k
      · simp [he]
      · have hb : (e.1 == k) = false := by simpa using he
        have hb' : (k == e.1) = false := by simpa using Ne.symm he
        rw [hb, List.lookup_cons]
        simp only [Bool.false_eq_true, if_false, hb']
        exact ih (by simpa [hb] using h)
  · rename_i h
    rw [List.lookup_append]
    have : d.lookup k = none := by
      rw [List.lookup_eq_none_iff]
      intro p hp
      by_contra hc
      apply h
      rw [List.any_eq_true]
      exact ⟨p, hp, by simp at hc ⊢; exact hc.symm⟩
    rw [this]
    simp

/-- **C86** (negative) Two interpolators created without `variogram_parameters` at any two moments of a program use
the same parameters for ever, and an entry set through one of them is seen by the other. -/
theorem C86_shared (ok : PyKrige K) (ops1 ops2 ops3 : List (Op K)) (cfg1 cfg2 : Kriging.Config)
    (i j : Nat) (hi : i = (World.init.run ok ops1).objs.length)
    (hj : j = (World.init.run ok (ops1 ++ Op.new none cfg1 :: ops2)).objs.length) (k : String) (v : K) :
    let w := World.init.run ok (ops1 ++ Op.new none cfg1 :: ops2 ++ Op.new none cfg2 :: ops3)
    (∃ d, w.paramsOf i = some d ∧ w.paramsOf j = some d) ∧
    (∃ d, (w.step ok (.setParam i k v)).paramsOf j = some d ∧ d.lookup k = some v) ∧
    (∃ d, (w.step ok (.setParam j k v)).paramsOf i = some d ∧ d.lookup k = some v) := by
  have new_params : ∀ (w : World K) (cfg : Kriging.Config) (ops : List (Op K)),
      ∃ o, (w.run ok (.new none cfg :: ops)).objs[w.objs.length]? = some o ∧ o.cfg.params = 0 := by
    intro w cfg ops
    have h : (w.step ok (.new none cfg)).objs[w.objs.length]? = some ⟨{ cfg with params := 0 }, {}⟩ := by
      simp [World.step]
    obtain ⟨o, a, b⟩ := krRun_cfg ok _ ops _ _ h
    exact ⟨o, a, by rw [b]⟩
  have run_append : ∀ (w : World K) (a b : List (Op K)), w.run ok (a ++ b) = (w.run ok a).run ok b := by
    intro w a b
    simp [World.run, List.foldl_append]
  intro w
  obtain ⟨oi, hoi, hi0⟩ := new_params (World.init.run ok ops1) cfg1 (ops2 ++ Op.new none cfg2 :: ops3)
  obtain ⟨oj, hoj, hj0⟩ := new_params (World.init.run ok (ops1 ++ Op.new none cfg1 :: ops2)) cfg2 ops3
  rw [← run_append, ← hj] at hoj
  rw [← run_append, ← hi] at hoi
  have hw : w = World.init.run ok (ops1 ++ Op.new none cfg1 :: (ops2 ++ Op.new none cfg2 :: ops3)) := by
    show World.init.run ok _ = _
    simp
  have hw' : w = World.init.run ok ((ops1 ++ Op.new none cfg1 :: ops2) ++ Op.new none cfg2 :: ops3) := by
    show World.init.run ok _ = _
    simp
  rw [← hw] at hoi
  rw [← hw'] at hoj
  obtain ⟨d, hd, _⟩ := krRun_dict ok 0 (ops1 ++ Op.new none cfg1 :: ops2 ++ Op.new none cfg2 :: ops3)
    (World.init : World K) _ rfl
  have hd' : w.dicts[0]? = some d := hd
  refine ⟨⟨d, ?_, ?_⟩, ⟨dictSet d k v, ?_, lookup_dictSet d k v⟩, ⟨dictSet d k v, ?_, lookup_dictSet d k v⟩⟩
  · simp [World.paramsOf, hoi, hi0, hd']
  · simp [World.paramsOf, hoj, hj0, hd']
  · simp [World.step, World.paramsOf, hoi, hoj, hi0, hj0, hd']
  · simp [World.step, World.paramsOf, hoi, hoj, hi0, hj0, hd']

/-- **C86** The parameters of an interpolator change only if an entry of its dictionary is set, directly or through an
object with that dictionary; in particular calls never change them. -/
theorem C86_unaffected (ok : PyKrige K) (w : World K) (i : Nat) (o : Obj K) (d : Dict K)
    (ho : w.objs[i]? = some o) (hd : w.dicts[o.cfg.params]? = some d) (ops : List (Op K))
    (h1 : ∀ k v, Op.setDict o.cfg.params k v ∉ ops)
    (h2 : ∀ j k v o', Op.setParam j k v ∈ ops → (w.run ok ops).objs[j]? = some o' →
      o'.cfg.params ≠ o.cfg.params) :
    (w.run ok ops).paramsOf i = some d := by
  obtain ⟨d', b0, b1⟩ := krRun_dict ok o.cfg.params ops w d hd
  obtain ⟨o', a0, a1⟩ := krRun_cfg ok i ops w o ho
  have := b1 h1 h2
  subst this
  simp [World.paramsOf, a0, a1, b0]

end

/-! ### Examples -/

/-- a stand-in for PyKrige: every estimate is the first value, every variance the sill -/
def krigeFirst : PyKrige ℚ := fun _ d _ _ z xi _ =>
  match z with
  | [] => .error .valueError
  | v :: _ => .ok (xi.map fun _ => v, xi.map fun _ => match d.lookup "sill" with
    | some s => Fl.fin s
    | none => Fl.nan)

/-- the state after creating one interpolator with default arguments -/
def krWorld1 : World ℚ := World.init.run krigeFirst [.new none ⟨100, "spherical", 0, true, none, true, "C"⟩]

/-- hypotheses of `C84_value`: a NaN point before two others, a 1x2 grid -/
example : krWorld1.callResult krigeFirst 0 [0, 1, 2] [0, 0, 0] [Fl.nan, Fl.fin 3, Fl.fin 4] (some [[0, 1]])
    (some [[0, 0]]) none = .ok [[Fl.fin 3, Fl.fin 3]] := by decide +kernel

/-- stale `sigma` (C85): after an all-NaN call the map is NaN, `sigma` is that of the call before -/
example : (((krWorld1.run krigeFirst
    [.call 0 [1] [0] [Fl.fin 3] (some [[0, 1]]) (some [[0, 0]]) none,
     .call 0 [1] [0] [Fl.nan] (some [[0]]) (some [[0]]) none]).objs[0]?).map fun o =>
       (o.attrs.sigma, o.attrs.zgrid)) =
    some (some [Fl.fin (9 / 10), Fl.fin (9 / 10)], some [[Fl.nan]]) := by decide +kernel

/-- shared defaults (C86): the sill of a new interpolator was set through another one -/
example : (World.run krigeFirst krWorld1
    [.setParam 0 "sill" 5, .new none ⟨100, "spherical", 0, true, none, true, "C"⟩]).paramsOf 1 =
    some [("sill", 5), ("range", 1), ("nugget", 1 / 10)] := by decide +kernel

end Verif.Props
