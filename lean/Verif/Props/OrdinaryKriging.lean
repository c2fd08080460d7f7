import Verif.Lemmas.KrigingSystem
import Verif.Lemmas.StatsRain
import Verif.Props.Kriging
import Verif.Props.Stft

/-!
# Properties C100-C102: the values of the ordinary kriging interpolator
-/

namespace Verif.Props
open Verif Verif.Idw Verif.Kriging

/-! ### the estimate -/

theorem krEst_fin (γ : ℝ → ℝ) {n : Nat} (p : Fin n → Pt) (v : Fin n → ℝ) (q : Pt) :
    (krEst γ p (fun i => .fin (v i)) q).1 = .fin (∑ i, krSolve γ p q (.inl i) * v i) := by
  unfold krEst
  dsimp only
  have e : (List.ofFn fun i : Fin n => Fl.fin (krSolve γ p q (.inl i)) *ᶠ Fl.fin (v i)) =
      (List.ofFn fun i : Fin n => krSolve γ p q (.inl i) * v i).map Fl.fin := by
    rw [List.map_ofFn]
    rfl
  rw [e, fsum_map_fin, List.sum_ofFn]

theorem krEst_nan (γ : ℝ → ℝ) {n : Nat} (p : Fin n → Pt) (z : Fin n → Fl ℝ) (q : Pt) (i : Fin n) (h : z i = .nan) :
    (krEst γ p z q).1 = .nan := by
  unfold krEst
  dsimp only
  apply fsum_nan
  rw [List.mem_ofFn]
  exact ⟨i, by rw [h]; rfl⟩

theorem krEst_fin_of (γ : ℝ → ℝ) {n : Nat} (p : Fin n → Pt) (z : Fin n → Fl ℝ) (q : Pt)
    (hz : ∀ i, z i ≠ .pinf ∧ z i ≠ .ninf) :
    (∃ i, z i = .nan) ∨ ∃ v : Fin n → ℝ, z = fun i => .fin (v i) := by
  by_cases h : ∃ i, z i = .nan
  · exact Or.inl h
  · push Not at h
    refine Or.inr ⟨fun i => match z i with | .fin x => x | _ => 0, ?_⟩
    funext i
    have h1 := hz i
    have h2 := h i
    cases hi : z i with
    | nan => exact absurd hi h2
    | ninf => exact absurd hi h1.2
    | pinf => exact absurd hi h1.1
    | fin x => simp only [hi]

theorem krEst_affine (γ : ℝ → ℝ) {n : Nat} (p : Fin n → Pt) (z : Fin n → Fl ℝ) (q : Pt)
    (h : IsUnit (krMatrix γ p).det) (hz : ∀ i, z i ≠ .pinf ∧ z i ≠ .ninf) (a b : ℝ) :
    krEst γ p (fun i => Fl.fin a *ᶠ z i +ᶠ Fl.fin b) q =
      (Fl.fin a *ᶠ (krEst γ p z q).1 +ᶠ Fl.fin b, (krEst γ p z q).2) := by
  refine Prod.ext ?_ rfl
  rcases krEst_fin_of γ p z q hz with ⟨i, hi⟩ | ⟨v, rfl⟩
  · rw [krEst_nan γ p z q i hi, krEst_nan γ p _ q i (by simp [hi])]
    simp
  · have e : (fun i => Fl.fin a *ᶠ Fl.fin (v i) +ᶠ Fl.fin b) = fun i : Fin n => Fl.fin (a * v i + b) := by
      funext i; simp
    rw [e, krEst_fin, krEst_fin]
    simp only [Fl.pf_mul_fin, Fl.pf_add_fin]
    congr 1
    simp only [mul_add, Finset.sum_add_distrib]
    rw [← Finset.sum_mul, krSolve_sum h, one_mul, Finset.mul_sum]
    congr 1
    exact Finset.sum_congr rfl fun i _ => by ring

/-- the estimate for a list given by a function of the position -/
theorem krEstimate_ofFn (γ : ℝ → ℝ) {n : Nat} (f : Fin n → Pt × Fl ℝ) (q : Pt) :
    krEstimate γ (List.ofFn f) q = krEst γ (fun i => (f i).1) (fun i => (f i).2) q ∧
      (KrRegular γ (List.ofFn f) ↔ IsUnit (krMatrix γ fun i => (f i).1).det) := by
  obtain ⟨l, hl⟩ : ∃ l, l = List.ofFn f := ⟨_, rfl⟩
  rw [← hl]
  have hn : n = l.length := by rw [hl, List.length_ofFn]
  subst hn
  have hf : f = fun i => l[i] := by
    funext i
    have : l[i] = (List.ofFn f)[i]'(by simp) := by
      simp only [Fin.getElem_fin]
      congr 1
    rw [this]
    simp
  unfold krEstimate KrRegular
  rw [hf]
  exact ⟨rfl, Iff.rfl⟩

theorem krEstimate_map_affine (γ : ℝ → ℝ) (pts : List (Pt × Fl ℝ)) (q : Pt) (h : KrRegular γ pts)
    (hz : ∀ e ∈ pts, e.2 ≠ .pinf ∧ e.2 ≠ .ninf) (a b : ℝ) :
    krEstimate γ (pts.map fun e => (e.1, Fl.fin a *ᶠ e.2 +ᶠ Fl.fin b)) q =
      (Fl.fin a *ᶠ (krEstimate γ pts q).1 +ᶠ Fl.fin b, (krEstimate γ pts q).2) := by
  have e : (pts.map fun e => (e.1, Fl.fin a *ᶠ e.2 +ᶠ Fl.fin b)) =
      List.ofFn fun i : Fin pts.length => (pts[i].1, Fl.fin a *ᶠ pts[i].2 +ᶠ Fl.fin b) := by
    rw [← List.ofFn_getElem (xs := pts.map fun e => (e.1, Fl.fin a *ᶠ e.2 +ᶠ Fl.fin b))]
    apply List.ext_getElem
    · simp
    · intro i h1 h2
      simp
  rw [e, (krEstimate_ofFn γ _ q).1]
  exact krEst_affine γ _ _ q h (fun i => hz _ (List.getElem_mem _)) a b

/-- whether the matrix is regular and the variance do not depend on the values -/
theorem krEstimate_map (γ : ℝ → ℝ) (pts : List (Pt × Fl ℝ)) (q : Pt) (f : Pt × Fl ℝ → Fl ℝ) :
    (KrRegular γ (pts.map fun e => (e.1, f e)) ↔ KrRegular γ pts) ∧
      (krEstimate γ (pts.map fun e => (e.1, f e)) q).2 = (krEstimate γ pts q).2 := by
  have e : (pts.map fun e => (e.1, f e)) = List.ofFn fun i : Fin pts.length => (pts[i].1, f pts[i]) := by
    rw [← List.ofFn_getElem (xs := pts.map fun e => (e.1, f e))]
    apply List.ext_getElem
    · simp
    · intro i h1 h2
      simp
  obtain ⟨h1, h2⟩ := krEstimate_ofFn γ (fun i : Fin pts.length => (pts[i].1, f pts[i])) q
  rw [e]
  refine ⟨h2, ?_⟩
  rw [h1]
  rfl

/-! ### one query -/

theorem krWindow_map (knn : Knn) (pts : List (Pt × Fl ℝ)) (k : Nat) (q : Pt) (f : Pt × Fl ℝ → Fl ℝ) :
    krWindow knn (pts.map fun e => (e.1, f e)) k q = (krWindow knn pts k q).map (List.map fun e => (e.1, f e)) := by
  unfold krWindow
  rw [List.map_map]
  have : ((fun x : Pt × Fl ℝ => x.1) ∘ fun e : Pt × Fl ℝ => (e.1, f e)) = fun x => x.1 := rfl
  rw [this]
  generalize knn (pts.map fun x => x.1) k 0 .pinf q = l
  induction l with
  | nil => rfl
  | cons e l ih =>
    rw [List.mapM_cons, List.mapM_cons, ih, List.getElem?_map]
    cases pts[e.2]? with
    | none => rfl
    | some v =>
      simp only [Option.map_some]
      generalize List.mapM (m := Except Err) _ l = r
      cases r <;> rfl

theorem mapM_ok_get {α β : Type} {g : α → Except Err β} {l : List α} {r : List β} (h : l.mapM g = .ok r) :
    r.length = l.length ∧ ∀ (k : Nat) (a : α), l[k]? = some a → ∃ b, r[k]? = some b ∧ g a = .ok b := by
  induction l generalizing r with
  | nil =>
    rw [List.mapM_nil] at h
    cases h
    exact ⟨rfl, fun k a h => by simp at h⟩
  | cons a l ih =>
    rw [List.mapM_cons] at h
    cases hg : g a with
    | error e => rw [hg] at h; cases h
    | ok v =>
      rw [hg] at h
      cases hr : List.mapM g l with
      | error e => rw [hr] at h; cases h
      | ok s =>
        rw [hr] at h
        obtain ⟨h1, h2⟩ := ih hr
        have hs : r = v :: s := by cases h; rfl
        subst hs
        refine ⟨by simp [h1], ?_⟩
        intro k b hk
        cases k with
        | zero =>
          simp at hk
          subst hk
          exact ⟨v, by simp, hg⟩
        | succ k =>
          simp at hk
          simpa using h2 k b hk

theorem krWindow_mem (knn : Knn) (pts : List (Pt × Fl ℝ)) (k : Nat) (q : Pt) {sub : List (Pt × Fl ℝ)}
    (h : krWindow knn pts k q = .ok sub) :
    sub.length = (knn (pts.map (·.1)) k 0 .pinf q).length ∧
      ∀ (t : Nat) (e : Fl ℝ × Nat), (knn (pts.map (·.1)) k 0 .pinf q)[t]? = some e → pts[e.2]? = sub[t]? := by
  unfold krWindow at h
  obtain ⟨h1, h2⟩ := mapM_ok_get h
  refine ⟨h1, fun t e ht => ?_⟩
  obtain ⟨b, hb, hm⟩ := h2 t e ht
  rw [hb]
  cases hp : pts[e.2]? with
  | none => rw [hp] at hm; cases hm
  | some v => rw [hp] at hm; cases hm; rfl

theorem krWindow_sub (knn : Knn) (pts : List (Pt × Fl ℝ)) (k : Nat) (q : Pt) {sub : List (Pt × Fl ℝ)}
    (h : krWindow knn pts k q = .ok sub) : ∀ v ∈ sub, v ∈ pts := by
  obtain ⟨h1, h2⟩ := krWindow_mem knn pts k q h
  intro v hv
  obtain ⟨t, ht⟩ := List.mem_iff_getElem?.1 hv
  have hlt : t < sub.length := (List.getElem?_eq_some_iff.1 ht).1
  rw [h1] at hlt
  have := h2 t _ (List.getElem?_eq_getElem hlt)
  rw [ht] at this
  exact List.mem_of_getElem? this

theorem krQuery_affine (knn : Knn) (nc : Option Int) (γ : ℝ → ℝ) (pts : List (Pt × Fl ℝ)) (q : Pt)
    (hz : ∀ e ∈ pts, e.2 ≠ .pinf ∧ e.2 ≠ .ninf) (a b : ℝ) :
    krQuery knn nc γ (pts.map fun e => (e.1, Fl.fin a *ᶠ e.2 +ᶠ Fl.fin b)) q =
      (krQuery knn nc γ pts q).map fun r => (Fl.fin a *ᶠ r.1 +ᶠ Fl.fin b, r.2) := by
  have key : ∀ pts : List (Pt × Fl ℝ), (∀ e ∈ pts, e.2 ≠ .pinf ∧ e.2 ≠ .ninf) →
      (open Classical in if KrRegular γ (pts.map fun e => (e.1, Fl.fin a *ᶠ e.2 +ᶠ Fl.fin b)) then
        Except.ok (krEstimate γ (pts.map fun e => (e.1, Fl.fin a *ᶠ e.2 +ᶠ Fl.fin b)) q)
        else .error Err.valueError) =
      (open Classical in if KrRegular γ pts then Except.ok (krEstimate γ pts q) else .error Err.valueError).map
        fun r => (Fl.fin a *ᶠ r.1 +ᶠ Fl.fin b, r.2) := by
    intro pts hz
    have h1 := (krEstimate_map γ pts q fun e => Fl.fin a *ᶠ e.2 +ᶠ Fl.fin b).1
    by_cases h : KrRegular γ pts
    · rw [if_pos h, if_pos (h1.2 h), krEstimate_map_affine γ pts q h hz a b]
      rfl
    · rw [if_neg h, if_neg (fun h' => h (h1.1 h'))]
      rfl
  unfold krQuery
  cases nc with
  | none => exact key pts hz
  | some k =>
    dsimp only
    split
    · rfl
    · rw [krWindow_map]
      cases hw : krWindow knn pts k.toNat q with
      | error e => rfl
      | ok sub => exact key sub fun e he => hz e (krWindow_sub knn pts _ q hw e he)

theorem krQuery_sigma (knn : Knn) (nc : Option Int) (γ : ℝ → ℝ) (pts : List (Pt × Fl ℝ)) (q : Pt)
    (f : Pt × Fl ℝ → Fl ℝ) :
    (krQuery knn nc γ (pts.map fun e => (e.1, f e)) q).map (·.2) = (krQuery knn nc γ pts q).map (·.2) := by
  have key : ∀ pts : List (Pt × Fl ℝ),
      (open Classical in if KrRegular γ (pts.map fun e => (e.1, f e)) then
        Except.ok (krEstimate γ (pts.map fun e => (e.1, f e)) q) else .error Err.valueError).map (·.2) =
      (open Classical in if KrRegular γ pts then Except.ok (krEstimate γ pts q) else .error Err.valueError).map (·.2) := by
    intro pts
    obtain ⟨h1, h2⟩ := krEstimate_map γ pts q f
    by_cases h : KrRegular γ pts
    · rw [if_pos h, if_pos (h1.2 h)]
      exact congrArg Except.ok h2
    · rw [if_neg h, if_neg (fun h' => h (h1.1 h'))]
  unfold krQuery
  cases nc with
  | none => exact key pts
  | some k =>
    dsimp only
    split
    · rfl
    · rw [krWindow_map]
      cases hw : krWindow knn pts k.toNat q with
      | error e => rfl
      | ok sub => exact key sub

theorem mapM_comp {α β δ : Type} (g : α → Except Err β) (h : β → δ) (l : List α) :
    (l.mapM fun x => (g x).map h) = (l.mapM g).map (List.map h) := by
  induction l with
  | nil => rfl
  | cons a l ih =>
    rw [List.mapM_cons, List.mapM_cons, ih]
    cases g a with
    | error e => rfl
    | ok v =>
      generalize List.mapM g l = r
      cases r <;> rfl

theorem mapM_all_ok {α β : Type} (g : α → Except Err β) (l : List α) (h : ∀ a ∈ l, ∃ b, g a = .ok b) :
    ∃ r, l.mapM g = .ok r := by
  induction l with
  | nil => exact ⟨[], rfl⟩
  | cons a l ih =>
    obtain ⟨b, hb⟩ := h a (by simp)
    obtain ⟨r, hr⟩ := ih fun x hx => h x (by simp [hx])
    refine ⟨b :: r, ?_⟩
    rw [List.mapM_cons, hb, hr]
    rfl

/-! ### a call -/

/-- the points PyKrige gets -/
noncomputable def krSel (cfg : Kriging.Config) (pts : List (Pt × Fl ℝ)) : List (Pt × Fl ℝ) :=
  if cfg.excludeNan then krGood pts else pts

/-- grid used, and estimates and variances of the cells (`none`: no numbers among the values) -/
noncomputable def krOut (variogram : String → Dict ℝ → Except Err (ℝ → ℝ)) (knn : Knn) (cfg : Kriging.Config) (d : Dict ℝ)
    (pts : List (Pt × Fl ℝ)) (xg yg : Option (Grid ℝ)) (res : Option ℝ) :
    Except Err (Grid ℝ × Option (List (Fl ℝ × Fl ℝ))) :=
  match parseGrid (pts.map (·.1.1)) (pts.map (·.1.2)) xg yg res with
  | .error e => .error e
  | .ok (xg, yg) =>
    if krGood pts = [] then .ok (xg, none)
    else match variogram cfg.variogramModel d with
      | .error e => .error e
      | .ok γ =>
        if (krSel cfg pts).length < 2 ∨ xg.flatten.length ≠ yg.flatten.length then .error .valueError
        else ((xg.flatten.zip yg.flatten).mapM (krQuery knn cfg.nClosest γ (krSel cfg pts))).map fun r => (xg, some r)

/-- the grid returned -/
noncomputable def krGridOf (o : Grid ℝ × Option (List (Fl ℝ × Fl ℝ))) : Grid (Fl ℝ) :=
  match o.2 with
  | none => o.1.map fun r => r.map fun _ => Fl.nan
  | some r => reshape o.1 (r.map (·.1))

theorem krZip (pts : List (Pt × Fl ℝ)) :
    ((pts.map (·.1.1)).zip (pts.map (·.1.2))).zip (pts.map (·.2)) = pts := by
  induction pts with
  | nil => rfl
  | cons e l ih => simpa using ih

theorem krCallForm (variogram : String → Dict ℝ → Except Err (ℝ → ℝ)) (knn : Knn) (cfg : Kriging.Config) (d : Dict ℝ)
    (a : Attrs ℝ) (pts : List (Pt × Fl ℝ)) (xg yg : Option (Grid ℝ)) (res : Option ℝ) :
    (Kriging.call (pykrige variogram knn) cfg d a (pts.map (·.1.1)) (pts.map (·.1.2)) (pts.map (·.2)) xg yg res).1 =
      (krOut variogram knn cfg d pts xg yg res).map krGridOf ∧
    (Kriging.call (pykrige variogram knn) cfg d a (pts.map (·.1.1)) (pts.map (·.1.2)) (pts.map (·.2)) xg yg res).2.sigma =
      match krOut variogram knn cfg d pts xg yg res with
      | .ok (_, some r) => some (r.map (·.2))
      | _ => a.sigma := by
  unfold Kriging.call krOut
  rw [if_neg (by simp)]
  cases hp : parseGrid (pts.map (·.1.1)) (pts.map (·.1.2)) xg yg res with
  | error e => exact ⟨rfl, rfl⟩
  | ok g =>
    obtain ⟨xg, yg⟩ := g
    dsimp only
    by_cases hne : krGood pts = []
    · rw [if_pos (by rw [krNone]; exact hne), if_pos hne]
      exact ⟨rfl, rfl⟩
    · rw [if_neg (by rw [krNone]; exact hne), if_neg hne]
      have hint : ∀ ok : PyKrige ℝ, Kriging.interpolFunc ok cfg d { a with xgrid := some xg, ygrid := some yg }
          (pts.map (·.1.1)) (pts.map (·.1.2)) (pts.map (·.2)) xg.flatten yg.flatten =
          match ok cfg d ((krSel cfg pts).map (·.1.1)) ((krSel cfg pts).map (·.1.2)) ((krSel cfg pts).map (·.2))
            xg.flatten yg.flatten with
          | .error e => (.error e, { a with xgrid := some xg, ygrid := some yg, z := some ((krSel cfg pts).map (·.2)) })
          | .ok (zi, s) => (.ok zi, { a with xgrid := some xg, ygrid := some yg, z := some ((krSel cfg pts).map (·.2)), sigma := some s }) := by
        intro ok
        unfold Kriging.interpolFunc krSel
        dsimp only
        by_cases hex : cfg.excludeNan = true
        · rw [if_pos hex, if_pos hex, if_pos hex, if_pos hex, krSelect pts (fun e => e.1.1),
            krSelect pts (fun e => e.1.2), krSelect pts (fun e => e.2)]
          generalize ok cfg d _ _ _ _ _ = r
          cases r <;> rfl
        · rw [if_neg hex, if_neg hex, if_neg hex, if_neg hex]
          generalize ok cfg d _ _ _ _ _ = r
          cases r <;> rfl
      rw [hint]
      unfold pykrige
      rw [krZip, List.length_map]
      cases variogram cfg.variogramModel d with
      | error e => exact ⟨rfl, rfl⟩
      | ok γ =>
        dsimp only
        by_cases hlen : (krSel cfg pts).length < 2 ∨ xg.flatten.length ≠ yg.flatten.length
        · rw [if_pos hlen, if_pos hlen]
          exact ⟨rfl, rfl⟩
        · rw [if_neg hlen, if_neg hlen]
          push Not at hlen
          cases hm : (xg.flatten.zip yg.flatten).mapM (krQuery knn cfg.nClosest γ (krSel cfg pts)) with
          | error e => exact ⟨rfl, rfl⟩
          | ok r =>
            have hl : (r.map (·.1)).length = xg.flatten.length := by
              rw [List.length_map, (mapM_ok_get hm).1, List.length_zip, hlen.2, min_self]
            dsimp only
            rw [if_pos hl]
            exact ⟨rfl, rfl⟩

theorem krResultForm (variogram : String → Dict ℝ → Except Err (ℝ → ℝ)) (knn : Knn) (w : World ℝ) (i : Nat) (o : Obj ℝ)
    (d : Dict ℝ) (ho : w.objs[i]? = some o) (hd : w.dicts[o.cfg.params]? = some d)
    (pts : List (Pt × Fl ℝ)) (xg yg : Option (Grid ℝ)) (res : Option ℝ) :
    w.callResult (pykrige variogram knn) i (pts.map (·.1.1)) (pts.map (·.1.2)) (pts.map (·.2)) xg yg res =
      (krOut variogram knn o.cfg d pts xg yg res).map krGridOf := by
  have hp : w.paramsOf i = some d := by simp [World.paramsOf, ho, hd]
  unfold World.callResult
  rw [ho, hp]
  exact (krCallForm variogram knn o.cfg d o.attrs pts xg yg res).1

/-- `obj.sigma` after a call (`none`: `AttributeError`) -/
noncomputable def sigmaAfter (ok : PyKrige ℝ) (w : World ℝ) (i : Nat) (pts : List (Pt × Fl ℝ)) (xg yg : Option (Grid ℝ))
    (res : Option ℝ) : Option (List (Fl ℝ)) :=
  ((w.step ok (.call i (pts.map (·.1.1)) (pts.map (·.1.2)) (pts.map (·.2)) xg yg res)).objs[i]?).bind (·.attrs.sigma)

theorem krSigmaForm (variogram : String → Dict ℝ → Except Err (ℝ → ℝ)) (knn : Knn) (w : World ℝ) (i : Nat) (o : Obj ℝ)
    (d : Dict ℝ) (ho : w.objs[i]? = some o) (hd : w.dicts[o.cfg.params]? = some d)
    (pts : List (Pt × Fl ℝ)) (xg yg : Option (Grid ℝ)) (res : Option ℝ) :
    sigmaAfter (pykrige variogram knn) w i pts xg yg res =
      match krOut variogram knn o.cfg d pts xg yg res with
      | .ok (_, some r) => some (r.map (·.2))
      | _ => o.attrs.sigma := by
  unfold sigmaAfter
  rw [krStepCall (pykrige variogram knn) w i o d ho hd]
  exact (krCallForm variogram knn o.cfg d o.attrs pts xg yg res).2

/-- without the object or its dictionary a call is a `nameError` and changes nothing -/
theorem krMissing (ok : PyKrige ℝ) (w : World ℝ) (i : Nat)
    (h : ¬ ∃ o d, w.objs[i]? = some o ∧ w.dicts[o.cfg.params]? = some d) (x y : List ℝ) (z : List (Fl ℝ))
    (xg yg : Option (Grid ℝ)) (res : Option ℝ) :
    w.callResult ok i x y z xg yg res = .error .nameError ∧ w.step ok (.call i x y z xg yg res) = w := by
  unfold World.callResult World.step
  dsimp only
  cases ho : w.objs[i]? with
  | none => exact ⟨rfl, rfl⟩
  | some o =>
    have : w.paramsOf i = none := by
      cases hd : w.dicts[o.cfg.params]? with
      | none => simp [World.paramsOf, ho, hd]
      | some d => exact absurd ⟨o, d, ho, hd⟩ h
    rw [this]
    exact ⟨rfl, rfl⟩

theorem krGood_map (pts : List (Pt × Fl ℝ)) (f : Pt × Fl ℝ → Fl ℝ)
    (h : ∀ e ∈ pts, PyFloat.isNaN (f e) = PyFloat.isNaN e.2) :
    krGood (pts.map fun e => (e.1, f e)) = (krGood pts).map fun e => (e.1, f e) := by
  unfold krGood
  rw [List.filter_map]
  congr 1
  apply List.filter_congr
  intro e he
  show (!PyFloat.isNaN (f e)) = _
  rw [h e he]

theorem krSel_map (cfg : Kriging.Config) (pts : List (Pt × Fl ℝ)) (f : Pt × Fl ℝ → Fl ℝ)
    (h : ∀ e ∈ pts, PyFloat.isNaN (f e) = PyFloat.isNaN e.2) :
    krSel cfg (pts.map fun e => (e.1, f e)) = (krSel cfg pts).map fun e => (e.1, f e) := by
  unfold krSel
  split
  · exact krGood_map pts f h
  · rfl

theorem krSel_mem (cfg : Kriging.Config) (pts : List (Pt × Fl ℝ)) : ∀ e ∈ krSel cfg pts, e ∈ pts := by
  unfold krSel krGood
  intro e he
  split at he
  · exact (List.mem_filter.1 he).1
  · exact he

theorem map_map_snd (pts : List (Pt × Fl ℝ)) (f : Pt × Fl ℝ → Fl ℝ) :
    ((pts.map fun e => (e.1, f e)).map (·.1.1)) = pts.map (·.1.1) ∧
    ((pts.map fun e => (e.1, f e)).map (·.1.2)) = pts.map (·.1.2) ∧
    ((pts.map fun e => (e.1, f e)).map (·.2)) = pts.map f := by
  simp [List.map_map, Function.comp_def]

theorem krOut_affine (variogram : String → Dict ℝ → Except Err (ℝ → ℝ)) (knn : Knn) (cfg : Kriging.Config) (d : Dict ℝ)
    (pts : List (Pt × Fl ℝ)) (hz : ∀ e ∈ pts, e.2 ≠ .pinf ∧ e.2 ≠ .ninf) (a b : ℝ) (xg yg : Option (Grid ℝ))
    (res : Option ℝ) :
    krOut variogram knn cfg d (pts.map fun e => (e.1, Fl.fin a *ᶠ e.2 +ᶠ Fl.fin b)) xg yg res =
      (krOut variogram knn cfg d pts xg yg res).map fun o =>
        (o.1, o.2.map (List.map fun r => (Fl.fin a *ᶠ r.1 +ᶠ Fl.fin b, r.2))) := by
  have hn : ∀ e ∈ pts, PyFloat.isNaN (Fl.fin a *ᶠ e.2 +ᶠ Fl.fin b) = PyFloat.isNaN e.2 := by
    intro e he
    have := hz e he
    cases h : e.2 with
    | nan => simp
    | ninf => exact absurd h this.2
    | pinf => exact absurd h this.1
    | fin x => simp
  unfold krOut
  obtain ⟨e1, e2, _⟩ := map_map_snd pts fun e => Fl.fin a *ᶠ e.2 +ᶠ Fl.fin b
  rw [e1, e2]
  cases parseGrid (pts.map (·.1.1)) (pts.map (·.1.2)) xg yg res with
  | error e => rfl
  | ok g =>
    obtain ⟨xg, yg⟩ := g
    dsimp only
    rw [krGood_map pts _ hn, krSel_map cfg pts _ hn, List.length_map]
    simp only [List.map_eq_nil_iff]
    by_cases h0 : krGood pts = []
    · rw [if_pos h0, if_pos h0]; rfl
    · rw [if_neg h0, if_neg h0]
      cases variogram cfg.variogramModel d with
      | error e => rfl
      | ok γ =>
        dsimp only
        split
        · rfl
        · have : krQuery knn cfg.nClosest γ ((krSel cfg pts).map fun e => (e.1, Fl.fin a *ᶠ e.2 +ᶠ Fl.fin b)) =
              fun q => (krQuery knn cfg.nClosest γ (krSel cfg pts) q).map fun r => (Fl.fin a *ᶠ r.1 +ᶠ Fl.fin b, r.2) := by
            funext q
            exact krQuery_affine knn cfg.nClosest γ _ q (fun e he => hz e (krSel_mem cfg pts e he)) a b
          rw [this, mapM_comp]
          generalize List.mapM (krQuery knn cfg.nClosest γ (krSel cfg pts)) _ = r
          cases r <;> rfl

theorem reshape_map {α β δ : Type} (f : β → δ) : ∀ (g : List (List α)) (l : List β),
    reshape g (l.map f) = (reshape g l).map (List.map f)
  | [], _ => rfl
  | r :: rs, l => by
    rw [reshape, reshape, List.map_cons, ← List.map_take, ← List.map_drop, reshape_map f rs]

/-- **C100** Kriging is linear and unbiased: values `a * z + b` in place of the values `z` give the field `a * Z + b` in place of `Z`
(cell by cell, NaN cells stay NaN), or the same exception; for every variogram, every choice of points and neighbours, and
NaNs among the values. -/
theorem C100_affine (variogram : String → Dict ℝ → Except Err (ℝ → ℝ)) (knn : Knn) (w : World ℝ) (i : Nat)
    (pts : List (Pt × Fl ℝ)) (hz : ∀ e ∈ pts, e.2 ≠ .pinf ∧ e.2 ≠ .ninf) (a b : ℝ) (xg yg : Option (Grid ℝ))
    (res : Option ℝ) :
    w.callResult (pykrige variogram knn) i (pts.map (·.1.1)) (pts.map (·.1.2))
        (pts.map fun e => Fl.fin a *ᶠ e.2 +ᶠ Fl.fin b) xg yg res =
      (w.callResult (pykrige variogram knn) i (pts.map (·.1.1)) (pts.map (·.1.2)) (pts.map (·.2)) xg yg res).map
        (List.map (List.map fun v => Fl.fin a *ᶠ v +ᶠ Fl.fin b)) := by
  by_cases h : ∃ o d, w.objs[i]? = some o ∧ w.dicts[o.cfg.params]? = some d
  · obtain ⟨o, d, ho, hd⟩ := h
    obtain ⟨e1, e2, e3⟩ := map_map_snd pts fun e => Fl.fin a *ᶠ e.2 +ᶠ Fl.fin b
    have h1 := krResultForm variogram knn w i o d ho hd (pts.map fun e => (e.1, Fl.fin a *ᶠ e.2 +ᶠ Fl.fin b)) xg yg res
    rw [e1, e2, e3] at h1
    rw [h1, krResultForm variogram knn w i o d ho hd pts xg yg res, krOut_affine variogram knn o.cfg d pts hz a b]
    cases krOut variogram knn o.cfg d pts xg yg res with
    | error e => rfl
    | ok g =>
      obtain ⟨g, r⟩ := g
      cases r with
      | none =>
        show Except.ok _ = Except.ok _
        congr 1
        simp [krGridOf, List.map_map, Function.comp_def]
      | some r =>
        show Except.ok _ = Except.ok _
        congr 1
        simp only [krGridOf, Option.map_some, List.map_map]
        rw [← reshape_map, List.map_map]
        rfl
  · rw [(krMissing _ w i h _ _ _ _ _ _).1, (krMissing _ w i h _ _ _ _ _ _).1]
    rfl

/-- **C100** The same value at all points gives this value in all cells, whenever kriging gives a field. -/
theorem C100_constant (variogram : String → Dict ℝ → Except Err (ℝ → ℝ)) (knn : Knn) (w : World ℝ) (i : Nat)
    (locs : List Pt) (hne : locs ≠ []) (c : ℝ) (xg yg : Option (Grid ℝ)) (res : Option ℝ) (zg : Grid (Fl ℝ))
    (h : w.callResult (pykrige variogram knn) i (locs.map (·.1)) (locs.map (·.2)) (locs.map fun _ => Fl.fin c) xg yg res
      = .ok zg) :
    ∀ row ∈ zg, ∀ v ∈ row, v = Fl.fin c := by
  have h0 := C100_affine variogram knn w i (locs.map fun p => (p, Fl.fin (0:ℝ))) (by
    intro e he
    obtain ⟨p, _, rfl⟩ := List.mem_map.1 he
    simp) 1 c xg yg res
  have h1 := C100_affine variogram knn w i (locs.map fun p => (p, Fl.fin (0:ℝ))) (by
    intro e he
    obtain ⟨p, _, rfl⟩ := List.mem_map.1 he
    simp) 0 c xg yg res
  simp only [List.map_map, Function.comp_def, Fl.pf_mul_fin, Fl.pf_add_fin, mul_zero, zero_add] at h0 h1
  rw [h] at h1
  cases hr : w.callResult (pykrige variogram knn) i (locs.map (·.1)) (locs.map (·.2)) (locs.map fun _ => Fl.fin 0) xg yg
      res with
  | error e => rw [hr] at h1; cases h1
  | ok z0 =>
    rw [hr] at h1
    have hz : zg = z0.map (List.map fun v => Fl.fin 0 *ᶠ v +ᶠ Fl.fin c) := by cases h1; rfl
    have hfin : ∀ row ∈ z0, ∀ v ∈ row, ∃ x, v = Fl.fin x := by
      by_cases hod : ∃ o d, w.objs[i]? = some o ∧ w.dicts[o.cfg.params]? = some d
      · obtain ⟨o, d, ho, hd⟩ := hod
        have hf := krResultForm variogram knn w i o d ho hd (locs.map fun p => (p, Fl.fin (0:ℝ))) xg yg res
        simp only [List.map_map, Function.comp_def] at hf
        rw [hr] at hf
        have hgood : krGood (locs.map fun p => (p, Fl.fin (0:ℝ))) = locs.map fun p => (p, Fl.fin (0:ℝ)) := by
          unfold krGood
          rw [List.filter_eq_self]
          intro e he
          obtain ⟨p, _, rfl⟩ := List.mem_map.1 he
          simp
        have hsel : krSel o.cfg (locs.map fun p => (p, Fl.fin (0:ℝ))) = locs.map fun p => (p, Fl.fin (0:ℝ)) := by
          unfold krSel; rw [hgood]; simp
        cases hk : krOut variogram knn o.cfg d (locs.map fun p => (p, Fl.fin (0:ℝ))) xg yg res with
        | error e => rw [hk] at hf; cases hf
        | ok g =>
          rw [hk] at hf
          have hz0 : z0 = krGridOf g := by cases hf; rfl
          unfold krOut at hk
          rw [hgood, hsel] at hk
          cases hp : parseGrid ((locs.map fun p => (p, Fl.fin (0:ℝ))).map (·.1.1))
              ((locs.map fun p => (p, Fl.fin (0:ℝ))).map (·.1.2)) xg yg res with
          | error e => rw [hp] at hk; cases hk
          | ok gr =>
            obtain ⟨xg', yg'⟩ := gr
            rw [hp] at hk
            dsimp only at hk
            rw [if_neg (by simpa using hne)] at hk
            cases hv : variogram o.cfg.variogramModel d with
            | error e => rw [hv] at hk; cases hk
            | ok γ =>
              rw [hv] at hk
              dsimp only at hk
              split at hk
              · cases hk
              · rename_i hlen
                push Not at hlen
                cases hm : (xg'.flatten.zip yg'.flatten).mapM (krQuery knn o.cfg.nClosest γ
                    (locs.map fun p => (p, Fl.fin (0:ℝ)))) with
                | error e => rw [hm] at hk; cases hk
                | ok r =>
                  rw [hm] at hk
                  have hg : g = (xg', some r) := by cases hk; rfl
                  subst hg
                  intro row hrow v hv'
                  rw [hz0] at hrow
                  obtain ⟨hlr, hget⟩ := mapM_ok_get hm
                  have hflat := (reshape_get xg' (r.map (·.1)) (by
                    rw [List.length_map, hlr, List.length_zip, hlen.2, min_self])).2
                  have hmem : v ∈ r.map (·.1) := by
                    rw [← hflat]
                    exact List.mem_flatten.2 ⟨row, hrow, hv'⟩
                  obtain ⟨b, hb, rfl⟩ := List.mem_map.1 hmem
                  obtain ⟨k, hk⟩ := List.mem_iff_getElem?.1 hb
                  have hlt : k < (xg'.flatten.zip yg'.flatten).length := by
                    rw [← hlr]; exact (List.getElem?_eq_some_iff.1 hk).1
                  obtain ⟨b', hb', hq⟩ := hget k _ (List.getElem?_eq_getElem hlt)
                  rw [hk] at hb'
                  cases hb'
                  generalize (xg'.flatten.zip yg'.flatten)[k] = q at hq
                  have key : ∀ sub : List (Pt × Fl ℝ), (∀ e ∈ sub, e.2 = Fl.fin 0) →
                      ∃ x, (krEstimate γ sub q).1 = Fl.fin x := by
                    intro sub hsub
                    unfold krEstimate
                    have : (fun i : Fin sub.length => sub[i].2) = fun i => Fl.fin ((fun _ => 0 : Fin sub.length → ℝ) i) := by
                      funext i
                      exact hsub _ (List.getElem_mem _)
                    rw [this, krEst_fin]
                    exact ⟨_, rfl⟩
                  have hval : ∀ e ∈ (locs.map fun p => (p, Fl.fin (0:ℝ))), e.2 = Fl.fin 0 := by
                    intro e he
                    obtain ⟨p, _, rfl⟩ := List.mem_map.1 he
                    rfl
                  unfold krQuery at hq
                  split at hq
                  · split at hq
                    · cases hq
                      exact key _ hval
                    · cases hq
                  · split at hq
                    · cases hq
                    · rename_i k' _ _
                      cases hw : krWindow knn (locs.map fun p => (p, Fl.fin (0:ℝ))) k'.toNat q with
                      | error e => rw [hw] at hq; cases hq
                      | ok sub =>
                        rw [hw] at hq
                        dsimp only at hq
                        split at hq
                        · cases hq
                          exact key _ fun e he => hval e (krWindow_sub knn _ _ q hw e he)
                        · cases hq
      · rw [(krMissing _ w i hod _ _ _ _ _ _).1] at hr
        cases hr
    intro row hrow v hv
    rw [hz] at hrow
    obtain ⟨row0, hrow0, rfl⟩ := List.mem_map.1 hrow
    obtain ⟨v0, hv0, rfl⟩ := List.mem_map.1 hv
    obtain ⟨x, rfl⟩ := hfin row0 hrow0 v0 hv0
    simp

/-- **C100** The variances in `sigma` depend only on where there are numbers, not on the numbers: two sets of values at the same
points, with NaNs at the same places, leave the same `sigma`. -/
theorem C100_sigma (variogram : String → Dict ℝ → Except Err (ℝ → ℝ)) (knn : Knn) (w : World ℝ) (i : Nat)
    (pts : List (Pt × Fl ℝ × Fl ℝ)) (hn : ∀ e ∈ pts, PyFloat.isNaN e.2.1 = PyFloat.isNaN e.2.2)
    (xg yg : Option (Grid ℝ)) (res : Option ℝ) :
    ((w.step (pykrige variogram knn) (.call i (pts.map (·.1.1)) (pts.map (·.1.2)) (pts.map (·.2.1)) xg yg res)).objs[i]?).bind
        (·.attrs.sigma) =
      ((w.step (pykrige variogram knn) (.call i (pts.map (·.1.1)) (pts.map (·.1.2)) (pts.map (·.2.2)) xg yg res)).objs[i]?).bind
        (·.attrs.sigma) := by
  by_cases h : ∃ o d, w.objs[i]? = some o ∧ w.dicts[o.cfg.params]? = some d
  · obtain ⟨o, d, ho, hd⟩ := h
    have f1 := krSigmaForm variogram knn w i o d ho hd (pts.map fun e => (e.1, e.2.1)) xg yg res
    have f2 := krSigmaForm variogram knn w i o d ho hd (pts.map fun e => (e.1, e.2.2)) xg yg res
    unfold sigmaAfter at f1 f2
    simp only [List.map_map, Function.comp_def] at f1 f2
    rw [f1, f2]
    have hgl : (krGood (pts.map fun e => (e.1, e.2.1))) = (pts.filter fun e => !(PyFloat.isNaN e.2.1)).map fun e => (e.1, e.2.1) := by
      unfold krGood; rw [List.filter_map]; rfl
    have hgr : (krGood (pts.map fun e => (e.1, e.2.2))) = (pts.filter fun e => !(PyFloat.isNaN e.2.1)).map fun e => (e.1, e.2.2) := by
      unfold krGood; rw [List.filter_map]
      congr 1
      apply List.filter_congr
      intro e he
      show (!PyFloat.isNaN e.2.2) = _
      rw [hn e he]
    obtain ⟨good, hgood⟩ : ∃ good, good = pts.filter fun e => !(PyFloat.isNaN e.2.1) := ⟨_, rfl⟩
    rw [← hgood] at hgl hgr
    obtain ⟨sel, hsl, hsr⟩ : ∃ sel : List (Pt × Fl ℝ × Fl ℝ), krSel o.cfg (pts.map fun e => (e.1, e.2.1)) = sel.map (fun e => (e.1, e.2.1)) ∧
        krSel o.cfg (pts.map fun e => (e.1, e.2.2)) = sel.map (fun e => (e.1, e.2.2)) := by
      unfold krSel
      split
      · exact ⟨good, hgl, hgr⟩
      · exact ⟨pts, rfl, rfl⟩
    have hkey : ∀ γ q, (krQuery knn o.cfg.nClosest γ (sel.map fun e => (e.1, e.2.1)) q).map (·.2) =
        (krQuery knn o.cfg.nClosest γ (sel.map fun e => (e.1, e.2.2)) q).map (·.2) := by
      intro γ q
      have a1 := krQuery_sigma knn o.cfg.nClosest γ (sel.map fun e => (e.1, e.2.1)) q (fun _ => Fl.nan)
      have a2 := krQuery_sigma knn o.cfg.nClosest γ (sel.map fun e => (e.1, e.2.2)) q (fun _ => Fl.nan)
      rw [← a1, ← a2, List.map_map, List.map_map]
      rfl
    unfold krOut
    rw [hgl, hgr, hsl, hsr]
    simp only [List.map_map, Function.comp_def, List.map_eq_nil_iff, List.length_map]
    cases parseGrid (pts.map (·.1.1)) (pts.map (·.1.2)) xg yg res with
    | error e => rfl
    | ok g =>
      obtain ⟨xg, yg⟩ := g
      dsimp only
      by_cases h0 : good = []
      · rw [if_pos h0, if_pos h0]
      · rw [if_neg h0, if_neg h0]
        cases variogram o.cfg.variogramModel d with
        | error e => rfl
        | ok γ =>
          dsimp only
          by_cases hlen : sel.length < 2 ∨ xg.flatten.length ≠ yg.flatten.length
          · rw [if_pos hlen, if_pos hlen]
          · rw [if_neg hlen, if_neg hlen]
            have m1 := mapM_comp (krQuery knn o.cfg.nClosest γ (sel.map fun e => (e.1, e.2.1))) (·.2) (xg.flatten.zip yg.flatten)
            have m2 := mapM_comp (krQuery knn o.cfg.nClosest γ (sel.map fun e => (e.1, e.2.2))) (·.2) (xg.flatten.zip yg.flatten)
            simp only [hkey γ] at m1
            rw [m1] at m2
            revert m2
            cases (xg.flatten.zip yg.flatten).mapM (krQuery knn o.cfg.nClosest γ (sel.map fun e => (e.1, e.2.1))) with
            | error e =>
              cases (xg.flatten.zip yg.flatten).mapM (krQuery knn o.cfg.nClosest γ (sel.map fun e => (e.1, e.2.2))) with
              | error e' => intro _; rfl
              | ok r' => intro m2; cases m2
            | ok r =>
              cases (xg.flatten.zip yg.flatten).mapM (krQuery knn o.cfg.nClosest γ (sel.map fun e => (e.1, e.2.2))) with
              | error e' => intro m2; cases m2
              | ok r' =>
                intro m2
                have : r.map (·.2) = r'.map (·.2) := by simpa [Except.map] using m2
                show some _ = some _
                rw [this]
  · rw [(krMissing _ w i h _ _ _ _ _ _).2, (krMissing _ w i h _ _ _ _ _ _).2]

end Verif.Props
