import Verif.Props.OrdinaryKriging

/-!
# Properties C101, C102: kriging at the data points, order of the points, moved coordinates
-/

namespace Verif.Props
open Verif Verif.Idw Verif.Kriging

theorem krOut_inv {variogram : String → Dict ℝ → Except Err (ℝ → ℝ)} {knn : Knn} {cfg : Kriging.Config} {d : Dict ℝ}
    {pts : List (Pt × Fl ℝ)} {xg yg : Grid ℝ} {res : Option ℝ} {g : Grid ℝ × Option (List (Fl ℝ × Fl ℝ))}
    (h : krOut variogram knn cfg d pts (some xg) (some yg) res = .ok g) (hne : krGood pts ≠ []) :
    ∃ γ r, g = (xg, some r) ∧ variogram cfg.variogramModel d = .ok γ ∧ 2 ≤ (krSel cfg pts).length ∧
      xg.flatten.length = yg.flatten.length ∧
      (xg.flatten.zip yg.flatten).mapM (krQuery knn cfg.nClosest γ (krSel cfg pts)) = .ok r := by
  unfold krOut at h
  have hp : parseGrid (pts.map (·.1.1)) (pts.map (·.1.2)) (some xg) (some yg) res = .ok (xg, yg) := rfl
  rw [hp] at h
  dsimp only at h
  rw [if_neg hne] at h
  cases hv : variogram cfg.variogramModel d with
  | error e => rw [hv] at h; cases h
  | ok γ =>
    rw [hv] at h
    dsimp only at h
    by_cases hlen : (krSel cfg pts).length < 2 ∨ xg.flatten.length ≠ yg.flatten.length
    · rw [if_pos hlen] at h; cases h
    · rw [if_neg hlen] at h
      push Not at hlen
      cases hm : (xg.flatten.zip yg.flatten).mapM (krQuery knn cfg.nClosest γ (krSel cfg pts)) with
      | error e => rw [hm] at h; cases h
      | ok r =>
        rw [hm] at h
        refine ⟨γ, r, ?_, rfl, hlen.1, hlen.2, hm⟩
        cases h
        rfl

theorem zip_get {xs ys : List ℝ} {k : Nat} {q : Pt} (hx : xs[k]? = some q.1) (hy : ys[k]? = some q.2) :
    (xs.zip ys)[k]? = some q := by
  rw [List.getElem?_zip_eq_some]
  exact ⟨hx, hy⟩

theorem krEst_at (γ : ℝ → ℝ) {n : Nat} (p : Fin n → Pt) (v : Fin n → ℝ) (j : Fin n)
    (h : IsUnit (krMatrix γ p).det) (hfar : ∀ i, i ≠ j → 1 / 10 ^ 10 < euclid (p j) (p i)) :
    krEst γ p (fun i => .fin (v i)) (p j) = (.fin (v j), .fin 0) := by
  have hself : euclid (p j) (p j) = 0 := by unfold euclid; simp
  have hs : krSolve γ p (p j) = fun a => match a with | .inl i => if i = j then 1 else 0 | .inr _ => 0 := by
    apply krSolve_unique h
    · intro i
      simp only [mul_ite, mul_one, mul_zero, Finset.sum_ite_eq', Finset.mem_univ, if_true, add_zero]
      show _ = if _ then _ else _
      by_cases hij : i = j
      · subst hij
        rw [if_pos rfl, if_pos (by rw [hself]; positivity)]
      · rw [if_neg hij, if_neg (not_le.2 (hfar i hij)), euclid_comm]
    · simp
  refine Prod.ext ?_ ?_
  · rw [krEst_fin, hs]
    simp
  · unfold krEst
    dsimp only
    rw [hs, Fintype.sum_sum_type]
    have : krRhs γ p (p j) (.inl j) = 0 := by
      show (if _ then _ else _) = _
      rw [if_pos (by rw [hself]; positivity)]
    simp [this]

/-- `L` has the point `p` with value `v` once, and no other point within `1e-10` -/
def KrSingle (L : List (Pt × Fl ℝ)) (p : Pt) (v : ℝ) : Prop :=
  ∃ j : Nat, L[j]? = some (p, .fin v) ∧ ∀ (j' : Nat) (e : Pt × Fl ℝ), j' ≠ j → L[j']? = some e → 1 / 10 ^ 10 < euclid p e.1

theorem krEstimate_at (γ : ℝ → ℝ) (L : List (Pt × Fl ℝ)) (p : Pt) (v : ℝ) (hs : KrSingle L p v)
    (hz : ∀ e ∈ L, ∃ x, e.2 = Fl.fin x) (h : KrRegular γ L) : krEstimate γ L p = (.fin v, .fin 0) := by
  obtain ⟨j, hj, hfar⟩ := hs
  obtain ⟨hlt, hj⟩ := List.getElem?_eq_some_iff.1 hj
  have hz' : ∀ i : Fin L.length, ∃ x, L[i].2 = Fl.fin x := fun i => hz _ (List.getElem_mem _)
  choose f hf using hz'
  unfold krEstimate
  have e1 : (fun i : Fin L.length => L[i].2) = fun i => Fl.fin (f i) := funext hf
  have e2 : p = L[(⟨j, hlt⟩ : Fin L.length)].1 := by
    show p = L[j].1
    rw [hj]
  have e3 : f ⟨j, hlt⟩ = v := by
    have := hf ⟨j, hlt⟩
    simp only [Fin.getElem_fin, hj] at this
    exact (Fl.fin.inj this).symm
  rw [e1]
  have key := krEst_at γ (fun i : Fin L.length => L[i].1) f ⟨j, hlt⟩ h ?_
  · rw [← e2, e3] at key
    exact key
  intro i hi
  have := hfar i L[i] (fun hc => hi (Fin.ext hc)) (List.getElem?_eq_getElem i.2)
  rw [← e2]
  exact this

theorem krWindow_single {knn : Knn} (hknn : IsKnn knn) {L : List (Pt × Fl ℝ)} {p : Pt} {v : ℝ} (hs : KrSingle L p v)
    {k : Nat} (hk : 1 ≤ k) {sub : List (Pt × Fl ℝ)} (h : krWindow knn L k p = .ok sub) : KrSingle sub p v := by
  obtain ⟨j, hj, hfar⟩ := hs
  obtain ⟨hlen, hget⟩ := krWindow_mem knn L k p h
  have hself : euclid p p = 0 := by unfold euclid; simp
  have hX : (L.map (·.1))[j]? = some p := by rw [List.getElem?_map, hj]; rfl
  have hjl : j < (L.map (·.1)).length := (List.getElem?_eq_some_iff.1 hX).1
  have hin : j ∈ (knn (L.map (·.1)) k 0 .pinf p).map (·.2) := by
    rcases hknn.complete (L.map (·.1)) k .pinf p j p hX (by rfl) with h1 | h1
    · exact h1
    · have hl := hknn.length_eq (L.map (·.1)) k .pinf p
      obtain ⟨e, he⟩ : ∃ e, e ∈ knn (L.map (·.1)) k 0 .pinf p := by
        cases hc : knn (L.map (·.1)) k 0 .pinf p with
        | nil => rw [hc] at hl; simp at hl; omega
        | cons e l => exact ⟨e, by simp⟩
      obtain ⟨h2, h3⟩ := h1 e he
      rcases hknn.entry (L.map (·.1)) k .pinf p e he with ⟨h4, _⟩ | ⟨x, h4, h5, _⟩
      · omega
      · rw [h5, hself, Fl.pf_le_fin] at h3
        have h6 : euclid p x ≤ 0 := by simpa using h3
        by_cases hej : e.2 = j
        · exact List.mem_map.2 ⟨e, he, hej⟩
        · rw [List.getElem?_map] at h4
          cases hL : L[e.2]? with
          | none => rw [hL] at h4; cases h4
          | some y =>
            rw [hL] at h4
            have hy : y.1 = x := Option.some.inj h4
            have := hfar e.2 y hej hL
            rw [hy] at this
            have h7 : (0:ℝ) < 1 / 10 ^ 10 := by positivity
            linarith
  obtain ⟨e, he, hej⟩ := List.mem_map.1 hin
  obtain ⟨t, ht⟩ := List.mem_iff_getElem?.1 he
  refine ⟨t, ?_, ?_⟩
  · rw [← hget t e ht, hej, hj]
  · intro t' e' htt he'
    have hlt : t' < (knn (L.map (·.1)) k 0 .pinf p).length := by
      rw [← hlen]; exact (List.getElem?_eq_some_iff.1 he').1
    have h1 := hget t' _ (List.getElem?_eq_getElem hlt)
    rw [he'] at h1
    refine hfar _ e' ?_ h1
    intro hc
    have hnd := hknn.nodup (L.map (·.1)) k .pinf p
    rw [List.Nodup, List.pairwise_filter, List.pairwise_map, List.pairwise_iff_getElem] at hnd
    obtain ⟨ht1, ht2⟩ := List.getElem?_eq_some_iff.1 ht
    rcases Nat.lt_or_gt_of_ne htt with hl | hl
    · refine hnd t' t hlt ht1 hl ?_ ?_ ?_
      · rw [hc]; simpa using hjl
      · rw [ht2, hej]; simpa using hjl
      · rw [hc, ht2, hej]
    · refine hnd t t' ht1 hlt hl ?_ ?_ ?_
      · rw [ht2, hej]; simpa using hjl
      · rw [hc]; simpa using hjl
      · rw [hc, ht2, hej]

theorem krGood_fin (pts : List (Pt × Fl ℝ)) (hz : ∀ e ∈ pts, e.2 ≠ .pinf ∧ e.2 ≠ .ninf) :
    ∀ e ∈ krGood pts, ∃ x, e.2 = Fl.fin x := by
  intro e he
  obtain ⟨h1, h2⟩ := List.mem_filter.1 he
  have h3 := hz e h1
  cases h : e.2 with
  | nan => rw [h] at h2; simp at h2
  | ninf => exact absurd h h3.2
  | pinf => exact absurd h h3.1
  | fin x => exact ⟨x, rfl⟩

/-- **C101** Kriging is exact: a grid cell that lies at a data point gets the value of this point, and the variance zero there;
also for moving windows (`n_closest_points`), with NaNs elsewhere, and for every variogram for which the call succeeds. Only
points closer than `1e-10` to each other are excluded. -/
theorem C101_exact (variogram : String → Dict ℝ → Except Err (ℝ → ℝ)) (knn : Knn) (hknn : IsKnn knn) (w : World ℝ)
    (i : Nat) (o : Obj ℝ) (ho : w.objs[i]? = some o) (hex : o.cfg.excludeNan = true)
    (l1 l2 : List (Pt × Fl ℝ)) (p : Pt) (v : ℝ) (pts : List (Pt × Fl ℝ)) (hpts : pts = l1 ++ (p, Fl.fin v) :: l2)
    (hz : ∀ e ∈ pts, e.2 ≠ .pinf ∧ e.2 ≠ .ninf)
    (hfar : ∀ e ∈ l1 ++ l2, e.2 = .nan ∨ 1 / 10 ^ 10 < euclid p e.1)
    (xg yg : Grid ℝ) (res : Option ℝ) (zg : Grid (Fl ℝ))
    (h : w.callResult (pykrige variogram knn) i (pts.map (·.1.1)) (pts.map (·.1.2)) (pts.map (·.2)) (some xg) (some yg) res
      = .ok zg)
    (k : Nat) (hx : xg.flatten[k]? = some p.1) (hy : yg.flatten[k]? = some p.2) :
    zg.map List.length = xg.map List.length ∧ zg.flatten[k]? = some (.fin v) ∧
      ∃ s, sigmaAfter (pykrige variogram knn) w i pts (some xg) (some yg) res = some s ∧ s[k]? = some (.fin 0) := by
  have hod : ∃ d, w.dicts[o.cfg.params]? = some d := by
    by_contra hc
    rw [(krMissing _ w i (by
      rintro ⟨o', d, ho', hd⟩
      rw [ho] at ho'
      cases ho'
      exact hc ⟨d, hd⟩) _ _ _ _ _ _).1] at h
    cases h
  obtain ⟨d, hd⟩ := hod
  have hs1 := krSigmaForm variogram knn w i o d ho hd pts (some xg) (some yg) res
  rw [krResultForm variogram knn w i o d ho hd] at h
  have hg : krGood pts = krGood l1 ++ (p, Fl.fin v) :: krGood l2 := by
    rw [hpts]
    unfold krGood
    rw [List.filter_append, List.filter_cons]
    simp
  have hne : krGood pts ≠ [] := by rw [hg]; simp
  have hsel : krSel o.cfg pts = krGood pts := by unfold krSel; rw [if_pos hex]
  cases hk : krOut variogram knn o.cfg d pts (some xg) (some yg) res with
  | error e => rw [hk] at h; cases h
  | ok g =>
    rw [hk] at h hs1
    obtain ⟨γ, r, rfl, hv, h2, hlen, hm⟩ := krOut_inv hk hne
    rw [hsel] at hm
    have hzg : zg = reshape xg (r.map (·.1)) := by cases h; rfl
    obtain ⟨hlr, hget⟩ := mapM_ok_get hm
    have hlr' : (r.map (·.1)).length = xg.flatten.length := by
      rw [List.length_map, hlr, List.length_zip, hlen, min_self]
    obtain ⟨s1, s2⟩ := reshape_get xg (r.map (·.1)) hlr'
    obtain ⟨b, hb, hq⟩ := hget k p (zip_get hx hy)
    have hsingle : KrSingle (krGood pts) p v := by
      refine ⟨(krGood l1).length, by rw [hg]; simp, ?_⟩
      intro j e hj he
      have hmem : e ∈ krGood l1 ++ krGood l2 := by
        rw [hg] at he
        rcases Nat.lt_or_gt_of_ne hj with hl | hl
        · rw [List.getElem?_append_left hl] at he
          exact List.mem_append_left _ (List.mem_of_getElem? he)
        · rw [List.getElem?_append_right hl.le] at he
          obtain ⟨m, hm⟩ : ∃ m, j - (krGood l1).length = m + 1 := ⟨j - (krGood l1).length - 1, by omega⟩
          rw [hm, List.getElem?_cons_succ] at he
          exact List.mem_append_right _ (List.mem_of_getElem? he)
      have hmem2 : e ∈ l1 ++ l2 ∧ (!(PyFloat.isNaN e.2)) = true := by
        rcases List.mem_append.1 hmem with h | h
        · obtain ⟨a, b⟩ := List.mem_filter.1 h
          exact ⟨List.mem_append_left _ a, b⟩
        · obtain ⟨a, b⟩ := List.mem_filter.1 h
          exact ⟨List.mem_append_right _ a, b⟩
      rcases hfar e hmem2.1 with hn | hn
      · have := hmem2.2
        rw [hn] at this
        simp at this
      · exact hn
    have hb' : b = (.fin v, .fin 0) := by
      unfold krQuery at hq
      split at hq
      · split at hq
        · rename_i hreg
          rw [krEstimate_at γ _ p v hsingle (krGood_fin pts hz) hreg] at hq
          cases hq
          rfl
        · cases hq
      · split at hq
        · cases hq
        · rename_i _ k' _ hk1
          cases hw : krWindow knn (krGood pts) k'.toNat p with
          | error e => rw [hw] at hq; cases hq
          | ok sub =>
            rw [hw] at hq
            dsimp only at hq
            split at hq
            · rename_i hreg
              have hsub := krWindow_single hknn hsingle (by omega) hw
              rw [krEstimate_at γ sub p v hsub (fun e he => krGood_fin pts hz e (krWindow_sub knn _ _ p hw e he)) hreg] at hq
              cases hq
              rfl
            · cases hq
    refine ⟨by rw [hzg]; exact s1, ?_, r.map (·.2), hs1, ?_⟩
    · rw [hzg, s2, List.getElem?_map, hb, hb']
      rfl
    · rw [List.getElem?_map, hb, hb']
      rfl

/-! ### C102 -/

theorem ofFn_perm {α : Type} {n m : Nat} (σ : Fin n ≃ Fin m) (f : Fin m → α) :
    (List.ofFn (f ∘ σ)).Perm (List.ofFn f) := by
  have hnm : n = m := by simpa using Fintype.card_congr σ
  subst hnm
  exact Equiv.Perm.ofFn_comp_perm σ f

theorem krEst_comp (γ : ℝ → ℝ) {n m : Nat} (σ : Fin n ≃ Fin m) (p : Fin m → Pt) (z : Fin m → Fl ℝ) (q : Pt) :
    krEst γ (p ∘ σ) (z ∘ σ) q = krEst γ p z q := by
  unfold krEst
  rw [krSolve_comp, krRhs_comp]
  refine Prod.ext ?_ ?_
  · exact Stats.fsum_perm (ofFn_perm σ fun i => Fl.fin (krSolve γ p q (.inl i)) *ᶠ z i)
  · show Fl.fin _ = Fl.fin _
    congr 1
    exact Equiv.sum_comp (Equiv.sumCongr σ (Equiv.refl Unit)) fun a => krSolve γ p q a * -(krRhs γ p q a)

theorem krEstimate_perm (γ : ℝ → ℝ) {l l' : List (Pt × Fl ℝ)} (h : l.Perm l') (q : Pt) :
    krEstimate γ l q = krEstimate γ l' q ∧ (KrRegular γ l ↔ KrRegular γ l') := by
  obtain ⟨σ, hσ⟩ := perm_equiv h
  have e1 : (fun i : Fin l.length => l[i].1) = (fun i : Fin l'.length => l'[i].1) ∘ σ := by
    funext i; exact congrArg Prod.fst (hσ i)
  have e2 : (fun i : Fin l.length => l[i].2) = (fun i : Fin l'.length => l'[i].2) ∘ σ := by
    funext i; exact congrArg Prod.snd (hσ i)
  unfold krEstimate KrRegular
  rw [e1, e2]
  refine ⟨krEst_comp γ σ _ _ q, ?_⟩
  rw [krMatrix_comp, Matrix.det_submatrix_equiv_self]

theorem krQuery_none_congr (knn : Knn) (γ : ℝ → ℝ) {l l' : List (Pt × Fl ℝ)} {q q' : Pt}
    (h : krEstimate γ l q = krEstimate γ l' q' ∧ (KrRegular γ l ↔ KrRegular γ l')) :
    krQuery knn none γ l q = krQuery knn none γ l' q' := by
  unfold krQuery
  dsimp only
  by_cases hr : KrRegular γ l
  · rw [if_pos hr, if_pos (h.2.1 hr), h.1]
  · rw [if_neg hr, if_neg (fun h' => hr (h.2.2 h'))]

/-- **C102** The order of the data points does not matter (without `n_closest_points`): same field or same exception, and same
variances. -/
theorem C102_order (variogram : String → Dict ℝ → Except Err (ℝ → ℝ)) (knn : Knn) (w : World ℝ) (i : Nat)
    (o : Obj ℝ) (ho : w.objs[i]? = some o) (hnc : o.cfg.nClosest = none) (pts pts' : List (Pt × Fl ℝ)) (hperm : pts.Perm pts')
    (xg yg : Grid ℝ) (res res' : Option ℝ) :
    w.callResult (pykrige variogram knn) i (pts.map (·.1.1)) (pts.map (·.1.2)) (pts.map (·.2)) (some xg) (some yg) res =
      w.callResult (pykrige variogram knn) i (pts'.map (·.1.1)) (pts'.map (·.1.2)) (pts'.map (·.2)) (some xg) (some yg) res' ∧
    sigmaAfter (pykrige variogram knn) w i pts (some xg) (some yg) res =
      sigmaAfter (pykrige variogram knn) w i pts' (some xg) (some yg) res' := by
  by_cases h : ∃ d, w.dicts[o.cfg.params]? = some d
  · obtain ⟨d, hd⟩ := h
    have key : krOut variogram knn o.cfg d pts (some xg) (some yg) res =
        krOut variogram knn o.cfg d pts' (some xg) (some yg) res' := by
      have hgood : (krGood pts).Perm (krGood pts') := hperm.filter _
      have hsel : (krSel o.cfg pts).Perm (krSel o.cfg pts') := by
        unfold krSel
        split
        · exact hgood
        · exact hperm
      unfold krOut
      have hp : ∀ (pts : List (Pt × Fl ℝ)) (res : Option ℝ),
        parseGrid (pts.map (·.1.1)) (pts.map (·.1.2)) (some xg) (some yg) res = .ok (xg, yg) := fun _ _ => rfl
      rw [hp, hp]
      dsimp only
      have hnil : krGood pts = [] ↔ krGood pts' = [] := by
        rw [← List.length_eq_zero_iff, ← List.length_eq_zero_iff, hgood.length_eq]
      simp only [hnil, hsel.length_eq, hnc]
      have hq : ∀ γ, krQuery knn none γ (krSel o.cfg pts) = krQuery knn none γ (krSel o.cfg pts') := by
        intro γ
        funext q
        exact krQuery_none_congr knn γ (krEstimate_perm γ hsel q)
      simp only [hq]
    rw [krResultForm variogram knn w i o d ho hd, krResultForm variogram knn w i o d ho hd,
      krSigmaForm variogram knn w i o d ho hd, krSigmaForm variogram knn w i o d ho hd, key]
    exact ⟨rfl, rfl⟩
  · have hm : ¬ ∃ o d, w.objs[i]? = some o ∧ w.dicts[o.cfg.params]? = some d := by
      rintro ⟨o', d, ho', hd⟩
      rw [ho] at ho'
      cases ho'
      exact h ⟨d, hd⟩
    unfold sigmaAfter
    rw [(krMissing _ w i hm _ _ _ _ _ _).1, (krMissing _ w i hm _ _ _ _ _ _).1, (krMissing _ w i hm _ _ _ _ _ _).2,
      (krMissing _ w i hm _ _ _ _ _ _).2]
    exact ⟨rfl, rfl⟩

theorem krEstimate_move (γ : ℝ → ℝ) (f : Pt → Pt) (hf : ∀ a b, euclid (f a) (f b) = euclid a b)
    (pts : List (Pt × Fl ℝ)) (q : Pt) :
    krEstimate γ (pts.map fun e => (f e.1, e.2)) (f q) = krEstimate γ pts q ∧
      (KrRegular γ (pts.map fun e => (f e.1, e.2)) ↔ KrRegular γ pts) := by
  have e : (pts.map fun e => (f e.1, e.2)) = List.ofFn fun i : Fin pts.length => (f pts[i].1, pts[i].2) := by
    rw [← List.ofFn_getElem (xs := pts.map fun e => (f e.1, e.2))]
    apply List.ext_getElem
    · simp
    · intro i h1 h2
      simp
  obtain ⟨h1, h2⟩ := krEstimate_ofFn γ (fun i : Fin pts.length => (f pts[i].1, pts[i].2)) (f q)
  rw [e, h1, h2]
  have hM : krMatrix γ (fun i : Fin pts.length => f pts[i].1) = krMatrix γ (fun i : Fin pts.length => pts[i].1) := by
    ext a b
    cases a <;> cases b <;> simp [krMatrix, hf]
  have hR : krRhs γ (fun i : Fin pts.length => f pts[i].1) (f q) = krRhs γ (fun i : Fin pts.length => pts[i].1) q := by
    funext a
    cases a <;> simp [krRhs, hf]
  dsimp only
  rw [hM]
  refine ⟨?_, Iff.rfl⟩
  unfold krEstimate krEst krSolve
  rw [hM, hR]

/-- **C102** Only distances matter (without `n_closest_points`): if data points and grid cells are moved by a map `f` of the plane that
keeps distances (a shift, rotation or reflection), the result is the same, cell by cell. -/
theorem C102_moved (variogram : String → Dict ℝ → Except Err (ℝ → ℝ)) (knn : Knn) (w : World ℝ) (i : Nat)
    (o : Obj ℝ) (ho : w.objs[i]? = some o) (hnc : o.cfg.nClosest = none) (f : Pt → Pt)
    (hf : ∀ a b, euclid (f a) (f b) = euclid a b) (pts : List (Pt × Fl ℝ)) (xg yg xg' yg' : Grid ℝ) (res res' : Option ℝ)
    (hlen : xg.flatten.length = yg.flatten.length) (hlen' : xg'.flatten.length = yg'.flatten.length)
    (hshape : xg'.map List.length = xg.map List.length)
    (hgrid : xg'.flatten.zip yg'.flatten = (xg.flatten.zip yg.flatten).map f) :
    w.callResult (pykrige variogram knn) i (pts.map fun e => (f e.1).1) (pts.map fun e => (f e.1).2) (pts.map (·.2))
        (some xg') (some yg') res' =
      w.callResult (pykrige variogram knn) i (pts.map (·.1.1)) (pts.map (·.1.2)) (pts.map (·.2)) (some xg) (some yg) res := by
  by_cases h : ∃ d, w.dicts[o.cfg.params]? = some d
  · obtain ⟨d, hd⟩ := h
    have h1 := krResultForm variogram knn w i o d ho hd (pts.map fun e => (f e.1, e.2)) (some xg') (some yg') res'
    simp only [List.map_map, Function.comp_def] at h1
    rw [h1, krResultForm variogram knn w i o d ho hd pts]
    unfold krOut
    have hp : ∀ (xs ys : List ℝ) (xg yg : Grid ℝ) (res : Option ℝ),
        parseGrid xs ys (some xg) (some yg) res = .ok (xg, yg) := fun _ _ _ _ _ => rfl
    rw [hp, hp]
    dsimp only
    have hg : krGood (pts.map fun e => (f e.1, e.2)) = (krGood pts).map fun e => (f e.1, e.2) := by
      unfold krGood; rw [List.filter_map]; rfl
    have hs : krSel o.cfg (pts.map fun e => (f e.1, e.2)) = (krSel o.cfg pts).map fun e => (f e.1, e.2) := by
      unfold krSel
      split
      · exact hg
      · rfl
    rw [hg, hs, List.length_map]
    simp only [List.map_eq_nil_iff, hlen, hlen', hnc, ne_eq, not_true_eq_false, or_false]
    have hresh : ∀ (α β : Type) (g g' : List (List α)) (l : List β), g'.map List.length = g.map List.length →
        reshape g' l = reshape g l := by
      intro α β g
      induction g with
      | nil =>
        intro g' l h
        have : g' = [] := by simpa using h
        rw [this]
      | cons r g ih =>
        intro g' l h
        cases g' with
        | nil => simp at h
        | cons r' g' =>
          simp only [List.map_cons, List.cons.injEq] at h
          rw [reshape, reshape, h.1, ih g' _ h.2]
    by_cases h0 : krGood pts = []
    · rw [if_pos h0, if_pos h0]
      show Except.ok _ = Except.ok _
      congr 1
      simp only [krGridOf, List.map_const']
      have e1 : ∀ g : Grid ℝ, (g.map fun r => List.replicate r.length (Fl.nan : Fl ℝ)) =
          (g.map List.length).map fun n => List.replicate n (Fl.nan : Fl ℝ) := by
        intro g; rw [List.map_map]; rfl
      rw [e1, e1, hshape]
    · rw [if_neg h0, if_neg h0]
      cases variogram o.cfg.variogramModel d with
      | error e => rfl
      | ok γ =>
        dsimp only
        by_cases h2 : (krSel o.cfg pts).length < 2
        · rw [if_pos h2, if_pos h2]
        · rw [if_neg h2, if_neg h2]
          have hcell : (xg'.flatten.zip yg'.flatten).mapM (krQuery knn none γ ((krSel o.cfg pts).map fun e => (f e.1, e.2))) =
              (xg.flatten.zip yg.flatten).mapM (krQuery knn none γ (krSel o.cfg pts)) := by
            rw [hgrid]
            generalize xg.flatten.zip yg.flatten = l
            induction l with
            | nil => rfl
            | cons a l ih =>
              rw [List.map_cons, List.mapM_cons, List.mapM_cons, ih,
                krQuery_none_congr knn γ (krEstimate_move γ f hf (krSel o.cfg pts) a)]
          rw [hcell]
          cases (xg.flatten.zip yg.flatten).mapM (krQuery knn none γ (krSel o.cfg pts)) with
          | error e => rfl
          | ok r =>
            show Except.ok _ = Except.ok _
            congr 1
            exact hresh _ _ _ _ _ hshape
  · have hm : ¬ ∃ o d, w.objs[i]? = some o ∧ w.dicts[o.cfg.params]? = some d := by
      rintro ⟨o', d, ho', hd⟩
      rw [ho] at ho'
      cases ho'
      exact h ⟨d, hd⟩
    rw [(krMissing _ w i hm _ _ _ _ _ _).1, (krMissing _ w i hm _ _ _ _ _ _).1]

end Verif.Props
