import Verif.Props.Interpolator
import Mathlib.Data.Multiset.Filter
import Mathlib.Data.Multiset.MapFold

/-!
# Property C133: what a map interpolated by inverse distance weighting depends on
-/

namespace Verif.Props
open Verif Verif.Idw

/-- a missing value is NaN -/
def optF : Option ℝ → Fl ℝ
  | none => .nan
  | some z => .fin z

/-- the points with a value -/
def withValue (pts : List (Pt × Option ℝ)) : List (Pt × ℝ) :=
  pts.filterMap fun e => e.2.map fun z => (e.1, z)

/-- is a distance below `max_distance` (`none`: no limit) -/
noncomputable def within (D : Option (Fl ℝ)) (d : ℝ) : Bool :=
  match D with
  | none => true
  | some m => (Fl.fin d) <ᶠ m

/-- Distances and values of the data points with a value within `max_distance` of `q`, in no particular order. -/
noncomputable def ptsAround (pts : List (Pt × Option ℝ)) (D : Option (Fl ℝ)) (q : Pt) : Multiset (ℝ × ℝ) :=
  ((((withValue pts).map fun e => (euclid q e.1, e.2)).filter fun e => within D e.1 : List (ℝ × ℝ)) :
    Multiset (ℝ × ℝ))

/-- number of points nearer than `d` -/
noncomputable def nNearer (M : Multiset (ℝ × ℝ)) (d : ℝ) : Nat := (M.filter fun e => e.1 < d).card

/-- number of points at most `d` away -/
noncomputable def upTo (M : Multiset (ℝ × ℝ)) (d : ℝ) : Nat := (M.filter fun e => e.1 ≤ d).card

/-- The `k` nearest points are determined: equally far points are all among them or all not, and points closer than
1e-10 that are equally far have the same value. -/
structure DecidedNear (k : Nat) (M : Multiset (ℝ × ℝ)) : Prop where
  cut : ∀ d, nNearer M d < k → upTo M d ≤ k
  near : ∀ e ∈ M, ∀ e' ∈ M, e.1 = e'.1 → e.1 < 1 / 10 ^ 10 → e.2 = e'.2

/-- the result of a new interpolator with `exclude_nan` on given grids -/
noncomputable def idwMap (knn : Knn) (nnear : Int) (p : ℝ) (D : Option (Fl ℝ)) (pts : List (Pt × Option ℝ))
    (xg yg : Grid ℝ) : Except Err (Grid (Fl ℝ)) :=
  (interpolate knn ⟨nnear, p, true, D⟩ (fun _ => []) none (.own (pts.map (·.1.1))) (.own (pts.map (·.1.2)))
    (pts.map fun e => optF e.2) (some xg) (some yg) none).1

theorem withValue_filter (pts : List (Pt × Option ℝ)) :
    ((pts.map fun e => (e.1, optF e.2)).filter fun e => !(isNaN e.2)) =
      (withValue pts).map fun e => (e.1, Fl.fin e.2) := by
  induction pts with
  | nil => rfl
  | cons e l ih =>
    obtain ⟨x, z⟩ := e
    cases z with
    | none => simpa [withValue, optF] using ih
    | some z => simpa [withValue, optF] using ih

/-- The cells of the map, in terms of the search and the loop for one point. -/
theorem idwMap_cells (knn : Knn) {nnear : Int} (hn : 1 < nnear) (p : ℝ) (D : Option (Fl ℝ)) (pts : List (Pt × Option ℝ))
    (xg yg : Grid ℝ) (hshape : xg.map List.length = yg.map List.length) (hne : xg.flatten ≠ []) :
    ∃ zg, idwMap knn nnear p D pts xg yg = .ok zg ∧ zg.map List.length = xg.map List.length ∧
      zg.flatten = (xg.flatten.zip yg.flatten).map fun q =>
        if withValue pts = [] then .nan else
        idwOne ((withValue pts).map fun e => Fl.fin e.2) p
          (knn ((withValue pts).map (·.1)) nnear.toNat 0 (ubOf D) q) := by
  have hlen : xg.flatten.length = yg.flatten.length := by
    rw [List.length_flatten, List.length_flatten, hshape]
  have hzlen : (xg.flatten.zip yg.flatten).length = xg.flatten.length := by
    rw [List.length_zip, hlen, min_self]
  have hzne : xg.flatten.zip yg.flatten ≠ [] := by
    intro e
    apply hne
    rw [← List.length_eq_zero_iff, ← hzlen, e]
    rfl
  have hw := withValue_filter pts
  generalize hgd : withValue pts = good at hw
  have hp : ∀ res, parseGrid ((Src.own (pts.map (·.1.1))).get (fun _ => [])) ((Src.own (pts.map (·.1.2))).get (fun _ => []))
      (some xg) (some yg) res = .ok (xg, yg) := fun _ => rfl
  by_cases hg : good = []
  · simp only [if_pos hg]
    refine ⟨xg.map fun r => r.map fun _ => .nan, ?_, by simp [Function.comp_def], ?_⟩
    · unfold idwMap interpolate
      rw [if_neg (by simp [Src.get]), hp]
      dsimp only
      rw [if_pos]
      have : (pts.map fun e => (e.1, optF e.2)).filter (fun e => !(isNaN e.2)) = [] := by rw [hw, hg]; rfl
      rw [List.length_eq_zero_iff, List.filter_eq_nil_iff]
      rw [List.filter_eq_nil_iff] at this
      intro v hv
      obtain ⟨e, he, rfl⟩ := List.mem_map.mp hv
      exact this (e.1, optF e.2) (List.mem_map.mpr ⟨e, he, rfl⟩)
    · rw [List.map_const', hzlen]
      rw [List.eq_replicate_iff]
      refine ⟨?_, ?_⟩
      · rw [List.length_flatten, List.length_flatten, List.map_map]
        simp [Function.comp_def]
      · intro b hb
        simp only [List.mem_flatten, List.mem_map] at hb
        obtain ⟨l, ⟨r, -, rfl⟩, hb⟩ := hb
        simpa using (List.mem_map.mp hb).elim fun _ h => h.2.symm
  · simp only [if_neg hg]
    set vs := (xg.flatten.zip yg.flatten).map fun q => idwOne (good.map fun e => Fl.fin e.2) p
          (knn (good.map (·.1)) nnear.toNat 0 (ubOf D) q) with hvs
    have hv2 : vs.length = xg.flatten.length := by rw [hvs, List.length_map, hzlen]
    have hv1 : freshCall knn (good.map (·.1)) (.batch (.own (xg.flatten.zip yg.flatten)))
            (fun _ => []) ⟨good.map fun e => Fl.fin e.2, nnear, 0, p, D⟩ = .ok (.many vs) := by
      unfold freshCall Tree.call
      rw [if_neg (by simp [Tree.new]), if_neg (by simpa using hn), if_neg (by exact hzne)]
      dsimp only [neighbours, Tree.new, Query.src, Src.get, mkOut]
      rw [hvs, idwLoop, List.map_map]
      rfl
    have hsel : ∀ {β : Type} (f : Pt × Fl ℝ → β), KR.select (pts.map fun e => f (e.1, optF e.2))
        ((pts.map fun e => optF e.2).map fun v => !(PyFloat.isNaN v)) =
        good.map fun e => f (e.1, Fl.fin e.2) := by
      intro β f
      have h1 := select_own_mask (fun e : Pt × Fl ℝ => !(PyFloat.isNaN e.2)) (pts.map fun e => (e.1, optF e.2))
      have h2 := select_mem_sublist f (pts.map fun e => (e.1, optF e.2))
        ((pts.map fun e => (e.1, optF e.2)).map fun e : Pt × Fl ℝ => !(PyFloat.isNaN e.2))
      rw [h1, hw] at h2
      rw [List.map_map, List.map_map, List.map_map] at h2
      rw [List.map_map]
      exact h2
    have hzip : ((good.map fun e => e.1.1).zip (good.map fun e => e.1.2)) = good.map (·.1) := by
      rw [List.zip_map']
    refine ⟨reshape xg vs, ?_, (reshape_get xg vs hv2).1, (reshape_get xg vs hv2).2⟩
    unfold idwMap interpolate
    rw [if_neg (by simp [Src.get]), hp]
    dsimp only
    rw [if_neg (by
      intro e
      rw [List.length_eq_zero_iff, List.filter_eq_nil_iff] at e
      have : (pts.map fun e => (e.1, optF e.2)).filter (fun e => !(isNaN e.2)) = [] := by
        rw [List.filter_eq_nil_iff]
        intro v hv
        obtain ⟨x, hx, rfl⟩ := List.mem_map.mp hv
        exact e (optF x.2) (List.mem_map.mpr ⟨x, hx, rfl⟩)
      rw [hw, List.map_eq_nil_iff] at this
      exact hg this)]
    have hif : (interpolFunc knn ⟨nnear, p, true, D⟩ (fun _ => []) none (.own (pts.map (·.1.1))) (.own (pts.map (·.1.2)))
        (pts.map fun e => optF e.2) xg.flatten yg.flatten).1 =
        (match freshCall knn (good.map (·.1)) (.batch (.own (xg.flatten.zip yg.flatten)))
            (fun _ => []) ⟨good.map fun e => Fl.fin e.2, nnear, 0, p, D⟩ with
          | .ok (.many vs) => .ok vs
          | .ok (.one v) => .ok [v]
          | .error e => .error e) := by
      have s1 := hsel (fun e => e.1.1)
      have s2 := hsel (fun e => e.1.2)
      have s3 := hsel (fun e => e.2)
      unfold interpolFunc usedPoints
      rw [if_pos rfl]
      dsimp only at s1 s2 s3
      simp only [Src.get, s1, s2, s3, pickTree, hzip]
      rfl
    rw [hif, hv1]
    dsimp only
    rw [if_pos hv2]

/-- distance and value of data point `i` -/
noncomputable def pairOf (good : List (Pt × ℝ)) (q : Pt) (i : Nat) : ℝ × ℝ :=
  (dI (good.map (·.1)) q i, (good.map (·.2)).getD i 0)

theorem pairOf_eq {good : List (Pt × ℝ)} (q : Pt) {i : Nat} (hi : i < good.length) :
    pairOf good q i = (euclid q good[i].1, good[i].2) := by
  unfold pairOf dI
  rw [List.getD_eq_getElem _ _ (by simpa using hi), List.getD_eq_getElem _ _ (by simpa using hi)]
  simp

theorem inRange_within (X : List Pt) (q : Pt) (D : Option (Fl ℝ)) (i : Nat) :
    inRange X q D i ↔ i < X.length ∧ within D (dI X q i) = true := by
  unfold inRange within
  cases D <;> simp

/-- the points in range, by their indices -/
noncomputable def idxAround (good : List (Pt × ℝ)) (D : Option (Fl ℝ)) (q : Pt) : List Nat :=
  (List.range good.length).filter fun i => within D (pairOf good q i).1

theorem around_idx (pts : List (Pt × Option ℝ)) (D : Option (Fl ℝ)) (q : Pt) :
    ptsAround pts D q = ((idxAround (withValue pts) D q).map (pairOf (withValue pts) q) : List (ℝ × ℝ)) := by
  unfold ptsAround idxAround
  generalize withValue pts = good
  congr 1
  have e : (good.map fun e => (euclid q e.1, e.2)) = (List.range good.length).map (pairOf good q) := by
    refine List.ext_getElem (by simp) fun i h1 h2 => ?_
    rw [List.getElem_map, List.getElem_map, List.getElem_range, pairOf_eq q (by simpa using h1)]
  rw [e, List.filter_map]
  rfl

/-- The indices of the `k` nearest points, if these are determined. -/
theorem nearest_idx {good : List (Pt × ℝ)} {q : Pt} {D : Option (Fl ℝ)} {k : Nat} {S : List Nat}
    (hS : Nearest (good.map (·.1)) q D k S) (M : Multiset (ℝ × ℝ))
    (hM : M = ((idxAround good D q).map (pairOf good q) : List (ℝ × ℝ)))
    (hcut : ∀ d, nNearer M d < k → upTo M d ≤ k) :
    ((S.map (pairOf good q) : List (ℝ × ℝ)) : Multiset (ℝ × ℝ)) = M.filter fun e => nNearer M e.1 < k := by
  classical
  have hin : ∀ i, inRange (good.map (·.1)) q D i ↔ i ∈ idxAround good D q := by
    intro i
    rw [inRange_within, idxAround, List.mem_filter, List.mem_range, List.length_map]
    rfl
  have hnd : (idxAround good D q).Nodup := (List.nodup_range).filter _
  have hnear : ∀ d, nNearer M d = ((idxAround good D q).filter fun i => (pairOf good q i).1 < d).length := by
    intro d
    unfold nNearer
    rw [hM, Multiset.filter_coe, Multiset.coe_card, List.filter_map, List.length_map]
    rfl
  have hup : ∀ d, upTo M d = ((idxAround good D q).filter fun i => (pairOf good q i).1 ≤ d).length := by
    intro d
    unfold upTo
    rw [hM, Multiset.filter_coe, Multiset.coe_card, List.filter_map, List.length_map]
    rfl
  have hmem : ∀ i, i ∈ S ↔ i ∈ idxAround good D q ∧ nNearer M (pairOf good q i).1 < k := by
    intro i
    constructor
    · intro hi
      refine ⟨(hin i).mp (hS.mem i hi), ?_⟩
      rw [hnear]
      have hsub : (i :: (idxAround good D q).filter fun j => (pairOf good q j).1 < (pairOf good q i).1) ⊆ S := by
        intro j hj
        rcases List.mem_cons.mp hj with rfl | hj
        · exact hi
        · obtain ⟨h1, h2⟩ := List.mem_filter.mp hj
          by_contra hc
          have := (hS.best j ((hin j).mpr h1) hc).2 i hi
          simp only [decide_eq_true_eq] at h2
          exact absurd h2 (not_lt.mpr this)
      have hnd' : (i :: (idxAround good D q).filter fun j => (pairOf good q j).1 < (pairOf good q i).1).Nodup := by
        rw [List.nodup_cons]
        refine ⟨?_, hnd.filter _⟩
        intro h
        have := (List.mem_filter.mp h).2
        simp at this
      have := (hnd'.subperm hsub).length_le
      rw [List.length_cons] at this
      have := hS.le
      omega
    · rintro ⟨h1, h2⟩
      by_contra hc
      obtain ⟨h3, h4⟩ := hS.best i ((hin i).mpr h1) hc
      have hu := hcut _ h2
      rw [hup] at hu
      have hsub : (i :: S) ⊆ (idxAround good D q).filter fun j => (pairOf good q j).1 ≤ (pairOf good q i).1 := by
        intro j hj
        rcases List.mem_cons.mp hj with rfl | hj
        · exact List.mem_filter.mpr ⟨h1, by simp⟩
        · exact List.mem_filter.mpr ⟨(hin j).mp (hS.mem j hj), by
            simp only [decide_eq_true_eq]; exact h4 j hj⟩
      have := ((List.nodup_cons.mpr ⟨hc, hS.nodup⟩).subperm hsub).length_le
      rw [List.length_cons] at this
      omega
  have hperm : S.Perm ((idxAround good D q).filter fun i => nNearer M (pairOf good q i).1 < k) := by
    rw [List.perm_ext_iff_of_nodup hS.nodup (hnd.filter _)]
    intro i
    rw [hmem, List.mem_filter]
    simp
  have := Multiset.coe_eq_coe.mpr (hperm.map (pairOf good q))
  rw [this]
  conv_rhs => rw [hM, Multiset.filter_coe, List.filter_map]
  rw [← hM]
  rfl

/-- The `k` nearest of two sets of points that agree as far as these reach. -/
theorem select_agree {M M' : Multiset (ℝ × ℝ)} {k : Nat}
    (h : M = M' ∨ ∃ r, (M.filter fun e => e.1 ≤ r) = (M'.filter fun e => e.1 ≤ r) ∧ k ≤ upTo M r) :
    (M.filter fun e => nNearer M e.1 < k) = M'.filter fun e => nNearer M' e.1 < k := by
  rcases h with rfl | ⟨r, h, hk⟩
  · rfl
  have key : ∀ N : Multiset (ℝ × ℝ), k ≤ upTo N r →
      (N.filter fun e => nNearer N e.1 < k) =
        (N.filter fun e => e.1 ≤ r).filter fun e => nNearer (N.filter fun e => e.1 ≤ r) e.1 < k := by
    intro N hN
    rw [Multiset.filter_filter]
    refine Multiset.filter_congr fun e _ => ?_
    have h1 : e.1 ≤ r → nNearer (N.filter fun e => e.1 ≤ r) e.1 = nNearer N e.1 := by
      intro he
      unfold nNearer
      rw [Multiset.filter_filter]
      congr 1
      exact Multiset.filter_congr fun x _ => ⟨fun h => h.1, fun h => ⟨h, h.le.trans he⟩⟩
    constructor
    · intro h2
      have : e.1 ≤ r := by
        by_contra hc
        have : upTo N r ≤ nNearer N e.1 := Multiset.card_le_card
          (Multiset.monotone_filter_right _ fun x hx => lt_of_le_of_lt hx (not_le.mp hc))
        omega
      exact ⟨by rw [h1 this]; exact h2, this⟩
    · rintro ⟨h2, h3⟩
      rwa [h1 h3] at h2
  have hk' : k ≤ upTo M' r := by
    unfold upTo at hk ⊢
    rwa [← h]
  rw [key M hk, key M' hk', h]

theorem cut_agree {M M' : Multiset (ℝ × ℝ)} {k : Nat} (hcut : ∀ d, nNearer M d < k → upTo M d ≤ k)
    (h : M = M' ∨ ∃ r, (M.filter fun e => e.1 ≤ r) = (M'.filter fun e => e.1 ≤ r) ∧ k ≤ upTo M r) :
    ∀ d, nNearer M' d < k → upTo M' d ≤ k := by
  rcases h with rfl | ⟨r, h, hk⟩
  · exact hcut
  intro d hd
  by_cases hdr : d ≤ r
  · have e1 : ∀ N : Multiset (ℝ × ℝ), nNearer N d = nNearer (N.filter fun e => e.1 ≤ r) d := by
      intro N
      unfold nNearer
      rw [Multiset.filter_filter]
      congr 1
      exact Multiset.filter_congr fun x _ => ⟨fun h => ⟨h, h.le.trans hdr⟩, fun h => h.1⟩
    have e2 : ∀ N : Multiset (ℝ × ℝ), upTo N d = upTo (N.filter fun e => e.1 ≤ r) d := by
      intro N
      unfold upTo
      rw [Multiset.filter_filter]
      congr 1
      exact Multiset.filter_congr fun x _ => ⟨fun h => ⟨h, h.trans hdr⟩, fun h => h.1⟩
    rw [e1, ← h, ← e1] at hd
    rw [e2, ← h, ← e2]
    exact hcut d hd
  · exfalso
    have : upTo M' r ≤ nNearer M' d := Multiset.card_le_card
      (Multiset.monotone_filter_right _ fun x hx => lt_of_le_of_lt hx (not_le.mp hdr))
    have hk' : k ≤ upTo M' r := by
      unfold upTo at hk ⊢
      rwa [← h]
    omega

/-- The value in terms of the distances and values of the neighbours. -/
theorem IdwIs.eq_of_same {good good' : List (Pt × ℝ)} {q q' : Pt} {D D' : Option (Fl ℝ)} {k : Nat} {p : ℝ}
    {v v' : Fl ℝ} {S S' : List Nat}
    (h : IdwIs (good.map (·.1)) (good.map (·.2)) q D k p v S)
    (h' : IdwIs (good'.map (·.1)) (good'.map (·.2)) q' D' k p v' S')
    (hS : (S.map (pairOf good q)).Perm (S'.map (pairOf good' q')))
    (hnear : ∀ e ∈ S.map (pairOf good q), ∀ e' ∈ S.map (pairOf good q), e.1 = e'.1 → e.1 < 1 / 10 ^ 10 → e.2 = e'.2) :
    v = v' := by
  cases S with
  | nil =>
    have : S' = [] := by simpa using hS.symm
    rw [h.none rfl, h'.none this]
  | cons i S =>
    cases S' with
    | nil => simp at hS
    | cons i' S' =>
      have lo : ∀ {good : List (Pt × ℝ)} {q : Pt} {D : Option (Fl ℝ)} {v : Fl ℝ} {i : Nat} {S : List Nat},
          IdwIs (good.map (·.1)) (good.map (·.2)) q D k p v (i :: S) →
          ∀ e ∈ (i :: S).map (pairOf good q), (pairOf good q i).1 ≤ e.1 := by
        intro good q D v i S h e he
        obtain ⟨j, hj, rfl⟩ := List.mem_map.mp he
        rcases List.mem_cons.mp hj with rfl | hj
        · exact le_rfl
        · exact (List.pairwise_cons.mp h.nearest.sorted).1 j hj
      have m1 : pairOf good q i ∈ (i :: S).map (pairOf good q) := by simp
      have m2 : pairOf good' q' i' ∈ (i' :: S').map (pairOf good' q') := by simp
      have e1 : (pairOf good q i).1 = (pairOf good' q' i').1 :=
        le_antisymm (lo h _ (hS.mem_iff.mpr m2)) (lo h' _ (hS.mem_iff.mp m1))
      by_cases hd : (pairOf good q i).1 < 1 / 10 ^ 10
      · rw [h.exact i S rfl hd, h'.exact i' S' rfl (by rw [e1] at hd; exact hd)]
        have := hnear _ m1 _ (hS.mem_iff.mpr m2) e1 hd
        rw [show (good.map (·.2)).getD i 0 = (pairOf good q i).2 from rfl, this]
        rfl
      · have g1 : ∀ j ∈ i :: S, 1 / 10 ^ 10 ≤ dI (good.map (·.1)) q j := fun j hj =>
          (not_lt.mp hd).trans (lo h _ (List.mem_map.mpr ⟨j, hj, rfl⟩))
        have g2 : ∀ j ∈ i' :: S', 1 / 10 ^ 10 ≤ dI (good'.map (·.1)) q' j := fun j hj => by
          rw [e1] at hd
          exact (not_lt.mp hd).trans (lo h' _ (List.mem_map.mpr ⟨j, hj, rfl⟩))
        rw [h.mean (by simp) g1, h'.mean (by simp) g2]
        have s1 := (hS.map fun e : ℝ × ℝ => 1 / e.1 ^ p * e.2).sum_eq
        have s2 := (hS.map fun e : ℝ × ℝ => 1 / e.1 ^ p).sum_eq
        rw [List.map_map, List.map_map] at s1 s2
        congr 1
        exact congrArg₂ (· / ·) s1 s2

theorem idwIs_nil (q : Pt) (D : Option (Fl ℝ)) (k : Nat) (p : ℝ) : IdwIs [] [] q D k p .nan [] := by
  refine ⟨⟨by simp, by simp, by simp, by simp, ?_⟩, fun _ => rfl, by simp, by simp⟩
  rintro i ⟨hi, -⟩
  simp at hi

/-- the cells of the map, by the contract of the search -/
theorem idwMap_is {knn : Knn} (hk : IsKnn knn) {nnear : Int} (hn : 1 < nnear) (p : ℝ) (D : Option (Fl ℝ))
    (pts : List (Pt × Option ℝ)) (xg yg : Grid ℝ) (hshape : xg.map List.length = yg.map List.length)
    (hne : xg.flatten ≠ []) :
    ∃ zg, idwMap knn nnear p D pts xg yg = .ok zg ∧ zg.map List.length = xg.map List.length ∧
      ∀ (j : Nat) a b v, xg.flatten[j]? = some a → yg.flatten[j]? = some b → zg.flatten[j]? = some v →
        ∃ S, IdwIs ((withValue pts).map (·.1)) ((withValue pts).map (·.2)) (a, b) D nnear.toNat p v S := by
  obtain ⟨zg, h1, h2, h3⟩ := idwMap_cells knn hn p D pts xg yg hshape hne
  refine ⟨zg, h1, h2, fun j a b v ha hb hv => ?_⟩
  rw [h3, List.getElem?_map, List.getElem?_zip_eq_some (z := (a, b)) |>.mpr ⟨ha, hb⟩, Option.map_some, Option.some.injEq] at hv
  rw [← hv]
  by_cases hg : withValue pts = []
  · rw [if_pos hg, hg]
    exact ⟨[], idwIs_nil _ _ _ _⟩
  · rw [if_neg hg]
    have := idwOne_is hk ((withValue pts).map (·.1)) ((withValue pts).map (·.2)) (by simp) (a, b) D nnear.toNat p
    rw [List.map_map] at this
    exact this

/-- **C133** Where the nearest points are determined, a cell of the map depends only on the distances and values of the data
points with a value within `max_distance`, and if there are enough of them, only on those up to some distance `r` that
includes `nnear` of them: any other data, tree, cell and `max_distance` with the same of these give the same value. -/
theorem C133_determined {knn knn' : Knn} (hk : IsKnn knn) (hk' : IsKnn knn') {nnear : Int} (hn : 1 < nnear) (p : ℝ)
    (D D' : Option (Fl ℝ)) (pts pts' : List (Pt × Option ℝ)) (xg yg xg' yg' : Grid ℝ)
    (hshape : xg.map List.length = yg.map List.length) (hne : xg.flatten ≠ [])
    (hshape' : xg'.map List.length = yg'.map List.length) (hne' : xg'.flatten ≠ []) :
    ∃ zg zg', idwMap knn nnear p D pts xg yg = .ok zg ∧ idwMap knn' nnear p D' pts' xg' yg' = .ok zg' ∧
      zg.map List.length = xg.map List.length ∧ zg'.map List.length = xg'.map List.length ∧
      ∀ (i j : Nat) a b a' b', xg.flatten[i]? = some a → yg.flatten[i]? = some b →
        xg'.flatten[j]? = some a' → yg'.flatten[j]? = some b' →
        let M := ptsAround pts D (a, b)
        let M' := ptsAround pts' D' (a', b')
        DecidedNear nnear.toNat M →
        (M = M' ∨ ∃ r, (M.filter fun e => e.1 ≤ r) = (M'.filter fun e => e.1 ≤ r) ∧ nnear.toNat ≤ upTo M r) →
        zg.flatten[i]? = zg'.flatten[j]? := by
  obtain ⟨zg, h1, h2, h3⟩ := idwMap_is hk hn p D pts xg yg hshape hne
  obtain ⟨zg', h1', h2', h3'⟩ := idwMap_is hk' hn p D' pts' xg' yg' hshape' hne'
  have len : ∀ {g : Grid (Fl ℝ)} {x : Grid ℝ}, g.map List.length = x.map List.length →
      g.flatten.length = x.flatten.length := by
    intro g x h
    rw [List.length_flatten, List.length_flatten, h]
  refine ⟨zg, zg', h1, h1', h2, h2', ?_⟩
  intro i j a b a' b' ha hb ha' hb' M M' hdec hag
  have hi : i < zg.flatten.length := by
    rw [len h2]; exact (List.getElem?_eq_some_iff.mp ha).1
  have hj : j < zg'.flatten.length := by
    rw [len h2']; exact (List.getElem?_eq_some_iff.mp ha').1
  rw [List.getElem?_eq_getElem hi, List.getElem?_eq_getElem hj]
  obtain ⟨S, hS⟩ := h3 i a b _ ha hb (List.getElem?_eq_getElem hi)
  obtain ⟨S', hS'⟩ := h3' j a' b' _ ha' hb' (List.getElem?_eq_getElem hj)
  have n1 := nearest_idx hS.nearest M (around_idx pts D (a, b)) hdec.cut
  have n2 := nearest_idx hS'.nearest M' (around_idx pts' D' (a', b')) (cut_agree hdec.cut hag)
  rw [← select_agree hag, ← n1] at n2
  congr 1
  refine IdwIs.eq_of_same hS hS' (Multiset.coe_eq_coe.mp n2).symm ?_
  have hm : ∀ e ∈ S.map (pairOf (withValue pts) (a, b)), e ∈ M := by
    intro e he
    have : e ∈ ((S.map (pairOf (withValue pts) (a, b)) : List (ℝ × ℝ)) : Multiset (ℝ × ℝ)) := he
    rw [n1] at this
    exact Multiset.mem_of_mem_filter this
  exact fun e he e' he' => hdec.near e (hm e he) e' (hm e' he')

theorem grid_ext {α : Type} : ∀ {g g' : List (List α)}, g.map List.length = g'.map List.length →
    g.flatten = g'.flatten → g = g'
  | [], [], _, _ => rfl
  | [], _ :: _, h, _ => by simp at h
  | _ :: _, [], h, _ => by simp at h
  | r :: rs, r' :: rs', h, e => by
    rw [List.map_cons, List.map_cons, List.cons.injEq] at h
    rw [List.flatten_cons, List.flatten_cons] at e
    obtain ⟨e1, e2⟩ := List.append_inj e h.1
    rw [e1, grid_ext h.2 e2]

/-- The whole map, cell by cell. -/
theorem idwMap_congr {knn knn' : Knn} (hk : IsKnn knn) (hk' : IsKnn knn') {nnear : Int} (hn : 1 < nnear) (p : ℝ)
    (D D' : Option (Fl ℝ)) (pts pts' : List (Pt × Option ℝ)) (xg yg xg' yg' : Grid ℝ)
    (hshape : xg.map List.length = yg.map List.length) (hne : xg.flatten ≠ [])
    (hsx : xg'.map List.length = xg.map List.length) (hsy : yg'.map List.length = yg.map List.length)
    (h : ∀ (i : Nat) a b, xg.flatten[i]? = some a → yg.flatten[i]? = some b →
      ∃ a' b', xg'.flatten[i]? = some a' ∧ yg'.flatten[i]? = some b' ∧ DecidedNear nnear.toNat (ptsAround pts D (a, b)) ∧
        (ptsAround pts D (a, b) = ptsAround pts' D' (a', b') ∨
          ∃ r, ((ptsAround pts D (a, b)).filter fun e => e.1 ≤ r) = ((ptsAround pts' D' (a', b')).filter fun e => e.1 ≤ r) ∧
            nnear.toNat ≤ upTo (ptsAround pts D (a, b)) r)) :
    idwMap knn nnear p D pts xg yg = idwMap knn' nnear p D' pts' xg' yg' := by
  have len : ∀ {β γ : Type} {g : List (List β)} {x : List (List γ)}, g.map List.length = x.map List.length →
      g.flatten.length = x.flatten.length := by
    intro β γ g x h
    rw [List.length_flatten, List.length_flatten, h]
  obtain ⟨zg, zg', h1, h2, h3, h4, h5⟩ := C133_determined hk hk' hn p D D' pts pts' xg yg xg' yg' hshape hne
    (by rw [hsx, hsy, hshape]) (by
      intro e
      apply hne
      rw [← List.length_eq_zero_iff, ← len hsx, e]
      rfl)
  rw [h1, h2]
  congr 1
  refine grid_ext (by rw [h3, h4, hsx]) (List.ext_getElem? fun i => ?_)
  by_cases hi : i < xg.flatten.length
  · have hi' : i < yg.flatten.length := by rwa [← len hshape]
    obtain ⟨a', b', e1, e2, e3, e4⟩ := h i _ _ (List.getElem?_eq_getElem hi) (List.getElem?_eq_getElem hi')
    exact h5 i i _ _ _ _ (List.getElem?_eq_getElem hi) (List.getElem?_eq_getElem hi') e1 e2 e3 e4
  · rw [List.getElem?_eq_none (by rw [len h3]; omega), List.getElem?_eq_none (by rw [len h4, len hsx]; omega)]

/-- The nearest points are determined for every cell of a grid. -/
def DecidedOn (k : Nat) (pts : List (Pt × Option ℝ)) (D : Option (Fl ℝ)) (xg yg : Grid ℝ) : Prop :=
  ∀ (i : Nat) a b, xg.flatten[i]? = some a → yg.flatten[i]? = some b → DecidedNear k (ptsAround pts D (a, b))

/-- **C133** The map does not depend on the search tree or on the order of the data points; points without a value can be left out. -/
theorem C133_order {knn knn' : Knn} (hk : IsKnn knn) (hk' : IsKnn knn') {nnear : Int} (hn : 1 < nnear) (p : ℝ)
    (D : Option (Fl ℝ)) (pts pts' : List (Pt × Option ℝ)) (xg yg : Grid ℝ)
    (hshape : xg.map List.length = yg.map List.length) (hne : xg.flatten ≠ [])
    (hdec : DecidedOn nnear.toNat pts D xg yg)
    (hperm : (pts.filter fun e => e.2.isSome).Perm (pts'.filter fun e => e.2.isSome)) :
    idwMap knn nnear p D pts xg yg = idwMap knn' nnear p D pts' xg yg := by
  refine idwMap_congr hk hk' hn p D D pts pts' xg yg xg yg hshape hne rfl rfl fun i a b ha hb =>
    ⟨a, b, ha, hb, hdec i a b ha hb, Or.inl ?_⟩
  have e : ∀ l : List (Pt × Option ℝ), withValue l = withValue (l.filter fun e => e.2.isSome) := by
    intro l
    induction l with
    | nil => rfl
    | cons e l ih =>
      obtain ⟨x, z⟩ := e
      cases z with
      | none => simpa [withValue] using ih
      | some z => simpa [withValue] using ih
  unfold ptsAround
  rw [Multiset.coe_eq_coe, e pts, e pts']
  exact ((hperm.filterMap _).map _).filter _

/-- **C133** Moving, turning or mirroring data points and grid together does not change the values. -/
theorem C133_isometry {knn : Knn} (hk : IsKnn knn) {nnear : Int} (hn : 1 < nnear) (p : ℝ)
    (D : Option (Fl ℝ)) (pts : List (Pt × Option ℝ)) (xg yg xg' yg' : Grid ℝ)
    (hshape : xg.map List.length = yg.map List.length) (hne : xg.flatten ≠ [])
    (hdec : DecidedOn nnear.toNat pts D xg yg)
    (T : Pt → Pt) (hT : ∀ u v, euclid (T u) (T v) = euclid u v)
    (hsx : xg'.map List.length = xg.map List.length) (hsy : yg'.map List.length = yg.map List.length)
    (hg : ∀ (i : Nat) a b, xg.flatten[i]? = some a → yg.flatten[i]? = some b →
      xg'.flatten[i]? = some (T (a, b)).1 ∧ yg'.flatten[i]? = some (T (a, b)).2) :
    idwMap knn nnear p D (pts.map fun e => (T e.1, e.2)) xg' yg' = idwMap knn nnear p D pts xg yg := by
  refine (idwMap_congr hk hk hn p D D pts _ xg yg xg' yg' hshape hne hsx hsy fun i a b ha hb =>
    ⟨_, _, (hg i a b ha hb).1, (hg i a b ha hb).2, hdec i a b ha hb, Or.inl ?_⟩).symm
  have e : withValue (pts.map fun e => (T e.1, e.2)) = (withValue pts).map fun e => (T e.1, e.2) := by
    unfold withValue
    rw [List.filterMap_map, List.map_filterMap]
    congr 1
    funext e
    obtain ⟨x, z⟩ := e
    cases z <;> rfl
  unfold ptsAround
  rw [e, List.map_map]
  congr 2
  refine List.map_congr_left fun e _ => ?_
  rw [Function.comp_apply, ← hT (a, b) e.1]

/-- **C133** Data points farther from every cell than `nnear` others, or than `max_distance`, do not matter. -/
theorem C133_remote {knn : Knn} (hk : IsKnn knn) {nnear : Int} (hn : 1 < nnear) (p : ℝ)
    (D : Option (Fl ℝ)) (pts far : List (Pt × Option ℝ)) (xg yg : Grid ℝ)
    (hshape : xg.map List.length = yg.map List.length) (hne : xg.flatten ≠ [])
    (hdec : DecidedOn nnear.toNat pts D xg yg)
    (hfar : ∀ (i : Nat) a b, xg.flatten[i]? = some a → yg.flatten[i]? = some b →
      (∀ e ∈ far, within D (euclid (a, b) e.1) = false) ∨
      ∃ r, nnear.toNat ≤ upTo (ptsAround pts D (a, b)) r ∧ ∀ e ∈ far, r < euclid (a, b) e.1) :
    idwMap knn nnear p D (pts ++ far) xg yg = idwMap knn nnear p D pts xg yg := by
  refine (idwMap_congr hk hk hn p D D pts _ xg yg xg yg hshape hne rfl rfl fun i a b ha hb =>
    ⟨a, b, ha, hb, hdec i a b ha hb, ?_⟩).symm
  have e : ptsAround (pts ++ far) D (a, b) = ptsAround pts D (a, b) + ptsAround far D (a, b) := by
    unfold ptsAround withValue
    rw [List.filterMap_append, List.map_append, List.filter_append, ← Multiset.coe_add]
  have hmem : ∀ e ∈ ptsAround far D (a, b), ∃ u ∈ far, e.1 = euclid (a, b) u.1 ∧ within D e.1 = true := by
    intro e he
    unfold ptsAround withValue at he
    rw [Multiset.mem_coe, List.mem_filter, List.mem_map] at he
    obtain ⟨⟨u, hu, rfl⟩, hw⟩ := he
    obtain ⟨w, hw', hwe⟩ := List.mem_filterMap.mp hu
    refine ⟨w, hw', ?_, hw⟩
    cases h : w.2 with
    | none => rw [h] at hwe; simp at hwe
    | some z =>
      rw [h] at hwe
      simp only [Option.map_some, Option.some.injEq] at hwe
      rw [← hwe]
  rcases hfar i a b ha hb with h | ⟨r, h1, h2⟩
  · left
    have : ptsAround far D (a, b) = 0 := by
      rw [Multiset.eq_zero_iff_forall_notMem]
      intro e he
      obtain ⟨u, hu, h1, h2⟩ := hmem e he
      rw [h1, h u hu] at h2
      cases h2
    rw [e, this, add_zero]
  · right
    refine ⟨r, ?_, h1⟩
    have : ((ptsAround far D (a, b)).filter fun e => e.1 ≤ r) = 0 := by
      rw [Multiset.filter_eq_nil]
      intro e he
      obtain ⟨u, hu, h1, -⟩ := hmem e he
      rw [h1]
      exact not_le.mpr (h2 u hu)
    rw [e, Multiset.filter_add, this, add_zero]

/-- several values of one point are all there or all missing -/
def valuesOf (f : ℝ × ℝ → ℝ) (pts : List (Pt × Option (ℝ × ℝ))) : List (Pt × Option ℝ) :=
  pts.map fun e => (e.1, e.2.map f)

/-- the points with values -/
def withValues (pts : List (Pt × Option (ℝ × ℝ))) : List (Pt × (ℝ × ℝ)) :=
  pts.filterMap fun e => e.2.map fun z => (e.1, z)

theorem withValue_valuesOf (f : ℝ × ℝ → ℝ) (pts : List (Pt × Option (ℝ × ℝ))) :
    withValue (valuesOf f pts) = (withValues pts).map fun e => (e.1, f e.2) := by
  unfold withValue valuesOf withValues
  rw [List.filterMap_map, List.map_filterMap]
  congr 1
  funext e
  obtain ⟨x, z⟩ := e
  cases z <;> rfl

/-- The neighbours chosen by the search do not depend on the values. -/
theorem idwOne_is_all {knn : Knn} (hk : IsKnn knn) (X : List Pt) (q : Pt) (D : Option (Fl ℝ)) (k : Nat) (p : ℝ) :
    ∃ S, ∀ zs : List ℝ, X.length = zs.length → IdwIs X zs q D k p (idwOne (zs.map .fin) p (knn X k 0 (ubOf D) q)) S := by
  obtain ⟨S, hS, hf⟩ := knn_nearest hk X q D k
  refine ⟨S, fun zs hlen => ?_⟩
  obtain ⟨S', hS'⟩ := idwOne_is' hk X zs hlen q D k p
  have : S = S' := by
    have e := hS'.1
    rw [hf] at e
    have := congrArg (List.map (·.2)) e
    simpa [List.map_map, Function.comp_def] using this
  rw [this]
  exact hS'.2

theorem IdwIs.linear {X : List Pt} {zs : List (ℝ × ℝ)} {q : Pt} {D : Option (Fl ℝ)} {k : Nat} {p : ℝ}
    {v1 v2 v : Fl ℝ} {S : List Nat} (s t : ℝ) (hX : X.length = zs.length)
    (h1 : IdwIs X (zs.map (·.1)) q D k p v1 S) (h2 : IdwIs X (zs.map (·.2)) q D k p v2 S)
    (h : IdwIs X (zs.map fun z => s * z.1 + t * z.2) q D k p v S) :
    (v1 = .nan ∧ v2 = .nan ∧ v = .nan) ∨
    ∃ r1 r2, v1 = .fin r1 ∧ v2 = .fin r2 ∧ v = .fin (s * r1 + t * r2) := by
  cases S with
  | nil => exact Or.inl ⟨h1.none rfl, h2.none rfl, h.none rfl⟩
  | cons i S =>
    right
    have hg : ∀ j ∈ i :: S, (zs.map fun z => s * z.1 + t * z.2).getD j 0 =
        s * (zs.map (·.1)).getD j 0 + t * (zs.map (·.2)).getD j 0 := by
      intro j hj
      have : j < zs.length := hX ▸ (h.nearest.mem j hj).1
      rw [List.getD_eq_getElem _ _ (by simpa using this), List.getD_eq_getElem _ _ (by simpa using this),
        List.getD_eq_getElem _ _ (by simpa using this)]
      simp
    by_cases hd : dI X q i < 1 / 10 ^ 10
    · exact ⟨_, _, h1.exact i S rfl hd, h2.exact i S rfl hd, by
        rw [h.exact i S rfl hd, hg i (by simp)]⟩
    · have g : ∀ j ∈ i :: S, 1 / 10 ^ 10 ≤ dI X q j := by
        intro j hj
        rcases List.mem_cons.mp hj with rfl | hj
        · exact not_lt.mp hd
        · exact (not_lt.mp hd).trans ((List.pairwise_cons.mp h.nearest.sorted).1 j hj)
      refine ⟨_, _, h1.mean (by simp) g, h2.mean (by simp) g, ?_⟩
      rw [h.mean (by simp) g]
      congr 1
      rw [← mul_div_assoc, ← mul_div_assoc, ← add_div]
      congr 1
      rw [← List.sum_map_mul_left, ← List.sum_map_mul_left, ← List.sum_map_add]
      congr 1
      refine List.map_congr_left fun j hj => ?_
      rw [hg j hj]
      ring

/-- **C133** The map is linear in the data: if each value is `s` times one plus `t` times another one, so is the map (no data
missing in one and present in the other), NaN in the same cells. -/
theorem C133_linear {knn : Knn} (hk : IsKnn knn) {nnear : Int} (hn : 1 < nnear) (p : ℝ) (D : Option (Fl ℝ))
    (pts : List (Pt × Option (ℝ × ℝ))) (s t : ℝ) (xg yg : Grid ℝ)
    (hshape : xg.map List.length = yg.map List.length) (hne : xg.flatten ≠ []) :
    ∃ z1 z2 z, idwMap knn nnear p D (valuesOf (·.1) pts) xg yg = .ok z1 ∧
      idwMap knn nnear p D (valuesOf (·.2) pts) xg yg = .ok z2 ∧
      idwMap knn nnear p D (valuesOf (fun v => s * v.1 + t * v.2) pts) xg yg = .ok z ∧
      z1.map List.length = xg.map List.length ∧ z2.map List.length = xg.map List.length ∧
      z.map List.length = xg.map List.length ∧
      ∀ i < xg.flatten.length,
        (z1.flatten[i]? = some .nan ∧ z2.flatten[i]? = some .nan ∧ z.flatten[i]? = some .nan) ∨
        ∃ r1 r2, z1.flatten[i]? = some (.fin r1) ∧ z2.flatten[i]? = some (.fin r2) ∧
          z.flatten[i]? = some (.fin (s * r1 + t * r2)) := by
  obtain ⟨z1, a1, b1, c1⟩ := idwMap_cells knn hn p D (valuesOf (·.1) pts) xg yg hshape hne
  obtain ⟨z2, a2, b2, c2⟩ := idwMap_cells knn hn p D (valuesOf (·.2) pts) xg yg hshape hne
  obtain ⟨z, a, b, c⟩ := idwMap_cells knn hn p D (valuesOf (fun v => s * v.1 + t * v.2) pts) xg yg hshape hne
  refine ⟨z1, z2, z, a1, a2, a, b1, b2, b, fun i hi => ?_⟩
  have hy : i < yg.flatten.length := by
    rwa [List.length_flatten, ← hshape, ← List.length_flatten]
  have hq : (xg.flatten.zip yg.flatten)[i]? = some (xg.flatten[i], yg.flatten[i]) :=
    List.getElem?_zip_eq_some.mpr ⟨List.getElem?_eq_getElem hi, List.getElem?_eq_getElem hy⟩
  generalize (xg.flatten[i], yg.flatten[i]) = q at hq
  rw [c1, c2, c, List.getElem?_map, List.getElem?_map, List.getElem?_map, hq]
  simp only [Option.map_some, Option.some.injEq, withValue_valuesOf, List.map_eq_nil_iff, List.map_map]
  by_cases hg : withValues pts = []
  · simp only [if_pos hg]
    exact Or.inl (by simp)
  · simp only [if_neg hg]
    obtain ⟨S, hS⟩ := idwOne_is_all hk ((withValues pts).map (·.1)) q D nnear.toNat p
    have l1 := hS (((withValues pts).map (·.2)).map (·.1)) (by simp)
    have l2 := hS (((withValues pts).map (·.2)).map (·.2)) (by simp)
    have l := hS (((withValues pts).map (·.2)).map fun z => s * z.1 + t * z.2) (by simp)
    have := IdwIs.linear s t (by simp) l1 l2 l
    simp only [List.map_map] at this
    exact this

/-- **C133** Changing data values changes the map by no more than the values: if the data of one set exceed those of another by at least
`lo` and at most `hi` (at the points within `max_distance`), so does the map. Hence larger data give a larger map. -/
theorem C133_difference {knn : Knn} (hk : IsKnn knn) {nnear : Int} (hn : 1 < nnear) (p : ℝ) (D : Option (Fl ℝ))
    (pts : List (Pt × Option (ℝ × ℝ))) (xg yg : Grid ℝ)
    (hshape : xg.map List.length = yg.map List.length) (hne : xg.flatten ≠ []) :
    ∃ z1 z2, idwMap knn nnear p D (valuesOf (·.1) pts) xg yg = .ok z1 ∧
      idwMap knn nnear p D (valuesOf (·.2) pts) xg yg = .ok z2 ∧
      ∀ (i : Nat) a b, xg.flatten[i]? = some a → yg.flatten[i]? = some b →
        ∀ lo hi : ℝ, (∀ e ∈ pts, ∀ v, e.2 = some v → within D (euclid (a, b) e.1) = true →
          lo ≤ v.1 - v.2 ∧ v.1 - v.2 ≤ hi) →
        (z1.flatten[i]? = some .nan ∧ z2.flatten[i]? = some .nan) ∨
        ∃ r1 r2, z1.flatten[i]? = some (.fin r1) ∧ z2.flatten[i]? = some (.fin r2) ∧
          lo ≤ r1 - r2 ∧ r1 - r2 ≤ hi := by
  obtain ⟨z1, z2, z, a1, a2, a3, b1, b2, b3, c⟩ := C133_linear hk hn p D pts 1 (-1) xg yg hshape hne
  obtain ⟨z', h1, h2, h3⟩ := idwMap_is hk hn p D (valuesOf (fun v => 1 * v.1 + -1 * v.2) pts) xg yg hshape hne
  have : z' = z := by rw [a3] at h1; exact (Except.ok.inj h1).symm
  subst this
  refine ⟨z1, z2, a1, a2, fun i a b ha hb lo hi hd => ?_⟩
  have hi' : i < xg.flatten.length := (List.getElem?_eq_some_iff.mp ha).1
  rcases c i hi' with ⟨e1, e2, -⟩ | ⟨r1, r2, e1, e2, e3⟩
  · exact Or.inl ⟨e1, e2⟩
  · right
    refine ⟨r1, r2, e1, e2, ?_⟩
    obtain ⟨S, hS⟩ := h3 i a b _ ha hb e3
    obtain ⟨g1, g2⟩ := hS.bounds (by omega)
    have hex : ∃ j, inRange ((withValue (valuesOf (fun v => 1 * v.1 + -1 * v.2) pts)).map (·.1)) (a, b) D j := by
      by_contra hc
      push Not at hc
      have := g1.mpr hc
      cases this
    obtain ⟨r, hr, h1, h2⟩ := g2 lo hi (by
      intro j hj
      rw [inRange_within] at hj
      obtain ⟨hj1, hj2⟩ := hj
      rw [withValue_valuesOf] at hj1 hj2 ⊢
      rw [List.map_map] at hj1 hj2 ⊢
      rw [List.length_map] at hj1
      unfold dI at hj2
      rw [List.getD_eq_getElem _ _ (by simpa using hj1), List.getElem_map] at hj2
      rw [List.getD_eq_getElem _ _ (by simpa using hj1), List.getElem_map]
      have hm := List.getElem_mem hj1
      generalize (withValues pts)[j] = w at hm hj2
      obtain ⟨e, he, hee⟩ := List.mem_filterMap.mp hm
      cases h : e.2 with
      | none => rw [h] at hee; simp at hee
      | some v =>
        rw [h] at hee
        simp only [Option.map_some, Option.some.injEq] at hee
        subst hee
        have := hd e he v h hj2
        simp only [Function.comp_apply]
        constructor <;> linarith [this.1, this.2]) hex
    have : r = 1 * r1 + -1 * r2 := by injection hr with h; exact h.symm
    subst this
    constructor <;> linarith

/-- The value near one of the points. -/
theorem IdwIs.near {X : List Pt} {zs : List ℝ} {q : Pt} {D : Option (Fl ℝ)} {k : Nat} {p : ℝ}
    {v : Fl ℝ} {S : List Nat} (h : IdwIs X zs q D k p v S) (hk : 0 < k) (hp : 0 ≤ p) (m : Nat) (s B : ℝ)
    (hm : inRange X q D m) (hs : dI X q m < s) (hB : 0 ≤ B)
    (ho : ∀ j, inRange X q D j → j ≠ m → s ≤ dI X q j ∧ |zs.getD j 0 - zs.getD m 0| ≤ B) :
    ∃ r, v = .fin r ∧ |r - zs.getD m 0| ≤ (k - 1) * (dI X q m / s) ^ p * B := by
  have d0 : ∀ j, 0 ≤ dI X q j := fun j => Real.sqrt_nonneg _
  have s0 : 0 < s := lt_of_le_of_lt (d0 m) hs
  have hk1 : (1 : ℝ) ≤ k := by exact_mod_cast hk
  have hR : 0 ≤ (k - 1) * (dI X q m / s) ^ p * B := by
    have := Real.rpow_nonneg (div_nonneg (d0 m) s0.le) p
    have : (0 : ℝ) ≤ k - 1 := by linarith
    positivity
  have hmS : m ∈ S := by
    by_contra hc
    obtain ⟨h1, h2⟩ := h.nearest.best m hm hc
    cases S with
    | nil => simp at h1; omega
    | cons j S =>
      have hj : j ≠ m := by rintro rfl; simp at hc
      have := (ho j (h.nearest.mem j (by simp)) hj).1
      have := h2 j (by simp)
      linarith
  cases S with
  | nil => simp at hmS
  | cons i S =>
    have lo : ∀ j ∈ i :: S, dI X q i ≤ dI X q j := by
      intro j hj
      rcases List.mem_cons.mp hj with rfl | hj
      · exact le_rfl
      · exact (List.pairwise_cons.mp h.nearest.sorted).1 j hj
    have him : i = m := by
      by_contra hc
      have := (ho i (h.nearest.mem i (by simp)) hc).1
      have := lo m hmS
      linarith
    subst him
    by_cases hd : dI X q i < 1 / 10 ^ 10
    · refine ⟨_, h.exact i S rfl hd, ?_⟩
      rw [sub_self, abs_zero]
      exact hR
    · have g : ∀ j ∈ i :: S, 1 / 10 ^ 10 ≤ dI X q j := fun j hj => (not_lt.mp hd).trans (lo j hj)
      have gp : ∀ j ∈ i :: S, 0 < dI X q j := fun j hj => lt_of_lt_of_le (by positivity) (g j hj)
      refine ⟨_, h.mean (by simp) g, ?_⟩
      have hw : ∀ j ∈ i :: S, 0 < 1 / dI X q j ^ p := fun j hj => by
        have := Real.rpow_pos_of_pos (gp j hj) p
        positivity
      have hsum : 0 < ((i :: S).map fun j => 1 / dI X q j ^ p).sum := by
        apply sum_pos_of_pos (by simp)
        intro x hx
        obtain ⟨j, hj, rfl⟩ := List.mem_map.mp hx
        exact hw j hj
      have hwi : 1 / dI X q i ^ p ≤ ((i :: S).map fun j => 1 / dI X q j ^ p).sum := by
        rw [List.map_cons, List.sum_cons, le_add_iff_nonneg_right]
        refine List.sum_nonneg fun x hx => ?_
        obtain ⟨j, hj, rfl⟩ := List.mem_map.mp hx
        exact (hw j (by simp [hj])).le
      have e : ((i :: S).map fun j => 1 / dI X q j ^ p * zs.getD j 0).sum -
          zs.getD i 0 * ((i :: S).map fun j => 1 / dI X q j ^ p).sum =
          (S.map fun j => 1 / dI X q j ^ p * (zs.getD j 0 - zs.getD i 0)).sum := by
        have : ∀ l : List Nat, (l.map fun j => 1 / dI X q j ^ p * zs.getD j 0).sum -
            zs.getD i 0 * (l.map fun j => 1 / dI X q j ^ p).sum =
            (l.map fun j => 1 / dI X q j ^ p * (zs.getD j 0 - zs.getD i 0)).sum := by
          intro l
          induction l with
          | nil => simp
          | cons j l ih =>
            simp only [List.map_cons, List.sum_cons]
            rw [← ih]
            ring
        rw [this, List.map_cons, List.sum_cons, sub_self, mul_zero, zero_add]
      have hb : ∀ l : List Nat, (∀ j ∈ l, j ∈ S) →
          |(l.map fun j => 1 / dI X q j ^ p * (zs.getD j 0 - zs.getD i 0)).sum| ≤ l.length * (1 / s ^ p * B) := by
        intro l
        induction l with
        | nil => simp
        | cons j l ih =>
          intro hl
          have h1 := ih fun x hx => hl x (by simp [hx])
          have hj := hl j (by simp)
          have hne : j ≠ i := by
            rintro rfl
            exact (List.nodup_cons.mp h.nearest.nodup).1 hj
          obtain ⟨o1, o2⟩ := ho j (h.nearest.mem j (by simp [hj])) hne
          have w1 : 1 / dI X q j ^ p ≤ 1 / s ^ p :=
            one_div_le_one_div_of_le (Real.rpow_pos_of_pos s0 p) (Real.rpow_le_rpow s0.le o1 hp)
          have w2 : |1 / dI X q j ^ p * (zs.getD j 0 - zs.getD i 0)| ≤ 1 / s ^ p * B := by
            rw [abs_mul, abs_of_pos (hw j (by simp [hj]))]
            exact mul_le_mul w1 o2 (abs_nonneg _) (by have := Real.rpow_pos_of_pos s0 p; positivity)
          rw [List.map_cons, List.sum_cons, List.length_cons]
          refine (abs_add_le _ _).trans ?_
          push_cast
          linarith
      have hb' := hb S fun _ h => h
      rw [div_sub' hsum.ne', mul_comm _ (zs.getD i 0), e, abs_div, abs_of_pos hsum, div_le_iff₀ hsum]
      refine hb'.trans ?_
      have hl : (S.length : ℝ) ≤ k - 1 := by
        have := h.nearest.le
        rw [List.length_cons] at this
        have : ((S.length + 1 : ℕ) : ℝ) ≤ k := by exact_mod_cast this
        push_cast at this
        linarith
      have ip := Real.rpow_pos_of_pos (gp i (by simp)) p
      have sp := Real.rpow_pos_of_pos s0 p
      have e2 : (dI X q i / s) ^ p * (1 / dI X q i ^ p) = 1 / s ^ p := by
        rw [Real.div_rpow (d0 i) s0.le]
        field_simp
      have nn : 0 ≤ (dI X q i / s) ^ p := Real.rpow_nonneg (div_nonneg (d0 i) s0.le) p
      calc (S.length : ℝ) * (1 / s ^ p * B) ≤ (k - 1) * (1 / s ^ p * B) :=
            mul_le_mul_of_nonneg_right hl (by positivity)
        _ = (k - 1) * (dI X q i / s) ^ p * B * (1 / dI X q i ^ p) := by rw [← e2]; ring
        _ ≤ _ := mul_le_mul_of_nonneg_left hwi hR

/-- **C133** Near a data point the map is near its value: if the others in range are at least `s > d` away and differ in value by at
most `B`, the map at distance `d` differs from the value by at most `(nnear - 1) (d/s)^p B`. -/
theorem C133_near {knn : Knn} (hk : IsKnn knn) {nnear : Int} (hn : 1 < nnear) {p : ℝ} (hp : 0 ≤ p) (D : Option (Fl ℝ))
    (pts pts' : List (Pt × Option ℝ)) (x : Pt) (z : ℝ) (xg yg : Grid ℝ)
    (hshape : xg.map List.length = yg.map List.length) (hne : xg.flatten ≠ []) :
    ∃ zg, idwMap knn nnear p D (pts ++ (x, some z) :: pts') xg yg = .ok zg ∧
      ∀ (i : Nat) a b, xg.flatten[i]? = some a → yg.flatten[i]? = some b →
        ∀ s B, 0 ≤ B → euclid (a, b) x < s → within D (euclid (a, b) x) = true →
        (∀ e ∈ pts ++ pts', ∀ v, e.2 = some v → within D (euclid (a, b) e.1) = true →
          s ≤ euclid (a, b) e.1 ∧ |v - z| ≤ B) →
        ∃ r, zg.flatten[i]? = some (.fin r) ∧ |r - z| ≤ (nnear - 1) * (euclid (a, b) x / s) ^ p * B := by
  obtain ⟨zg, h1, h2, h3⟩ := idwMap_is hk hn p D (pts ++ (x, some z) :: pts') xg yg hshape hne
  refine ⟨zg, h1, fun i a b ha hb s B hB hs hw ho => ?_⟩
  have hi : i < zg.flatten.length := by
    rw [List.length_flatten, h2, ← List.length_flatten]
    exact (List.getElem?_eq_some_iff.mp ha).1
  obtain ⟨S, hS⟩ := h3 i a b _ ha hb (List.getElem?_eq_getElem hi)
  have hg : withValue (pts ++ (x, some z) :: pts') = withValue pts ++ (x, z) :: withValue pts' := by
    unfold withValue
    rw [List.filterMap_append, List.filterMap_cons]
    rfl
  rw [hg] at hS
  set good := withValue pts ++ (x, z) :: withValue pts' with hgood
  set m := (withValue pts).length with hm
  have hml : m < good.length := by rw [hgood, List.length_append, List.length_cons]; omega
  have hgm : good[m] = (x, z) := by
    simp only [hgood]
    rw [List.getElem_append_right (by omega)]
    simp [hm]
  have pm := pairOf_eq (a, b) hml
  rw [hgm] at pm
  have em : dI (good.map (·.1)) (a, b) m = euclid (a, b) x := congrArg Prod.fst pm
  have zm : (good.map (·.2)).getD m 0 = z := congrArg Prod.snd pm
  have hmem : ∀ j (hj : j < good.length), j ≠ m → ∃ e ∈ pts ++ pts', e.1 = good[j].1 ∧ e.2 = some good[j].2 := by
    intro j hj hjm
    have : good[j] ∈ withValue pts ++ withValue pts' := by
      simp only [hgood]
      by_cases hjl : j < m
      · rw [List.getElem_append_left (by omega)]
        exact List.mem_append_left _ (List.getElem_mem _)
      · rw [List.getElem_append_right (by omega), List.getElem_cons, dif_neg (by omega)]
        exact List.mem_append_right _ (List.getElem_mem _)
    have e : withValue pts ++ withValue pts' = withValue (pts ++ pts') := by
      unfold withValue; rw [List.filterMap_append]
    rw [e] at this
    obtain ⟨e, he, hee⟩ := List.mem_filterMap.mp this
    refine ⟨e, he, ?_⟩
    cases h : e.2 with
    | none => rw [h] at hee; simp at hee
    | some v =>
      rw [h] at hee
      simp only [Option.map_some, Option.some.injEq] at hee
      rw [← hee]
      exact ⟨rfl, rfl⟩
  obtain ⟨r, hr, hr'⟩ := hS.near (by omega) hp m s B
    ((inRange_within _ _ _ _).mpr ⟨by simpa using hml, by rw [em]; exact hw⟩) (by rw [em]; exact hs) hB (by
      intro j hj hjm
      obtain ⟨j1, j2⟩ := (inRange_within _ _ _ _).mp hj
      rw [List.length_map] at j1
      have pj := pairOf_eq (a, b) j1
      have ej : dI (good.map (·.1)) (a, b) j = euclid (a, b) good[j].1 := congrArg Prod.fst pj
      have zj : (good.map (·.2)).getD j 0 = good[j].2 := congrArg Prod.snd pj
      obtain ⟨e, he, e1, e2⟩ := hmem j j1 hjm
      rw [ej] at j2 ⊢
      rw [zj, zm]
      have := ho e he good[j].2 e2 (by rw [e1]; exact j2)
      rw [e1] at this
      exact this)
  refine ⟨r, by rw [List.getElem?_eq_getElem hi, hr], ?_⟩
  rw [em, zm] at hr'
  have : ((nnear.toNat : ℕ) : ℝ) = (nnear : ℝ) := by
    have : ((nnear.toNat : ℕ) : ℤ) = nnear := Int.toNat_of_nonneg (by omega)
    exact_mod_cast congrArg (Int.cast (R := ℝ)) this
  rw [this] at hr'
  exact hr'

/-- **C133** Where equally far points compete for the last place, the map depends on the search: with a conforming one (brute
force) it depends on the order of the data points. -/
theorem C133_tie (p : ℝ) : ∃ pts pts' : List (Pt × Option ℝ), pts.Perm pts' ∧
    idwMap bruteKnn 2 p none pts [[0]] [[0]] ≠ idwMap bruteKnn 2 p none pts' [[0]] [[0]] := by
  have h1 : euclid (0, 0) (1, 0) = 1 := by simp [euclid]
  have h2 : euclid (0, 0) (-1, 0) = 1 := by simp [euclid]
  have h3 : euclid (0, 0) (0, 1) = 1 := by simp [euclid]
  have key : ∀ x y z : Pt, euclid (0, 0) x = 1 → euclid (0, 0) y = 1 → euclid (0, 0) z = 1 → ∀ u v w : ℝ,
      idwMap bruteKnn 2 p none [(x, some u), (y, some v), (z, some w)] [[0]] [[0]] = .ok [[.fin ((u + v) / 2)]] := by
    intro x y z hx hy hz u v w
    obtain ⟨zg, e1, e2, e3⟩ := idwMap_cells bruteKnn (nnear := 2) (by norm_num) p none
      [(x, some u), (y, some v), (z, some w)] [[0]] [[0]] rfl (by simp)
    have hd : ∀ i, i < 3 → dI [x, y, z] (0, 0) i = 1 := by
      intro i hi
      unfold dI
      interval_cases i <;> simpa
    have hb : bruteKnn [x, y, z] 2 0 .pinf (0, 0) = [(.fin 1, 0), (.fin 1, 1)] := by
      unfold bruteKnn
      have f : ((List.range [x, y, z].length).filter fun i => (Fl.fin (dI [x, y, z] (0, 0) i)) <ᶠ (Fl.pinf : Fl ℝ)) =
          [0, 1, 2] := rfl
      have s : [0, 1, 2].insertionSort (fun i j => dI [x, y, z] (0, 0) i ≤ dI [x, y, z] (0, 0) j) = [0, 1, 2] := by
        have : Std.Total fun i j => dI [x, y, z] (0, 0) i ≤ dI [x, y, z] (0, 0) j := ⟨fun _ _ => le_total _ _⟩
        refine List.Pairwise.insertionSort_eq ?_
        simp [hd]
      dsimp only
      rw [f, s]
      simp [hd]
    have hS := idwOne_is' bruteKnn_isKnn [x, y, z] [u, v, w] rfl (0, 0) none 2 p
    obtain ⟨S, hS1, hS2⟩ := hS
    have hS' : S = [0, 1] := by
      have := congrArg (List.map (·.2)) hS1
      rw [show ubOf none = (Fl.pinf : Fl ℝ) from rfl, hb, List.map_map] at this
      simpa [Function.comp_def] using this.symm
    subst hS'
    have hv := hS2.mean (by simp) (by
      intro i hi
      rw [hd i (by simp at hi; omega)]
      norm_num)
    simp only [List.map_cons, List.map_nil, hd 0 (by norm_num), hd 1 (by norm_num), Real.one_rpow] at hv
    have hz : zg.flatten = [.fin ((u + v) / 2)] := by
      rw [e3]
      simp only [List.flatten_cons, List.flatten_nil, List.append_nil, List.zip_cons_cons, List.zip_nil_right,
        List.map_cons, List.map_nil, List.cons.injEq, and_true]
      rw [if_neg (by simp [withValue])]
      have : (2 : Int).toNat = 2 := rfl
      simp only [withValue, List.filterMap_cons, Option.map_some, List.filterMap_nil, List.map_cons, List.map_nil, this]
      rw [hv]
      norm_num
    rw [e1]
    congr 1
    exact grid_ext (by rw [e2]; rfl) (by rw [hz]; rfl)
  refine ⟨[((1, 0), some 0), ((-1, 0), some 0), ((0, 1), some 6)], [((0, 1), some 6), ((1, 0), some 0), ((-1, 0), some 0)],
    ?_, ?_⟩
  · exact (List.perm_append_comm (l₁ := [((1, 0), some 0), ((-1, 0), some 0)]) (l₂ := [((0, 1), some 6)]))
  · rw [key _ _ _ h1 h2 h3, key _ _ _ h3 h1 h2]
    norm_num

/-- two links with values, one without -/
def demoPts : List (Pt × Option ℝ) := [((0, 0), some 1), ((0, 3), none), ((4, 0), some 5)]

theorem demo_dist : euclid (1, 0) (0, 0) = 1 ∧ euclid (1, 0) (4, 0) = 3 := by
  refine ⟨by simp [euclid], ?_⟩
  unfold euclid
  rw [show ((1 : ℝ) - 4) ^ 2 + ((0 : ℝ) - 0) ^ 2 = 3 ^ 2 by norm_num, Real.sqrt_sq (by norm_num)]

theorem demo_around : ptsAround demoPts none (1, 0) = ([(1, 1), (3, 5)] : List (ℝ × ℝ)) := by
  unfold ptsAround demoPts withValue within
  simp [demo_dist.1, demo_dist.2]

theorem demo_decided : DecidedOn 2 demoPts none [[1]] [[0]] := by
  intro i a b ha hb
  have hi : i = 0 := by
    have := (List.getElem?_eq_some_iff.mp ha).1
    simpa using this
  subst hi
  simp only [List.flatten_cons, List.flatten_nil, List.append_nil, List.getElem?_cons_zero, Option.some.injEq] at ha hb
  subst ha; subst hb
  rw [demo_around]
  refine ⟨fun d hd => ?_, ?_⟩
  · unfold upTo
    exact (Multiset.card_le_card (Multiset.filter_le _ _)).trans (by simp)
  · intro e he e' he' h1 h2
    simp only [Multiset.mem_coe, List.mem_cons, List.not_mem_nil, or_false] at he he'
    rcases he with rfl | rfl
    · norm_num at h2
    · norm_num at h2

/-- `C133_order` for two points at distance 1 and 3 and one without a value, in another order and without the latter. -/
example : idwMap bruteKnn 2 2 none demoPts [[1]] [[0]] =
    idwMap bruteKnn 2 2 none [((4, 0), some 5), ((0, 0), some 1)] [[1]] [[0]] :=
  C133_order bruteKnn_isKnn bruteKnn_isKnn (by norm_num) 2 none _ _ _ _ rfl (by simp) demo_decided
    (by simpa [demoPts] using List.Perm.swap _ _ _)

/-- `C133_isometry` for a reflection. -/
example : idwMap bruteKnn 2 2 none (demoPts.map fun e => ((e.1.2, e.1.1), e.2)) [[0]] [[1]] =
    idwMap bruteKnn 2 2 none demoPts [[1]] [[0]] := by
  refine C133_isometry bruteKnn_isKnn (nnear := 2) (by norm_num) 2 none demoPts [[1]] [[0]] [[0]] [[1]] rfl (by simp) demo_decided
    (fun u => (u.2, u.1)) (fun u v => ?_) rfl rfl ?_
  · unfold euclid
    congr 1
    ring
  · intro i a b ha hb
    exact ⟨hb, ha⟩

/-- `C133_remote`: a third value farther away than the two nearest. -/
example : idwMap bruteKnn 2 2 none (demoPts ++ [((11, 0), some 100)]) [[1]] [[0]] =
    idwMap bruteKnn 2 2 none demoPts [[1]] [[0]] := by
  refine C133_remote bruteKnn_isKnn (nnear := 2) (by norm_num) 2 none demoPts _ [[1]] [[0]] rfl (by simp) demo_decided ?_
  intro i a b ha hb
  have hi : i = 0 := by
    have := (List.getElem?_eq_some_iff.mp ha).1
    simpa using this
  subst hi
  simp only [List.flatten_cons, List.flatten_nil, List.append_nil, List.getElem?_cons_zero, Option.some.injEq] at ha hb
  subst ha; subst hb
  right
  refine ⟨3, ?_, ?_⟩
  · rw [demo_around]
    unfold upTo
    rw [Multiset.filter_coe, List.filter_eq_self.mpr (by simp)]
    simp
  · intro e he
    rw [List.mem_singleton] at he
    subst he
    unfold euclid
    rw [show ((1 : ℝ) - 11) ^ 2 + ((0 : ℝ) - 0) ^ 2 = 10 ^ 2 by norm_num, Real.sqrt_sq (by norm_num)]
    norm_num

/-- `C133_near`: at a third of the distance the map is within (1/3)^2 * 4 of the value. -/
example : ∃ r, idwMap bruteKnn 2 2 none demoPts [[1]] [[0]] = .ok [[.fin r]] ∧ |r - 1| ≤ (1 / 3) ^ (2 : ℝ) * 4 := by
  obtain ⟨zg, h1, h2⟩ := C133_near bruteKnn_isKnn (nnear := 2) (by norm_num) (p := 2) (by norm_num) none []
    [((0, 3), none), ((4, 0), some 5)] (0, 0) 1 [[1]] [[0]] rfl (by simp)
  obtain ⟨zg', h1', h3, -⟩ := idwMap_cells bruteKnn (nnear := 2) (by norm_num) 2 none demoPts [[1]] [[0]] rfl (by simp)
  have : zg' = zg := by
    rw [show demoPts = [] ++ ((0, 0), some 1) :: [((0, 3), none), ((4, 0), some 5)] from rfl, h1] at h1'
    exact (Except.ok.inj h1').symm
  subst this
  obtain ⟨r, hr, hr'⟩ := h2 0 1 0 rfl rfl 3 4 (by norm_num) (by rw [demo_dist.1]; norm_num) rfl (by
    intro e he v hv _
    simp only [List.nil_append, List.mem_cons, List.not_mem_nil, or_false] at he
    rcases he with rfl | rfl
    · cases hv
    · injection hv with hv
      subst hv
      rw [demo_dist.2]
      norm_num)
  refine ⟨r, ?_, ?_⟩
  · rw [h1']
    congr 1
    refine grid_ext (by rw [h3]; rfl) (List.ext_getElem? fun i => ?_)
    cases i with
    | zero => rw [hr]; rfl
    | succ i =>
      rw [List.getElem?_eq_none (by rw [List.length_flatten, h3]; simp)]
      rfl
  · rw [demo_dist.1] at hr'
    norm_num at hr' ⊢
    exact hr'

/-- `C133_difference` with two data sets that differ by at most 2. -/
example : ∃ z1 z2, idwMap bruteKnn 2 2 none (valuesOf (·.1) [((0, 0), some (1, 0)), ((4, 0), some (5, 3))]) [[1]] [[0]] = .ok z1 ∧
    idwMap bruteKnn 2 2 none (valuesOf (·.2) [((0, 0), some (1, 0)), ((4, 0), some (5, 3))]) [[1]] [[0]] = .ok z2 := by
  obtain ⟨z1, z2, h1, h2, -⟩ := C133_difference bruteKnn_isKnn (nnear := 2) (by norm_num) 2 none
    [((0, 0), some (1, 0)), ((4, 0), some (5, 3))] [[1]] [[0]] rfl (by simp)
  exact ⟨z1, z2, h1, h2⟩

end Verif.Props
