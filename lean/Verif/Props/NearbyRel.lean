import Verif.Props.Nearby
import Mathlib.Algebra.BigOperators.Intervals
import Mathlib.Tactic.IntervalCases

/-!
# Properties C31 (own neighbour), C35 (invariances), C67 (F score), C68 (positional matching)
-/

namespace Verif.Props
open Verif Verif.Nearby

/-! ### C31, own neighbour -/

/-- The distance dataset as input of `nearby_wetdry`. -/
noncomputable def asDist {Id : Type} [DecidableEq Id] (ids : List Id)
    (siteA siteB : List Haversine.Site) : Nearby.Dist (Fl ℝ) Id where
  ids := ids
  aa := (Haversine.calcDistances ids siteA siteB).a_to_all_a
  ab := (Haversine.calcDistances ids siteA siteB).a_to_all_b
  ba := (Haversine.calcDistances ids siteA siteB).b_to_all_a
  bb := (Haversine.calcDistances ids siteA siteB).b_to_all_b

theorem at2_of_entry {m : List (List (Fl ℝ))} {i j : Nat} {x : Fl ℝ} (h : entry m i j = some x) :
    at2 m i j = x := by
  unfold entry at h
  unfold at2 rd
  cases hr : m[i]? with
  | none => rw [hr] at h; cases h
  | some r =>
    rw [hr, Option.bind_some] at h
    rw [List.getD_eq_getElem?_getD, List.getD_eq_getElem?_getD, hr, Option.getD_some, h]
    rfl

/-- **C31** Every link is its own neighbour for every positive radius, whatever its length, and
the neighbour relation is symmetric. -/
theorem C31_own_neighbour {Id : Type} [DecidableEq Id] (ids : List Id) (hn : ids.Nodup)
    (siteA siteB : List Haversine.Site) (ha : siteA.length = ids.length)
    (hb : siteB.length = ids.length) (radius : Fl ℝ) (hr : (.fin 0 <ᶠ radius) = true)
    (i j : Nat) (hi : i < ids.length) (hj : j < ids.length) :
    near (asDist ids siteA siteB) radius i i = true ∧
    near (asDist ids siteA siteB) radius i j = near (asDist ids siteA siteB) radius j i := by
  obtain ⟨h1, _⟩ := C31_structure ids hn siteA siteB ha hb i i hi hi
  obtain ⟨_, s1, s2, s3⟩ := C31_structure ids hn siteA siteB ha hb i j hi hj
  obtain ⟨_, _, _, s4⟩ := C31_structure ids hn siteA siteB ha hb j i hj hi
  refine ⟨?_, ?_⟩
  · unfold near asDist
    simp only
    rw [at2_of_entry (h1 _ (by simp)).1, at2_of_entry (h1 _ (by simp)).1,
      at2_of_entry (h1 _ (by simp)).1, at2_of_entry (h1 _ (by simp)).1, hr]
    rfl
  · have e : ∀ m m' : List (List (Fl ℝ)), entry m i j = entry m' j i →
        at2 m i j = at2 m' j i := by
      intro m m' h
      cases hx : entry m i j with
      | some x => rw [at2_of_entry hx, at2_of_entry (h ▸ hx)]
      | none =>
        have h' := h ▸ hx
        have none_nan : ∀ (m : List (List (Fl ℝ))) a b, entry m a b = none → at2 m a b = .nan := by
          intro m a b hh
          unfold entry at hh
          unfold at2 rd
          rw [List.getD_eq_getElem?_getD, List.getD_eq_getElem?_getD]
          cases hr : m[a]? with
          | none => rfl
          | some r =>
            rw [hr, Option.bind_some] at hh
            rw [Option.getD_some, hh]
            rfl
        rw [none_nan _ _ _ hx, none_nan _ _ _ h']
    unfold near asDist
    simp only
    rw [e _ _ s1, e _ _ s2, e _ _ s3, ← e _ _ s4.symm, Bool.and_right_comm (_ <ᶠ _)]

section
variable {K Id : Type} [Field K] [LinearOrder K] [DecidableEq Id]

/-! ### C35 -/

theorem valid_map_offset [IsStrictOrderedRing K] (c : K) (xs : List (Fl K)) :
    valid (xs.map fun x => x +ᶠ .fin c) = (valid xs).map fun x => x +ᶠ .fin c := by
  unfold valid
  rw [List.filter_map]
  congr 1
  apply List.filter_congr
  intro x _
  cases x <;> rfl

theorem add_fin_le [IsStrictOrderedRing K] (c : K) {x y : Fl K} (h : x ≤ᶠ y) :
    (x +ᶠ .fin c) ≤ᶠ (y +ᶠ .fin c) := by
  cases x <;> cases y <;>
    first
    | rfl
    | (exfalso; revert h; exact Bool.false_ne_true)
    | (rw [Fl.pf_add_fin, Fl.pf_add_fin, Fl.pf_le_fin, decide_eq_true_eq]
       rw [Fl.pf_le_fin, decide_eq_true_eq] at h
       linarith)

theorem listMax_offset [IsStrictOrderedRing K] (c : K) (v : List (Fl K)) (hne : v ≠ [])
    (hv : ∀ x ∈ v, PyFloat.isNaN x = false) :
    listMax (v.map fun x => x +ᶠ .fin c) = listMax v +ᶠ .fin c := by
  obtain ⟨a1, a2⟩ := listMax_spec hne hv
  obtain ⟨b1, b2⟩ := listMax_spec (xs := v.map fun x => x +ᶠ .fin c) (by simpa using hne) (by
    intro x hx
    obtain ⟨y, hy, rfl⟩ := List.mem_map.mp hx
    have := hv y hy
    cases y <;> first | rfl | exact this)
  apply fl_le_antisymm
  · obtain ⟨y, hy, e⟩ := List.mem_map.mp b1
    rw [← e]
    exact add_fin_le c (a2 y hy)
  · exact b2 _ (List.mem_map.mpr ⟨_, a1, rfl⟩)

theorem deltaP_offset [IsStrictOrderedRing K] (period need : Nat) (hneed : 0 < need) (c : K)
    (xs : List (Fl K)) :
    (∀ x ∈ xs, x = .nan ∨ ∃ r, x = .fin r) →
    deltaP period need (xs.map fun x => x +ᶠ .fin c) = deltaP period need xs := by
  intro hreg
  apply List.ext_getElem?
  intro t
  by_cases ht : t < xs.length
  · rw [getElem?_deltaP _ _ _ _ (by simpa using ht), getElem?_deltaP _ _ _ _ ht,
      available_eq _ _ _ (by simpa using ht), available_eq _ _ _ ht, window_map, valid_map_offset,
      List.length_map]
    congr 1
    rw [rd_map_nan _ _ (by simp)]
    split_ifs with h
    · simp
    · have hne : valid (window xs period t) ≠ [] := by
        intro e; rw [e] at h; simp at h; omega
      have hv : ∀ x ∈ valid (window xs period t), PyFloat.isNaN x = false :=
        fun x hx => (mem_valid.mp hx).2
      rw [listMax_offset c _ hne hv]
      obtain ⟨m1, _⟩ := listMax_spec hne hv
      obtain ⟨m2, m3⟩ := mem_valid.mp m1
      obtain ⟨s, _, _, hs⟩ := mem_window.mp m2
      rcases hreg _ (List.mem_of_getElem? hs) with e | ⟨M, e⟩
      · rw [e] at m3; cases m3
      · rw [e]
        rcases hreg _ (List.mem_of_getElem? (getElem?_eq_rd ht)) with e' | ⟨x, e'⟩
        · rw [e']; simp
        · rw [e']; simp
  · rw [List.getElem?_eq_none (by rw [length_deltaP]; simp; omega),
      List.getElem?_eq_none (by rw [length_deltaP]; omega)]

/-- **C35** Adding an individual constant to the series of each link (values finite or NaN)
changes neither the classification nor `F`. -/
theorem C35_offsets [IsStrictOrderedRing K] (N : Net (Fl K) Id) (d : Nearby.Dist (Fl K) Id)
    (p : Params (Fl K)) (hneed : 0 < p.minHours * 60 / p.interval) (cs : List K) (hcs : cs.length = N.pmin.length)
    (hreg : ∀ xs ∈ N.pmin, ∀ x ∈ xs, x = .nan ∨ ∃ r, x = .fin r) :
    nearby_wetdry { N with pmin := List.zipWith (fun (c : K) (xs : List (Fl K)) => xs.map fun x => x +ᶠ .fin c) cs N.pmin }
      d p = nearby_wetdry N d p := by
  set N' : Net (Fl K) Id :=
    { N with pmin := List.zipWith (fun (c : K) (xs : List (Fl K)) => xs.map fun x => x +ᶠ .fin c) cs N.pmin } with hN'
  have hget : ∀ j : Nat, ∃ c : K, N'.pmin[j]? = N.pmin[j]?.map fun xs : List (Fl K) =>
      xs.map fun x => x +ᶠ .fin c := by
    intro j
    show ∃ c : K, (List.zipWith (fun (c : K) (xs : List (Fl K)) => xs.map fun x => x +ᶠ .fin c) cs N.pmin)[j]? = _
    rw [List.getElem?_zipWith]
    by_cases hj : j < cs.length
    · refine ⟨cs[j], ?_⟩
      rw [List.getElem?_eq_getElem hj, List.getElem?_eq_getElem (by omega : j < N.pmin.length)]
      rfl
    · refine ⟨0, ?_⟩
      rw [List.getElem?_eq_none (by omega : cs.length ≤ j),
        List.getElem?_eq_none (by omega : N.pmin.length ≤ j)]
      rfl
  have hdP : ∀ j : Nat, (N'.pmin[j]?).map (deltaP p.period p.need) =
      (N.pmin[j]?).map (deltaP p.period p.need) := by
    intro j
    obtain ⟨c, hc⟩ := hget j
    rw [hc]
    cases hx : N.pmin[j]? with
    | none => rfl
    | some xs =>
      simp only [Option.map_some]
      rw [deltaP_offset p.period p.need hneed c xs (hreg xs (List.mem_of_getElem? hx))]
  have e1 : dPs N' p = dPs N p := by
    unfold dPs
    apply List.ext_getElem?
    intro j
    rw [List.getElem?_map, List.getElem?_map, hdP j]
  have aux : ∀ A B : List (List (Fl K)), (∀ j : Nat, (A[j]?).map (deltaP p.period p.need) =
      (B[j]?).map (deltaP p.period p.need)) →
      List.zipWith (deltaPL p.period p.need) A N.length =
        List.zipWith (deltaPL p.period p.need) B N.length := by
    intro A B hAB
    apply List.ext_getElem?
    intro j
    have h1 := hAB j
    rw [List.getElem?_zipWith, List.getElem?_zipWith]
    cases ha : A[j]? <;> cases hb : B[j]? <;> simp only [ha, hb] at h1
    · rfl
    · cases h1
    · cases h1
    · simp only [Option.map_some, Option.some.injEq] at h1
      cases hll : N.length[j]? with
      | none => rfl
      | some l =>
        simp only
        unfold deltaPL
        rw [h1]
  have e2 : dPLs N' p = dPLs N p := aux N'.pmin N.pmin hdP
  have e3 : N'.T = N.T := by
    have h0 : (List.zipWith (fun (c : K) (xs : List (Fl K)) => xs.map fun x => x +ᶠ .fin c) cs N.pmin).headD [] =
        N'.pmin.headD [] := rfl
    obtain ⟨c, hc⟩ := hget 0
    unfold Net.T
    rw [List.headD_eq_head?_getD, List.headD_eq_head?_getD, List.head?_eq_getElem?,
      List.head?_eq_getElem?, hc]
    cases N.pmin[0]? with
    | none => rfl
    | some xs => simp
  have e4 : N'.ids = N.ids := rfl
  unfold nearby_wetdry
  have : ∀ q : Nat × Id, linkRows N' d p q.1 q.2 = linkRows N d p q.1 q.2 := by
    intro q
    unfold linkRows
    rw [e1, e2, e3, e4]
  rw [e3, e4]
  simp only [this]

theorem medianAt_perm (minLinks : Nat) {a a' b b' : List (List (Fl K))} (ha : a.Perm a')
    (hb : b.Perm b') (t : Nat) : medianAt minLinks a b t = medianAt minLinks a' b' t := by
  unfold medianAt
  have h1 : (column a t).Perm (column a' t) := ha.map _
  have h2 : (column b t).Perm (column b' t) := hb.map _
  have h3 : (valid (column a t)).length = (valid (column a' t)).length :=
    (h1.filter _).length_eq
  rw [h3, nanMedian_perm h2]

/-- `N'` is the network `N` with link `i` moved to position `σ i`. -/
structure Permuted (σ : Nat → Nat) (N N' : Net (Fl K) Id) (d d' : Nearby.Dist (Fl K) Id) : Prop where
  len : N'.ids.length = N.ids.length
  maps : ∀ i < N.ids.length, σ i < N.ids.length
  inj : ∀ i < N.ids.length, ∀ j < N.ids.length, σ i = σ j → i = j
  ids : ∀ i < N.ids.length, N'.ids[σ i]? = N.ids[i]?
  pmin : ∀ i < N.ids.length, N'.pmin[σ i]? = N.pmin[i]?
  length : ∀ i < N.ids.length, N'.length[σ i]? = N.length[i]?
  aa : ∀ i < N.ids.length, ∀ j < N.ids.length, at2 d'.aa (σ i) (σ j) = at2 d.aa i j
  ab : ∀ i < N.ids.length, ∀ j < N.ids.length, at2 d'.ab (σ i) (σ j) = at2 d.ab i j
  ba : ∀ i < N.ids.length, ∀ j < N.ids.length, at2 d'.ba (σ i) (σ j) = at2 d.ba i j
  bb : ∀ i < N.ids.length, ∀ j < N.ids.length, at2 d'.bb (σ i) (σ j) = at2 d.bb i j

/-- **C35** Permuting the links (with their distances) permutes the results. -/
theorem C35_permutation (σ : Nat → Nat) (N N' : Net (Fl K) Id) (d d' : Nearby.Dist (Fl K) Id)
    (p : Params (Fl K)) (h : Consistent N d p) (h' : Consistent N' d' p)
    (hσ : Permuted σ N N' d d') :
    ∃ out out', nearby_wetdry N d p = .ok out ∧ nearby_wetdry N' d' p = .ok out' ∧
      out'.length = out.length ∧ ∀ i < N.ids.length, out'[σ i]? = out[i]? := by
  obtain ⟨out, ho, hol, hrow⟩ := nearby_ok h
  obtain ⟨out', ho', hol', hrow'⟩ := nearby_ok h'
  refine ⟨out, out', ho, ho', by rw [hol, hol', hσ.len], ?_⟩
  intro i hi
  rw [hrow i hi, hrow' (σ i) (by rw [hσ.len]; exact hσ.maps i hi)]
  congr 1
  have hT : N'.T = N.T := by
    have e1 : N.pmin[i]? = some (N.pmin[i]'(by rw [h.pmin]; exact hi)) :=
      List.getElem?_eq_getElem (by rw [h.pmin]; exact hi)
    have := hσ.pmin i hi
    rw [e1] at this
    rw [← h.times _ (List.mem_of_getElem? e1), ← h'.times _ (List.mem_of_getElem? this)]
  have hperm : ((nbrs N d p i).map σ).Perm (nbrs N' d' p (σ i)) := by
    have hmem : ∀ j ∈ nbrs N d p i, j < N.ids.length := fun j hj => by
      simpa using (List.mem_filter.mp hj).1
    rw [List.perm_ext_iff_of_nodup]
    · intro k
      have hnear : ∀ j < N.ids.length, near d' p.radius (σ i) (σ j) = near d p.radius i j := by
        intro j hj
        unfold near
        rw [hσ.aa i hi j hj, hσ.ab i hi j hj, hσ.ba i hi j hj, hσ.bb i hi j hj]
      constructor
      · intro hk
        obtain ⟨j, hj, rfl⟩ := List.mem_map.mp hk
        have hjl := hmem j hj
        refine List.mem_filter.mpr ⟨?_, ?_⟩
        · rw [List.mem_range, hσ.len]; exact hσ.maps j hjl
        · rw [hnear j hjl]; exact (List.mem_filter.mp hj).2
      · intro hk
        obtain ⟨hk1, hk2⟩ := List.mem_filter.mp hk
        rw [List.mem_range, hσ.len] at hk1
        have hsurj : ∃ j < N.ids.length, σ j = k := by
          have := Finset.surjOn_of_injOn_of_card_le (s := Finset.range N.ids.length)
            (t := Finset.range N.ids.length) σ
            (fun a ha => by simpa using hσ.maps a (by simpa using ha))
            (fun a ha b hb e => hσ.inj a (by simpa using ha) b (by simpa using hb) e) le_rfl
          obtain ⟨j, hj, e⟩ := this (show k ∈ (Finset.range N.ids.length : Set Nat) by simpa using hk1)
          exact ⟨j, by simpa using hj, e⟩
        obtain ⟨j, hj, rfl⟩ := hsurj
        refine List.mem_map.mpr ⟨j, List.mem_filter.mpr ⟨by simpa using hj, ?_⟩, rfl⟩
        rw [← hnear j hj]; exact hk2
    · exact List.Nodup.map_on (fun a ha b hb e => hσ.inj a (hmem a ha) b (hmem b hb) e)
        (List.nodup_range.filter _)
    · exact List.nodup_range.filter _
  have hlen : (nbrs N' d' p (σ i)).length = (nbrs N d p i).length := by
    rw [← hperm.length_eq, List.length_map]
  have hdP : ∀ j < N.ids.length, (dPs N' p).getD (σ j) [] = (dPs N p).getD j [] := by
    intro j hj
    unfold dPs
    rw [List.getD_eq_getElem?_getD, List.getD_eq_getElem?_getD, List.getElem?_map,
      List.getElem?_map, hσ.pmin j hj]
  have hdPL : ∀ j < N.ids.length, (dPLs N' p).getD (σ j) [] = (dPLs N p).getD j [] := by
    intro j hj
    unfold dPLs
    rw [List.getD_eq_getElem?_getD, List.getD_eq_getElem?_getD, List.getElem?_zipWith,
      List.getElem?_zipWith, hσ.pmin j hj, hσ.length j hj]
  have hmem : ∀ j ∈ nbrs N d p i, j < N.ids.length := fun j hj => by
    simpa using (List.mem_filter.mp hj).1
  have p1 : ((nbrs N' d' p (σ i)).map fun j => (dPs N' p).getD j []).Perm
      ((nbrs N d p i).map fun j => (dPs N p).getD j []) := by
    have := (hperm.map fun j => (dPs N' p).getD j []).symm
    rw [List.map_map] at this
    refine this.trans (List.Perm.of_eq (List.map_congr_left fun j hj => hdP j (hmem j hj)))
  have p2 : ((nbrs N' d' p (σ i)).map fun j => (dPLs N' p).getD j []).Perm
      ((nbrs N d p i).map fun j => (dPLs N p).getD j []) := by
    have := (hperm.map fun j => (dPLs N' p).getD j []).symm
    rw [List.map_map] at this
    refine this.trans (List.Perm.of_eq (List.map_congr_left fun j hj => hdPL j (hmem j hj)))
  rw [hlen, hT, hdP i hi, hdPL i hi]
  unfold rowRule rowF
  simp only [medianAt_perm p.minLinks p1 p1, medianAt_perm p.minLinks p1 p2]

/-- **C35** The result for a link depends only on the links within the radius. -/
theorem C35_local (N N' : Net (Fl K) Id) (d d' : Nearby.Dist (Fl K) Id) (p : Params (Fl K))
    (h : Consistent N d p) (h' : Consistent N' d' p) (hids : N'.ids.length = N.ids.length)
    (hT : N'.T = N.T) (i : Nat) (hi : i < N.ids.length)
    (hnear : ∀ j < N.ids.length, near d' p.radius i j = near d p.radius i j)
    (hdata : ∀ j ∈ nbrs N d p i, N'.pmin[j]? = N.pmin[j]? ∧ N'.length[j]? = N.length[j]?) :
    ∃ out out', nearby_wetdry N d p = .ok out ∧ nearby_wetdry N' d' p = .ok out' ∧
      out'[i]? = out[i]? := by
  obtain ⟨out, ho, hol, hrow⟩ := nearby_ok h
  obtain ⟨out', ho', hol', hrow'⟩ := nearby_ok h'
  refine ⟨out, out', ho, ho', ?_⟩
  rw [hrow i hi, hrow' i (by rw [hids]; exact hi)]
  have hn : nbrs N' d' p i = nbrs N d p i := by
    unfold nbrs
    rw [hids]
    apply List.filter_congr
    intro j hj
    exact hnear j (by simpa using hj)
  have hself : i ∈ nbrs N d p i :=
    List.mem_filter.mpr ⟨by simpa using hi, h.own i hi⟩
  have hdP : ∀ j ∈ nbrs N d p i, (dPs N' p).getD j [] = (dPs N p).getD j [] := by
    intro j hj
    unfold dPs
    rw [List.getD_eq_getElem?_getD, List.getD_eq_getElem?_getD, List.getElem?_map,
      List.getElem?_map, (hdata j hj).1]
  have hdPL : ∀ j ∈ nbrs N d p i, (dPLs N' p).getD j [] = (dPLs N p).getD j [] := by
    intro j hj
    unfold dPLs
    rw [List.getD_eq_getElem?_getD, List.getD_eq_getElem?_getD, List.getElem?_zipWith,
      List.getElem?_zipWith, (hdata j hj).1, (hdata j hj).2]
  rw [hn, hT, List.map_congr_left hdP, List.map_congr_left hdPL, hdP i hself, hdPL i hself]

/-! ### C67: the F score -/

/-- Deviation of the link's `deltaP` per length from the median of the links with data; NaN if
there are too few links with data. -/
def DevIs (N : Net (Fl K) Id) (d : Nearby.Dist (Fl K) Id) (p : Params (Fl K))
    (drop : Nat → Nat → Fl K) (i s : Nat) (v : Fl K) : Prop :=
  ((dataLinks N d p drop i s).length ≤ p.minLinks ∧ v = .nan) ∨
  (p.minLinks < (dataLinks N d p drop i s).length ∧ ∃ mPL,
    IsMedian ((dataLinks N d p drop i s).map fun j => drop j s /ᶠ rd N.length j) mPL ∧
    v = (drop i s /ᶠ rd N.length i) -ᶠ mPL)

theorem fsum_range (a n : Nat) (f : Nat → Fl K) (x : Nat → K)
    (h : ∀ s, a ≤ s → s < a + n → f s = .fin (x s)) :
    fsum ((List.range' a n).map f) = .fin (∑ s ∈ Finset.Ico a (a + n), x s) := by
  have : (List.range' a n).map f = ((List.range' a n).map x).map Fl.fin := by
    rw [List.map_map]
    apply List.map_congr_left
    intro s hs
    rw [List.mem_range'_1] at hs
    exact h s hs.1 hs.2
  rw [this, fsum_map_fin]
  congr 1
  clear this h
  induction n with
  | zero => simp
  | succ n ih =>
    rw [List.range'_1_concat, List.map_append, List.sum_append, ih, ← Nat.add_assoc,
      Finset.sum_Ico_succ_top (by omega)]
    simp

variable [IsStrictOrderedRing K]

/-- **C67** `F` of a link with enough links within the radius: the sum, over the last
`4 * timeperiod` steps, of the deviation of `deltaP / length` from the neighbourhood median, times
the interval in hours; NaN if the series is not long enough yet or any of those deviations
is NaN. -/
theorem C67_F_score {N : Net (Fl K) Id} {d : Nearby.Dist (Fl K) Id} {p : Params (Fl K)}
    (h : Consistent N d p) (hl : PosLengths N) (htp : 0 < p.timeperiod)
    (hneed : 0 < p.minHours * 60 / p.interval) (drop : Nat → Nat → Fl K)
    (hdrop : ∀ j t, DropIs N p j t (drop j t)) (i : Nat)
    (hi : i < N.ids.length) (hmany : p.minLinks < (nbrs N d p i).length) :
    ∃ out wet Fv, nearby_wetdry N d p = .ok out ∧ out[i]? = some (wet, Fv) ∧ Fv.length = N.T ∧
      ∃ dev : Nat → Fl K, (∀ s, DevIs N d p drop i s (dev s)) ∧
      ∀ t < N.T,
        ((t + 1 < 4 * p.timeperiod ∨ ∃ s, t < s + 4 * p.timeperiod ∧ s ≤ t ∧ dev s = .nan) →
          Fv[t]? = some .nan) ∧
        (4 * p.timeperiod ≤ t + 1 → ∀ x : Nat → K,
          (∀ s, t < s + 4 * p.timeperiod → s ≤ t → dev s = .fin (x s)) →
          Fv[t]? = some (.fin ((∑ s ∈ Finset.Ico (t + 1 - 4 * p.timeperiod) (t + 1), x s) *
            ((p.interval : K) / 60)))) := by
  obtain rfl := drop_eq hneed hdrop
  obtain ⟨out, ho, _, hrow⟩ := nearby_ok h
  have hr := hrow i hi
  rw [if_pos hmany] at hr
  set W := 4 * p.timeperiod with hW
  have hW' : p.timeperiod * 4 = W := by omega
  have hmem : ∀ j ∈ nbrs N d p i, j < N.ids.length := fun j hj => by
    simpa using (List.mem_filter.mp hj).1
  set dev : Nat → Fl K := fun s => (dropAt N p i s /ᶠ rd N.length i) -ᶠ
    medianAt p.minLinks ((nbrs N d p i).map fun j => (dPs N p).getD j [])
        ((nbrs N d p i).map fun j => (dPLs N p).getD j []) s with hdev
  have hspec : ∀ s, DevIs N d p (dropAt N p) i s (dev s) := by
    intro s
    have c1 : column ((nbrs N d p i).map fun j => (dPs N p).getD j []) s =
        (nbrs N d p i).map fun j => dropAt N p j s := by
      unfold column
      rw [List.map_map]
      exact List.map_congr_left fun j _ => dPs_getD N p j s
    have c2 : column ((nbrs N d p i).map fun j => (dPLs N p).getD j []) s =
        (nbrs N d p i).map fun j => dropAt N p j s /ᶠ rd N.length j := by
      unfold column
      rw [List.map_map]
      exact List.map_congr_left fun j _ => dPLs_getD N p h.pmin h.len j s
    have v1 : valid ((nbrs N d p i).map fun j => dropAt N p j s) =
        (dataLinks N d p (dropAt N p) i s).map fun j => dropAt N p j s := by
      unfold valid dataLinks
      rw [List.filter_map]
      rfl
    have v2 : valid ((nbrs N d p i).map fun j => dropAt N p j s /ᶠ rd N.length j) =
        (dataLinks N d p (dropAt N p) i s).map fun j => dropAt N p j s /ᶠ rd N.length j := by
      unfold valid dataLinks
      rw [List.filter_map]
      congr 1
      apply List.filter_congr
      intro j hj
      obtain ⟨l, hl0, hle⟩ := hl j (hmem j hj)
      show (!PyFloat.isNaN (dropAt N p j s /ᶠ rd N.length j)) = _
      rw [hle, isNaN_div_pos hl0]
    simp only [hdev]
    unfold medianAt
    rw [c1, c2, v1, List.length_map]
    by_cases hc : p.minLinks < (dataLinks N d p (dropAt N p) i s).length
    · right
      rw [if_pos hc]
      unfold nanMedian
      refine ⟨hc, _, ?_, rfl⟩
      have := median_spec
        (v := valid ((nbrs N d p i).map fun j => dropAt N p j s /ᶠ rd N.length j))
        (by
          rw [v2]
          intro e
          rw [List.map_eq_nil_iff] at e
          rw [e] at hc
          simp at hc)
        (fun x hx => (mem_valid.mp hx).2)
      rwa [← v2]
    · left
      rw [if_neg hc]
      exact ⟨by omega, by simp⟩
  have hownlen : ((dPLs N p).getD i []).length = N.T := by
    unfold dPLs deltaPL
    rw [List.getD_eq_getElem?_getD, List.getElem?_zipWith,
      List.getElem?_eq_getElem (by rw [h.pmin]; exact hi),
      List.getElem?_eq_getElem (by rw [h.len]; exact hi)]
    simp only [Option.getD_some, List.length_map, length_deltaP]
    exact h.times _ (List.getElem_mem _)
  set ds := List.zipWith (· -ᶠ ·) ((dPLs N p).getD i []) ((List.range N.T).map fun t =>
    medianAt p.minLinks ((nbrs N d p i).map fun j => (dPs N p).getD j [])
        ((nbrs N d p i).map fun j => (dPLs N p).getD j []) t) with hds
  have hdslen : ds.length = N.T := by
    rw [hds, List.length_zipWith, hownlen]; simp
  have hdsget : ∀ s < N.T, rd ds s = dev s := by
    intro s hs
    apply rd_of_getElem?
    rw [hds, List.getElem?_zipWith, getElem?_eq_rd (by rw [hownlen]; exact hs), List.getElem?_map,
      List.getElem?_range hs, dPLs_getD N p h.pmin h.len]
    rfl
  refine ⟨out, _, _, ho, hr, ?_, dev, hspec, ?_⟩
  · unfold rowF
    rw [List.length_map, length_rolling, ← hds, hdslen]
  · intro t ht
    have hget : (rowF p N.T ((nbrs N d p i).map fun j => (dPs N p).getD j [])
        ((nbrs N d p i).map fun j => (dPLs N p).getD j []) ((dPLs N p).getD i []))[t]? =
        some ((if available ds W t < W then PyFloat.nan else fsum (valid (window ds W t))) *ᶠ
          (PyFloat.ofInt p.interval /ᶠ PyFloat.ofInt 60)) := by
      unfold rowF
      rw [← hds, List.getElem?_map, hW', getElem?_rolling _ _ _ _ _ (by omega),
        available_eq _ _ _ (by omega)]
      rfl
    refine ⟨?_, ?_⟩
    · intro hbad
      have hlt : available ds W t < W := by
        unfold available
        have hsub : ((List.range (t + 1)).filter fun s => decide (t < s + W) && !(isNaN (rd ds s)))
            = (List.range' (t + 1 - W) (t + 1 - (t + 1 - W))).filter fun s => !(isNaN (rd ds s)) := by
          rw [← range_filter_le, List.filter_filter]
          apply List.filter_congr
          intro s hs
          rw [Bool.and_comm]
          congr 1
          apply decide_eq_decide.mpr
          omega
        rw [hsub]
        rcases hbad with hb | ⟨s, hs1, hs2, hs3⟩
        · refine lt_of_le_of_lt (List.length_filter_le _ _) ?_
          rw [List.length_range']
          omega
        · refine lt_of_lt_of_le (List.length_filter_lt_length_iff_exists.mpr
            ⟨s, by rw [List.mem_range'_1]; omega, ?_⟩) ?_
          · rw [hdsget s (by omega), hs3]; simp
          · rw [List.length_range']; omega
      rw [hget, if_pos hlt]
      simp
    · intro hWt x hx
      have hwin : window ds W t = (List.range' (t + 1 - W) W).map (rd ds) := by
        unfold window
        rw [slice_eq_map_rd ds _ _ (by omega)]
        congr 2
        omega
      have hall : ∀ s ∈ List.range' (t + 1 - W) W, rd ds s = .fin (x s) := by
        intro s hs
        rw [List.mem_range'_1] at hs
        rw [hdsget s (by omega), hx s (by omega) (by omega)]
      have hval : valid (window ds W t) = window ds W t := by
        unfold valid
        rw [List.filter_eq_self, hwin]
        intro y hy
        obtain ⟨s, hs, rfl⟩ := List.mem_map.mp hy
        rw [hall s hs]; rfl
      have hav : ¬ available ds W t < W := by
        rw [available_eq _ _ _ (by omega), hval, hwin]
        simp
      rw [hget, if_neg hav, hval, hwin, fsum_range _ _ _ x (fun s h1 h2 =>
        hall s (by rw [List.mem_range'_1]; exact ⟨h1, h2⟩)), Fl.pf_ofInt, Fl.pf_ofInt,
        Fl.pf_div_fin_ne _ _ (by norm_num), Fl.pf_mul_fin]
      have : t + 1 - W + W = t + 1 := by omega
      rw [this]
      norm_num

end

/-! ### C68: distances are matched by position -/

/-- four links in a row, neighbours of each other if adjacent -/
def chain : List (List (Fl ℚ)) :=
  [[.fin 0, .fin 1, .fin 9, .fin 9], [.fin 1, .fin 0, .fin 1, .fin 9],
   [.fin 9, .fin 1, .fin 0, .fin 1], [.fin 9, .fin 9, .fin 1, .fin 0]]

/-- the same distances, with the links listed in the order 1, 0, 3, 2 -/
def chainSwapped : List (List (Fl ℚ)) :=
  [[.fin 0, .fin 1, .fin 9, .fin 1], [.fin 1, .fin 0, .fin 9, .fin 9],
   [.fin 9, .fin 9, .fin 0, .fin 1], [.fin 1, .fin 9, .fin 1, .fin 0]]

/-- distances in link order -/
def distA : Nearby.Dist (Fl ℚ) Nat := ⟨[0, 1, 2, 3], chain, chain, chain, chain⟩

/-- the same distances in another order -/
def distB : Nearby.Dist (Fl ℚ) Nat :=
  ⟨[1, 0, 3, 2], chainSwapped, chainSwapped, chainSwapped, chainSwapped⟩

/-- eight time steps; a small event on link 1 and a strong one on link 2 -/
def chainNet : Net (Fl ℚ) Nat where
  ids := [0, 1, 2, 3]
  length := [.fin 1, .fin 1, .fin 1, .fin 1]
  pmin := [[.fin 0, .fin 0, .fin 0, .fin 0, .fin 0, .fin 0, .fin 0, .fin 0],
    [.fin 0, .fin 0, .fin 0, .fin (-1), .fin 0, .fin 0, .fin 0, .fin 0],
    [.fin 0, .fin 0, .fin 0, .fin (-9), .fin 0, .fin 0, .fin 0, .fin 0],
    [.fin 0, .fin 0, .fin 0, .fin 0, .fin 0, .fin 0, .fin 0, .fin 0]]

/-- low thresholds -/
def chainParams : Params (Fl ℚ) where
  radius := .fin 5
  threshP := .fin (-1/2)
  threshPL := .fin (-1/2)
  minLinks := 1
  interval := 60
  timeperiod := 2
  minHours := 1

/-- distance between two labelled links -/
def labelled (d : Nearby.Dist (Fl ℚ) Nat) (m : List (List (Fl ℚ))) (a b : Nat) : Fl ℚ :=
  at2 m (d.ids.idxOf a) (d.ids.idxOf b)

/-- **C68** Distances are matched to links by position, not by label: two datasets that give
each pair of labelled links the same distances, but list the links in different orders, are both
accepted and give different results. -/
theorem C68_positional :
    (∀ a ∈ chainNet.ids, ∀ b ∈ chainNet.ids,
      labelled distA distA.aa a b = labelled distB distB.aa a b ∧
      labelled distA distA.ab a b = labelled distB distB.ab a b ∧
      labelled distA distA.ba a b = labelled distB distB.ba a b ∧
      labelled distA distA.bb a b = labelled distB distB.bb a b) ∧
    ∃ outA outB, nearby_wetdry chainNet distA chainParams = .ok outA ∧
      nearby_wetdry chainNet distB chainParams = .ok outB ∧ outA ≠ outB := by
  refine ⟨by decide +kernel, ?_⟩
  have h : (match nearby_wetdry chainNet distA chainParams,
      nearby_wetdry chainNet distB chainParams with
    | .ok a, .ok b => decide (a ≠ b)
    | _, _ => false) = true := by decide +kernel
  split at h
  · next a b ha hb => exact ⟨a, b, ha, hb, by simpa using h⟩
  · cases h

/-- link 1 at step 3: wet with the distances in link order, dry with the other order -/
example : ((nearby_wetdry chainNet distA chainParams).toOption.bind fun o =>
      o[1]?.bind fun r => r.1[3]?) = some (.fin 1) ∧
    ((nearby_wetdry chainNet distB chainParams).toOption.bind fun o =>
      o[1]?.bind fun r => r.1[3]?) = some (.fin 0) := by decide +kernel

/-- the network in link order meets the hypotheses of C33, C34, C35 and C67 -/
theorem chain_consistent : Consistent chainNet distA chainParams where
  nodup := by decide
  same := rfl
  aa := by constructor <;> decide
  ab := by constructor <;> decide
  ba := by constructor <;> decide
  bb := by constructor <;> decide
  pmin := rfl
  len := rfl
  times := by decide
  own := by decide +kernel
  interval := by decide
  need := by decide
  need_le := by decide
  period_le := by decide
  F_le := by decide

example : PosLengths chainNet := by
  intro j hj
  refine ⟨1, by norm_num, ?_⟩
  have : j < 4 := hj
  interval_cases j <;> rfl

example : ∀ j t, DropIs chainNet chainParams j t (dropAt chainNet chainParams j t) :=
  dropAt_spec chainNet chainParams (by decide)

/-- link 1: undecided steps do not occur; first and last two steps wet although dry by the rule,
step 3 wet by the rule, `deltaP` of link 2 smears steps 1, 2 and 4 of link 2 -/
example : ((nearby_wetdry chainNet distA chainParams).toOption.map fun o => o.map (·.1)) = some
    [[.fin 1, .fin 0, .fin 0, .fin 0, .fin 0, .fin 0, .fin 1, .fin 1],
     [.fin 1, .fin 0, .fin 0, .fin 1, .fin 0, .fin 0, .fin 1, .fin 1],
     [.fin 1, .fin 1, .fin 1, .fin 1, .fin 1, .fin 0, .fin 1, .fin 1],
     [.fin 1, .fin 0, .fin 0, .fin 1, .fin 0, .fin 0, .fin 1, .fin 1]] := by decide +kernel

end Verif.Props
