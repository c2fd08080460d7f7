import Verif.Props.Temporal
import Mathlib.Data.List.Perm.Basic
import Mathlib.Algebra.BigOperators.Group.List.Lemmas

/-!
# Property C134: aggregating in two steps

Resampling to a fine time index and then to a coarse one, compared with resampling to the coarse index directly. The
theorems use the descriptions of single calls (C61, C73).
-/

namespace Verif.Temporal

variable {V : Type}

/-- What is needed of the aggregation: the order within a group does not matter, and the aggregate of a union of
groups is the aggregate of their aggregates. True for `sum`, `min`, `max`; false for `mean`. -/
structure Combines (m : List V → V) : Prop where
  perm : ∀ l l' : List V, l.Perm l' → m l = m l'
  flatten : ∀ gs : List (List V), gs ≠ [] → (∀ g ∈ gs, g ≠ []) → m (gs.map m) = m gs.flatten

theorem combines_sum [AddCommMonoid V] : Combines (List.sum : List V → V) where
  perm _ _ h := h.sum_eq
  flatten gs _ _ := by rw [List.sum_flatten]

/-- aggregation of a group by an associative and commutative operation -/
def reduce1 (op : V → V → V) (d : V) : List V → V
  | [] => d
  | x :: xs => xs.foldl op x

theorem reduce1_append (op : V → V → V) (d : V) (ha : ∀ a b c, op (op a b) c = op a (op b c)) (l l' : List V)
    (h : l ≠ []) (h' : l' ≠ []) : reduce1 op d (l ++ l') = op (reduce1 op d l) (reduce1 op d l') := by
  cases l with
  | nil => exact absurd rfl h
  | cons a l =>
    cases l' with
    | nil => exact absurd rfl h'
    | cons b l' =>
      have key : ∀ (ys : List V) (x y : V), ys.foldl op (op x y) = op x (ys.foldl op y) := by
        intro ys
        induction ys with
        | nil => intro x y; rfl
        | cons z ys ih => intro x y; rw [List.foldl_cons, List.foldl_cons, ha, ih]
      show (l ++ b :: l').foldl op a = op (l.foldl op a) (l'.foldl op b)
      rw [List.foldl_append, List.foldl_cons, key]

theorem combines_reduce1 (op : V → V → V) (d : V) (ha : ∀ a b c, op (op a b) c = op a (op b c))
    (hc : ∀ a b, op a b = op b a) : Combines (reduce1 op d) where
  perm l l' h := by
    have hr : RightCommutative op := ⟨fun a b c => by rw [ha, hc b c, ← ha]⟩
    induction h with
    | nil => rfl
    | cons x h ih =>
      exact h.foldl_eq x
    | swap x y l =>
      show (x :: l).foldl op y = (y :: l).foldl op x
      rw [List.foldl_cons, List.foldl_cons, hc]
    | trans _ _ ih1 ih2 => exact ih1.trans ih2
  flatten gs h1 h2 := by
    induction gs with
    | nil => exact absurd rfl h1
    | cons g gs ih =>
      cases gs with
      | nil =>
        simp [reduce1]
      | cons g' gs =>
        have ih' := ih (by simp) (fun x hx => h2 x (List.mem_cons_of_mem _ hx))
        have e : ((g :: g' :: gs).map (reduce1 op d)) = [reduce1 op d g] ++ (g' :: gs).map (reduce1 op d) := rfl
        have e' : (g :: g' :: gs).flatten = g ++ (g' :: gs).flatten := rfl
        have hg' : (g' :: gs).flatten ≠ [] := by
          intro h0
          rw [List.flatten_cons, List.append_eq_nil_iff] at h0
          exact h2 g' (by simp) h0.1
        rw [e, e', reduce1_append op d ha _ _ (by simp) (by simp),
          reduce1_append op d ha _ _ (h2 g (by simp)) hg', ih']
        rfl

/-! ## Lemmas -/

theorem partition_perm {α : Type} (l : List α) (p : Int → α → Bool)
    (hfun : ∀ x ∈ l, ∀ t t', p t x = true → p t' x = true → t = t') (ks : List Int) (hnd : ks.Nodup) :
    (ks.map fun k => l.filter (p k)).flatten.Perm (l.filter fun x => decide (∃ k ∈ ks, p k x = true)) := by
  induction ks with
  | nil => simp
  | cons k ks ih =>
    rw [List.nodup_cons] at hnd
    rw [List.map_cons, List.flatten_cons]
    have h1 := List.filter_append_perm (p k) (l.filter fun x => decide (∃ j ∈ k :: ks, p j x = true))
    refine List.Perm.trans ?_ h1
    rw [List.filter_filter, List.filter_filter]
    have e1 : (l.filter fun a => p k a && decide (∃ j ∈ k :: ks, p j a = true)) = l.filter (p k) := by
      apply List.filter_congr
      intro x _
      by_cases hp : p k x = true
      · simp [hp]
      · simp [hp]
    have e2 : (l.filter fun a => (!p k a) && decide (∃ j ∈ k :: ks, p j a = true)) =
        l.filter fun x => decide (∃ k ∈ ks, p k x = true) := by
      apply List.filter_congr
      intro x hx
      by_cases hp : p k x = true
      · have : ¬ ∃ j ∈ ks, p j x = true := by
          rintro ⟨j, hj, hj'⟩
          exact hnd.1 (hfun x hx j k hj' hp ▸ hj)
        simp [hp, this]
      · simp [hp]
    rw [e1, e2]
    exact (ih hnd.2).append_left _

theorem rows_ext {R : Type} (r s : List (Int × R)) (hr : (r.map Prod.fst).Pairwise (· < ·))
    (hs : (s.map Prod.fst).Pairwise (· < ·)) (h : ∀ t v, (t, v) ∈ r ↔ (t, v) ∈ s) : r = s := by
  rw [List.pairwise_map] at hr hs
  have nd : ∀ q : List (Int × R), q.Pairwise (fun a b => a.1 < b.1) → q.Nodup := fun q hq =>
    hq.imp fun {a b} hab e => by rw [e] at hab; exact lt_irrefl _ hab
  have hp : r.Perm s := (List.perm_ext_iff_of_nodup (nd r hr) (nd s hs)).mpr fun ⟨t, v⟩ => h t v
  exact hp.eq_of_pairwise (fun a b _ _ hab hba => absurd (lt_trans hab hba) (lt_irrefl _)) hr hs

/-- Two aggregations in a row and one aggregation, described by their groups. -/
theorem twice_eq (m : List V → V) (hm : Combines m) (df rows out2 out3 : List (Int × V))
    (p1 p2 p3 : Int → Int → Bool)
    (hfun : ∀ x ∈ df, ∀ t t', p1 x.1 t = true → p1 x.1 t' = true → t = t')
    (hrows : (rows.map Prod.fst).Pairwise (· < ·)) (h2s : (out2.map Prod.fst).Pairwise (· < ·))
    (h3s : (out3.map Prod.fst).Pairwise (· < ·))
    (h1 : ∀ t v, (t, v) ∈ rows ↔ (df.filter fun x => p1 x.1 t) ≠ [] ∧
      v = m ((df.filter fun x => p1 x.1 t).map Prod.snd))
    (h2 : ∀ t v, (t, v) ∈ out2 ↔ (rows.filter fun x => p2 x.1 t) ≠ [] ∧
      v = m ((rows.filter fun x => p2 x.1 t).map Prod.snd))
    (h3 : ∀ t v, (t, v) ∈ out3 ↔ (df.filter fun x => p3 x.1 t) ≠ [] ∧
      v = m ((df.filter fun x => p3 x.1 t).map Prod.snd))
    (h : ∀ x ∈ df, ∀ T, p3 x.1 T = true ↔ ∃ t, p1 x.1 t = true ∧ p2 t T = true) : out2 = out3 := by
  apply rows_ext _ _ h2s h3s
  intro T v
  rw [h2, h3]
  set g2 := rows.filter fun x => p2 x.1 T with hg2
  -- the labels of the rows that go to `T`
  set ks := g2.map Prod.fst with hks
  have hnd : ks.Nodup := by
    have : (g2.map Prod.fst).Pairwise (· < ·) := hrows.sublist (List.Sublist.map _ List.filter_sublist)
    exact this.imp fun h => ne_of_lt h
  have hperm := partition_perm df (fun k x => p1 x.1 k) hfun ks hnd
  have hmem : ∀ t, t ∈ ks ↔ (df.filter fun x => p1 x.1 t) ≠ [] ∧ p2 t T = true := by
    intro t
    rw [hks, List.mem_map]
    constructor
    · rintro ⟨⟨t', v'⟩, hx, rfl⟩
      rw [hg2, List.mem_filter] at hx
      exact ⟨((h1 _ _).mp hx.1).1, hx.2⟩
    · rintro ⟨a, b⟩
      exact ⟨(t, m ((df.filter fun x => p1 x.1 t).map Prod.snd)),
        List.mem_filter.mpr ⟨(h1 _ _).mpr ⟨a, rfl⟩, b⟩, rfl⟩
  have hfilt : (df.filter fun x => decide (∃ k ∈ ks, p1 x.1 k = true)) = df.filter fun x => p3 x.1 T := by
    apply List.filter_congr
    intro x hx
    rw [Bool.eq_iff_iff, decide_eq_true_iff, h x hx T]
    constructor
    · rintro ⟨k, hk, hp⟩
      exact ⟨k, hp, ((hmem k).mp hk).2⟩
    · rintro ⟨k, hp, hp2⟩
      refine ⟨k, (hmem k).mpr ⟨?_, hp2⟩, hp⟩
      exact List.ne_nil_of_mem (List.mem_filter.mpr ⟨hx, hp⟩)
  rw [hfilt] at hperm
  have hvals : g2.map Prod.snd = (ks.map fun k => (df.filter fun x => p1 x.1 k).map Prod.snd).map m := by
    rw [hks, List.map_map, List.map_map]
    apply List.map_congr_left
    rintro ⟨t, w⟩ hx
    rw [hg2, List.mem_filter] at hx
    exact ((h1 _ _).mp hx.1).2
  have hnil : g2 ≠ [] ↔ (df.filter fun x => p3 x.1 T) ≠ [] := by
    constructor
    · intro hne
      obtain ⟨⟨t, w⟩, hx⟩ := List.exists_mem_of_ne_nil _ hne
      have ht := (hmem t).mp (hks ▸ List.mem_map_of_mem hx)
      obtain ⟨y, hy⟩ := List.exists_mem_of_ne_nil _ ht.1
      rw [List.mem_filter] at hy
      exact List.ne_nil_of_mem (List.mem_filter.mpr ⟨hy.1, (h y hy.1 T).mpr ⟨t, hy.2, ht.2⟩⟩)
    · intro hne
      obtain ⟨y, hy⟩ := List.exists_mem_of_ne_nil _ hne
      rw [List.mem_filter] at hy
      obtain ⟨t, ht, ht2⟩ := (h y hy.1 T).mp hy.2
      have : t ∈ ks := (hmem t).mpr ⟨List.ne_nil_of_mem (List.mem_filter.mpr ⟨hy.1, ht⟩), ht2⟩
      intro h0
      rw [hks, h0] at this
      cases this
  have hval : g2 ≠ [] → m (g2.map Prod.snd) = m ((df.filter fun x => p3 x.1 T).map Prod.snd) := by
    intro hne
    rw [hvals, hm.flatten _ (by simp [hks, hne])]
    · apply hm.perm
      have := hperm.map Prod.snd
      rw [List.map_flatten, List.map_map] at this
      exact this
    · intro g hg
      obtain ⟨k, hk, rfl⟩ := List.mem_map.mp hg
      simpa using ((hmem k).mp hk).1
  constructor
  · rintro ⟨a, b⟩
    exact ⟨hnil.mp a, by rw [b, hval a]⟩
  · rintro ⟨a, b⟩
    have a' := hnil.mpr a
    exact ⟨a', by rw [b, hval a']⟩

theorem IsNext.unique {ts : List Int} {s t t' : Int} (h : IsNext ts s t) (h' : IsNext ts s t') : t = t' :=
  le_antisymm (h.2.2 t' h'.1 h'.2.1) (h'.2.2 t h.1 h.2.1)

theorem IsPrev.unique {ts : List Int} {s t t' : Int} (h : IsPrev ts s t) (h' : IsPrev ts s t') : t = t' :=
  le_antisymm (h'.2.2 t h.1 h.2.1) (h.2.2 t' h'.1 h'.2.1)

theorem exists_next (ts : List Int) (hs : ts.Pairwise (· < ·)) (s u : Int) (hu : u ∈ ts) (hsu : s ≤ u) :
    ∃ t, IsNext ts s t := by
  have hs' : ts.Pairwise (· ≤ ·) := hs.imp fun h => le_of_lt h
  cases hf : ts.find? (fun e => decide (s ≤ e)) with
  | some t => exact ⟨t, (find_first ts hs' s t).mp hf⟩
  | none =>
    rw [List.find?_eq_none] at hf
    exact absurd hsu (by simpa using hf u hu)

theorem exists_prev (ts : List Int) (hs : ts.Pairwise (· < ·)) (s u : Int) (hu : u ∈ ts) (hsu : u ≤ s) :
    ∃ t, IsPrev ts s t := by
  have hs' : ts.Pairwise (· ≤ ·) := hs.imp fun h => le_of_lt h
  cases hf : ts.reverse.find? (fun e => decide (e ≤ s)) with
  | some t => exact ⟨t, (find_last ts hs' s t).mp hf⟩
  | none =>
    rw [List.find?_eq_none] at hf
    exact absurd hsu (by simpa using hf u (by simpa using hu))

theorem next_next (fine coarse : List Int) (hf : fine.Pairwise (· < ·)) (hsub : ∀ c ∈ coarse, c ∈ fine) (x T : Int) :
    IsNext coarse x T ↔ ∃ t, IsNext fine x t ∧ IsNext coarse t T := by
  constructor
  · intro h
    obtain ⟨t, ht⟩ := exists_next fine hf x T (hsub T h.1) h.2.1
    exact ⟨t, ht, h.1, ht.2.2 T (hsub T h.1) h.2.1, fun u hu htu => h.2.2 u hu (ht.2.1.trans htu)⟩
  · rintro ⟨t, ht, hT⟩
    exact ⟨hT.1, ht.2.1.trans hT.2.1, fun u hu hxu => hT.2.2 u hu (ht.2.2 u (hsub u hu) hxu)⟩

theorem prev_prev (fine coarse : List Int) (hf : fine.Pairwise (· < ·)) (hsub : ∀ c ∈ coarse, c ∈ fine) (x T : Int) :
    IsPrev coarse x T ↔ ∃ t, IsPrev fine x t ∧ IsPrev coarse t T := by
  constructor
  · intro h
    obtain ⟨t, ht⟩ := exists_prev fine hf x T (hsub T h.1) h.2.1
    exact ⟨t, ht, h.1, ht.2.2 T (hsub T h.1) h.2.1, fun u hu htu => h.2.2 u hu (htu.trans ht.2.1)⟩
  · rintro ⟨t, ht, hT⟩
    exact ⟨hT.1, hT.2.1.trans ht.2.1, fun u hu hxu => hT.2.2 u hu (ht.2.2 u (hsub u hu) hxu)⟩

end Verif.Temporal

namespace Verif.Props
open Verif Verif.Temporal

variable {V : Type}

/-! ## Theorems -/

/-- **C134** `resample_to_grid_time_series` (which does not crop) with a combining aggregation: resampling to a fine
grid and the result to a coarse grid, whose stamps are stamps of the fine one, is the same as resampling to the
coarse grid directly. For samples in any order. -/
theorem C134_resample (m : List V → V) (hm : Combines m) (df : List (Int × V)) (fine coarse : List Int)
    (hf : fine.Pairwise (· < ·)) (hc : coarse.Pairwise (· < ·)) (hsub : ∀ c ∈ coarse, c ∈ fine) (right : Bool) :
    ∃ rows, resampleToGrid df fine m (if right then "right" else "left") none = .ok rows ∧
      resampleToGrid rows coarse m (if right then "right" else "left") none =
        resampleToGrid df coarse m (if right then "right" else "left") none := by
  obtain ⟨rows, e1, s1, g1⟩ := C73_resample df fine m right hf
  obtain ⟨out2, e2, s2, g2⟩ := C73_resample rows coarse m right hc
  obtain ⟨out3, e3, s3, g3⟩ := C73_resample df coarse m right hc
  refine ⟨rows, e1, ?_⟩
  rw [e2, e3]
  congr 1
  cases right with
  | true =>
    refine twice_eq m hm df rows out2 out3 (fun x t => decide (IsNext fine x t)) (fun x t => decide (IsNext coarse x t))
      (fun x t => decide (IsNext coarse x t)) ?_ s1 s2 s3 g1 g2 g3 ?_
    · intro x _ t t' h h'
      exact (of_decide_eq_true h).unique (of_decide_eq_true h')
    · intro x _ T
      simp only [decide_eq_true_iff]
      exact next_next fine coarse hf hsub x.1 T
  | false =>
    refine twice_eq m hm df rows out2 out3 (fun x t => decide (IsPrev fine x t)) (fun x t => decide (IsPrev coarse x t))
      (fun x t => decide (IsPrev coarse x t)) ?_ s1 s2 s3 g1 g2 g3 ?_
    · intro x _ t t' h h'
      exact (of_decide_eq_true h).unique (of_decide_eq_true h')
    · intro x _ T
      simp only [decide_eq_true_iff]
      exact prev_prev fine coarse hf hsub x.1 T

/-- **C134** `aggregate_df_onto_DatetimeIndex` (which crops to the common period): the same, provided that the coarse
index covers the data on the side the labels do not point to, that some coarse stamp lies within the data, and that every
coarse stamp within the data is the fine label of some sample. -/
theorem C134_aggregate (m : List V → V) (hm : Combines m) (df : List (Int × V)) (fine coarse : List Int)
    (hdfs : (df.map Prod.fst).Pairwise (· ≤ ·)) (hf : fine.Pairwise (· < ·)) (hc : coarse.Pairwise (· < ·))
    (hsub : ∀ c ∈ coarse, c ∈ fine) (right : Bool)
    (hcover : ∀ x ∈ df, ∃ c ∈ coarse, if right then c ≤ x.1 else x.1 ≤ c)
    (hsome : ∃ c ∈ coarse, Within (df.map Prod.fst) c)
    (hdense : ∀ c ∈ coarse, Within (df.map Prod.fst) c →
      ∃ x ∈ df, if right then IsNext fine x.1 c else IsPrev fine x.1 c) :
    ∃ rows, aggregate true df ⟨fine, true⟩ m (if right then "right" else "left") = .ok rows ∧
      aggregate true rows ⟨coarse, true⟩ m (if right then "right" else "left") =
        aggregate true df ⟨coarse, true⟩ m (if right then "right" else "left") := by
  obtain ⟨c0, hc0, hw0⟩ := hsome
  have hdf : df ≠ [] := by
    rintro rfl
    obtain ⟨⟨a, ha, _⟩, _⟩ := hw0
    cases ha
  have hcne : coarse ≠ [] := List.ne_nil_of_mem hc0
  have hfne : fine ≠ [] := List.ne_nil_of_mem (hsub c0 hc0)
  obtain ⟨rows, e1, s1, g1⟩ := C61_groups df fine true m (some 0) (Or.inl rfl) right hdf hfne hdfs hf
  -- every coarse stamp within the data is the label of a row
  have hlab : ∀ c ∈ coarse, Within (df.map Prod.fst) c → ∃ v, (c, v) ∈ rows := by
    intro c hcc hw
    obtain ⟨x, hx, hl⟩ := hdense c hcc hw
    refine ⟨_, (g1 c _).mpr ⟨?_, rfl⟩⟩
    apply List.ne_nil_of_mem (a := x)
    rw [List.mem_filter]
    refine ⟨hx, ?_⟩
    obtain ⟨d, hd, hdx⟩ := hcover x hx
    cases right with
    | true =>
      simp only [if_true] at hl hdx ⊢
      rw [Bool.and_eq_true, decide_eq_true_iff, decide_eq_true_iff]
      refine ⟨⟨⟨d, hsub d hd, hdx⟩, c, hl.1, hl.2.1⟩, ?_, hl.2.1, ?_⟩
      · exact List.mem_filter.mpr ⟨hl.1, by simpa using hw⟩
      · intro u hu
        exact hl.2.2 u (List.mem_of_mem_filter hu)
    | false =>
      simp only [Bool.false_eq_true, if_false] at hl hdx ⊢
      rw [Bool.and_eq_true, decide_eq_true_iff, decide_eq_true_iff]
      refine ⟨⟨⟨c, hl.1, hl.2.1⟩, d, hsub d hd, hdx⟩, ?_, hl.2.1, ?_⟩
      · exact List.mem_filter.mpr ⟨hl.1, by simpa using hw⟩
      · intro u hu
        exact hl.2.2 u (List.mem_of_mem_filter hu)
  have hrne : rows ≠ [] := by
    obtain ⟨v, hv⟩ := hlab c0 hc0 hw0
    exact List.ne_nil_of_mem hv
  -- labels of rows lie within the data
  have hrw : ∀ t v, (t, v) ∈ rows → Within (df.map Prod.fst) t := by
    intro t v hv
    obtain ⟨y, hy⟩ := List.exists_mem_of_ne_nil _ ((g1 t v).mp hv).1
    rw [List.mem_filter, Bool.and_eq_true] at hy
    have h2 := hy.2.2
    cases right with
    | true =>
      simp only [if_true, decide_eq_true_iff] at h2
      exact of_decide_eq_true (List.mem_filter.mp h2.1).2
    | false =>
      simp only [Bool.false_eq_true, if_false, decide_eq_true_iff] at h2
      exact of_decide_eq_true (List.mem_filter.mp h2.1).2
  have hww : ∀ c ∈ coarse, (Within (rows.map Prod.fst) c ↔ Within (df.map Prod.fst) c) := by
    intro c hcc
    constructor
    · rintro ⟨⟨a, ha, hac⟩, b, hb, hcb⟩
      obtain ⟨⟨t, v⟩, ht, rfl⟩ := List.mem_map.mp ha
      obtain ⟨⟨t', v'⟩, ht', rfl⟩ := List.mem_map.mp hb
      obtain ⟨⟨a', ha', h1⟩, _⟩ := hrw _ _ ht
      obtain ⟨_, b', hb', h2⟩ := hrw _ _ ht'
      exact ⟨⟨a', ha', h1.trans hac⟩, b', hb', hcb.trans h2⟩
    · intro hw
      obtain ⟨v, hv⟩ := hlab c hcc hw
      exact ⟨⟨c, List.mem_map.mpr ⟨_, hv, rfl⟩, le_rfl⟩, c, List.mem_map.mpr ⟨_, hv, rfl⟩, le_rfl⟩
  have hstamps : (coarse.filter fun u => decide (Within (rows.map Prod.fst) u)) =
      coarse.filter fun u => decide (Within (df.map Prod.fst) u) := by
    apply List.filter_congr
    intro c hcc
    exact decide_eq_decide.mpr (hww c hcc)
  obtain ⟨out2, e2, s2, g2⟩ := C61_groups rows coarse true m (some 0) (Or.inl rfl) right hrne hcne
    (s1.imp fun h => le_of_lt h) hc
  obtain ⟨out3, e3, s3, g3⟩ := C61_groups df coarse true m (some 0) (Or.inl rfl) right hdf hcne hdfs hc
  refine ⟨rows, e1, ?_⟩
  rw [e2, e3]
  congr 1
  rw [hstamps] at g2
  have hfs : (fine.filter fun u => decide (Within (df.map Prod.fst) u)).Pairwise (· < ·) :=
    hf.sublist List.filter_sublist
  have hss : ∀ c ∈ coarse.filter (fun u => decide (Within (df.map Prod.fst) u)),
      c ∈ fine.filter fun u => decide (Within (df.map Prod.fst) u) := by
    intro c hcc
    rw [List.mem_filter] at hcc ⊢
    exact ⟨hsub c hcc.1, hcc.2⟩
  cases right with
  | true =>
    simp only [if_true] at g1 g2 g3 hcover
    refine twice_eq m hm df rows out2 out3
      (fun x t => decide (Within fine x) &&
        decide (IsNext (fine.filter fun u => decide (Within (df.map Prod.fst) u)) x t))
      (fun x t => decide (Within coarse x) &&
        decide (IsNext (coarse.filter fun u => decide (Within (df.map Prod.fst) u)) x t))
      (fun x t => decide (Within coarse x) &&
        decide (IsNext (coarse.filter fun u => decide (Within (df.map Prod.fst) u)) x t)) ?_ s1 s2 s3 g1 g2 g3 ?_
    · intro x _ t t' h h'
      rw [Bool.and_eq_true, decide_eq_true_iff, decide_eq_true_iff] at h h'
      exact h.2.unique h'.2
    · intro x hx T
      simp only [Bool.and_eq_true, decide_eq_true_iff]
      rw [next_next _ _ hfs hss x.1 T]
      obtain ⟨d, hd, hdx⟩ := hcover x hx
      constructor
      · rintro ⟨hw, t, ht, hT⟩
        have hTc := List.mem_of_mem_filter hT.1
        exact ⟨t, ⟨⟨⟨d, hsub d hd, hdx⟩, t, List.mem_of_mem_filter ht.1, ht.2.1⟩, ht⟩,
          ⟨⟨d, hd, hdx.trans ht.2.1⟩, T, hTc, hT.2.1⟩, hT⟩
      · rintro ⟨t, ⟨_, ht⟩, _, hT⟩
        exact ⟨⟨⟨d, hd, hdx⟩, T, List.mem_of_mem_filter hT.1, ht.2.1.trans hT.2.1⟩, t, ht, hT⟩
  | false =>
    simp only [Bool.false_eq_true, if_false] at g1 g2 g3 hcover
    refine twice_eq m hm df rows out2 out3
      (fun x t => decide (Within fine x) &&
        decide (IsPrev (fine.filter fun u => decide (Within (df.map Prod.fst) u)) x t))
      (fun x t => decide (Within coarse x) &&
        decide (IsPrev (coarse.filter fun u => decide (Within (df.map Prod.fst) u)) x t))
      (fun x t => decide (Within coarse x) &&
        decide (IsPrev (coarse.filter fun u => decide (Within (df.map Prod.fst) u)) x t)) ?_ s1 s2 s3 g1 g2 g3 ?_
    · intro x _ t t' h h'
      rw [Bool.and_eq_true, decide_eq_true_iff, decide_eq_true_iff] at h h'
      exact h.2.unique h'.2
    · intro x hx T
      simp only [Bool.and_eq_true, decide_eq_true_iff]
      rw [prev_prev _ _ hfs hss x.1 T]
      obtain ⟨d, hd, hdx⟩ := hcover x hx
      constructor
      · rintro ⟨hw, t, ht, hT⟩
        have hTc := List.mem_of_mem_filter hT.1
        exact ⟨t, ⟨⟨⟨t, List.mem_of_mem_filter ht.1, ht.2.1⟩, d, hsub d hd, hdx⟩, ht⟩,
          ⟨⟨T, hTc, hT.2.1⟩, d, hd, ht.2.1.trans hdx⟩, hT⟩
      · rintro ⟨t, ⟨_, ht⟩, _, hT⟩
        exact ⟨⟨⟨T, List.mem_of_mem_filter hT.1, hT.2.1.trans ht.2.1⟩, d, hd, hdx⟩, t, ht, hT⟩

/-- **C134** (finding) The first condition is needed: if the data start before the coarse index, the direct aggregation
drops the samples before the first coarse stamp, the aggregation in two steps keeps those that have this stamp as
fine label. Here the sample at 25 is lost directly (right), kept in two steps. -/
theorem C134_crop : ∃ (df : List (Int × Int)) (fine coarse : List Int) (rows : List (Int × Int)),
    (df.map Prod.fst).Pairwise (· < ·) ∧ fine.Pairwise (· < ·) ∧ coarse.Pairwise (· < ·) ∧
    (∀ c ∈ coarse, c ∈ fine) ∧
    (∀ c ∈ fine, Within (df.map Prod.fst) c → ∃ x ∈ df, IsNext fine x.1 c) ∧
    aggregate true df ⟨fine, true⟩ List.sum = .ok rows ∧
    aggregate true rows ⟨coarse, true⟩ List.sum = .ok [(30, 11), (60, 100)] ∧
    aggregate true df ⟨coarse, true⟩ List.sum = .ok [(30, 1), (60, 100)] :=
  ⟨[(20, 1000), (25, 10), (30, 1), (55, 100), (60, 0)], [20, 30, 60], [30, 60], [(20, 1000), (30, 11), (60, 100)],
    by decide +kernel, by decide +kernel, by decide +kernel, by decide +kernel, by decide +kernel,
    by decide +kernel, by decide +kernel, by decide +kernel⟩

/-- **C134** (finding) The condition on the samples is needed as well: without a sample whose fine label is the last coarse
stamp, the fine aggregate ends before that stamp and the whole last group is lost in two steps. -/
theorem C134_lost_group : ∃ (df : List (Int × Int)) (fine coarse : List Int) (rows : List (Int × Int)),
    (df.map Prod.fst).Pairwise (· < ·) ∧ fine.Pairwise (· < ·) ∧ coarse.Pairwise (· < ·) ∧
    (∀ c ∈ coarse, c ∈ fine) ∧ (∀ x ∈ df, ∃ c ∈ coarse, c ≤ x.1) ∧
    aggregate true df ⟨fine, true⟩ List.sum = .ok rows ∧
    aggregate true rows ⟨coarse, true⟩ List.sum = .ok [(30, 1)] ∧
    aggregate true df ⟨coarse, true⟩ List.sum = .ok [(30, 1), (60, 10)] :=
  ⟨[(15, 1), (35, 10), (65, 100)], [0, 20, 30, 40, 60, 90], [0, 30, 60, 90], [(20, 1), (40, 10)],
    by decide +kernel, by decide +kernel, by decide +kernel, by decide +kernel, by decide +kernel,
    by decide +kernel, by decide +kernel, by decide +kernel⟩

/-- **C134** (finding) Means do not combine: with groups of different size the mean of means, which is what
two steps give, differs from the mean. -/
theorem C134_mean : ∃ (df : List (Int × Rat)) (fine coarse : List Int) (mean : List Rat → Rat) (rows : List (Int × Rat)),
    (∀ l, mean l = l.sum / l.length) ∧ (∀ c ∈ coarse, c ∈ fine) ∧
    resampleToGrid df fine mean "right" none = .ok rows ∧
    resampleToGrid rows coarse mean "right" none = .ok [(20, 11 / 4)] ∧
    resampleToGrid df coarse mean "right" none = .ok [(20, 10 / 3)] :=
  ⟨[(4, 1), (12, 4), (16, 5)], [10, 20], [20], fun l => l.sum / l.length, [(10, 1), (20, 9 / 2)],
    fun _ => rfl, by decide +kernel, by decide +kernel, by decide +kernel, by decide +kernel⟩

/-! ## Examples -/

/-- sums and maxima combine -/
example : Combines (List.sum : List Int → Int) ∧ Combines (reduce1 max (0 : Int)) :=
  ⟨combines_sum, combines_reduce1 _ _ (fun a b c => max_assoc a b c) (fun a b => max_comm a b)⟩

example : resampleToGrid exDf [5, 15, 25, 35, 50, 65, 95] (reduce1 max 0) "right" none =
      .ok [(5, 1), (15, 2), (25, 3), (35, 4), (50, 6), (65, 7), (95, 8)] ∧
    resampleToGrid [(5, 1), (15, 2), (25, 3), (35, 4), (50, 6), (65, 7), (95, 8)] [35, 65, 95] (reduce1 max 0)
      "right" none = .ok [(35, 4), (65, 7), (95, 8)] ∧
    resampleToGrid exDf [35, 65, 95] (reduce1 max 0) "right" none = .ok [(35, 4), (65, 7), (95, 8)] := by
  decide +kernel

/-- The hypotheses of `C134_aggregate` for samples every ten minutes, twenty minute and hourly sums. -/
example : ∃ rows, aggregate true exDf ⟨[0, 20, 40, 60, 80], true⟩ List.sum = .ok rows ∧
    aggregate true rows ⟨[0, 40, 80], true⟩ List.sum = .ok [(0, 1), (40, 14)] ∧
    aggregate true exDf ⟨[0, 40, 80], true⟩ List.sum = .ok [(0, 1), (40, 14)] := by
  obtain ⟨rows, h1, h2⟩ := C134_aggregate List.sum combines_sum exDf [0, 20, 40, 60, 80] [0, 40, 80]
    (by decide +kernel) (by decide +kernel) (by decide +kernel) (by decide +kernel) true
    (by decide +kernel) (by decide +kernel) (by decide +kernel)
  have h3 : aggregate true exDf ⟨[0, 40, 80], true⟩ List.sum = .ok [(0, 1), (40, 14)] := by decide +kernel
  exact ⟨rows, h1, by rw [← h3]; exact h2, h3⟩

end Verif.Props
