import Verif.Model.Temporal
import Mathlib.Algebra.BigOperators.Group.List.Basic

/-!
# Properties C61, C73: aggregation onto a new time index
-/

namespace Verif.Temporal

variable {V R : Type}

/-! ## Lemmas -/

theorem foldl_min_spec (l : List Int) (a : Int) :
    (l.foldl min a ∈ a :: l) ∧ ∀ x ∈ a :: l, l.foldl min a ≤ x := by
  induction l generalizing a with
  | nil => simp
  | cons b l ih =>
    rw [List.foldl_cons]
    obtain ⟨h1, h2⟩ := ih (min a b)
    constructor
    · rcases List.mem_cons.mp h1 with h | h
      · rw [h]
        rcases min_choice a b with h | h <;> simp [h]
      · simp [h]
    · intro x hx
      have hm := h2 (min a b) (List.mem_cons_self ..)
      rcases List.mem_cons.mp hx with rfl | hx
      · exact hm.trans (min_le_left ..)
      · rcases List.mem_cons.mp hx with rfl | hx
        · exact hm.trans (min_le_right ..)
        · exact h2 x (List.mem_cons_of_mem _ hx)

theorem foldl_max_spec (l : List Int) (a : Int) :
    (l.foldl max a ∈ a :: l) ∧ ∀ x ∈ a :: l, x ≤ l.foldl max a := by
  induction l generalizing a with
  | nil => simp
  | cons b l ih =>
    rw [List.foldl_cons]
    obtain ⟨h1, h2⟩ := ih (max a b)
    constructor
    · rcases List.mem_cons.mp h1 with h | h
      · rw [h]
        rcases max_choice a b with h | h <;> simp [h]
      · simp [h]
    · intro x hx
      have hm := h2 (max a b) (List.mem_cons_self ..)
      rcases List.mem_cons.mp hx with rfl | hx
      · exact (le_max_left ..).trans hm
      · rcases List.mem_cons.mp hx with rfl | hx
        · exact (le_max_right ..).trans hm
        · exact h2 x (List.mem_cons_of_mem _ hx)

theorem indexMin_spec (l : List Int) (h : l ≠ []) : indexMin l ∈ l ∧ ∀ x ∈ l, indexMin l ≤ x := by
  cases l with
  | nil => exact absurd rfl h
  | cons a l => exact foldl_min_spec l a

theorem indexMax_spec (l : List Int) (h : l ≠ []) : indexMax l ∈ l ∧ ∀ x ∈ l, x ≤ indexMax l := by
  cases l with
  | nil => exact absurd rfl h
  | cons a l => exact foldl_max_spec l a

/-- `t` is the label of a sample at `s` with label "right": the first stamp not before `s` -/
def IsNext (stamps : List Int) (s t : Int) : Prop := t ∈ stamps ∧ s ≤ t ∧ ∀ u ∈ stamps, s ≤ u → t ≤ u

/-- `t` is the label of a sample at `s` with label "left": the last stamp not after `s` -/
def IsPrev (stamps : List Int) (s t : Int) : Prop := t ∈ stamps ∧ t ≤ s ∧ ∀ u ∈ stamps, u ≤ s → u ≤ t

instance (stamps : List Int) (s t : Int) : Decidable (IsNext stamps s t) := by
  unfold IsNext; infer_instance

instance (stamps : List Int) (s t : Int) : Decidable (IsPrev stamps s t) := by
  unfold IsPrev; infer_instance

/-- label of a sample at `s` -/
def IsLabel (fill : Fill) (stamps : List Int) (s t : Int) : Prop :=
  match fill with
  | .bfill => IsNext stamps s t
  | .ffill => IsPrev stamps s t

instance (fill : Fill) (stamps : List Int) (s t : Int) : Decidable (IsLabel fill stamps s t) := by
  unfold IsLabel; cases fill <;> infer_instance

theorem find_first (l : List Int) (hs : l.Pairwise (· ≤ ·)) (s t : Int) :
    l.find? (fun e => decide (s ≤ e)) = some t ↔ IsNext l s t := by
  induction l with
  | nil => simp [IsNext]
  | cons a l ih =>
    have hs' := List.pairwise_cons.mp hs
    by_cases h : s ≤ a
    · rw [List.find?_cons_of_pos (by simpa using h)]
      constructor
      · intro ht
        injection ht with ht
        subst ht
        refine ⟨List.mem_cons_self .., h, ?_⟩
        intro u hu _
        rcases List.mem_cons.mp hu with rfl | hu
        · exact le_refl _
        · exact hs'.1 u hu
      · rintro ⟨h1, h2, h3⟩
        have := h3 a (List.mem_cons_self ..) h
        rcases List.mem_cons.mp h1 with rfl | h1
        · rfl
        · rw [le_antisymm this (hs'.1 t h1)]
    · rw [List.find?_cons_of_neg (by simpa using h), ih hs'.2]
      unfold IsNext
      constructor
      · rintro ⟨h1, h2, h3⟩
        refine ⟨List.mem_cons_of_mem _ h1, h2, ?_⟩
        intro u hu hsu
        rcases List.mem_cons.mp hu with rfl | hu
        · exact absurd hsu h
        · exact h3 u hu hsu
      · rintro ⟨h1, h2, h3⟩
        refine ⟨?_, h2, fun u hu => h3 u (List.mem_cons_of_mem _ hu)⟩
        rcases List.mem_cons.mp h1 with rfl | h1
        · exact absurd h2 h
        · exact h1

theorem find_last (l : List Int) (hs : l.Pairwise (· ≤ ·)) (s t : Int) :
    l.reverse.find? (fun e => decide (e ≤ s)) = some t ↔ IsPrev l s t := by
  induction l with
  | nil => simp [IsPrev]
  | cons a l ih =>
    have hs' := List.pairwise_cons.mp hs
    rw [List.reverse_cons, List.find?_append, Option.or_eq_some_iff, ih hs'.2]
    unfold IsPrev
    constructor
    · rintro (⟨h1, h2, h3⟩ | ⟨h1, h2⟩)
      · refine ⟨List.mem_cons_of_mem _ h1, h2, ?_⟩
        intro u hu hus
        rcases List.mem_cons.mp hu with rfl | hu
        · exact hs'.1 t h1
        · exact h3 u hu hus
      · rw [List.find?_eq_none] at h1
        by_cases ha : a ≤ s
        · rw [List.find?_cons_of_pos (by simpa using ha)] at h2
          injection h2 with h2
          subst h2
          refine ⟨List.mem_cons_self .., ha, ?_⟩
          intro u hu hus
          rcases List.mem_cons.mp hu with rfl | hu
          · exact le_refl _
          · exact absurd hus (by simpa using h1 u (List.mem_reverse.mpr hu))
        · rw [List.find?_cons_of_neg (by simpa using ha)] at h2
          simp at h2
    · rintro ⟨h1, h2, h3⟩
      by_cases hl : t ∈ l
      · exact Or.inl ⟨hl, h2, fun u hu => h3 u (List.mem_cons_of_mem _ hu)⟩
      · have hta : t = a := (List.mem_cons.mp h1).resolve_right hl
        subst hta
        right
        constructor
        · rw [List.find?_eq_none]
          intro u hu
          rw [List.mem_reverse] at hu
          simp only [decide_eq_true_eq]
          intro hus
          have := le_antisymm (h3 u (List.mem_cons_of_mem _ hu) hus) (hs'.1 u hu)
          exact hl (this ▸ hu)
        · rw [List.find?_cons_of_pos (by simpa using h2)]

theorem pick_spec (frame : List (Int × Int)) (g : Int → Int) (hg : ∀ e ∈ frame, e.2 = g e.1) (fill : Fill)
    (hs : (frame.map Prod.fst).Pairwise (· ≤ ·)) (s : Int) (t : Int) :
    pick frame fill s = some t ↔ ∃ u, IsLabel fill (frame.map Prod.fst) s u ∧ t = g u := by
  have aux : ∀ (l : List (Int × Int)) (p : Int → Bool), (∀ e ∈ l, e.2 = g e.1) →
      (l.find? fun e => p e.1).map Prod.snd = ((l.map Prod.fst).find? p).map g := by
    intro l p hl
    rw [List.find?_map]
    cases h : l.find? (fun e => p e.1) with
    | none =>
      have : List.find? (p ∘ Prod.fst) l = none := h
      rw [this]
      rfl
    | some e =>
      have : List.find? (p ∘ Prod.fst) l = some e := h
      rw [this]
      simp [hl e (List.mem_of_find?_eq_some h)]
  cases fill with
  | bfill =>
    show (frame.find? fun e => decide (s ≤ e.1)).map Prod.snd = some t ↔ _
    rw [aux frame (fun x => decide (s ≤ x)) hg, Option.map_eq_some_iff]
    constructor
    · rintro ⟨u, h1, h2⟩
      exact ⟨u, (find_first _ hs s u).mp h1, h2.symm⟩
    · rintro ⟨u, h1, h2⟩
      exact ⟨u, (find_first _ hs s u).mpr h1, h2.symm⟩
  | ffill =>
    show (frame.reverse.find? fun e => decide (e.1 ≤ s)).map Prod.snd = some t ↔ _
    rw [aux frame.reverse (fun x => decide (x ≤ s)) (fun e he => hg e (List.mem_reverse.mp he)),
      List.map_reverse, Option.map_eq_some_iff]
    constructor
    · rintro ⟨u, h1, h2⟩
      exact ⟨u, (find_last _ hs s u).mp h1, h2.symm⟩
    · rintro ⟨u, h1, h2⟩
      exact ⟨u, (find_last _ hs s u).mpr h1, h2.symm⟩

/-- if the indices are equal, the shortcut of `reindex` gives what filling would give -/
theorem reindex_ok (frame : List (Int × Int)) (g : Int → Int) (hg : ∀ e ∈ frame, e.2 = g e.1) (fill : Fill)
    (hs : (frame.map Prod.fst).Pairwise (· ≤ ·)) (target : List Int)
    (h : (frame.map Prod.fst).Nodup ∨ frame.map Prod.fst = target) :
    reindex frame target fill = .ok (target.map (pick frame fill)) := by
  unfold reindex
  by_cases he : frame.map Prod.fst = target
  · rw [if_pos he, ← he, List.map_map]
    congr 1
    apply List.map_congr_left
    intro e hmem
    symm
    show pick frame fill e.1 = some e.2
    rw [pick_spec frame g hg fill hs]
    refine ⟨e.1, ?_, hg e hmem⟩
    have hm : e.1 ∈ frame.map Prod.fst := List.mem_map_of_mem hmem
    cases fill with
    | bfill => exact ⟨hm, le_refl _, fun u _ hu => hu⟩
    | ffill => exact ⟨hm, le_refl _, fun u _ hu => hu⟩
  · rw [if_neg he, if_neg (not_not.mpr (h.resolve_right he))]

theorem mem_keys (rows : List (Option Int × V)) (k : Int) :
    k ∈ ((rows.filterMap Prod.fst).insertionSort (· ≤ ·)).dedup ↔
      ∃ r ∈ rows, r.1 = some k := by
  rw [List.mem_dedup, List.mem_insertionSort, List.mem_filterMap]

theorem keys_sorted (rows : List (Option Int × V)) :
    (((rows.filterMap Prod.fst).insertionSort (· ≤ ·)).dedup).Pairwise (· < ·) := by
  have h1 : ((rows.filterMap Prod.fst).insertionSort (· ≤ ·)).Pairwise (· ≤ ·) := by
    exact List.pairwise_insertionSort _ _
  have h2 := h1.sublist (List.dedup_sublist _)
  have h3 : (((rows.filterMap Prod.fst).insertionSort (· ≤ ·)).dedup).Pairwise (· ≠ ·) :=
    List.nodup_dedup _
  exact (h2.and h3).imp fun h => lt_of_le_of_ne h.1 h.2

theorem groupbyAgg_keys (rows : List (Option Int × V)) (method : List V → R) :
    ((groupbyAgg rows method).map Prod.fst).Pairwise (· < ·) := by
  unfold groupbyAgg
  dsimp only
  rw [List.map_map]
  have : (Prod.fst ∘ fun k => (k, method ((rows.filter fun r => decide (r.1 = some k)).map Prod.snd))) =
      (id : Int → Int) := rfl
  rw [this, List.map_id]
  exact keys_sorted rows

theorem mem_groupbyAgg (rows : List (Option Int × V)) (method : List V → R) (k : Int) (v : R) :
    (k, v) ∈ groupbyAgg rows method ↔
      (rows.filter fun r => decide (r.1 = some k)) ≠ [] ∧
        v = method ((rows.filter fun r => decide (r.1 = some k)).map Prod.snd) := by
  unfold groupbyAgg
  dsimp only
  rw [List.mem_map]
  constructor
  · rintro ⟨k', hk, he⟩
    injection he with h1 h2
    subst h1
    refine ⟨?_, h2.symm⟩
    obtain ⟨r, hr, hrk⟩ := (mem_keys rows k').mp hk
    exact List.ne_nil_of_mem (List.mem_filter.mpr ⟨hr, by simpa using hrk⟩)
  · rintro ⟨h1, h2⟩
    refine ⟨k, (mem_keys rows k).mpr ?_, by rw [h2]⟩
    obtain ⟨r, hr⟩ := List.exists_mem_of_ne_nil _ h1
    rw [List.mem_filter] at hr
    exact ⟨r, hr.1, by simpa using hr.2⟩

theorem sum_single {V : Type} [AddCommMonoid V] (keys : List Int) (hnd : keys.Nodup) (k0 : Int) (h : k0 ∈ keys)
    (v : V) : (keys.map fun k => if k = k0 then v else 0).sum = v := by
  have hz : ∀ l : List Int, k0 ∉ l → (l.map fun k => if k = k0 then v else 0).sum = 0 := by
    intro l hl
    induction l with
    | nil => rfl
    | cons a l ih =>
      rw [List.map_cons, List.sum_cons, if_neg, zero_add]
      · exact ih fun h => hl (List.mem_cons_of_mem _ h)
      · rintro rfl
        exact hl (List.mem_cons_self ..)
  induction keys with
  | nil => cases h
  | cons a l ih =>
    have hnd' := List.nodup_cons.mp hnd
    rw [List.map_cons, List.sum_cons]
    by_cases ha : a = k0
    · rw [if_pos ha, hz l (ha ▸ hnd'.1), add_zero]
    · rw [if_neg ha, zero_add]
      exact ih hnd'.2 ((List.mem_cons.mp h).resolve_left (Ne.symm ha))

/-- the groups together are the rows with key -/
theorem groups_sum {V : Type} [AddCommMonoid V] (rows : List (Option Int × V)) :
    ((groupbyAgg rows List.sum).map Prod.snd).sum =
      ((rows.filter fun r => r.1.isSome).map Prod.snd).sum := by
  have key : ∀ (keys : List Int), keys.Nodup → (∀ r ∈ rows, ∀ k, r.1 = some k → k ∈ keys) →
      (keys.map fun k => ((rows.filter fun r => decide (r.1 = some k)).map Prod.snd).sum).sum =
        ((rows.filter fun r => r.1.isSome).map Prod.snd).sum := by
    intro keys hnd
    induction rows with
    | nil => intro _; simp
    | cons r rows ih =>
      intro hmem
      have ih' := ih fun r' hr' => hmem r' (List.mem_cons_of_mem _ hr')
      cases hr : r.1 with
      | none =>
        have h1 : ∀ k : Int, ((r :: rows).filter fun r => decide (r.1 = some k)) =
            rows.filter fun r => decide (r.1 = some k) := by
          intro k
          rw [List.filter_cons_of_neg]
          simp [hr]
        simp only [h1]
        rw [ih', List.filter_cons_of_neg (by simp [hr])]
      | some k0 =>
        have hk0 : k0 ∈ keys := hmem r (List.mem_cons_self ..) k0 hr
        have h1 : ∀ k : Int, (((r :: rows).filter fun r => decide (r.1 = some k)).map Prod.snd).sum =
            (if k = k0 then r.2 else 0) +
              ((rows.filter fun r => decide (r.1 = some k)).map Prod.snd).sum := by
          intro k
          by_cases hk : k = k0
          · rw [List.filter_cons_of_pos (by simp [hr, hk]), List.map_cons, List.sum_cons, if_pos hk]
          · rw [List.filter_cons_of_neg (by simp [hr, Ne.symm hk]), if_neg hk, zero_add]
        simp only [h1]
        rw [List.sum_map_add, ih', List.filter_cons_of_pos (by simp [hr]), List.map_cons, List.sum_cons]
        congr 1
        exact sum_single keys hnd k0 hk0 r.2
  have := key (((rows.filterMap Prod.fst).insertionSort (· ≤ ·)).dedup) (List.nodup_dedup _)
    (fun r hr k hk => (mem_keys rows k).mpr ⟨r, hr, hk⟩)
  unfold groupbyAgg
  dsimp only
  rw [List.map_map]
  exact this

/-- `s` lies within the period spanned by `ts` -/
def Within (ts : List Int) (s : Int) : Prop := (∃ a ∈ ts, a ≤ s) ∧ ∃ b ∈ ts, s ≤ b

instance (ts : List Int) (s : Int) : Decidable (Within ts s) := by
  unfold Within; infer_instance

theorem within_iff (ts : List Int) (h : ts ≠ []) (s : Int) : Within ts s ↔ indexMin ts ≤ s ∧ s ≤ indexMax ts := by
  obtain ⟨a1, a2⟩ := indexMin_spec ts h
  obtain ⟨b1, b2⟩ := indexMax_spec ts h
  constructor
  · rintro ⟨⟨a, ha, has⟩, b, hb, hsb⟩
    exact ⟨(a2 a ha).trans has, hsb.trans (b2 b hb)⟩
  · rintro ⟨h1, h2⟩
    exact ⟨⟨_, a1, h1⟩, _, b1, h2⟩

/-- the stamps of the new index used for aggregation -/
def usedStamps (df : List (Int × V)) (stamps : List Int) : List Int :=
  stamps.filter fun t => decide (Within (df.map Prod.fst) t)

/-- the samples aggregated to the stamp `t` -/
def group (fill : Fill) (df : List (Int × V)) (stamps : List Int) (t : Int) : List (Int × V) :=
  df.filter fun x => decide (Within stamps x.1 ∧ IsLabel fill (usedStamps df stamps) x.1 t)

theorem zip_map_pick (df : List (Int × V)) (f : Int → Option Int) :
    ((df.map Prod.fst).map f).zip (df.map Prod.snd) = df.map fun x => (f x.1, x.2) := by
  induction df with
  | nil => rfl
  | cons a l ih => rw [List.map_cons, List.map_cons, List.map_cons, List.zip_cons_cons, ih, List.map_cons]

theorem filter_rows (df : List (Int × V)) (f : Int → Option Int) (p : Option Int → Bool) :
    ((df.map fun x => (f x.1, x.2)).filter fun r => p r.1).map Prod.snd =
      (df.filter fun x => p (f x.1)).map Prod.snd := by
  induction df with
  | nil => rfl
  | cons a l ih =>
    rw [List.map_cons]
    cases h : p (f a.1) with
    | true => rw [List.filter_cons_of_pos (by exact h), List.filter_cons_of_pos (by exact h), List.map_cons,
        List.map_cons, ih]
    | false => rw [List.filter_cons_of_neg (by simp [h]), List.filter_cons_of_neg (by simp [h]), ih]

/-- both frames cropped to the common period -/
theorem loc_spec (df : List (Int × V)) (ts : List Int) (g : Int → Int) (hdf : df ≠ []) (hts : ts ≠ []) :
    let frame := ts.map fun t => (t, g t)
    let tStart := max (indexMin (df.map Prod.fst)) (indexMin (frame.map Prod.fst))
    let tStop := min (indexMax (df.map Prod.fst)) (indexMax (frame.map Prod.fst))
    (loc frame tStart tStop).map Prod.fst = usedStamps df ts ∧
    loc df tStart tStop = df.filter fun x => decide (Within ts x.1) := by
  intro frame tStart tStop
  have hfst : frame.map Prod.fst = ts := by
    show (ts.map _).map _ = ts
    rw [List.map_map]
    exact List.map_id ts
  have hdf' : df.map Prod.fst ≠ [] := by simpa using hdf
  have hw : ∀ s, (tStart ≤ s ∧ s ≤ tStop) ↔ (Within (df.map Prod.fst) s ∧ Within ts s) := by
    intro s
    show (max _ _ ≤ s ∧ s ≤ min _ _) ↔ _
    rw [hfst, max_le_iff, le_min_iff, within_iff _ hdf', within_iff _ hts]
    tauto
  have hself : ∀ ts : List Int, ∀ t ∈ ts, Within ts t := fun ts t ht => ⟨⟨t, ht, le_refl _⟩, t, ht, le_refl _⟩
  constructor
  · unfold loc usedStamps
    show ((ts.map fun t => (t, g t)).filter _).map _ = _
    rw [List.filter_map, List.map_map]
    have : (Prod.fst ∘ fun t => (t, g t)) = (id : Int → Int) := rfl
    rw [this, List.map_id]
    apply List.filter_congr
    intro t ht
    show (decide (tStart ≤ t) && decide (t ≤ tStop)) = decide (Within (df.map Prod.fst) t)
    rw [← Bool.decide_and]
    apply decide_eq_decide.mpr
    rw [hw]
    exact ⟨fun h => h.1, fun h => ⟨h, hself ts t ht⟩⟩
  · unfold loc
    apply List.filter_congr
    intro x hx
    rw [← Bool.decide_and]
    apply decide_eq_decide.mpr
    rw [hw]
    exact ⟨fun h => h.2, fun h => ⟨hself _ _ (List.mem_map_of_mem hx), h⟩⟩

/-- The last steps of `aggregate` for stamps `ts` whose labels are `g t`. -/
theorem core_spec (df : List (Int × V)) (ts : List Int) (g : Int → Int) (hg : Function.Injective g)
    (hdf : df ≠ []) (hts : ts ≠ [])
    (hsort : ts.Pairwise (· < ·)) (fill : Fill) :
    let frame := ts.map fun t => (t, g t)
    let tStart := max (indexMin (df.map Prod.fst)) (indexMin (frame.map Prod.fst))
    let tStop := min (indexMax (df.map Prod.fst)) (indexMax (frame.map Prod.fst))
    ∃ f : Int → Option Int,
      reindex (loc frame tStart tStop) ((loc df tStart tStop).map Prod.fst) fill =
        .ok (((loc df tStart tStop).map Prod.fst).map f) ∧
      (∀ s t, f s = some (g t) ↔ IsLabel fill (usedStamps df ts) s t) ∧
      (∀ s k, f s = some k → ∃ t, k = g t) ∧
      loc df tStart tStop = df.filter fun x => decide (Within ts x.1) := by
  intro frame tStart tStop
  obtain ⟨hused, hloc⟩ := loc_spec df ts g hdf hts
  have hmemg : ∀ e ∈ loc frame tStart tStop, e.2 = g e.1 := by
    intro e he
    have := (List.mem_filter.mp he).1
    obtain ⟨t, _, rfl⟩ := List.mem_map.mp this
    rfl
  have hus : (usedStamps df ts).Pairwise (· < ·) := hsort.sublist List.filter_sublist
  have hsorted : ((loc frame tStart tStop).map Prod.fst).Pairwise (· ≤ ·) := by
    rw [hused]
    exact hus.imp fun h => le_of_lt h
  refine ⟨pick (loc frame tStart tStop) fill, ?_, ?_, ?_, hloc⟩
  · apply reindex_ok _ g hmemg fill hsorted
    left
    rw [hused]
    exact hus.imp fun h => ne_of_lt h
  · intro s t
    rw [pick_spec _ g hmemg fill hsorted, hused]
    constructor
    · rintro ⟨u, h1, h2⟩
      rw [hg h2]
      exact h1
    · intro h
      exact ⟨t, h, rfl⟩
  · intro s k hk
    rw [pick_spec _ g hmemg fill hsorted] at hk
    obtain ⟨u, _, h⟩ := hk
    exact ⟨u, h⟩

theorem zip_map_self (ts : List Int) (g : Int → Int) : ts.zip (ts.map g) = ts.map fun t => (t, g t) := by
  induction ts with
  | nil => rfl
  | cons a l ih => simp [ih]

/-- all of `aggregate` for strictly increasing stamps `ts` (instants), whose labels are `g t` -/
theorem aggregate_spec (dfAware : Bool) (df : List (Int × V)) (new : DtIndex) (method : List V → R)
    (label : String) (fill : Fill) (hfill : fillMethod label = .ok fill) (zone : Option Int)
    (ts : List Int) (g : Int → Int) (hg : Function.Injective g) (hnew : new.times = ts.map g)
    (hindex : localize new zone = ⟨ts, dfAware⟩)
    (hdf : df ≠ []) (hts : ts ≠ []) (hdfs : (df.map Prod.fst).Pairwise (· ≤ ·))
    (hsort : ts.Pairwise (· < ·)) :
    ∃ f : Int → Option Int,
      aggregate dfAware df new method label zone =
        .ok (groupbyAgg ((df.filter fun x => decide (Within ts x.1)).map fun x => (f x.1, x.2)) method) ∧
      (∀ s t, f s = some (g t) ↔ IsLabel fill (usedStamps df ts) s t) ∧
      (∀ s k, f s = some k → ∃ t, k = g t) := by
  obtain ⟨f, h1, h2, h3, h4⟩ := core_spec df ts g hg hdf hts hsort fill
  refine ⟨f, ?_, h2, h3⟩
  unfold aggregate
  rw [hfill]
  show (if dfAware ≠ (localize new zone).aware then _ else _) = _
  rw [hindex]
  dsimp only
  rw [hnew, zip_map_self, if_neg (by simp), if_neg (by simp [hdf, hts])]
  have hfst : (ts.map fun t => (t, g t)).map Prod.fst = ts := by
    rw [List.map_map]
    exact List.map_id ts
  rw [if_neg]
  · rw [h1]
    show Except.ok _ = _
    rw [zip_map_pick, h4]
  · push Not
    rw [hfst]
    exact ⟨hdfs, hsort.imp fun h => le_of_lt h⟩

theorem mem_group_rows (fill : Fill) (df : List (Int × V)) (ts : List Int) (g : Int → Int)
    (hg : Function.Injective g) (f : Int → Option Int)
    (hf : ∀ s t, f s = some (g t) ↔ IsLabel fill (usedStamps df ts) s t) (hf' : ∀ s k, f s = some k → ∃ t, k = g t)
    (method : List V → R) (k : Int) (v : R) :
    (k, v) ∈ groupbyAgg ((df.filter fun x => decide (Within ts x.1)).map fun x => (f x.1, x.2)) method ↔
      ∃ t, k = g t ∧ group fill df ts t ≠ [] ∧ v = method ((group fill df ts t).map Prod.snd) := by
  have hgrp : ∀ t, ((((df.filter fun x => decide (Within ts x.1)).map fun x => (f x.1, x.2)).filter
      fun r => decide (r.1 = some (g t)))).map Prod.snd = (group fill df ts t).map Prod.snd := by
    intro t
    rw [filter_rows _ f (fun o => decide (o = some (g t))), List.filter_filter]
    unfold group
    congr 1
    apply List.filter_congr
    intro x _
    rw [Bool.and_comm, ← Bool.decide_and]
    apply decide_eq_decide.mpr
    rw [hf]
  rw [mem_groupbyAgg]
  constructor
  · rintro ⟨h1, h2⟩
    obtain ⟨r, hr⟩ := List.exists_mem_of_ne_nil _ h1
    obtain ⟨hr1, hr2⟩ := List.mem_filter.mp hr
    obtain ⟨x, _, rfl⟩ := List.mem_map.mp hr1
    obtain ⟨t, rfl⟩ := hf' x.1 k (by simpa using hr2)
    refine ⟨t, rfl, ?_, ?_⟩
    · intro hnil
      have := hgrp t
      rw [hnil, List.map_nil, List.map_eq_nil_iff] at this
      exact h1 this
    · rw [h2, hgrp]
  · rintro ⟨t, rfl, h1, h2⟩
    refine ⟨?_, by rw [h2, hgrp]⟩
    intro hnil
    have := hgrp t
    rw [hnil, List.map_nil] at this
    exact h1 (List.map_eq_nil_iff.mp this.symm)

end Verif.Temporal

namespace Verif.Props
open Verif Verif.Temporal

variable {V R : Type}

/-- **C61** Aggregation with label "right" (next stamp) or "left" (previous stamp), for sorted samples and strictly
increasing stamps that are both given with time zone, the new index possibly without one when it is UTC:
the result has one row for each stamp `t` with a non-empty group, in increasing order, and the group of `t` are
exactly the samples within the period of the new index whose next (previous) stamp, among the stamps
within the period of the data, is `t`. -/
theorem C61_groups (df : List (Int × V)) (ts : List Int) (aware : Bool) (method : List V → R) (zone : Option Int)
    (hzone : aware = true ∨ zone = some 0) (right : Bool)
    (hdf : df ≠ []) (hts : ts ≠ []) (hdfs : (df.map Prod.fst).Pairwise (· ≤ ·)) (hsort : ts.Pairwise (· < ·)) :
    ∃ rows, aggregate true df ⟨ts, aware⟩ method (if right then "right" else "left") zone = .ok rows ∧
      (rows.map Prod.fst).Pairwise (· < ·) ∧
      ∀ t v, (t, v) ∈ rows ↔
        let stamps := ts.filter fun u => decide (Within (df.map Prod.fst) u)
        let grp := df.filter fun x => decide (Within ts x.1) &&
          (if right then decide (IsNext stamps x.1 t) else decide (IsPrev stamps x.1 t))
        grp ≠ [] ∧ v = method (grp.map Prod.snd) := by
  have hfill : fillMethod (if right then "right" else "left") = .ok (if right then .bfill else .ffill) := by
    cases right <;> rfl
  obtain ⟨f, h1, h2, h3⟩ := aggregate_spec true df ⟨ts, aware⟩ method _ _ hfill zone ts id
    Function.injective_id (by simp) (by
      unfold localize
      rcases hzone with h | h
      · simp [h]
      · cases aware <;> simp [h]) hdf hts hdfs hsort
  refine ⟨_, h1, groupbyAgg_keys _ _, ?_⟩
  intro t v
  rw [mem_group_rows _ df ts id Function.injective_id f h2 h3]
  have hgrp : group (if right then .bfill else .ffill) df ts t = df.filter fun x => decide (Within ts x.1) &&
      (if right then decide (IsNext (usedStamps df ts) x.1 t) else decide (IsPrev (usedStamps df ts) x.1 t)) := by
    unfold group
    apply List.filter_congr
    intro x _
    rw [Bool.decide_and]
    cases right <;> rfl
  constructor
  · rintro ⟨t', ht, h⟩
    have ht' : t = t' := ht
    rw [← ht', hgrp] at h
    exact h
  · intro h
    exact ⟨t, rfl, by rw [hgrp]; exact h⟩

/-- **C61** Summing conserves the total: the sum over all rows of the result is the sum of the samples that
have a label. -/
theorem C61_sum [AddCommMonoid V] (df : List (Int × V)) (ts : List Int) (aware : Bool) (zone : Option Int)
    (hzone : aware = true ∨ zone = some 0) (right : Bool)
    (hdf : df ≠ []) (hts : ts ≠ []) (hdfs : (df.map Prod.fst).Pairwise (· ≤ ·)) (hsort : ts.Pairwise (· < ·)) :
    ∃ rows, aggregate true df ⟨ts, aware⟩ List.sum (if right then "right" else "left") zone = .ok rows ∧
      (rows.map Prod.snd).sum =
        ((df.filter fun x => decide (Within ts x.1 ∧ ∃ u ∈ ts, Within (df.map Prod.fst) u ∧
          if right then x.1 ≤ u else u ≤ x.1)).map Prod.snd).sum := by
  have hfill : fillMethod (if right then "right" else "left") = .ok (if right then .bfill else .ffill) := by
    cases right <;> rfl
  obtain ⟨f, h1, h2, h3⟩ := aggregate_spec true df ⟨ts, aware⟩ List.sum _ _ hfill zone ts id
    Function.injective_id (by simp) (by
      unfold localize
      rcases hzone with h | h
      · simp [h]
      · cases aware <;> simp [h]) hdf hts hdfs hsort
  refine ⟨_, h1, ?_⟩
  rw [groups_sum, filter_rows _ f Option.isSome, List.filter_filter]
  congr 2
  apply List.filter_congr
  intro x _
  rw [Bool.and_comm, Bool.decide_and]
  congr 1
  rw [Bool.eq_iff_iff, decide_eq_true_iff, Option.isSome_iff_exists]
  have hlab : (∃ k, f x.1 = some k) ↔ ∃ t, IsLabel (if right then .bfill else .ffill) (usedStamps df ts) x.1 t := by
    constructor
    · rintro ⟨k, hk⟩
      exact ⟨k, (h2 x.1 k).mp hk⟩
    · rintro ⟨t, ht⟩
      exact ⟨t, (h2 x.1 t).mpr ht⟩
  rw [hlab]
  have hus : (usedStamps df ts).Pairwise (· ≤ ·) :=
    (hsort.sublist List.filter_sublist).imp fun h => le_of_lt h
  have hmem : ∀ u, u ∈ usedStamps df ts ↔ u ∈ ts ∧ Within (df.map Prod.fst) u := by
    intro u
    unfold usedStamps
    rw [List.mem_filter, decide_eq_true_iff]
  cases right with
  | true =>
    constructor
    · rintro ⟨t, ht1, ht2, _⟩
      exact ⟨t, ((hmem t).mp ht1).1, ((hmem t).mp ht1).2, ht2⟩
    · rintro ⟨u, hu1, hu2, hu3⟩
      cases hfind : (usedStamps df ts).find? (fun e => decide (x.1 ≤ e)) with
      | none =>
        rw [List.find?_eq_none] at hfind
        exact absurd hu3 (by simpa using hfind u ((hmem u).mpr ⟨hu1, hu2⟩))
      | some t => exact ⟨t, (find_first _ hus _ _).mp hfind⟩
  | false =>
    constructor
    · rintro ⟨t, ht1, ht2, _⟩
      exact ⟨t, ((hmem t).mp ht1).1, ((hmem t).mp ht1).2, ht2⟩
    · rintro ⟨u, hu1, hu2, hu3⟩
      cases hfind : (usedStamps df ts).reverse.find? (fun e => decide (e ≤ x.1)) with
      | none =>
        rw [List.find?_eq_none] at hfind
        exact absurd hu3 (by simpa using hfind u (List.mem_reverse.mpr ((hmem u).mpr ⟨hu1, hu2⟩)))
      | some t => exact ⟨t, (find_last _ hus _ _).mp hfind⟩

/-- **C61** Labels other than "right" and "left" raise; so do data without time zone, unless
`new_index_tz=None` and the new index has no zone either. -/
theorem C61_errors (dfAware : Bool) (df : List (Int × V)) (new : DtIndex) (method : List V → R) (label : String)
    (zone : Option Int) :
    (label ≠ "right" → label ≠ "left" → aggregate dfAware df new method label zone = .error .notImplemented) ∧
    (label = "right" ∨ label = "left" → dfAware = false → new.aware = true ∨ zone ≠ none →
      aggregate dfAware df new method label zone = .error .typeError) ∧
    (label = "right" ∨ label = "left" → dfAware = true → new.aware = false → zone = none →
      aggregate dfAware df new method label zone = .error .typeError) := by
  refine ⟨?_, ?_, ?_⟩
  · intro h1 h2
    unfold aggregate fillMethod
    rw [if_neg h1, if_neg h2]
    rfl
  · intro hl hd hz
    subst hd
    have hfill : ∃ fill, fillMethod label = .ok fill := by
      rcases hl with rfl | rfl
      · exact ⟨_, rfl⟩
      · exact ⟨_, rfl⟩
    obtain ⟨fill, hfill⟩ := hfill
    unfold aggregate
    rw [hfill]
    show (if _ then _ else _) = _
    rw [if_pos]
    unfold localize
    cases ha : new.aware with
    | true => simp [ha]
    | false =>
      have := hz.resolve_left (by simp [ha])
      obtain ⟨o, rfl⟩ := Option.ne_none_iff_exists'.mp this
      simp
  · intro hl hd ha hz
    subst hd hz
    have hfill : ∃ fill, fillMethod label = .ok fill := by
      rcases hl with rfl | rfl
      · exact ⟨_, rfl⟩
      · exact ⟨_, rfl⟩
    obtain ⟨fill, hfill⟩ := hfill
    unfold aggregate
    rw [hfill]
    show (if _ then _ else _) = _
    rw [if_pos]
    unfold localize
    simp [ha]

/-- **C61** Repeated stamps in the common period raise, unless the stamps there are just those of the samples. -/
theorem C61_duplicates (df : List (Int × V)) (ts : List Int) (aware : Bool) (method : List V → R) (zone : Option Int)
    (hzone : aware = true ∨ zone = some 0) (right : Bool)
    (hdf : df ≠ []) (hdfs : (df.map Prod.fst).Pairwise (· ≤ ·)) (hsort : ts.Pairwise (· ≤ ·))
    (hdup : ¬ (ts.filter fun u => decide (Within (df.map Prod.fst) u)).Nodup)
    (hne : (ts.filter fun u => decide (Within (df.map Prod.fst) u)) ≠
      (df.filter fun x => decide (Within ts x.1)).map Prod.fst) :
    aggregate true df ⟨ts, aware⟩ method (if right then "right" else "left") zone = .error .valueError := by
  have hts : ts ≠ [] := by
    rintro rfl
    exact hdup List.nodup_nil
  have hfill : fillMethod (if right then "right" else "left") = .ok (if right then .bfill else .ffill) := by
    cases right <;> rfl
  have hindex : localize ⟨ts, aware⟩ zone = ⟨ts, true⟩ := by
    unfold localize
    rcases hzone with h | h
    · simp [h]
    · cases aware <;> simp [h]
  have hz := zip_map_self ts id
  rw [List.map_id] at hz
  have hfst : (ts.map fun t => (t, id t)).map Prod.fst = ts := by
    rw [List.map_map]
    exact List.map_id ts
  obtain ⟨h1, h2⟩ := loc_spec df ts id hdf hts
  unfold aggregate
  rw [hfill]
  show (if true ≠ (localize ⟨ts, aware⟩ zone).aware then _ else _) = _
  rw [hindex]
  dsimp only
  rw [hz, if_neg (by simp), if_neg (by simp [hdf, hts]), if_neg (by rw [hfst]; push Not; exact ⟨hdfs, hsort⟩)]
  unfold reindex
  rw [h1, h2, if_neg (show usedStamps df ts ≠ _ from hne), if_pos (show ¬ (usedStamps df ts).Nodup from hdup)]
  rfl

/-- **C61** (finding) For a new index without time zone and `new_index_tz` with offset `off`, the groups are those of the
instants meant, but the labels of the result are wrong by `off`: the wall clock readings are taken for UTC. -/
theorem C61_zone (df : List (Int × V)) (ts : List Int) (method : List V → R) (off : Int) (right : Bool)
    (hdf : df ≠ []) (hts : ts ≠ []) (hdfs : (df.map Prod.fst).Pairwise (· ≤ ·)) (hsort : ts.Pairwise (· < ·)) :
    ∃ rows rows',
      aggregate true df ⟨ts.map (· + off), false⟩ method (if right then "right" else "left") (some off) = .ok rows ∧
      aggregate true df ⟨ts, true⟩ method (if right then "right" else "left") (some off) = .ok rows' ∧
      (rows.map Prod.fst).Pairwise (· < ·) ∧ (rows'.map Prod.fst).Pairwise (· < ·) ∧
      ∀ t v, (t + off, v) ∈ rows ↔ (t, v) ∈ rows' := by
  have hfill : fillMethod (if right then "right" else "left") = .ok (if right then .bfill else .ffill) := by
    cases right <;> rfl
  have hinj : Function.Injective (· + off : Int → Int) := fun a b h => by
    have : a + off = b + off := h
    omega
  obtain ⟨f, h1, h2, h3⟩ := aggregate_spec true df ⟨ts.map (· + off), false⟩ method _ _ hfill (some off) ts (· + off)
    hinj rfl (by
      unfold localize
      simp only [Bool.false_eq_true, if_false, List.map_map]
      have : ((fun x : Int => x - off) ∘ fun x => x + off) = id := by
        funext x
        show x + off - off = x
        omega
      rw [this, List.map_id]) hdf hts hdfs hsort
  obtain ⟨f', h1', h2', h3'⟩ := aggregate_spec true df ⟨ts, true⟩ method _ _ hfill (some off) ts id
    Function.injective_id (by simp) rfl hdf hts hdfs hsort
  refine ⟨_, _, h1, h1', groupbyAgg_keys _ _, groupbyAgg_keys _ _, ?_⟩
  intro t v
  rw [mem_group_rows _ df ts _ hinj f h2 h3, mem_group_rows _ df ts id Function.injective_id f' h2' h3']
  constructor
  · rintro ⟨t', ht, h⟩
    rw [hinj ht]
    exact ⟨t', rfl, h⟩
  · rintro ⟨t', rfl, h⟩
    exact ⟨_, rfl, h⟩

/-- **C73** Labels other than "right" and "left" raise; repeated grid stamps raise unless the grid times are just those of
the samples. -/
theorem C73_errors (df : List (Int × V)) (ts : List Int) (method : List V → R) (label : String) (zone : Option Int) :
    (label ≠ "right" → label ≠ "left" → resampleToGrid df ts method label zone = .error .notImplemented) ∧
    (label = "right" ∨ label = "left" → ¬ ts.Nodup → ts.map (· - zone.getD 0) ≠ df.map Prod.fst →
      resampleToGrid df ts method label zone = .error .valueError) := by
  have hfst : ∀ us : List Int, us.length = ts.length → (us.zip ts).map Prod.fst = us := by
    intro us hu
    exact List.map_fst_zip hu.le
  constructor
  · intro h1 h2
    unfold resampleToGrid fillMethod
    rw [if_neg h1, if_neg h2]
    rfl
  · intro hl hdup hne
    have hdup' : ¬ (ts.map (· - zone.getD 0)).Nodup := fun h =>
      hdup ((List.nodup_map_iff (fun a b h => by simpa using h)).mp h)
    obtain ⟨f, hf⟩ : ∃ f, fillMethod label = .ok f := by
      rcases hl with rfl | rfl <;> exact ⟨_, rfl⟩
    have key : ∀ us : List Int, us = ts.map (· - zone.getD 0) →
        reindex (us.zip ts) (df.map Prod.fst) f = .error .valueError := by
      rintro us rfl
      unfold reindex
      rw [hfst _ (by simp), if_neg hne, if_pos hdup']
    unfold resampleToGrid
    rw [hf]
    show Except.bind (reindex _ _ _) _ = _
    cases zone with
    | none => rw [key _ (by simp)]; rfl
    | some off => rw [key (ts.map (· - off)) rfl]; rfl

/-- **C73** `resample_to_grid_time_series` does not crop: every sample that has a later (label "right") or earlier
(label "left") grid stamp at any distance counts, so the first (last) stamp also collects all samples before the
first (after the last) grid stamp. -/
theorem C73_resample (df : List (Int × V)) (ts : List Int) (method : List V → R) (right : Bool)
    (hsort : ts.Pairwise (· < ·)) :
    ∃ rows, resampleToGrid df ts method (if right then "right" else "left") none = .ok rows ∧
      (rows.map Prod.fst).Pairwise (· < ·) ∧
      ∀ t v, (t, v) ∈ rows ↔
        let grp := df.filter fun x => if right then decide (IsNext ts x.1 t) else decide (IsPrev ts x.1 t)
        grp ≠ [] ∧ v = method (grp.map Prod.snd) := by
  have hfill : fillMethod (if right then "right" else "left") = .ok (if right then .bfill else .ffill) := by
    cases right <;> rfl
  have hg : ∀ e ∈ ts.map (fun t => (t, id t)), e.2 = id e.1 := by
    intro e he
    obtain ⟨t, _, rfl⟩ := List.mem_map.mp he
    rfl
  have hfst : (ts.map fun t => (t, id t)).map Prod.fst = ts := by
    rw [List.map_map]
    exact List.map_id ts
  have hs : ((ts.map fun t => (t, id t)).map Prod.fst).Pairwise (· ≤ ·) := by
    rw [hfst]
    exact hsort.imp fun h => le_of_lt h
  have hre := reindex_ok _ id hg (if right then .bfill else .ffill) hs (df.map Prod.fst)
    (Or.inl (by rw [hfst]; exact hsort.imp fun h => ne_of_lt h))
  refine ⟨groupbyAgg (df.map fun x =>
    (pick (ts.map fun t => (t, id t)) (if right then .bfill else .ffill) x.1, x.2)) method, ?_,
    groupbyAgg_keys _ _, ?_⟩
  · unfold resampleToGrid
    rw [hfill]
    dsimp only
    have hz := zip_map_self ts id
    rw [List.map_id] at hz
    rw [hz]
    show Except.bind (reindex _ _ _) _ = _
    rw [hre]
    show Except.ok _ = _
    rw [zip_map_pick]
  · intro t v
    rw [mem_groupbyAgg]
    have hgrp : ((df.map fun x => (pick (ts.map fun t => (t, id t)) (if right then .bfill else .ffill) x.1, x.2)).filter
        fun r => decide (r.1 = some t)).map Prod.snd =
        (df.filter fun x => if right then decide (IsNext ts x.1 t) else decide (IsPrev ts x.1 t)).map Prod.snd := by
      rw [filter_rows _ _ (fun o => decide (o = some t))]
      congr 1
      apply List.filter_congr
      intro x _
      have hp := pick_spec _ id hg (if right then .bfill else .ffill) hs x.1 t
      rw [hfst] at hp
      cases right with
      | true =>
        apply decide_eq_decide.mpr
        rw [hp]
        exact ⟨by rintro ⟨u, h, rfl⟩; exact h, fun h => ⟨t, h, rfl⟩⟩
      | false =>
        apply decide_eq_decide.mpr
        rw [hp]
        exact ⟨by rintro ⟨u, h, rfl⟩; exact h, fun h => ⟨t, h, rfl⟩⟩
    dsimp only
    rw [hgrp]
    constructor
    · rintro ⟨h1, h2⟩
      refine ⟨?_, h2⟩
      intro hnil
      rw [hnil, List.map_nil, List.map_eq_nil_iff] at hgrp
      exact h1 hgrp
    · rintro ⟨h1, h2⟩
      refine ⟨?_, h2⟩
      intro hnil
      rw [hnil, List.map_nil] at hgrp
      exact h1 (List.map_eq_nil_iff.mp hgrp.symm)

/-! ## Examples -/

section examples

/-- samples every 10 minutes -/
def exDf : List (Int × Int) := [(0, 1), (10, 2), (20, 3), (30, 4), (40, 5), (50, 6), (60, 7), (70, 8)]

-- the sample at 70 has no next stamp, the one at 0 lies before the first stamp
example : aggregate true exDf ⟨[5, 35, 65, 95], true⟩ List.sum = .ok [(35, 9), (65, 18)] := by decide +kernel

example : aggregate true exDf ⟨[5, 35, 65, 95], true⟩ List.sum "left" = .ok [(5, 9), (35, 18), (65, 8)] := by
  decide +kernel

example : aggregate true exDf ⟨[65, 95, 125], false⟩ List.sum "right" (some 60) = .ok [(95, 9), (125, 18)] := by
  decide +kernel

example : aggregate true exDf ⟨[5, 35, 65], true⟩ List.sum "center" = .error .notImplemented := by decide +kernel

example : aggregate true exDf ⟨[5, 35, 35], true⟩ List.sum = .error .valueError := by decide +kernel

-- without cropping the first stamp collects everything before it
example : resampleToGrid exDf [35, 35, 95] List.sum "right" none = .error .valueError ∧
    resampleToGrid exDf [35, 65] List.sum "center" none = .error .notImplemented := by decide +kernel

example : resampleToGrid exDf [35, 65, 95] List.sum "right" none = .ok [(35, 10), (65, 18), (95, 8)] := by
  decide +kernel

end examples

end Verif.Props
