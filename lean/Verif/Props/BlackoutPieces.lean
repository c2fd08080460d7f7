import Verif.Props.Blackout
import Mathlib.Tactic.Tauto

/-!
# Property C135: the blackout mask in pieces, and what it depends on
-/

namespace Verif.Props
open Verif Verif.Blackout

variable {F : Type} [PyFloat F]

/-- A piece of a record that begins and ends with a valid sample. -/
def ValidEnds (rsl : List F) : Prop :=
  rsl ≠ [] ∧ ¬ NanAt rsl 0 ∧ ¬ NanAt rsl (rsl.length - 1)

/-! ## Lemmas -/

theorem nanAt_left (l r : List F) {i : Nat} (h : i < l.length) : NanAt (l ++ r) i ↔ NanAt l i := by
  unfold NanAt
  rw [List.getElem?_append_left h]

theorem nanAt_right (l r : List F) (i : Nat) : NanAt (l ++ r) (l.length + i) ↔ NanAt r i := by
  unfold NanAt
  rw [List.getElem?_append_right (by omega), Nat.add_sub_cancel_left]

theorem belowAt_left (l r : List F) (t : F) {i : Nat} (h : i < l.length) :
    BelowAt (l ++ r) t i ↔ BelowAt l t i := by
  unfold BelowAt
  rw [List.getElem?_append_left h]

theorem belowAt_right (l r : List F) (t : F) (i : Nat) :
    BelowAt (l ++ r) t (l.length + i) ↔ BelowAt r t i := by
  unfold BelowAt
  rw [List.getElem?_append_right (by omega), Nat.add_sub_cancel_left]

/-- The reports of a gap look only at the neighbouring samples; the ends of a record with valid ends do not
matter. -/
theorem reported_left (l r : List F) (t : F) (hl : ValidEnds l) (hr : ValidEnds r) {a b : Nat}
    (hg : IsGap l a b) :
    IsGap (l ++ r) a b ∧ (ForwardReported (l ++ r) t a ↔ ForwardReported l t a) ∧
      (BackwardReported (l ++ r) t b ↔ BackwardReported l t b) := by
  obtain ⟨hne, h0, h1⟩ := hl
  obtain ⟨hne', h0', h1'⟩ := hr
  have hpos : 0 < l.length := List.length_pos_iff.mpr hne
  have hpos' : 0 < r.length := List.length_pos_iff.mpr hne'
  have ha : 0 < a := by
    rcases Nat.eq_zero_or_pos a with rfl | h
    · exact absurd (hg.2.1 0 le_rfl hg.1) h0
    · exact h
  have hb : b + 1 < l.length := by
    have hb1 := (hg.2.1 b hg.1 le_rfl).lt
    rcases Nat.lt_or_ge (b + 1) l.length with h | h
    · exact h
    · have : l.length - 1 = b := by omega
      rw [this] at h1
      exact absurd (hg.2.1 b hg.1 le_rfl) h1
  have hab := hg.1
  have hz : ¬ NanAt (l ++ r) 0 := by rw [nanAt_left l r hpos]; exact h0
  have hz' : ¬ NanAt (l ++ r) l.length := by
    have := nanAt_right l r 0
    rw [Nat.add_zero] at this
    rw [this]; exact h0'
  have hend : ¬ NanAt (l ++ r) ((l ++ r).length - 1) := by
    have := nanAt_right l r (r.length - 1)
    rw [List.length_append, (by omega : l.length + r.length - 1 = l.length + (r.length - 1)), this]
    exact h1'
  refine ⟨⟨hg.1, ?_, ?_, ?_⟩, ?_, ?_⟩
  · intro k h2 h3
    rw [nanAt_left l r (by omega)]
    exact hg.2.1 k h2 h3
  · right
    rw [nanAt_left l r (by omega)]
    rcases hg.2.2.1 with h | h
    · omega
    · exact h
  · rw [nanAt_left l r hb]
    exact hg.2.2.2
  · unfold ForwardReported
    rw [belowAt_left l r t (by omega)]
    have : NanAt (l ++ r) (cycPrev (l ++ r).length (a - 1)) ↔ NanAt l (cycPrev l.length (a - 1)) := by
      unfold cycPrev
      split_ifs with h
      · exact iff_of_false hend h1
      · exact nanAt_left l r (by omega)
    rw [this]
  · unfold BackwardReported
    rw [belowAt_left l r t hb]
    have : NanAt (l ++ r) (cycNext (l ++ r).length (b + 1)) ↔ NanAt l (cycNext l.length (b + 1)) := by
      unfold cycNext
      rw [List.length_append, if_neg (by omega)]
      split_ifs with h
      · rw [h]
        exact iff_of_false hz' h0
      · exact nanAt_left l r (by omega)
    rw [this]

theorem reported_right (l r : List F) (t : F) (hl : ValidEnds l) (hr : ValidEnds r) {a b : Nat}
    (hg : IsGap r a b) :
    IsGap (l ++ r) (l.length + a) (l.length + b) ∧
      (ForwardReported (l ++ r) t (l.length + a) ↔ ForwardReported r t a) ∧
      (BackwardReported (l ++ r) t (l.length + b) ↔ BackwardReported r t b) := by
  obtain ⟨hne, h0, h1⟩ := hl
  obtain ⟨hne', h0', h1'⟩ := hr
  have hpos : 0 < l.length := List.length_pos_iff.mpr hne
  have hpos' : 0 < r.length := List.length_pos_iff.mpr hne'
  have ha : 0 < a := by
    rcases Nat.eq_zero_or_pos a with rfl | h
    · exact absurd (hg.2.1 0 le_rfl hg.1) h0'
    · exact h
  have hb : b + 1 < r.length := by
    have hb1 := (hg.2.1 b hg.1 le_rfl).lt
    rcases Nat.lt_or_ge (b + 1) r.length with h | h
    · exact h
    · have : r.length - 1 = b := by omega
      rw [this] at h1'
      exact absurd (hg.2.1 b hg.1 le_rfl) h1'
  have hab := hg.1
  have hz : ¬ NanAt (l ++ r) 0 := by rw [nanAt_left l r hpos]; exact h0
  have hz' : ¬ NanAt (l ++ r) (l.length - 1) := by rw [nanAt_left l r (by omega)]; exact h1
  refine ⟨⟨by omega, ?_, ?_, ?_⟩, ?_, ?_⟩
  · intro k h2 h3
    obtain ⟨j, rfl⟩ : ∃ j, k = l.length + j := ⟨k - l.length, by omega⟩
    rw [nanAt_right l r]
    exact hg.2.1 j (by omega) (by omega)
  · right
    rw [(by omega : l.length + a - 1 = l.length + (a - 1)), nanAt_right l r]
    rcases hg.2.2.1 with h | h
    · omega
    · exact h
  · rw [Nat.add_assoc, nanAt_right l r]
    exact hg.2.2.2
  · unfold ForwardReported
    rw [(by omega : l.length + a - 1 = l.length + (a - 1)), belowAt_right l r t]
    have : NanAt (l ++ r) (cycPrev (l ++ r).length (l.length + (a - 1))) ↔ NanAt r (cycPrev r.length (a - 1)) := by
      unfold cycPrev
      rw [if_neg (by omega)]
      split_ifs with h
      · rw [h, Nat.add_zero]
        exact iff_of_false hz' h1'
      · rw [(by omega : l.length + (a - 1) - 1 = l.length + (a - 1 - 1))]
        exact nanAt_right l r _
    rw [this]
    constructor
    · rintro ⟨_, h⟩; exact ⟨ha, h⟩
    · rintro ⟨_, h⟩; exact ⟨by omega, h⟩
  · unfold BackwardReported
    rw [Nat.add_assoc, belowAt_right l r t]
    have : NanAt (l ++ r) (cycNext (l ++ r).length (l.length + (b + 1))) ↔ NanAt r (cycNext r.length (b + 1)) := by
      unfold cycNext
      rw [List.length_append]
      by_cases h : b + 1 + 1 = r.length
      · rw [if_pos (by omega), if_pos h]
        exact iff_of_false hz h0'
      · rw [if_neg (by omega), if_neg h, Nat.add_assoc]
        exact nanAt_right l r _
    rw [this]

theorem bool_list_ext (p q : List Bool) (hl : p.length = q.length)
    (h : ∀ i < p.length, (p[i]? = some true ↔ q[i]? = some true)) : p = q := by
  apply List.ext_getElem? 
  intro i
  by_cases hi : i < p.length
  · have := h i hi
    rw [List.getElem?_eq_getElem hi, List.getElem?_eq_getElem (hl ▸ hi)] at this ⊢
    rw [Option.some_inj, Option.some_inj] at this
    congr 1
    exact Bool.eq_iff_iff.mpr this
  · rw [List.getElem?_eq_none (by omega), List.getElem?_eq_none (by omega)]

theorem validEnds_append (l r : List F) (hl : ValidEnds l) (hr : ValidEnds r) : ValidEnds (l ++ r) := by
  have hpos : 0 < l.length := List.length_pos_iff.mpr hl.1
  have hpos' : 0 < r.length := List.length_pos_iff.mpr hr.1
  refine ⟨by simp [hl.1], ?_, ?_⟩
  · rw [nanAt_left l r hpos]; exact hl.2.1
  · have := nanAt_right l r (r.length - 1)
    rw [List.length_append, (by omega : l.length + r.length - 1 = l.length + (r.length - 1)), this]
    exact hr.2.2

/-- Both masks of two pieces put together. -/
theorem masks_append [LawfulPyFloat F] (l r : List F) (t : F) (hl : ValidEnds l) (hr : ValidEnds r) :
    (∃ m m', twoSidedMask l t = .ok m ∧ twoSidedMask r t = .ok m' ∧ twoSidedMask (l ++ r) t = .ok (m ++ m')) ∧
    ∃ m m', forwardMask l t = .ok m ∧ forwardMask r t = .ok m' ∧ forwardMask (l ++ r) t = .ok (m ++ m') := by
  constructor
  · obtain ⟨m, e, le, n, g⟩ := C12_two_sided_gap l t
    obtain ⟨m', e', le', n', g'⟩ := C12_two_sided_gap r t
    obtain ⟨M, E, LE, N, G⟩ := C12_two_sided_gap (l ++ r) t
    refine ⟨m, m', e, e', ?_⟩
    rw [E]
    congr 1
    apply bool_list_ext _ _ (by simp [LE, le, le'])
    intro i hi
    rw [LE, List.length_append] at hi
    by_cases hil : i < l.length
    · rw [List.getElem?_append_left (by omega)]
      by_cases hn : NanAt l i
      · obtain ⟨a, b, hg, h1, h2⟩ := exists_gap l i hn
        obtain ⟨hG, hF, hB⟩ := reported_left l r t hl hr hg
        rw [g a b i hg h1 h2, G a b i hG h1 h2, hF, hB]
      · refine iff_of_false (fun h => hn ?_) (fun h => hn (n i h))
        exact (nanAt_left l r hil).mp (N i h)
    · obtain ⟨j, rfl⟩ : ∃ j, i = l.length + j := ⟨i - l.length, by omega⟩
      rw [List.getElem?_append_right (by omega), le, Nat.add_sub_cancel_left]
      by_cases hn : NanAt r j
      · obtain ⟨a, b, hg, h1, h2⟩ := exists_gap r j hn
        obtain ⟨hG, hF, hB⟩ := reported_right l r t hl hr hg
        rw [g' a b j hg h1 h2, G _ _ (l.length + j) hG (by omega) (by omega), hF, hB]
      · refine iff_of_false (fun h => hn ?_) (fun h => hn (n' j h))
        exact (nanAt_right l r j).mp (N _ h)
  · obtain ⟨m, e, le, g⟩ := C11_forward_gap l t
    obtain ⟨m', e', le', g'⟩ := C11_forward_gap r t
    obtain ⟨M, E, LE, G⟩ := C11_forward_gap (l ++ r) t
    have n := C10_mask_only_nan l _ _ m e
    have n' := C10_mask_only_nan r _ _ m' e'
    have N := C10_mask_only_nan (l ++ r) _ _ M E
    refine ⟨m, m', e, e', ?_⟩
    rw [E]
    congr 1
    have tf : ∀ (P : Prop) (o o' : Option Bool) , (P → o = some true) ∧ (¬ P → o = some false) →
        (P → o' = some true) ∧ (¬ P → o' = some false) → (o = some true ↔ o' = some true) := by
      intro P o o' h h'
      by_cases hp : P
      · rw [h.1 hp, h'.1 hp]
      · rw [h.2 hp, h'.2 hp]
    apply bool_list_ext _ _ (by simp [LE, le, le'])
    intro i hi
    rw [LE, List.length_append] at hi
    by_cases hil : i < l.length
    · rw [List.getElem?_append_left (by omega)]
      by_cases hn : NanAt l i
      · obtain ⟨a, b, hg, h1, h2⟩ := exists_gap l i hn
        obtain ⟨hG, hF, hB⟩ := reported_left l r t hl hr hg
        have h3 := G a b i hG h1 h2
        rw [hF] at h3
        exact tf _ _ _ h3 (g a b i hg h1 h2)
      · refine iff_of_false (fun h => hn ?_) (fun h => hn (n i h))
        exact (nanAt_left l r hil).mp (N i h)
    · obtain ⟨j, rfl⟩ : ∃ j, i = l.length + j := ⟨i - l.length, by omega⟩
      rw [List.getElem?_append_right (by omega), le, Nat.add_sub_cancel_left]
      by_cases hn : NanAt r j
      · obtain ⟨a, b, hg, h1, h2⟩ := exists_gap r j hn
        obtain ⟨hG, hF, hB⟩ := reported_right l r t hl hr hg
        have h3 := G _ _ (l.length + j) hG (by omega) (by omega)
        rw [hF] at h3
        exact tf _ _ _ h3 (g' a b j hg h1 h2)
      · refine iff_of_false (fun h => hn ?_) (fun h => hn (n' j h))
        exact (nanAt_right l r j).mp (N _ h)

/-! ## Theorems -/

/-- **C135** A record cut into any number of pieces, each beginning and ending with a valid sample: the masks (forward
and two-sided) of the pieces put together are the mask of the record. -/
theorem C135_pieces [LawfulPyFloat F] (pieces : List (List F)) (t : F) (hne : pieces ≠ [])
    (hv : ∀ p ∈ pieces, ValidEnds p) :
    (∃ masks, pieces.mapM (fun p => twoSidedMask p t) = .ok masks ∧
      twoSidedMask pieces.flatten t = .ok masks.flatten) ∧
    ∃ masks, pieces.mapM (fun p => forwardMask p t) = .ok masks ∧
      forwardMask pieces.flatten t = .ok masks.flatten := by
  suffices h : ValidEnds pieces.flatten ∧ (∃ masks, pieces.mapM (fun p => twoSidedMask p t) = .ok masks ∧
      twoSidedMask pieces.flatten t = .ok masks.flatten) ∧
    ∃ masks, pieces.mapM (fun p => forwardMask p t) = .ok masks ∧
      forwardMask pieces.flatten t = .ok masks.flatten from h.2
  induction pieces with
  | nil => exact absurd rfl hne
  | cons p ps ih =>
    have hp := hv p (by simp)
    cases ps with
    | nil =>
      obtain ⟨f, r, hf, _, _, _, h2⟩ := twoSided_eq p t
      refine ⟨by simpa using hp, ⟨[List.zipWith (· || ·) f r.reverse], ?_, ?_⟩, [f], ?_, ?_⟩
      · rw [List.mapM_cons, h2]; rfl
      · simpa using h2
      · rw [List.mapM_cons, hf]; rfl
      · simpa using hf
    | cons q ps =>
      obtain ⟨hve, ⟨ms, e1, e2⟩, ms', e1', e2'⟩ := ih (by simp) (fun x hx => hv x (List.mem_cons_of_mem _ hx))
      obtain ⟨⟨m, m2, a1, a2, a3⟩, m', m2', b1, b2, b3⟩ := masks_append p (q :: ps).flatten t hp hve
      refine ⟨validEnds_append _ _ hp hve, ⟨m :: ms, ?_, ?_⟩, m' :: ms', ?_, ?_⟩
      · rw [List.mapM_cons, a1, e1]; rfl
      · rw [List.flatten_cons, a3, List.flatten_cons]
        rw [e2] at a2
        injection a2 with a2
        rw [a2]
      · rw [List.mapM_cons, b1, e1']; rfl
      · rw [List.flatten_cons, b3, List.flatten_cons]
        rw [e2'] at b2
        injection b2 with b2
        rw [b2]

/-- **C135** Locality: whether the gap from `a` to `b` is masked depends only on the two samples before and the two
samples after it (away from the ends of the record). -/
theorem C135_local [LawfulPyFloat F] (rsl rsl' : List F) (t : F) (a b : Nat) (hg : IsGap rsl a b) (ha : 2 ≤ a)
    (hb : b + 2 < rsl.length) (hb' : b + 2 < rsl'.length)
    (hs : ∀ k, a ≤ k + 2 → k ≤ b + 2 → rsl[k]? = rsl'[k]?) :
    ∃ m m', twoSidedMask rsl t = .ok m ∧ twoSidedMask rsl' t = .ok m' ∧
      ∀ i, a ≤ i → i ≤ b → m[i]? = m'[i]? := by
  obtain ⟨m, e, le, _, g⟩ := C12_two_sided_gap rsl t
  obtain ⟨m', e', le', _, g'⟩ := C12_two_sided_gap rsl' t
  have hN : ∀ k, a ≤ k + 2 → k ≤ b + 2 → (NanAt rsl' k ↔ NanAt rsl k) := by
    intro k h1 h2; unfold NanAt; rw [hs k h1 h2]
  have hB : ∀ k, a ≤ k + 2 → k ≤ b + 2 → (BelowAt rsl' t k ↔ BelowAt rsl t k) := by
    intro k h1 h2; unfold BelowAt; rw [hs k h1 h2]
  have hab := hg.1
  have hg' : IsGap rsl' a b := by
    refine ⟨hg.1, ?_, ?_, ?_⟩
    · intro k h1 h2
      rw [hN k (by omega) (by omega)]; exact hg.2.1 k h1 h2
    · rw [hN (a - 1) (by omega) (by omega)]; exact hg.2.2.1
    · rw [hN (b + 1) (by omega) (by omega)]; exact hg.2.2.2
  refine ⟨m, m', e, e', ?_⟩
  intro i h1 h2
  have key : m[i]? = some true ↔ m'[i]? = some true := by
    rw [g a b i hg h1 h2, g' a b i hg' h1 h2]
    unfold ForwardReported BackwardReported
    have c1 : cycPrev rsl.length (a - 1) = a - 2 := by unfold cycPrev; rw [if_neg (by omega)]; omega
    have c1' : cycPrev rsl'.length (a - 1) = a - 2 := by unfold cycPrev; rw [if_neg (by omega)]; omega
    have c2 : cycNext rsl.length (b + 1) = b + 2 := by unfold cycNext; rw [if_neg (by omega)]
    have c2' : cycNext rsl'.length (b + 1) = b + 2 := by unfold cycNext; rw [if_neg (by omega)]
    rw [c1, c1', c2, c2', hN (a - 2) (by omega) (by omega), hN (b + 2) (by omega) (by omega),
      hB (a - 1) (by omega) (by omega), hB (b + 1) (by omega) (by omega)]
  rw [List.getElem?_eq_getElem (by omega), List.getElem?_eq_getElem (by omega)] at key ⊢
  rw [Option.some_inj, Option.some_inj] at key
  congr 1
  exact Bool.eq_iff_iff.mpr key

/-- **C135** Of the levels only the comparison with the threshold matters: two records with the same missing samples and
the same samples below their thresholds have the same masks, e.g. after a change of the unit or an offset applied to levels
and threshold. -/
theorem C135_levels [LawfulPyFloat F] {F' : Type} [PyFloat F'] [LawfulPyFloat F'] (rsl : List F) (rsl' : List F')
    (t : F) (t' : F') (hn : rsl.map isNaN = rsl'.map isNaN) (hb : rsl.map (· <ᶠ t) = rsl'.map (· <ᶠ t')) :
    twoSidedMask rsl t = twoSidedMask rsl' t' ∧ forwardMask rsl t = forwardMask rsl' t' := by
  have hlen : rsl.length = rsl'.length := by
    have := congrArg List.length hn
    simpa using this
  have hse : startEnd rsl t = startEnd rsl' t' := by
    unfold startEnd
    rw [hn, hb]
  have hrd : ∀ (xs : List F) (ys : List F'), xs.map isNaN = ys.map isNaN → ∀ i < xs.length,
      isNaN (rd xs i) = isNaN (rd ys i) := by
    intro xs ys h i hi
    have hl : xs.length = ys.length := by simpa using congrArg List.length h
    have := congrArg (fun l => l[i]?) h
    rw [List.getElem?_map, List.getElem?_map, getElem?_eq_rd hi, getElem?_eq_rd (hl ▸ hi)] at this
    simpa using this
  have hgm : ∀ (xs : List F) (ys : List F') (gs ge : List Bool), xs.map isNaN = ys.map isNaN →
      gapMask xs gs ge = gapMask ys gs ge := by
    intro xs ys gs ge h
    have hl : xs.length = ys.length := by simpa using congrArg List.length h
    by_cases hc : gs.length < xs.length ∨ ge.length < xs.length
    · rw [gapMask, gapMask, if_pos hc, if_pos (hl ▸ hc)]
    · obtain ⟨m, e, le, c⟩ := C10_mask_characterisation xs gs ge (by omega) (by omega)
      obtain ⟨m', e', le', c'⟩ := C10_mask_characterisation ys gs ge (by omega) (by omega)
      rw [e, e']
      congr 1
      apply bool_list_ext _ _ (by omega)
      intro i hi
      rw [c i, c' i]
      have hnn : ∀ k, NanAt xs k ↔ NanAt ys k := by
        intro k
        by_cases hk : k < xs.length
        · rw [nanAt_iff xs hk, nanAt_iff ys (hl ▸ hk), hrd xs ys h k hk]
        · exact iff_of_false (fun h => hk h.lt) (fun h => hk (hl ▸ h.lt))
      unfold InMarkedGap
      simp only [hnn]
  constructor
  · unfold twoSidedMask
    rw [hse, hgm rsl rsl' _ _ hn, hgm rsl.reverse rsl'.reverse _ _ (by rw [List.map_reverse, List.map_reverse, hn])]
  · unfold forwardMask
    rw [hse, hgm rsl rsl' _ _ hn]

/-- **C135** (finding) The condition on the ends is needed. Cutting between the last sample before a gap and the gap loses
the gap (`l`, `r`). And a piece that merely ends with a missing sample may lose its first gap (`p`, `q`), because the markers
treat the record as cyclic. -/
theorem C135_cut : ∃ (l r p q : List (Fl ℚ)) (t : Fl ℚ), twoSidedMask l t = .ok [false, false, false] ∧
    twoSidedMask r t = .ok [false, false, false] ∧
    twoSidedMask (l ++ r) t = .ok [false, false, false, true, false, false] ∧
    ValidEnds p ∧ ¬ NanAt q 0 ∧
    twoSidedMask p t = .ok [false, false] ∧ twoSidedMask q t = .ok [false, false, false, false] ∧
    twoSidedMask (p ++ q) t = .ok [false, false, false, true, false, false] := by
  refine ⟨[.fin (-50), .fin (-50), .fin (-70)], [.nan, .fin (-50), .fin (-70)], [.fin (-50), .fin (-50)],
    [.fin (-70), .nan, .fin (-50), .nan], .fin (-65), by decide +kernel, by decide +kernel, by decide +kernel,
    ⟨by simp, ?_, ?_⟩, ?_, by decide +kernel, by decide +kernel, by decide +kernel⟩ <;>
  · rintro ⟨x, hx, hn⟩
    simp at hx
    subst hx
    cases hn

/-! ## Examples -/

example : ValidEnds [Fl.fin (-70 : ℚ), .nan, .fin (-50)] := by
  refine ⟨by simp, ?_, ?_⟩ <;>
  · rintro ⟨x, hx, hn⟩
    simp at hx
    subst hx
    cases hn

example : twoSidedMask [Fl.fin (-70 : ℚ), .nan, .fin (-50)] (.fin (-65)) = .ok [false, true, false] ∧
    twoSidedMask [Fl.fin (-50 : ℚ), .nan, .nan, .fin (-66)] (.fin (-65)) = .ok [false, true, true, false] ∧
    twoSidedMask [Fl.fin (-70 : ℚ), .nan, .fin (-50), .fin (-50), .nan, .nan, .fin (-66)] (.fin (-65)) =
      .ok [false, true, false, false, true, true, false] := by decide +kernel

/-- The hypotheses of `C135_local` for two records that differ at the first sample and in length. -/
example : ∃ m m', twoSidedMask [Fl.fin (-80 : ℚ), .fin (-50), .fin (-70), .nan, .fin (-50), .fin (-50)] (.fin (-65)) = .ok m ∧
    twoSidedMask [Fl.nan, .fin (-50), .fin (-70), .nan, .fin (-50), .fin (-50), .nan] (.fin (-65 : ℚ)) = .ok m' ∧
    ∀ i, 3 ≤ i → i ≤ 3 → m[i]? = m'[i]? := by
  refine C135_local _ _ _ 3 3 ⟨le_rfl, ?_, Or.inr ?_, ?_⟩ (by decide) (by decide) (by decide) ?_
  · intro k h1 h2
    interval_cases k
    exact ⟨_, rfl, rfl⟩
  · rintro ⟨x, hx, hn⟩
    simp at hx
    subst hx
    cases hn
  · rintro ⟨x, hx, hn⟩
    simp at hx
    subst hx
    cases hn
  · intro k h1 h2
    interval_cases k <;> first | omega | rfl

/-- `C135_levels`: levels and threshold shifted by 10 dB. -/
example : twoSidedMask [Fl.fin (-70 : ℚ), .nan, .fin (-50)] (.fin (-65)) =
    twoSidedMask [Fl.fin (-60 : ℚ), .nan, .fin (-40)] (.fin (-55)) :=
  (C135_levels _ _ _ _ (by decide +kernel) (by decide +kernel)).1

end Verif.Props
