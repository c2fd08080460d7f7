import Verif.Model.Blackout
import Mathlib.Data.Rat.Cast.Order
import Mathlib.Tactic.IntervalCases
import Mathlib.Algebra.Order.Ring.Rat

/-!
# Properties C10-C12: blackout gap detection

All statements hold for every float type whose comparisons behave like
IEEE's (`LawfulPyFloat`).
-/

namespace Verif.Props
open Verif Verif.Blackout

variable {F : Type} [PyFloat F]

/-- Sample `i` exists and is NaN. -/
def NanAt (rsl : List F) (i : Nat) : Prop := ∃ x, rsl[i]? = some x ∧ isNaN x = true

/-- Sample `i` exists and is below the threshold. -/
def BelowAt (rsl : List F) (t : F) (i : Nat) : Prop := ∃ x, rsl[i]? = some x ∧ (x <ᶠ t) = true

/-- Marker `i` is set. -/
def Marked (m : List Bool) (i : Nat) : Prop := m[i]? = some true

theorem marked_iff (m : List Bool) (i : Nat) : Marked m i ↔ rdB m i = true := by
  unfold Marked rdB
  rw [List.getD_eq_getElem?_getD]
  cases m[i]? <;> simp

theorem nanAt_iff (rsl : List F) {i : Nat} (h : i < rsl.length) :
    NanAt rsl i ↔ isNaN (rd rsl i) = true := by
  unfold NanAt
  rw [getElem?_eq_rd h]
  simp

theorem belowAt_iff (rsl : List F) (t : F) {i : Nat} (h : i < rsl.length) :
    BelowAt rsl t i ↔ (rd rsl i <ᶠ t) = true := by
  unfold BelowAt
  rw [getElem?_eq_rd h]
  simp

/-- What the mask should contain at `i`: a missing sample reached from a start marker through
missing samples, without an end marker on the way. -/
def InMarkedGap (rsl : List F) (gs ge : List Bool) (i : Nat) : Prop :=
  NanAt rsl i ∧ ∃ s, s ≤ i ∧ Marked gs s ∧ (∀ k, s < k → k ≤ i → NanAt rsl k) ∧
    (∀ k, s ≤ k → k ≤ i → ¬ Marked ge k)

/-- State of the loop: the flag after step `m - 1`, and the mask so far. -/
theorem maskLoop_inv (rsl : List F) (gs ge : List Bool) :
    ∀ m, m ≤ rsl.length →
      let st := forRange 0 m (rsl.map fun _ => false, false) (maskBody rsl gs ge)
      st.1.length = rsl.length ∧
      (st.2 = true ↔ ∃ s, s < m ∧ Marked gs s ∧ (∀ k, s < k → k < m → NanAt rsl k) ∧
        (∀ k, s ≤ k → k < m → ¬ Marked ge k)) ∧
      (∀ i, i < rsl.length → (rdB st.1 i = true ↔ i < m ∧ InMarkedGap rsl gs ge i)) := by
  intro m
  induction m with
  | zero =>
    intro _
    rw [forRange_empty _ _ (Nat.le_refl 0)]
    refine ⟨by simp, by simp, ?_⟩
    intro i hi
    simp [rdB, List.getD_eq_getElem?_getD, hi]
  | succ m ih =>
    intro hm
    obtain ⟨h1, h2, h3⟩ := ih (by omega)
    simp only [forRange_succ _ _ (Nat.zero_le m)]
    set st := forRange 0 m (rsl.map fun _ => false, false) (maskBody rsl gs ge)
    have hmN : m < rsl.length := by omega
    have hnan := nanAt_iff rsl hmN
    -- the flag after this step
    set fl := (maskBody rsl gs ge m st).2 with hfl
    have hflag : fl = true ↔ ∃ s, s < m + 1 ∧ Marked gs s ∧
        (∀ k, s < k → k < m + 1 → NanAt rsl k) ∧ (∀ k, s ≤ k → k < m + 1 → ¬ Marked ge k) := by
      have hval : fl = true ↔ rdB ge m = false ∧
          (rdB gs m = true ∨ (isNaN (rd rsl m) = true ∧ st.2 = true)) := by
        rw [hfl]
        unfold maskBody
        cases rdB ge m <;> cases rdB gs m <;> cases isNaN (rd rsl m) <;> cases st.2 <;> simp
      rw [hval, h2]
      constructor
      · rintro ⟨hge, hgs | ⟨hn, s, hs1, hs2, hs3, hs4⟩⟩
        · refine ⟨m, by omega, (marked_iff _ _).mpr hgs, fun k _ _ => by omega, ?_⟩
          intro k hk1 hk2
          obtain rfl : k = m := by omega
          rw [marked_iff, hge]; simp
        · refine ⟨s, by omega, hs2, ?_, ?_⟩
          · intro k hk1 hk2
            rcases Nat.lt_or_ge k m with h | h
            · exact hs3 k hk1 h
            · obtain rfl : k = m := by omega
              exact hnan.mpr hn
          · intro k hk1 hk2
            rcases Nat.lt_or_ge k m with h | h
            · exact hs4 k hk1 h
            · obtain rfl : k = m := by omega
              rw [marked_iff, hge]; simp
      · rintro ⟨s, hs1, hs2, hs3, hs4⟩
        have hge : rdB ge m = false := by
          have := hs4 m (by omega) (by omega)
          rw [marked_iff] at this
          simpa using this
        refine ⟨hge, ?_⟩
        rcases Nat.lt_or_ge s m with h | h
        · right
          exact ⟨hnan.mp (hs3 m h (by omega)), s, h, hs2, fun k a b => hs3 k a (by omega),
            fun k a b => hs4 k a (by omega)⟩
        · obtain rfl : s = m := by omega
          exact Or.inl ((marked_iff _ _).mp hs2)
    have hmask : (maskBody rsl gs ge m st).1
        = if fl && isNaN (rd rsl m) then st.1.set m true else st.1 := rfl
    refine ⟨?_, hflag, ?_⟩
    · rw [hmask]; split_ifs <;> simp [h1]
    · intro i hi
      have hgap : InMarkedGap rsl gs ge m ↔ fl = true ∧ isNaN (rd rsl m) = true := by
        unfold InMarkedGap
        rw [hflag, hnan]
        constructor
        · rintro ⟨hn, s, a, b, c, d⟩
          exact ⟨⟨s, by omega, b, fun k h1 h2 => c k h1 (by omega),
            fun k h1 h2 => d k h1 (by omega)⟩, hn⟩
        · rintro ⟨⟨s, a, b, c, d⟩, hn⟩
          exact ⟨hn, s, by omega, b, fun k h1 h2 => c k h1 (by omega),
            fun k h1 h2 => d k h1 (by omega)⟩
      rw [hmask]
      by_cases him : i = m
      · subst him
        have hold : rdB st.1 i = false := by
          have := h3 i hi
          simpa using this
        rw [hgap]
        by_cases hc : (fl && isNaN (rd rsl i)) = true
        · rw [if_pos hc]
          rw [Bool.and_eq_true] at hc
          simp [rdB, List.getD_eq_getElem?_getD, h1, hi, hc]
        · rw [if_neg hc, hold]
          rw [Bool.and_eq_true] at hc
          simp [hc]
      · have hsame : rdB (if fl && isNaN (rd rsl m) then st.1.set m true else st.1) i
            = rdB st.1 i := by
          split_ifs
          · simp [rdB, List.getD_eq_getElem?_getD, Ne.symm him]
          · rfl
        rw [hsame, h3 i hi]
        constructor
        · rintro ⟨a, b⟩; exact ⟨by omega, b⟩
        · rintro ⟨a, b⟩; exact ⟨by omega, b⟩

/-- **C10** The mask has the length of the signal, and is set at `i` exactly if sample `i` is
missing and is reached from a start marker through missing samples without meeting an end
marker. For arbitrary markers. -/
theorem C10_mask_characterisation (rsl : List F) (gs ge : List Bool)
    (hs : rsl.length ≤ gs.length) (he : rsl.length ≤ ge.length) :
    ∃ mask, gapMask rsl gs ge = .ok mask ∧ mask.length = rsl.length ∧
      ∀ i, mask[i]? = some true ↔ InMarkedGap rsl gs ge i := by
  obtain ⟨h1, _, h3⟩ := maskLoop_inv rsl gs ge rsl.length le_rfl
  refine ⟨_, by rw [gapMask, if_neg (by omega)], h1, ?_⟩
  intro i
  by_cases hi : i < rsl.length
  · rw [getElem?_eq_rdB (by rw [h1]; exact hi), Option.some_inj, h3 i hi]
    exact ⟨fun h => h.2, fun h => ⟨hi, h⟩⟩
  · rw [List.getElem?_eq_none (by rw [h1]; omega)]
    constructor
    · intro h; cases h
    · rintro ⟨⟨x, hx, _⟩, _⟩
      rw [List.getElem?_eq_none (by omega)] at hx; cases hx

/-- **C10** Only missing samples are masked. -/
theorem C10_mask_only_nan (rsl : List F) (gs ge mask : List Bool)
    (hmask : gapMask rsl gs ge = .ok mask) (i : Nat) (hi : mask[i]? = some true) :
    NanAt rsl i := by
  by_cases hl : gs.length < rsl.length ∨ ge.length < rsl.length
  · rw [gapMask, if_pos hl] at hmask; cases hmask
  · obtain ⟨m, h1, _, h3⟩ := C10_mask_characterisation rsl gs ge (by omega) (by omega)
    obtain rfl : m = mask := by rw [h1] at hmask; injection hmask
    exact ((h3 i).mp hi).1

example : gapMask [Fl.fin (-70:ℚ), .nan, .nan, .fin (-50), .nan]
    [true, false, false, false, false] [false, false, false, false, false]
    = .ok [false, true, true, false, false] := by decide +kernel

/-! ### The markers -/

/-- Index before `i` in a cyclic array of length `n`. -/
def cycPrev (n i : Nat) : Nat := if i = 0 then n - 1 else i - 1
/-- Index after `i` in a cyclic array of length `n`. -/
def cycNext (n i : Nat) : Nat := if i + 1 = n then 0 else i + 1

theorem getElem?_rollLeft {α : Type} (xs : List α) (i : Nat) (h : i < xs.length) :
    (rollLeft xs)[i]? = xs[cycNext xs.length i]? := by
  unfold rollLeft cycNext
  rw [List.getElem?_append]
  simp only [List.length_drop, List.getElem?_drop, List.getElem?_take]
  split_ifs with h1 h2 h3 h4 <;> first | omega | skip
  · rw [Nat.add_comm]
  · congr 1; omega

theorem getElem?_rollRight {α : Type} (xs : List α) (i : Nat) (h : i < xs.length) :
    (rollRight xs)[i]? = xs[cycPrev xs.length i]? := by
  unfold rollRight cycPrev
  rw [List.getElem?_append]
  simp only [List.length_drop, List.getElem?_drop, List.getElem?_take]
  split_ifs with h1 h2 h3 h4 <;> first | omega | skip
  · congr 1; omega
  · congr 1; omega

theorem length_startEnd (rsl : List F) (t : F) :
    (startEnd rsl t).1.length = rsl.length ∧ (startEnd rsl t).2.length = rsl.length := by
  simp only [startEnd, rollLeft, rollRight, List.length_zipWith, List.length_append,
    List.length_drop, List.length_take, List.length_map]
  omega

/-- Marker `gap_start`: below the threshold and (cyclically) followed by a NaN. -/
theorem marked_start (rsl : List F) (t : F) (i : Nat) (hi : i < rsl.length) :
    Marked (startEnd rsl t).1 i ↔ BelowAt rsl t i ∧ NanAt rsl (cycNext rsl.length i) := by
  have hc : cycNext rsl.length i < rsl.length := by unfold cycNext; split_ifs <;> omega
  unfold Marked startEnd
  simp only [List.getElem?_zipWith]
  rw [getElem?_rollLeft _ _ (by simpa using hi), List.length_map, List.getElem?_map,
    List.getElem?_map, getElem?_eq_rd hi, getElem?_eq_rd hc, belowAt_iff rsl t hi,
    nanAt_iff rsl hc]
  simp [and_comm]

theorem marked_end (rsl : List F) (t : F) (i : Nat) (hi : i < rsl.length) :
    Marked (startEnd rsl t).2 i ↔ BelowAt rsl t i ∧ NanAt rsl (cycPrev rsl.length i) := by
  have hc : cycPrev rsl.length i < rsl.length := by unfold cycPrev; split_ifs <;> omega
  unfold Marked startEnd
  simp only [List.getElem?_zipWith]
  rw [getElem?_rollRight _ _ (by simpa using hi), List.length_map, List.getElem?_map,
    List.getElem?_map, getElem?_eq_rd hi, getElem?_eq_rd hc, belowAt_iff rsl t hi,
    nanAt_iff rsl hc]
  simp [and_comm]

theorem below_not_nan [LawfulPyFloat F] {rsl : List F} {t : F} {i : Nat}
    (h : BelowAt rsl t i) : ¬ NanAt rsl i := by
  obtain ⟨x, hx, hb⟩ := h
  rintro ⟨y, hy, hn⟩
  rw [hx] at hy
  obtain rfl : x = y := by simpa using hy
  have := (LawfulPyFloat.lt_not_nan _ _ hb).1
  rw [hn] at this; cases this

/-- `[a, b]` is a maximal run of missing samples. -/
def IsGap (rsl : List F) (a b : Nat) : Prop :=
  a ≤ b ∧ (∀ k, a ≤ k → k ≤ b → NanAt rsl k) ∧ (a = 0 ∨ ¬ NanAt rsl (a-1)) ∧ ¬ NanAt rsl (b+1)

theorem NanAt.lt {rsl : List F} {i : Nat} (h : NanAt rsl i) : i < rsl.length := by
  obtain ⟨x, hx, _⟩ := h
  by_contra hc
  rw [List.getElem?_eq_none (by omega)] at hx; cases hx

theorem BelowAt.lt {rsl : List F} {t : F} {i : Nat} (h : BelowAt rsl t i) : i < rsl.length := by
  obtain ⟨x, hx, _⟩ := h
  by_contra hc
  rw [List.getElem?_eq_none (by omega)] at hx; cases hx

/-- Condition under which the forward pass reports the gap starting at `a`: the sample before it is
below the threshold, and the one before that (cyclically) is not missing. -/
def ForwardReported (rsl : List F) (t : F) (a : Nat) : Prop :=
  0 < a ∧ BelowAt rsl t (a-1) ∧ ¬ NanAt rsl (cycPrev rsl.length (a-1))

theorem inMarkedGap_iff [LawfulPyFloat F] (rsl : List F) (t : F) {a b i : Nat}
    (hg : IsGap rsl a b) (h1 : a ≤ i) (h2 : i ≤ b) :
    InMarkedGap rsl (startEnd rsl t).1 (startEnd rsl t).2 i ↔ ForwardReported rsl t a := by
  have hiN : i < rsl.length := (hg.2.1 i h1 h2).lt
  constructor
  · rintro ⟨_, s, hsi, hs, hn, he⟩
    have hsm := (marked_start rsl t s (by omega)).mp hs
    have hsn : ¬ NanAt rsl s := below_not_nan hsm.1
    have hsa : s + 1 = a := by
      have hlt : s < a := by
        by_contra hc
        exact hsn (hg.2.1 s (by omega) (by omega))
      rcases hg.2.2.1 with h0 | h0
      · omega
      · by_contra hne
        exact h0 (hn (a-1) (by omega) (by omega))
    subst hsa
    refine ⟨by omega, hsm.1, fun hc => ?_⟩
    exact he s le_rfl hsi ((marked_end rsl t s (by omega)).mpr ⟨hsm.1, hc⟩)
  · rintro ⟨h0, hb, hp⟩
    refine ⟨hg.2.1 i h1 h2, a-1, by omega, ?_, ?_, ?_⟩
    · refine (marked_start rsl t (a-1) (by omega)).mpr ⟨hb, ?_⟩
      have : cycNext rsl.length (a-1) = a := by unfold cycNext; rw [if_neg (by omega)]; omega
      rw [this]
      exact hg.2.1 a le_rfl hg.1
    · intro k hk1 hk2
      exact hg.2.1 k (by omega) (by omega)
    · intro k hk1 hk2 hc
      have hm := (marked_end rsl t k (by omega)).mp hc
      rcases Nat.eq_or_lt_of_le hk1 with rfl | hlt
      · exact hp hm.2
      · exact below_not_nan hm.1 (hg.2.1 k (by omega) (by omega))

/-- **C11** The forward pass masks every sample of a gap if the sample before the gap is
below the threshold and its own (cyclic) predecessor is not missing, and no sample of
the gap otherwise; in particular never a gap that starts at step 0. -/
theorem C11_forward_gap [LawfulPyFloat F] (rsl : List F) (t : F) :
    ∃ mask, forwardMask rsl t = .ok mask ∧ mask.length = rsl.length ∧
      ∀ a b i, IsGap rsl a b → a ≤ i → i ≤ b →
        (ForwardReported rsl t a → mask[i]? = some true) ∧
        (¬ ForwardReported rsl t a → mask[i]? = some false) := by
  obtain ⟨l1, l2⟩ := length_startEnd rsl t
  obtain ⟨m, h1, h2, h3⟩ := C10_mask_characterisation rsl (startEnd rsl t).1 (startEnd rsl t).2
    l1.ge l2.ge
  refine ⟨m, h1, h2, ?_⟩
  intro a b i hg ha hb
  have hiff := (h3 i).trans (inMarkedGap_iff rsl t hg ha hb)
  refine ⟨hiff.mpr, fun h => ?_⟩
  have hlt : i < m.length := by rw [h2]; exact (hg.2.1 i ha hb).lt
  rw [getElem?_eq_rdB hlt] at hiff ⊢
  cases hv : rdB m i
  · rfl
  · exact absurd (hiff.mp (by rw [hv])) h

/-- An isolated low sample between two gaps: the second gap is *not* reported although the
sample before it is below the threshold. -/
example : forwardMask [Fl.fin (-50:ℚ), .fin (-70), .nan, .fin (-70), .nan, .fin (-50)] (.fin (-65))
    = .ok [false, false, true, false, false, false] := by decide +kernel

/-- Wrap-around: whether the first gap is reported depends on the *last* sample. -/
example : forwardMask [Fl.fin (-70:ℚ), .nan, .fin (-50)] (.fin (-65)) = .ok [false, true, false] ∧
    forwardMask [Fl.fin (-70:ℚ), .nan, .nan] (.fin (-65)) = .ok [false, false, false] := by
  decide +kernel

example : IsGap [Fl.fin (-50:ℚ), .fin (-70), .nan, .nan, .fin (-50)] 2 3 ∧
    ForwardReported [Fl.fin (-50:ℚ), .fin (-70), .nan, .nan, .fin (-50)] (.fin (-65)) 2 := by
  refine ⟨⟨by decide, ?_, Or.inr ?_, ?_⟩, by decide, ⟨_, rfl, by decide +kernel⟩, ?_⟩
  · intro k h1 h2
    interval_cases k <;> exact ⟨_, rfl, rfl⟩
  all_goals
    rintro ⟨x, hx, hn⟩
    simp [cycPrev] at hx
    subst hx
    cases hn

/-! ### Two-sided mask -/

theorem getElem?_reverse' {α : Type} (xs : List α) (i : Nat) (h : i < xs.length) :
    xs.reverse[i]? = xs[xs.length - 1 - i]? := List.getElem?_reverse h

theorem startEnd_reverse (rsl : List F) (t : F) :
    (startEnd rsl.reverse t).1 = (startEnd rsl t).2.reverse ∧
    (startEnd rsl.reverse t).2 = (startEnd rsl t).1.reverse := by
  obtain ⟨l1, l2⟩ := length_startEnd rsl t
  obtain ⟨r1, r2⟩ := length_startEnd rsl.reverse t
  rw [List.length_reverse] at r1 r2
  have hN : ∀ i, i < rsl.length → (NanAt rsl.reverse i ↔ NanAt rsl (rsl.length - 1 - i)) := by
    intro i hi; unfold NanAt; rw [List.getElem?_reverse hi]
  have hB : ∀ i, i < rsl.length →
      (BelowAt rsl.reverse t i ↔ BelowAt rsl t (rsl.length - 1 - i)) := by
    intro i hi; unfold BelowAt; rw [List.getElem?_reverse hi]
  have ext : ∀ (p q : List Bool), p.length = rsl.length → q.length = rsl.length →
      (∀ i, i < rsl.length → (Marked p i ↔ Marked q i)) → p = q := by
    intro p q hp hq h
    apply List.ext_getElem?
    intro i
    by_cases hi : i < rsl.length
    · have := h i hi
      rw [marked_iff, marked_iff] at this
      rw [getElem?_eq_rdB (by omega), getElem?_eq_rdB (by omega)]
      congr 1
      exact Bool.eq_iff_iff.mpr this
    · rw [List.getElem?_eq_none (by omega), List.getElem?_eq_none (by omega)]
  have hmr : ∀ (p : List Bool), p.length = rsl.length → ∀ i, i < rsl.length →
      (Marked p.reverse i ↔ Marked p (rsl.length - 1 - i)) := by
    intro p hp i hi
    unfold Marked
    rw [List.getElem?_reverse (by omega), hp]
  constructor
  · refine ext _ _ r1 (by simpa using l2) fun i hi => ?_
    rw [marked_start _ _ _ (by simpa using hi), hmr _ l2 i hi,
      marked_end _ _ _ (by omega), hB i hi, List.length_reverse, hN _ (by
        unfold cycNext; split_ifs <;> omega)]
    have : rsl.length - 1 - cycNext rsl.length i = cycPrev rsl.length (rsl.length - 1 - i) := by
      unfold cycNext cycPrev; split_ifs <;> omega
    rw [this]
  · refine ext _ _ r2 (by simpa using l1) fun i hi => ?_
    rw [marked_end _ _ _ (by simpa using hi), hmr _ l1 i hi,
      marked_start _ _ _ (by omega), hB i hi, List.length_reverse, hN _ (by
        unfold cycPrev; split_ifs <;> omega)]
    have : rsl.length - 1 - cycPrev rsl.length i = cycNext rsl.length (rsl.length - 1 - i) := by
      unfold cycNext cycPrev; split_ifs <;> omega
    rw [this]

theorem twoSided_eq (rsl : List F) (t : F) :
    ∃ f r, forwardMask rsl t = .ok f ∧ forwardMask rsl.reverse t = .ok r ∧
      f.length = rsl.length ∧ r.length = rsl.length ∧
      twoSidedMask rsl t = .ok (List.zipWith (· || ·) f r.reverse) := by
  obtain ⟨l1, l2⟩ := length_startEnd rsl t
  obtain ⟨r1, r2⟩ := length_startEnd rsl.reverse t
  rw [List.length_reverse] at r1 r2
  obtain ⟨f, hf, hfl, _⟩ := C10_mask_characterisation rsl (startEnd rsl t).1 (startEnd rsl t).2
    l1.ge l2.ge
  obtain ⟨r, hr, hrl, _⟩ := C10_mask_characterisation rsl.reverse (startEnd rsl.reverse t).1
    (startEnd rsl.reverse t).2 (by simp [r1]) (by simp [r2])
  refine ⟨f, r, hf, hr, hfl, by simpa using hrl, ?_⟩
  have hrev := startEnd_reverse rsl t
  unfold twoSidedMask
  rw [← hrev.1, ← hrev.2, hf, hr]
  rfl

/-- **C12** (symmetry) Reversing the series reverses the two-sided mask. -/
theorem C12_two_sided_reversal (rsl : List F) (t : F) :
    twoSidedMask rsl.reverse t = (twoSidedMask rsl t).map List.reverse := by
  obtain ⟨f, r, hf, hr, lf, lr, h⟩ := twoSided_eq rsl t
  obtain ⟨f', r', hf', hr', lf', lr', h'⟩ := twoSided_eq rsl.reverse t
  rw [List.reverse_reverse] at hr'
  obtain rfl : f' = r := by rw [hr] at hf'; injection hf' with h; exact h.symm
  obtain rfl : r' = f := by rw [hf] at hr'; injection hr' with h; exact h.symm
  rw [h, h']
  show Except.ok _ = Except.ok _
  congr 1
  rw [List.zipWith_comm_of_comm (fun a b => Bool.or_comm a b)]
  rw [List.reverse_zipWith (by simp [lf, lr]), List.reverse_reverse]

/-- Condition under which the backward pass reports the gap that ends at `b`. -/
def BackwardReported (rsl : List F) (t : F) (b : Nat) : Prop :=
  BelowAt rsl t (b+1) ∧ ¬ NanAt rsl (cycNext rsl.length (b+1))

/-- **C12** (all or nothing) The two-sided mask contains all samples of a gap or none: all if the
forward or the backward pass reports the gap, i.e. if a neighbour of the gap
is below the threshold and not itself isolated between gaps. -/
theorem C12_two_sided_gap [LawfulPyFloat F] (rsl : List F) (t : F) :
    ∃ mask, twoSidedMask rsl t = .ok mask ∧ mask.length = rsl.length ∧
      (∀ i, mask[i]? = some true → NanAt rsl i) ∧
      ∀ a b i, IsGap rsl a b → a ≤ i → i ≤ b →
        (mask[i]? = some true ↔ (ForwardReported rsl t a ∨ BackwardReported rsl t b)) := by
  obtain ⟨f, r, hf, hr, lf, lr, h⟩ := twoSided_eq rsl t
  obtain ⟨l1, l2⟩ := length_startEnd rsl t
  obtain ⟨r1, r2⟩ := length_startEnd rsl.reverse t
  rw [List.length_reverse] at r1 r2
  obtain ⟨f', hf', _, cf⟩ := C10_mask_characterisation rsl (startEnd rsl t).1 (startEnd rsl t).2
    l1.ge l2.ge
  obtain ⟨r', hr', _, cr⟩ := C10_mask_characterisation rsl.reverse (startEnd rsl.reverse t).1
    (startEnd rsl.reverse t).2 (by simp [r1]) (by simp [r2])
  obtain rfl : f' = f := by unfold forwardMask at hf; rw [hf] at hf'; injection hf' with h; exact h.symm
  obtain rfl : r' = r := by unfold forwardMask at hr; rw [hr] at hr'; injection hr' with h; exact h.symm
  have hN : ∀ i, i < rsl.length → (NanAt rsl.reverse i ↔ NanAt rsl (rsl.length - 1 - i)) := by
    intro i hi; unfold NanAt; rw [List.getElem?_reverse hi]
  have hB : ∀ i, i < rsl.length →
      (BelowAt rsl.reverse t i ↔ BelowAt rsl t (rsl.length - 1 - i)) := by
    intro i hi; unfold BelowAt; rw [List.getElem?_reverse hi]
  have hget : ∀ i, i < rsl.length → ((List.zipWith (· || ·) f' r'.reverse)[i]? = some true ↔
      InMarkedGap rsl (startEnd rsl t).1 (startEnd rsl t).2 i ∨
      InMarkedGap rsl.reverse (startEnd rsl.reverse t).1 (startEnd rsl.reverse t).2
        (rsl.length - 1 - i)) := by
    intro i hi
    rw [← cf i, ← cr]
    simp only [List.getElem?_zipWith]
    rw [List.getElem?_reverse (by omega), lr, getElem?_eq_rdB (by omega : i < f'.length),
      getElem?_eq_rdB (by omega : rsl.length - 1 - i < r'.length)]
    simp
  refine ⟨_, h, by simp [lf, lr], ?_, ?_⟩
  · intro i hi
    have hlt : i < rsl.length := by
      by_contra hc
      rw [List.getElem?_eq_none (by simp [lf, lr]; omega)] at hi; cases hi
    rcases (hget i hlt).mp hi with h1 | h1
    · exact h1.1
    · have := (hN _ (by omega)).mp h1.1
      rwa [(by omega : rsl.length - 1 - (rsl.length - 1 - i) = i)] at this
  · intro a b i hg ha hb
    have hlt : i < rsl.length := (hg.2.1 i ha hb).lt
    have hblt : b < rsl.length := (hg.2.1 b hg.1 le_rfl).lt
    rw [hget i hlt, inMarkedGap_iff rsl t hg ha hb]
    -- the mirrored gap
    have hg' : IsGap rsl.reverse (rsl.length - 1 - b) (rsl.length - 1 - a) := by
      refine ⟨by have := hg.1; omega, ?_, ?_, ?_⟩
      · intro k h1 h2
        rw [hN k (by omega)]
        exact hg.2.1 _ (by omega) (by omega)
      · by_cases hbe : rsl.length - 1 - b = 0
        · exact Or.inl hbe
        · right
          rw [hN _ (by omega)]
          have := hg.2.2.2
          rwa [(by omega : rsl.length - 1 - (rsl.length - 1 - b - 1) = b + 1)]
      · intro hc
        have hlt' := hc.lt
        rw [List.length_reverse] at hlt'
        rw [hN _ hlt'] at hc
        rcases hg.2.2.1 with h0 | h0
        · have := hg.1; omega
        · rw [(by have := hg.1; omega : rsl.length - 1 - (rsl.length - 1 - a + 1) = a - 1)] at hc
          exact h0 hc
    have hback : ForwardReported rsl.reverse t (rsl.length - 1 - b) ↔ BackwardReported rsl t b := by
      unfold ForwardReported BackwardReported
      rw [List.length_reverse]
      constructor
      · rintro ⟨h0, h1, h2⟩
        rw [hB _ (by omega), (by omega : rsl.length - 1 - (rsl.length - 1 - b - 1) = b + 1)] at h1
        refine ⟨h1, fun hc => h2 ?_⟩
        rw [hN _ (by unfold cycPrev; split_ifs <;> omega)]
        convert hc using 1
        unfold cycPrev cycNext; split_ifs <;> omega
      · rintro ⟨h1, h2⟩
        have hlt1 := h1.lt
        refine ⟨by omega, ?_, fun hc => h2 ?_⟩
        · rw [hB _ (by omega), (by omega : rsl.length - 1 - (rsl.length - 1 - b - 1) = b + 1)]
          exact h1
        · rw [hN _ (by unfold cycPrev; split_ifs <;> omega)] at hc
          convert hc using 1
          unfold cycPrev cycNext; split_ifs <;> omega
    rw [inMarkedGap_iff rsl.reverse t hg' (by omega) (by omega), hback]

/-- Every missing sample lies in a gap. -/
theorem exists_gap (rsl : List F) (i : Nat) (h : NanAt rsl i) :
    ∃ a b, IsGap rsl a b ∧ a ≤ i ∧ i ≤ b := by
  classical
  have hup : ∃ b, i ≤ b ∧ ¬ NanAt rsl (b+1) := by
    refine ⟨rsl.length, h.lt.le, fun hc => ?_⟩
    have := hc.lt; omega
  have hb := Nat.find_spec hup
  have hbm := fun k => Nat.find_min hup (m := k)
  have hdown : ∃ a, a ≤ i ∧ (∀ k, a ≤ k → k ≤ i → NanAt rsl k) ∧ (a = 0 ∨ ¬ NanAt rsl (a-1)) := by
    have : ∀ a, a ≤ i → (∀ k, a ≤ k → k ≤ i → NanAt rsl k) →
        ∃ a, a ≤ i ∧ (∀ k, a ≤ k → k ≤ i → NanAt rsl k) ∧ (a = 0 ∨ ¬ NanAt rsl (a-1)) := by
      intro a
      induction a with
      | zero => intro h1 h2; exact ⟨0, h1, h2, Or.inl rfl⟩
      | succ a ih =>
        intro h1 h2
        by_cases hn : NanAt rsl a
        · exact ih (by omega) fun k h3 h4 => by
            rcases Nat.eq_or_lt_of_le h3 with rfl | h5
            · exact hn
            · exact h2 k (by omega) h4
        · exact ⟨a+1, h1, h2, Or.inr hn⟩
    refine this i le_rfl fun k h1 h2 => ?_
    obtain rfl : k = i := by omega
    exact h
  obtain ⟨a, ha1, ha2, ha3⟩ := hdown
  refine ⟨a, Nat.find hup, ⟨by omega, ?_, ha3, hb.2⟩, ha1, hb.1⟩
  intro k h1 h2
  by_cases hk : k ≤ i
  · exact ha2 k h1 hk
  · have := hbm (k-1) (by omega)
    rw [not_and_or, not_not] at this
    rcases this with h3 | h3
    · omega
    · rwa [Nat.sub_add_cancel (by omega)] at h3

/-- **C12** (threshold) Raising the threshold never unmasks a sample. -/
theorem C12_threshold_monotone [LawfulPyFloat F] (rsl : List F) (t₁ t₂ : F) (ht : t₁ ≤ᶠ t₂)
    (m₁ m₂ : List Bool) (h₁ : twoSidedMask rsl t₁ = .ok m₁) (h₂ : twoSidedMask rsl t₂ = .ok m₂)
    (i : Nat) (hi : m₁[i]? = some true) : m₂[i]? = some true := by
  obtain ⟨m, e, _, hn, hg⟩ := C12_two_sided_gap rsl t₁
  obtain rfl : m = m₁ := by rw [e] at h₁; injection h₁
  obtain ⟨m', e', _, _, hg'⟩ := C12_two_sided_gap rsl t₂
  obtain rfl : m' = m₂ := by rw [e'] at h₂; injection h₂
  obtain ⟨a, b, hgap, ha, hb⟩ := exists_gap rsl i (hn i hi)
  have hbelow : ∀ j, BelowAt rsl t₁ j → BelowAt rsl t₂ j := by
    rintro j ⟨x, hx, hlt⟩
    exact ⟨x, hx, LawfulPyFloat.lt_of_lt_of_le hlt ht⟩
  rw [hg' a b i hgap ha hb]
  rcases (hg a b i hgap ha hb).mp hi with ⟨h1, h2, h3⟩ | ⟨h1, h2⟩
  · exact Or.inl ⟨h1, hbelow _ h2, h3⟩
  · exact Or.inr ⟨hbelow _ h1, h2⟩

example : twoSidedMask [Fl.fin (-50:ℚ), .nan, .nan, .fin (-70), .fin (-50), .nan, .fin (-60),
      .fin (-50)] (.fin (-65))
      = .ok [false, true, true, false, false, false, false, false] ∧
    twoSidedMask [Fl.fin (-50:ℚ), .nan, .nan, .fin (-70), .fin (-50), .nan, .fin (-60),
      .fin (-50)] (.fin (-55))
      = .ok [false, true, true, false, false, true, false, false] := by decide +kernel

end Verif.Props
