import Verif.Model.Baseline
import Verif.Spec.BaselineLinear

/-! Loop invariant of `baseline_linear`. -/

namespace Verif.Baseline
open Verif Verif.Spec

variable {F : Type} [PyFloat F]

/-- Effective wet flag with `ignore_nan = False`: step 0 counts as dry, NaN counts as wet. -/
def effWet (wet : List F) (i : Nat) : Prop := i ≠ 0 ∧ truthy (rd wet i) = true

/-- Unknown flag. -/
def effBad (wet : List F) (i : Nat) : Prop := i ≠ 0 ∧ isNaN (rd wet i) = true

structure LinInv (rsl : List F) (W B : Nat → Prop) (m : Nat) (s : LinSt F) : Prop where
  len : s.baseline.length = rsl.length
  ld_lt : s.lastDryI < m
  ld_dry : ¬ W s.lastDryI
  ld_rsl : s.lastDryRsl = rd rsl s.lastDryI
  since : ∀ k, s.lastDryI < k → k < m → W k
  liw : s.lastIsWet = true ↔ s.lastDryI + 1 < m
  fnan : s.foundNan = true ↔ ∃ k, s.lastDryI < k ∧ k < m ∧ B k
  inside : ∀ p q i, WetEvent W p q → q ≤ s.lastDryI → p ≤ i → i < q →
    (BadEvent B p q → s.baseline[i]? = some PyFloat.nan) ∧
    (¬ BadEvent B p q → s.baseline[i]? = some (lineAt (rd rsl p) (rd rsl q) p q i))
  stop : ∀ p q, WetEvent W p q → q ≤ s.lastDryI → (∀ r, WetEvent W q r → s.lastDryI < r) →
    (BadEvent B p q → s.baseline[q]? = some PyFloat.nan) ∧
    (¬ BadEvent B p q → s.baseline[q]? = some (rd rsl q))
  dry : ∀ i, i ≤ s.lastDryI → ¬ W i → (∀ p, ¬ WetEvent W p i) →
    (∀ r, WetEvent W i r → s.lastDryI < r) → s.baseline[i]? = some (rd rsl i)
  rest : ∀ i, s.lastDryI < i → i < rsl.length → s.baseline[i]? = some (PyFloat.ofInt 0)

theorem getElem?_linspace (a b : F) (num i : Nat) (h : i < num) :
    (linspace a b num)[i]? = some (if num = 1 then a else if i + 1 = num then b
      else a +ᶠ (PyFloat.ofInt i *ᶠ ((b -ᶠ a) /ᶠ PyFloat.ofInt ((num : Int) - 1)))) := by
  simp [linspace, h]

theorem linInv_init (rsl : List F) (W B : Nat → Prop) (h0 : ¬ W 0) (hN : 0 < rsl.length) :
    LinInv rsl W B 1 (linInit rsl) where
  len := by simp [linInit]
  ld_lt := by simp [linInit]
  ld_dry := h0
  ld_rsl := rfl
  since k h1 h2 := by simp [linInit] at h1; omega
  liw := by simp [linInit]
  fnan := by
    simp only [linInit]
    constructor
    · intro h; cases h
    · rintro ⟨k, h1, h2, _⟩; omega
  inside p q i hE hq := by
    have := hE.1; simp [linInit] at hq; omega
  stop p q hE hq := by
    have := hE.1; simp [linInit] at hq; omega
  dry i hi _ _ _ := by
    have : i = 0 := by simpa [linInit] using hi
    subst this
    simp [linInit, hN]
  rest i hi hi2 := by
    have hi' : 0 < i := by simpa [linInit] using hi
    simp only [linInit]
    rw [List.getElem?_set, if_neg (by omega)]
    simp [hi2]

/-- The invariant survives a step, whatever decides that the step is wet or bad. -/
theorem linInv_wet {rsl : List F} {W B : Nat → Prop} {m : Nat} {s : LinSt F}
    (h : LinInv rsl W B m s) (hW : W m) (fn : Bool)
    (hfn : fn = true ↔ s.foundNan = true ∨ B m) :
    LinInv rsl W B (m+1) { s with lastIsWet := true, foundNan := fn } where
  len := h.len
  ld_lt := Nat.lt_succ_of_lt h.ld_lt
  ld_dry := h.ld_dry
  ld_rsl := h.ld_rsl
  since k h1 h2 := by
    rcases Nat.lt_or_ge k m with hk | hk
    · exact h.since k h1 hk
    · obtain rfl : k = m := by omega
      exact hW
  liw := by
    have := h.ld_lt
    simp; omega
  fnan := by
    show fn = true ↔ _
    rw [hfn, h.fnan]
    constructor
    · rintro (⟨k, h1, h2, h3⟩ | hB)
      · exact ⟨k, h1, by omega, h3⟩
      · exact ⟨m, h.ld_lt, by omega, hB⟩
    · rintro ⟨k, h1, h2, h3⟩
      rcases Nat.lt_or_ge k m with hk | hk
      · exact Or.inl ⟨k, h1, hk, h3⟩
      · obtain rfl : k = m := by omega
        exact Or.inr h3
  inside := h.inside
  stop := h.stop
  dry := h.dry
  rest := h.rest

theorem wetEvent_start_unique {W : Nat → Prop} {p p' q : Nat} (h : WetEvent W p q)
    (hp : p' < q) (hd : ¬ W p') (hs : ∀ k, p' < k → k < q → W k) : p = p' := by
  rcases Nat.lt_trichotomy p p' with hlt | heq | hgt
  · exact absurd (h.2.2.2 p' hlt hp) hd
  · exact heq
  · exact absurd (hs p hgt (by have := h.1; omega)) h.2.1

theorem linInv_end {rsl : List F} {W B : Nat → Prop} {m : Nat} {s : LinSt F}
    (h : LinInv rsl W B m s) (hW : ¬ W m) (hm : m < rsl.length)
    (hlw : s.lastIsWet = true) :
    LinInv rsl W B (m+1)
      { baseline :=
          if s.foundNan then fillSlice s.baseline s.lastDryI (m + 1) PyFloat.nan
          else setSlice s.baseline s.lastDryI
            (linspace s.lastDryRsl (rd rsl m) (m - s.lastDryI + 1))
        lastDryI := m, lastDryRsl := rd rsl m, lastIsWet := false, foundNan := false } := by
  have hlt := h.ld_lt
  have hgap : s.lastDryI + 1 < m := h.liw.mp hlw
  have hlen := h.len
  have hE : WetEvent W s.lastDryI m := ⟨hgap, h.ld_dry, hW, h.since⟩
  have hbad : s.foundNan = true ↔ BadEvent B s.lastDryI m := h.fnan
  -- the new array, pointwise
  set b' := (if s.foundNan then fillSlice s.baseline s.lastDryI (m + 1) PyFloat.nan
          else setSlice s.baseline s.lastDryI
            (linspace s.lastDryRsl (rd rsl m) (m - s.lastDryI + 1))) with hb'
  have hlen' : b'.length = rsl.length := by
    rw [hb']
    split_ifs
    · rw [fillSlice, length_setSlice, hlen]
      simp; omega
    · rw [length_setSlice, hlen]
      rw [length_linspace]; omega
  have hget : ∀ i, i < s.lastDryI ∨ m < i → b'[i]? = s.baseline[i]? := by
    intro i hi
    rw [hb']
    split_ifs
    · rw [fillSlice, getElem?_setSlice (by simp; omega), if_neg (by simp; omega)]
    · rw [getElem?_setSlice (by rw [length_linspace]; omega),
        if_neg (by rw [length_linspace]; omega)]
  have hgetbad : BadEvent B s.lastDryI m → ∀ i, s.lastDryI ≤ i → i ≤ m →
      b'[i]? = some PyFloat.nan := by
    intro hB i h1 h2
    rw [hb', if_pos (hbad.mpr hB), fillSlice, getElem?_setSlice (by simp; omega),
      if_pos (by simp; omega)]
    rw [List.getElem?_replicate, if_pos (by omega)]
  have hgetgood : ¬ BadEvent B s.lastDryI m → ∀ i, s.lastDryI ≤ i → i < m →
      b'[i]? = some (lineAt (rd rsl s.lastDryI) (rd rsl m) s.lastDryI m i) := by
    intro hB i h1 h2
    rw [hb', if_neg (fun hc => hB (hbad.mp hc)),
      getElem?_setSlice (by rw [length_linspace]; omega),
      if_pos (by rw [length_linspace]; omega), getElem?_linspace _ _ _ _ (by omega),
      if_neg (by omega), if_neg (by omega), lineAt, h.ld_rsl]
    congr 5
    · omega
    · push_cast; omega
  have hgetstop : ¬ BadEvent B s.lastDryI m → b'[m]? = some (rd rsl m) := by
    intro hB
    rw [hb', if_neg (fun hc => hB (hbad.mp hc)),
      getElem?_setSlice (by rw [length_linspace]; omega),
      if_pos (by rw [length_linspace]; omega), getElem?_linspace _ _ _ _ (by omega),
      if_neg (by omega), if_pos (by omega)]
  -- an event ending at or before `m` ends at `m` or at or before the last dry step
  have hcase : ∀ p q, WetEvent W p q → q ≤ m →
      q ≤ s.lastDryI ∨ (q = m ∧ p = s.lastDryI) := by
    intro p q hpq hq
    rcases Nat.lt_or_ge s.lastDryI q with h1 | h1
    · right
      have hqm : q = m := by
        by_contra hne
        exact hpq.2.2.1 (h.since q h1 (by omega))
      subst hqm
      exact ⟨rfl, wetEvent_start_unique hpq h1 h.ld_dry h.since⟩
    · exact Or.inl h1
  refine
    { len := hlen', ld_lt := Nat.lt_succ_self m, ld_dry := hW, ld_rsl := rfl
      since := fun k h1 h2 => by simp only at h1; omega
      liw := by simp
      fnan := ?_, inside := ?_, stop := ?_, dry := ?_, rest := ?_ }
  · constructor
    · intro hc; cases hc
    · rintro ⟨k, h1, h2, _⟩; simp only at h1; omega
  · intro p q i hpq hq hpi hiq
    show (_ → b'[i]? = _) ∧ (_ → b'[i]? = _)
    rcases hcase p q hpq hq with h1 | ⟨rfl, rfl⟩
    · rw [hget i (by omega)]
      exact h.inside p q i hpq h1 hpi hiq
    · exact ⟨fun hB => hgetbad hB i hpi (by omega), fun hB => hgetgood hB i hpi hiq⟩
  · intro p q hpq hq hnext
    show (_ → b'[q]? = _) ∧ (_ → b'[q]? = _)
    simp only at hq hnext
    rcases hcase p q hpq hq with h1 | ⟨rfl, rfl⟩
    · have hne : q ≠ s.lastDryI := by
        rintro rfl
        exact absurd (hnext m hE) (lt_irrefl m)
      rw [hget q (by omega)]
      exact h.stop p q hpq h1 fun r hr => by
        have := hnext r hr; omega
    · exact ⟨fun hB => hgetbad hB q (by omega) le_rfl, hgetstop⟩
  · intro i hi hWi hprev hnext
    show b'[i]? = _
    simp only at hi hnext
    have hi1 : i < s.lastDryI := by
      by_contra hc
      rcases Nat.lt_or_ge s.lastDryI i with h1 | h1
      · rcases Nat.lt_or_ge i m with h2 | h2
        · exact hWi (h.since i h1 h2)
        · obtain rfl : i = m := by omega
          exact hprev _ hE
      · obtain rfl : i = s.lastDryI := by omega
        exact absurd (hnext m hE) (lt_irrefl m)
    rw [hget i (by omega)]
    exact h.dry i (by omega) hWi hprev fun r hr => by
      have := hnext r hr; omega
  · intro i hi hiN
    show b'[i]? = _
    simp only at hi
    rw [hget i (by omega)]
    exact h.rest i (by omega) hiN

theorem linInv_dry {rsl : List F} {W B : Nat → Prop} {m : Nat} {s : LinSt F}
    (h : LinInv rsl W B m s) (hW : ¬ W m) (hm : m < rsl.length)
    (hlw : s.lastIsWet = false) :
    LinInv rsl W B (m+1)
      { baseline := s.baseline.set m (rd rsl m)
        lastDryI := m, lastDryRsl := rd rsl m, lastIsWet := false, foundNan := false } := by
  have hlt := h.ld_lt
  have hld : m = s.lastDryI + 1 := by
    by_contra hc
    have : s.lastIsWet = true := h.liw.mpr (by omega)
    rw [hlw] at this; cases this
  have hlen := h.len
  have hget : ∀ i, i ≠ m → (s.baseline.set m (rd rsl m))[i]? = s.baseline[i]? := by
    intro i hi
    rw [List.getElem?_set, if_neg (fun hc => hi hc.symm)]
  have hgetm : (s.baseline.set m (rd rsl m))[m]? = some (rd rsl m) := by
    rw [List.getElem?_set, if_pos rfl, if_pos (by omega)]
  have hcase : ∀ p q, WetEvent W p q → q ≤ m → q ≤ s.lastDryI := by
    intro p q hpq hq
    by_contra hc
    obtain rfl : q = m := by omega
    have := hpq.1
    exact h.ld_dry (hpq.2.2.2 s.lastDryI (by omega) (by omega))
  refine
    { len := by simpa using hlen, ld_lt := Nat.lt_succ_self m, ld_dry := hW, ld_rsl := rfl
      since := fun k h1 h2 => by simp only at h1; omega
      liw := by simp
      fnan := ?_, inside := ?_, stop := ?_, dry := ?_, rest := ?_ }
  · constructor
    · intro hc; cases hc
    · rintro ⟨k, h1, h2, _⟩; simp only at h1; omega
  · intro p q i hpq hq hpi hiq
    simp only at hq ⊢
    rw [hget i (by omega)]
    exact h.inside p q i hpq (hcase p q hpq hq) hpi hiq
  · intro p q hpq hq hnext
    simp only at hq hnext ⊢
    have hq' := hcase p q hpq hq
    rw [hget q (by omega)]
    exact h.stop p q hpq hq' fun r hr => by
      have := hnext r hr; omega
  · intro i hi hWi hprev hnext
    simp only at hi hnext ⊢
    rcases Nat.lt_or_ge i m with h1 | h1
    · rw [hget i (by omega)]
      exact h.dry i (by omega) hWi hprev fun r hr => by
        have := hnext r hr; omega
    · obtain rfl : i = m := by omega
      exact hgetm
  · intro i hi hiN
    simp only at hi ⊢
    rw [hget i (by omega)]
    exact h.rest i (by omega) hiN

/-- At the end of the loop the invariant is the specification. -/
theorem LinInv.toSpec {rsl : List F} {W B : Nat → Prop} {s : LinSt F}
    (h : LinInv rsl W B rsl.length s) :
    IsLinearBaseline (rd rsl) W B rsl.length s.baseline where
  length := h.len
  inside p q i hE hq := by
    refine h.inside p q i hE ?_
    by_contra hc
    exact hE.2.2.1 (h.since q (by omega) hq)
  stop p q hE hq hnext := by
    refine h.stop p q hE ?_ fun r hr => ?_
    · by_contra hc
      exact hE.2.2.1 (h.since q (by omega) hq)
    · have := hnext r hr
      have := h.ld_lt
      omega
  dry i hi hW hprev hnext := by
    refine h.dry i ?_ hW hprev fun r hr => ?_
    · by_contra hc
      exact hW (h.since i (by omega) hi)
    · have := hnext r hr
      have := h.ld_lt
      omega
  unfinished i hi hwet := by
    refine h.rest i ?_ hi
    by_contra hc
    exact h.ld_dry (hwet _ (by omega) h.ld_lt)

/-- Loop of `baseline_linear` with `ignore_nan = False`. -/
theorem linLoop_spec (rsl wet : List F) (hN : 0 < rsl.length)
    (hnan : ∀ x : F, isNaN x = true → truthy x = true) :
    IsLinearBaseline (rd rsl) (effWet wet) (effBad wet) rsl.length
      (forRange 1 rsl.length (linInit rsl) (linBody rsl wet false)).baseline := by
  refine LinInv.toSpec (forRange_induct
    (fun m s => LinInv rsl (effWet wet) (effBad wet) m s) hN
    (linInv_init rsl _ _ (fun hc => hc.1 rfl) hN) ?_)
  intro m s hm hmN h
  unfold linBody
  simp only [Bool.and_false, Bool.false_eq_true, if_false, Bool.not_false, Bool.and_true]
  by_cases hw : truthy (rd wet m) = true
  · have hW : effWet wet m := ⟨by omega, hw⟩
    simp only [hw, Bool.true_and]
    have : (if (!s.lastIsWet) = true then true else s.lastIsWet) = true := by
      cases s.lastIsWet <;> rfl
    rw [if_pos this]
    refine linInv_wet h hW _ ?_
    by_cases hb : isNaN (rd wet m) = true
    · simp [hb, effBad]; omega
    · simp [hb, effBad]
  · have hW : ¬ effWet wet m := fun hc => hw hc.2
    have hb : ¬ isNaN (rd wet m) = true := fun hc => hw (hnan _ hc)
    have hw' : truthy (rd wet m) = false := by simpa using hw
    simp only [hw', Bool.false_and, hb, Bool.false_eq_true, if_false, Bool.not_false, Bool.and_true]
    by_cases hl : s.lastIsWet = true
    · rw [if_pos hl]
      exact linInv_end h hW hmN hl
    · have hl' : s.lastIsWet = false := by simpa using hl
      rw [if_neg hl]
      have hf : s.foundNan = false := by
        by_contra hc
        obtain ⟨k, h1, h2, _⟩ := h.fnan.mp (by simpa using hc)
        exact hl (h.liw.mpr (by omega))
      simp only [hf, Bool.false_eq_true, if_false]
      exact linInv_dry h hW hmN hl'

end Verif.Baseline
