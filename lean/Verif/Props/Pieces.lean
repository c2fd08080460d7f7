import Verif.Props.RoundedRain
import Verif.Props.MinMaxOffset

/-!
# Property C128: processing a record in pieces
-/

namespace Verif.Props
open Verif Verif.Waa Verif.Baseline Verif.KR Verif.MinMax

section generic
variable {F : Type} [PyFloat F]

/-! ### The constant baseline -/

theorem rd_drop (xs : List F) (s i : Nat) : rd (xs.drop s) i = rd xs (s + i) := by
  simp [rd, List.getD_eq_getElem?_getD, List.getElem?_drop]

theorem rdB_drop (xs : List Bool) (s i : Nat) : rdB (xs.drop s) i = rdB xs (s + i) := by
  simp [rdB, List.getD_eq_getElem?_getD, List.getElem?_drop]

theorem ext_rd {xs ys : List F} (hl : xs.length = ys.length) (h : ∀ i, i < xs.length → rd xs i = rd ys i) : xs = ys := by
  apply List.ext_getElem?
  intro i
  by_cases hi : i < xs.length
  · rw [getElem?_eq_rd hi, getElem?_eq_rd (by omega), h i hi]
  · rw [List.getElem?_eq_none (by omega), List.getElem?_eq_none (by omega)]

/-- what the constant baseline says from a run of `n` dry steps on -/
theorem constLoop_drop (trsl : List F) (wet : List Bool) {n s : Nat} (hn : 1 ≤ n)
    (hdry : ∀ i, s ≤ i → i < s + n → i < trsl.length → rdB wet i = false) :
    ∀ i, s + i < trsl.length → rd (constLoop (trsl.drop s) (wet.drop s) n) i = rd (constLoop trsl wet n) (s + i) := by
  intro i
  induction i using Nat.strong_induction_on with
  | _ i ih =>
    intro hi
    by_cases hin : i < n
    · rw [constLoop_init _ _ hin (by simp; omega), rd_drop]
      by_cases hsn : s + i < n
      · rw [constLoop_init _ _ hsn hi]
      · rw [constLoop_rec _ _ hn (by omega) hi]
        unfold constVal
        rw [hdry (s + i) (by omega) (by omega) hi]
        simp
    · rw [constLoop_rec _ _ hn (by omega) (by simp; omega), constLoop_rec _ _ hn (by omega) hi]
      unfold constVal prevIdx
      rw [if_neg (by omega : ¬ i = 0), if_neg (by omega : ¬ i = 0), if_neg (by omega : ¬ s + i = 0),
        if_neg (by omega : ¬ s + i = 0), rdB_drop, rdB_drop, rd_drop, ih (i - 1) (by omega) (by omega),
        show s + (i - 1) = s + i - 1 by omega]
      have hsl : slice (constLoop (trsl.drop s) (wet.drop s) n) (i - n) i =
          slice (constLoop trsl wet n) (s + i - n) (s + i) := by
        have l1 := slice_length (xs := constLoop (trsl.drop s) (wet.drop s) n) (n := n) (i := i) (by omega)
          (by rw [constLoop_length]; simp; omega)
        have l2 := slice_length (xs := constLoop trsl wet n) (n := n) (i := s + i) (by omega)
          (by rw [constLoop_length]; omega)
        refine ext_rd (by omega) fun j hj => ?_
        rw [rd_slice (by omega), rd_slice (by omega), ih _ (by omega) (by omega)]
        congr 1
        omega
      rw [hsl]

/-- **C128** The constant baseline can be computed in pieces: if a record is cut before `n` dry steps, the baselines of the two
pieces, put together, are the baseline of the whole record. Holds for every number type, with gaps in the signal anywhere. -/
theorem C128_constant (trsl : List F) (wet : List Bool) (n s : Nat) (hn : 1 ≤ n) (hlen : trsl.length ≤ wet.length)
    (hs : s ≤ trsl.length) (hdry : ∀ i, s ≤ i → i < s + n → i < trsl.length → wet[i]? = some false) :
    ∃ out₁ out₂, baselineConstant (trsl.take s) (wet.take s) n = .ok out₁ ∧
      baselineConstant (trsl.drop s) (wet.drop s) n = .ok out₂ ∧ out₁.length = s ∧ out₂.length = trsl.length - s ∧
      baselineConstant trsl wet n = .ok (out₁ ++ out₂) := by
  have l1 : (constLoop (trsl.take s) (wet.take s) n).length = s := by
    rw [constLoop_length, List.length_take]; omega
  refine ⟨constLoop (trsl.take s) (wet.take s) n, constLoop (trsl.drop s) (wet.drop s) n,
    by rw [baselineConstant, if_neg (by simp; omega)], by rw [baselineConstant, if_neg (by simp; omega)], l1,
    by rw [constLoop_length, List.length_drop], ?_⟩
  rw [baselineConstant, if_neg (by omega)]
  congr 1
  have h1 := C03_constant_causal trsl (trsl.take s) wet (wet.take s) n s hn hlen (by simp; omega) hs (by simp; omega)
    (by simp) (by simp) _ _ (by rw [baselineConstant, if_neg (by omega)])
    (by rw [baselineConstant, if_neg (by simp; omega)])
  rw [← List.take_append_drop s (constLoop trsl wet n), h1, List.take_of_length_le (by omega)]
  congr 1
  refine (ext_rd (by simp [constLoop_length]) fun i hi => ?_).symm
  rw [constLoop_length, List.length_drop] at hi
  rw [rd_drop]
  refine constLoop_drop trsl wet hn (fun j h1 h2 h3 => ?_) i (by omega)
  simp [rdB, List.getD_eq_getElem?_getD, hdry j h1 h2 h3]

/-! ### The linear baseline -/

theorem set_eq_setSlice {α : Type} {xs : List α} {i : Nat} (x : α) (h : i < xs.length) : xs.set i x = setSlice xs i [x] := by
  apply List.ext_getElem?
  intro j
  rw [getElem?_setSlice (by simpa using h), List.getElem?_set]
  by_cases hj : i = j
  · subst hj; simp [h]
  · rw [if_neg hj, if_neg (by simp; omega)]

/-- the loop variables of two runs, the second of which starts `off` steps later -/
structure LinSim (off i : Nat) (S T : LinSt F) : Prop where
  ldi : S.lastDryI = off + T.lastDryI
  ldr : S.lastDryRsl = T.lastDryRsl
  liw : S.lastIsWet = T.lastIsWet
  fnan : S.foundNan = T.foundNan
  lt : T.lastDryI < i

/-- one step: the two runs write the same values to corresponding places -/
theorem LinSim.step {off i : Nat} {S T : LinSt F} {rsl wet rsl' wet' : List F} (ignoreNan : Bool) (h : LinSim off i S T)
    (hr : rd rsl (off + i) = rd rsl' i) (hw : rd wet (off + i) = rd wet' i) (hS : off + i < S.baseline.length)
    (hT : i < T.baseline.length) :
    LinSim off (i + 1) (linBody rsl wet ignoreNan (off + i) S) (linBody rsl' wet' ignoreNan i T) ∧
    ∃ a vals, T.lastDryI ≤ a ∧ a + vals.length ≤ i + 1 ∧
      (linBody rsl wet ignoreNan (off + i) S).baseline = setSlice S.baseline (off + a) vals ∧
      (linBody rsl' wet' ignoreNan i T).baseline = setSlice T.baseline a vals := by
  obtain ⟨e1, e2, e3, e4, e5⟩ := h
  unfold linBody
  dsimp only
  rw [hr, hw, e3, e4, e2, e1]
  generalize (if isNaN (rd wet' i) && ignoreNan then T.lastIsWet else truthy (rd wet' i)) = iw
  generalize (if isNaN (rd wet' i) && !ignoreNan then true else T.foundNan) = fn
  generalize (if iw && !T.lastIsWet then true else T.lastIsWet) = lw
  by_cases c1 : (iw && lw) = true
  · rw [if_pos c1, if_pos c1]
    exact ⟨⟨rfl, rfl, rfl, rfl, by simp; omega⟩, T.lastDryI, [], le_rfl, by simp; omega, by simp [setSlice], by simp [setSlice]⟩
  rw [if_neg c1, if_neg c1]
  by_cases c2 : (lw && !iw) = true
  · rw [if_pos c2, if_pos c2]
    refine ⟨⟨rfl, rfl, rfl, rfl, by simp⟩, ?_⟩
    cases fn
    · refine ⟨T.lastDryI, linspace T.lastDryRsl (rd rsl' i) (i - T.lastDryI + 1), le_rfl, by simp [linspace]; omega, ?_, ?_⟩
      · simp only [Bool.false_eq_true, if_false]
        rw [show off + i - (off + T.lastDryI) + 1 = i - T.lastDryI + 1 by omega]
      · simp
    · refine ⟨T.lastDryI, List.replicate (i + 1 - T.lastDryI) PyFloat.nan, le_rfl, by simp; omega, ?_, ?_⟩
      · simp only [if_true]
        unfold fillSlice
        rw [show off + i + 1 - (off + T.lastDryI) = i + 1 - T.lastDryI by omega]
      · simp [fillSlice]
  · rw [if_neg c2, if_neg c2]
    refine ⟨⟨rfl, rfl, rfl, rfl, by simp⟩, ?_⟩
    cases fn
    · exact ⟨i, [rd rsl' i], by omega, by simp, set_eq_setSlice _ hS, set_eq_setSlice _ hT⟩
    · exact ⟨i, [PyFloat.nan], by omega, by simp, set_eq_setSlice _ hS, set_eq_setSlice _ hT⟩

theorem linBody_dry {rsl wet : List F} {ignoreNan : Bool} {i : Nat} {S : LinSt F} (h1 : isNaN (rd wet i) = false)
    (h2 : truthy (rd wet i) = false) :
    (linBody rsl wet ignoreNan i S).lastDryI = i ∧ (linBody rsl wet ignoreNan i S).lastDryRsl = rd rsl i ∧
      (linBody rsl wet ignoreNan i S).lastIsWet = false ∧ (linBody rsl wet ignoreNan i S).foundNan = false := by
  unfold linBody
  dsimp only
  rw [h1, h2]
  cases S.lastIsWet <;> simp

/-- **C128** The linear baseline can be computed in pieces that share a dry step `s`: the piece up to and including `s` gives the
baseline before `s`, the piece starting with `s` gives the baseline after `s`, and at `s` itself the whole record has the value of
one of the two. Holds for every number type, with gaps in the signal and in the flags anywhere else, and for both values of
`ignore_nan`. -/
theorem C128_linear (rsl wet : List F) (ignoreNan : Bool) (s : Nat) (v : F) (hlen : rsl.length ≤ wet.length)
    (hs : s < rsl.length) (hv : wet[s]? = some v) (h1 : isNaN v = false) (h2 : truthy v = false) :
    ∃ out₁ out₂ out, baselineLinear (rsl.take (s + 1)) (wet.take (s + 1)) ignoreNan = .ok out₁ ∧
      baselineLinear (rsl.drop s) (wet.drop s) ignoreNan = .ok out₂ ∧ baselineLinear rsl wet ignoreNan = .ok out ∧
      out₁.length = s + 1 ∧ out₂.length = rsl.length - s ∧
      out.take s = out₁.take s ∧ out.drop (s + 1) = out₂.drop 1 ∧ (out[s]? = out₁[s]? ∨ out[s]? = out₂[0]?) := by
  have hwv : rd wet s = v := rd_of_getElem? hv
  have initB : ∀ l : List F, (linInit l).baseline.length = l.length := by intro l; simp [linInit]
  -- first piece
  have A : ∀ m, 1 ≤ m → m ≤ s + 1 →
      let S := forRange 1 m (linInit rsl) (linBody rsl wet ignoreNan)
      let T := forRange 1 m (linInit (rsl.take (s + 1))) (linBody (rsl.take (s + 1)) (wet.take (s + 1)) ignoreNan)
      LinSim 0 m S T ∧ S.baseline.length = rsl.length ∧ T.baseline.length = s + 1 ∧
        ∀ j, j ≤ s → S.baseline[j]? = T.baseline[j]? := by
    intro m hm
    induction m, hm using Nat.le_induction with
    | base =>
      intro _
      dsimp only
      rw [forRange_empty _ _ le_rfl, forRange_empty _ _ le_rfl]
      have e : rd (rsl.take (s + 1)) 0 = rd rsl 0 := rd_eq_of_take_eq (m := s + 1) (by simp) (by omega)
      refine ⟨⟨rfl, e.symm, rfl, rfl, by simp [linInit]⟩, initB _, by rw [initB]; simp; omega, ?_⟩
      intro j hj
      unfold linInit
      rw [e]
      simp only [List.getElem?_set, List.getElem?_map, List.length_map, List.getElem?_take_of_lt (by omega : j < s + 1)]
      by_cases h0 : 0 = j
      · rw [if_pos h0, if_pos h0, if_pos (by omega), if_pos (by simp; omega)]
      · rw [if_neg h0, if_neg h0]
    | succ m hm ih =>
      intro hms
      obtain ⟨i1, i2, i3, i4⟩ := ih (by omega)
      dsimp only at i1 i2 i3 i4 ⊢
      rw [forRange_succ _ _ hm, forRange_succ _ _ hm]
      have er : rd rsl (0 + m) = rd (rsl.take (s + 1)) m := by
        rw [Nat.zero_add]; exact rd_eq_of_take_eq (m := s + 1) (by simp) (by omega)
      have ew : rd wet (0 + m) = rd (wet.take (s + 1)) m := by
        rw [Nat.zero_add]; exact rd_eq_of_take_eq (m := s + 1) (by simp) (by omega)
      obtain ⟨j1, a, vals, j2, j3, j4, j5⟩ := i1.step ignoreNan er ew (by omega) (by omega)
      rw [Nat.zero_add] at j1 j4
      rw [Nat.zero_add] at j4
      refine ⟨j1, ?_, ?_, ?_⟩
      · rw [j4, length_setSlice (by omega), i2]
      · rw [j5, length_setSlice (by omega), i3]
      · intro j hj
        rw [j4, j5, getElem?_setSlice (by omega), getElem?_setSlice (by omega), i4 j hj]
  obtain ⟨a1, a2, a3, a4⟩ := A (s + 1) (by omega) le_rfl
  -- second piece
  have B : ∀ m, 1 ≤ m → m ≤ rsl.length - s →
      let S0 := forRange 1 (s + 1) (linInit rsl) (linBody rsl wet ignoreNan)
      let S := forRange 1 (s + m) (linInit rsl) (linBody rsl wet ignoreNan)
      let T := forRange 1 m (linInit (rsl.drop s)) (linBody (rsl.drop s) (wet.drop s) ignoreNan)
      LinSim s m S T ∧ S.baseline.length = rsl.length ∧ T.baseline.length = rsl.length - s ∧
        (∀ j, j < s → S.baseline[j]? = S0.baseline[j]?) ∧ (∀ j, 1 ≤ j → S.baseline[s + j]? = T.baseline[j]?) ∧
        (S.baseline[s]? = S0.baseline[s]? ∨ S.baseline[s]? = T.baseline[0]?) := by
    intro m hm
    induction m, hm using Nat.le_induction with
    | base =>
      intro _
      dsimp only
      rw [forRange_empty (lo := 1) (hi := 1) _ _ le_rfl]
      refine ⟨?_, a2, by rw [initB]; simp, fun _ _ => rfl, ?_, .inl rfl⟩
      · rcases Nat.eq_zero_or_pos s with h0 | h0
        · subst h0
          rw [forRange_empty _ _ le_rfl]
          exact ⟨rfl, by simp [linInit], rfl, rfl, by simp [linInit]⟩
        · rw [forRange_succ _ _ h0]
          obtain ⟨d1, d2, d3, d4⟩ := linBody_dry (rsl := rsl) (ignoreNan := ignoreNan)
            (S := forRange 1 s (linInit rsl) (linBody rsl wet ignoreNan)) (by rw [hwv]; exact h1) (by rw [hwv]; exact h2)
          refine ⟨d1, ?_, d3, d4, by simp [linInit]⟩
          rw [d2]
          simp only [linInit]
          rw [rd_drop, Nat.add_zero]
      · -- places after `s` still hold the initial zeros
        have Z : ∀ m, 1 ≤ m → m ≤ s + 1 → ∀ j, m ≤ j →
            (forRange 1 m (linInit rsl) (linBody rsl wet ignoreNan)).baseline[j]? = (linInit rsl).baseline[j]? := by
          intro m hm
          induction m, hm using Nat.le_induction with
          | base => intro _ j _; rw [forRange_empty _ _ le_rfl]
          | succ m hm ih =>
            intro hms j hj
            obtain ⟨i1, i2, i3, i4⟩ := A m hm (by omega)
            rw [forRange_succ _ _ hm]
            have er : rd rsl (0 + m) = rd (rsl.take (s + 1)) m := by
              rw [Nat.zero_add]; exact rd_eq_of_take_eq (m := s + 1) (by simp) (by omega)
            have ew : rd wet (0 + m) = rd (wet.take (s + 1)) m := by
              rw [Nat.zero_add]; exact rd_eq_of_take_eq (m := s + 1) (by simp) (by omega)
            obtain ⟨-, a, vals, j2, j3, j4, -⟩ := i1.step ignoreNan er ew (by omega) (by omega)
            rw [Nat.zero_add, Nat.zero_add] at j4
            rw [j4, getElem?_setSlice (by omega), if_neg (by omega), ih (by omega) j (by omega)]
        intro j hj
        rw [Z (s + 1) (by omega) le_rfl (s + j) (by omega)]
        unfold linInit
        simp only [List.getElem?_set, List.getElem?_map, List.getElem?_drop, List.length_map]
        rw [if_neg (by omega), if_neg (by omega)]
    | succ m hm ih =>
      intro hms
      obtain ⟨i1, i2, i3, i4, i5, i6⟩ := ih (by omega)
      dsimp only at i1 i2 i3 i4 i5 i6 ⊢
      rw [← Nat.add_assoc, forRange_succ (lo := 1) (hi := s + m) _ _ (by omega), forRange_succ (lo := 1) (hi := m) _ _ hm]
      obtain ⟨j1, a, vals, j2, j3, j4, j5⟩ := i1.step ignoreNan (rd_drop rsl s m).symm (rd_drop wet s m).symm
        (by omega) (by omega)
      refine ⟨j1, ?_, ?_, ?_, ?_, ?_⟩
      · rw [j4, length_setSlice (by omega), i2]
      · rw [j5, length_setSlice (by omega), i3]
      · intro j hj
        rw [j4, getElem?_setSlice (by omega), if_neg (by omega), i4 j hj]
      · intro j hj
        rw [j4, j5, getElem?_setSlice (by omega), getElem?_setSlice (by omega), i5 j hj]
        by_cases hc : a ≤ j ∧ j < a + vals.length
        · rw [if_pos (by omega), if_pos hc]
          congr 1
          omega
        · rw [if_neg (by omega), if_neg hc]
      · rw [j4, j5, getElem?_setSlice (by omega), getElem?_setSlice (by omega)]
        by_cases hc : a ≤ 0 ∧ 0 < a + vals.length
        · right
          rw [if_pos (by omega), if_pos hc]
          congr 1
          omega
        · rw [if_neg (by omega), if_neg hc]
          exact i6
  obtain ⟨b1, b2, b3, b4, b5, b6⟩ := B (rsl.length - s) (by omega) le_rfl
  rw [show s + (rsl.length - s) = rsl.length by omega] at b1 b2 b4 b5 b6
  have len1 : (rsl.take (s + 1)).length = s + 1 := by simp; omega
  have len2 : (rsl.drop s).length = rsl.length - s := by simp
  refine ⟨(forRange 1 (s + 1) (linInit (rsl.take (s + 1))) (linBody (rsl.take (s + 1)) (wet.take (s + 1)) ignoreNan)).baseline,
    (forRange 1 (rsl.length - s) (linInit (rsl.drop s)) (linBody (rsl.drop s) (wet.drop s) ignoreNan)).baseline,
    (forRange 1 rsl.length (linInit rsl) (linBody rsl wet ignoreNan)).baseline,
    by rw [baselineLinear, if_neg (by rw [len1]; simp; omega), len1],
    by rw [baselineLinear, if_neg (by rw [len2]; simp; omega), len2],
    by rw [baselineLinear, if_neg (by omega)], a3, b3, ?_, ?_, ?_⟩
  · apply List.ext_getElem?
    intro j
    by_cases hj : j < s
    · rw [List.getElem?_take_of_lt hj, List.getElem?_take_of_lt hj, b4 j hj, a4 j (by omega)]
    · simp [hj]
  · apply List.ext_getElem?
    intro j
    rw [List.getElem?_drop, List.getElem?_drop, Nat.add_assoc]
    exact b5 (1 + j) (by omega)
  · rcases b6 with h | h
    · left; rw [h, a4 s le_rfl]
    · exact .inr h

end generic

section chain
variable {F : Type} [PyFloat F] [OrderedPyFloat F]

theorem npMean_isNaN {l : List F} {a : F} (ha : a ∈ l) (h : isNaN a = true) : isNaN (npMean l) = true := by
  have key : ∀ (l : List F) (c : F), (isNaN c = true ∨ a ∈ l) → isNaN (l.foldl (· +ᶠ ·) c) = true := by
    intro l
    induction l with
    | nil => intro c hc; simpa using hc
    | cons b l ih =>
      intro c hc
      rw [List.foldl_cons]
      apply ih
      rcases hc with hc | hc
      · exact .inl (LawfulPyFloat.add_nan _ _ (by simp [hc]))
      · rcases List.mem_cons.mp hc with rfl | hc
        · exact .inl (LawfulPyFloat.add_nan _ _ (by simp [h]))
        · exact .inr hc
  unfold npMean fsum
  refine OrderedPyFloat.div_nan _ _ ?_
  rw [key l _ (.inr ha)]
  rfl

/-- a wet step after a step with missing baseline has a missing baseline -/
theorem constLoop_nan_next (trsl : List F) (wet : List Bool) {n i : Nat} (hn : 1 ≤ n) (hi : i + 1 < trsl.length) (hni : n ≤ i + 1)
    (hb : isNaN (rd (constLoop trsl wet n) i) = true) (hw : rdB wet (i + 1) = true) :
    isNaN (rd (constLoop trsl wet n) (i + 1)) = true := by
  rw [constLoop_rec _ _ hn hni hi]
  unfold constVal prevIdx
  rw [if_neg (by omega : ¬ i + 1 = 0), if_neg (by omega : ¬ i + 1 = 0), hw, Nat.add_sub_cancel]
  cases hwi : rdB wet i
  · simp only [Bool.not_false, Bool.and_self, if_true]
    refine npMean_isNaN (a := rd (constLoop trsl wet n) i) ?_ hb
    have l := slice_length (xs := constLoop trsl wet n) (n := n) (i := i + 1) hni (by rw [constLoop_length]; omega)
    have e : rd (slice (constLoop trsl wet n) (i + 1 - n) (i + 1)) (n - 1) = rd (constLoop trsl wet n) i := by
      rw [rd_slice (by omega)]
      congr 1
      omega
    rw [← e]
    exact List.mem_of_getElem? (getElem?_eq_rd (by omega))
  · simpa using hb

/-- **C128** The rain rates can be computed in pieces: if a record is cut before `n` dry steps, the rain rates of the two pieces
(baseline, wet antenna attenuation and power law with any coefficients), put together, are the rain rates of the whole record. The
signal may have gaps anywhere, also at the cut; only an infinite level at the cut is excluded. Holds in exact arithmetic and with
any rounding, for any `pow`. -/
theorem C128_rain [PyPow F] (n s : Nat) (waaMax deltaT tau L a b Rmin : F) (trsl : List F) (wet : List Bool) (hn : 1 ≤ n)
    (hlen : trsl.length ≤ wet.length) (hs : s ≤ trsl.length)
    (hdry : ∀ i, s ≤ i → i < s + n → i < trsl.length → wet[i]? = some false)
    (hmax : (PyFloat.ofInt 0 : F) ≤ᶠ waaMax) (htau : (tau ==ᶠ PyFloat.ofInt 0) = false)
    (hcut : ∀ x, trsl[s]? = some x → isNaN x = true ∨ (x -ᶠ x) = PyFloat.ofInt 0) :
    ∃ r₁ r₂, rainChainF n waaMax deltaT tau L a b Rmin (trsl.take s) (wet.take s) = .ok r₁ ∧
      rainChainF n waaMax deltaT tau L a b Rmin (trsl.drop s) (wet.drop s) = .ok r₂ ∧
      r₁.length = s ∧ r₂.length = trsl.length - s ∧
      rainChainF n waaMax deltaT tau L a b Rmin trsl wet = .ok (r₁ ++ r₂) := by
  obtain ⟨b₁, b₂, hb1, hb2, lb1, lb2, hb⟩ := C128_constant trsl wet n s hn hlen hs hdry
  have hbl : (b₁ ++ b₂).length = trsl.length := by rw [List.length_append]; omega
  have hbc : constLoop trsl wet n = b₁ ++ b₂ := by
    rw [baselineConstant, if_neg (by omega)] at hb
    injection hb
  -- first piece
  obtain ⟨w, w₁, hw, hw1, lw, lw1, ew1⟩ := schleiss_causal trsl (trsl.take s) (b₁ ++ b₂) b₁ (wet.map flagF)
    ((wet.take s).map flagF) waaMax deltaT tau s hbl.symm (by simp; omega) (by simpa using hlen) (by simp; omega) hs
    (by simp; omega) (by simp) (by rw [← lb1]; simp) (by rw [List.map_take]; simp) htau
  obtain ⟨w', hw', lw', w0', wr'⟩ := schleiss_rec trsl (b₁ ++ b₂) (wet.map flagF) waaMax deltaT tau hbl.symm
    (by simpa using hlen) htau
  rw [hw] at hw'
  cases hw'
  obtain ⟨w₂, hw2, lw2, w20, w2r⟩ := schleiss_rec (trsl.drop s) b₂ ((wet.drop s).map flagF) waaMax deltaT tau
    (by simp; omega) (by simp; omega) htau
  rw [List.length_drop] at lw2 w20 w2r
  have hA : atten (trsl.drop s) b₂ = (atten trsl (b₁ ++ b₂)).drop s := by
    unfold atten
    rw [List.drop_zipWith, ← lb1]
    simp
  have lA : (atten trsl (b₁ ++ b₂)).length = trsl.length := by simp [atten, lb1, lb2]; omega
  have hAi : ∀ i, i < trsl.length → rd (atten trsl (b₁ ++ b₂)) i = (rd trsl i -ᶠ rd (b₁ ++ b₂) i) := by
    intro i hi
    apply rd_of_getElem?
    unfold atten
    rw [List.getElem?_zipWith, getElem?_eq_rd hi, getElem?_eq_rd (by omega)]
  have hflag : ∀ i, i < trsl.length → rd (wet.map (flagF (F := F))) i = flagF (rdB wet i) := by
    intro i hi
    apply rd_of_getElem?
    rw [List.getElem?_map, getElem?_eq_rdB (by omega)]
    rfl
  have hf0 : ((flagF false : F) ==ᶠ PyFloat.ofInt 1) = false := by
    show ((PyFloat.ofInt 0 : F) ==ᶠ PyFloat.ofInt 1) = false
    rw [LawfulPyFloat.eq_iff]
    have := LawfulPyFloat.le_iff (PyFloat.ofInt 1 : F) (PyFloat.ofInt 0) (LawfulPyFloat.isNaN_ofInt 1) (LawfulPyFloat.isNaN_ofInt 0)
    rw [OrderedPyFloat.ofInt_zero_lt_one] at this
    rw [this]
    simp
  -- the second piece: the same WAA, or a missing baseline
  have key : ∀ i, s + i < trsl.length → rd w (s + i) = rd w₂ i ∨ isNaN (rd (b₁ ++ b₂) (s + i)) = true := by
    intro i
    induction i with
    | zero =>
      intro hi
      rw [w20 (by omega), Nat.add_zero]
      by_cases h0 : s = 0
      · left; subst h0; exact w0' (by omega)
      have hsd : rdB wet s = false := by
        simp [rdB, List.getD_eq_getElem?_getD, hdry s le_rfl (by omega) (by omega)]
      have hbs : rd (b₁ ++ b₂) s = rd trsl s := by
        rw [← hbc]
        by_cases hsn : s < n
        · rw [constLoop_init _ _ hsn (by omega)]
        · rw [constLoop_rec _ _ hn (by omega) (by omega)]
          unfold constVal
          rw [hsd]; simp
      rcases hcut _ (getElem?_eq_rd (by omega : s < trsl.length)) with h | h
      · right; rw [hbs]; exact h
      · left
        rw [wr' s (by omega) (by omega)]
        unfold schleissVal
        rw [hflag s (by omega), hsd, hf0, hAi s (by omega), hbs, h]
        simp only [Bool.false_eq_true, if_false]
        unfold pyMin
        rw [if_neg]
        rw [LawfulPyFloat.not_lt_of_le hmax]; simp
    | succ i ih =>
      intro hi
      rw [← Nat.add_assoc, wr' (s + i + 1) (by omega) (by omega), w2r (i + 1) (by omega) (by omega)]
      have e1 : rd ((wet.drop s).map (flagF (F := F))) (i + 1) = rd (wet.map flagF) (s + i + 1) := by
        rw [List.map_drop, rd_drop]; rfl
      have e2 : rd (atten (trsl.drop s) b₂) (i + 1) = rd (atten trsl (b₁ ++ b₂)) (s + i + 1) := by
        rw [hA, rd_drop]; rfl
      unfold schleissVal
      rw [e1, e2, Nat.add_sub_cancel, Nat.add_sub_cancel]
      rcases ih (by omega) with h | h
      · left; rw [h]
      · rw [hflag _ (by omega)]
        cases hwi : rdB wet (s + i + 1)
        · left
          rw [hf0]
          simp
        · right
          rw [← hbc] at h ⊢
          refine constLoop_nan_next trsl wet hn hi ?_ h hwi
          by_contra hc
          have := hdry (s + i + 1) (by omega) (by omega) hi
          simp [rdB, List.getD_eq_getElem?_getD, this] at hwi
  -- put together
  have hR : ∀ (t bb ww : List F) , t.length = bb.length → t.length = ww.length →
      (List.map (rateF a b L Rmin) (List.zipWith (· -ᶠ ·) (List.zipWith (· -ᶠ ·) t bb) ww)).length = t.length := by
    intro t bb ww h1 h2
    simp only [List.length_map, List.length_zipWith]
    omega
  refine ⟨_, _, by simp only [rainChainF, hb1, bind, Except.bind, hw1]; exact calcR_scalar _ _ _ _ _ _ _,
    by simp only [rainChainF, hb2, bind, Except.bind, hw2]; exact calcR_scalar _ _ _ _ _ _ _,
    by rw [hR _ _ _ (by simp; omega) lw1.symm]; simp; omega, by rw [hR _ _ _ (by simp; omega) (by simp; omega)]; simp, ?_⟩
  simp only [rainChainF, hb, bind, Except.bind, hw]
  rw [calcR_scalar]
  congr 1
  have hwt : w.take s = w₁ := by
    rw [ew1, List.take_of_length_le]
    rw [lw1, List.length_take]
    omega
  rw [← List.map_append]
  have split : List.zipWith (· -ᶠ ·) (List.zipWith (· -ᶠ ·) trsl (b₁ ++ b₂)) w =
      List.zipWith (· -ᶠ ·) (List.zipWith (· -ᶠ ·) (trsl.take s) b₁) w₁ ++
      List.zipWith (· -ᶠ ·) (List.zipWith (· -ᶠ ·) (trsl.drop s) b₂) (w.drop s) := by
    conv_lhs => rw [← List.take_append_drop s trsl, ← List.take_append_drop s w]
    rw [List.zipWith_append (by simp; omega), List.zipWith_append (by simp [lb1]; omega), hwt]
  rw [split, List.map_append, List.map_append]
  congr 1
  apply List.ext_getElem?
  intro i
  by_cases hi : s + i < trsl.length
  · simp only [List.getElem?_map, List.getElem?_zipWith]
    rw [List.getElem?_drop, List.getElem?_drop, getElem?_eq_rd hi, getElem?_eq_rd (by omega : s + i < w.length),
      getElem?_eq_rd (by omega : i < w₂.length), getElem?_eq_rd (by omega : i < b₂.length)]
    simp only [Option.map_some]
    rcases key i hi with h | h
    · rw [h]
    · have eb : rd (b₁ ++ b₂) (s + i) = rd b₂ i := by
        rw [← rd_drop, ← lb1, List.drop_left]
      rw [eb] at h
      have hn1 : isNaN (rd trsl (s + i) -ᶠ rd b₂ i) = true := LawfulPyFloat.sub_nan _ _ (by simp [h])
      have hz : ∀ z : F, rateF a b L Rmin ((rd trsl (s + i) -ᶠ rd b₂ i) -ᶠ z) = PyFloat.nan := by
        intro z
        unfold rateF
        rw [if_pos (LawfulPyFloat.sub_nan _ _ (by simp [hn1]))]
      rw [hz, hz]
  · rw [List.getElem?_eq_none (by simp only [List.length_map, List.length_zipWith, List.length_drop]; omega),
      List.getElem?_eq_none (by simp only [List.length_map, List.length_zipWith, List.length_drop]; omega)]

end chain

section minmax
variable {F : Type} [PyFloat F] [PyRint F]

theorem fillNan_noop {xs : List F} (h : ∀ x ∈ xs, isNaN x = false) : fillNan xs = xs := by
  unfold fillNan
  conv_rhs => rw [← List.map_id xs]
  apply List.map_congr_left
  intro x hx
  rw [h x hx]
  simp

/-- **C128** The min/max attenuation can be computed in pieces that overlap by `window` steps, if no level is missing: the first
piece gives the values before the cut `s`, the piece starting at `s` gives the values from `s + window` on. Holds for every number
type. -/
theorem C128_min_max (txMin txMax rxMin rxMax : List F) (gT gR : F) (window s : Nat)
    (h1 : txMax.length = rxMin.length) (h2 : txMin.length = rxMax.length) (h3 : txMax.length = txMin.length) (hs : s ≤ txMax.length)
    (hmax : ∀ x ∈ List.zipWith (fun a b => a -ᶠ b -ᶠ (gT +ᶠ gR) /ᶠ PyFloat.ofInt 2) txMax rxMin, isNaN x = false)
    (hmin : ∀ x ∈ List.zipWith (fun a b => a -ᶠ b +ᶠ (gT +ᶠ gR) /ᶠ PyFloat.ofInt 2) txMin rxMax, isNaN x = false) :
    ∃ out out₁ out₂, calcAMinMax txMin txMax rxMin rxMax gT gR window = .ok out ∧
      calcAMinMax (txMin.take s) (txMax.take s) (rxMin.take s) (rxMax.take s) gT gR window = .ok out₁ ∧
      calcAMinMax (txMin.drop s) (txMax.drop s) (rxMin.drop s) (rxMax.drop s) gT gR window = .ok out₂ ∧
      out.length = txMax.length ∧ out.take s = out₁ ∧ out.drop (s + window) = out₂.drop window := by
  obtain ⟨out, o1, o2, o3, o4⟩ := minMax_out txMin txMax rxMin rxMax gT gR window h1 h2 h3
  obtain ⟨p, p1, p2, p3, p4⟩ := minMax_out (txMin.take s) (txMax.take s) (rxMin.take s) (rxMax.take s) gT gR window
    (by simp; omega) (by simp; omega) (by simp; omega)
  obtain ⟨q, q1, q2, q3, q4⟩ := minMax_out (txMin.drop s) (txMax.drop s) (rxMin.drop s) (rxMax.drop s) gT gR window
    (by simp; omega) (by simp; omega) (by simp; omega)
  rw [← List.take_zipWith, ← List.take_zipWith, fillNan_noop fun x hx => hmax x (List.mem_of_mem_take hx),
    fillNan_noop fun x hx => hmin x (List.mem_of_mem_take hx)] at p4
  rw [← List.drop_zipWith, ← List.drop_zipWith, fillNan_noop fun x hx => hmax x (List.mem_of_mem_drop hx),
    fillNan_noop fun x hx => hmin x (List.mem_of_mem_drop hx)] at q4
  rw [fillNan_noop hmax, fillNan_noop hmin] at o4
  generalize List.zipWith (fun a b => a -ᶠ b -ᶠ (gT +ᶠ gR) /ᶠ PyFloat.ofInt 2) txMax rxMin = U at *
  generalize List.zipWith (fun a b => a -ᶠ b +ᶠ (gT +ᶠ gR) /ᶠ PyFloat.ofInt 2) txMin rxMax = V at *
  refine ⟨out, p, q, o1, p1, q1, o2, ?_, ?_⟩
  · apply List.ext_getElem?
    intro i
    by_cases hi : i < s
    · rw [List.getElem?_take_of_lt hi]
      by_cases hiw : i < window
      · rw [o3 i hiw (by omega), p3 i hiw (by simp; omega)]
      · obtain ⟨m, m1, m2⟩ := o4 i (by omega) (by omega)
        obtain ⟨m', m1', m2'⟩ := p4 i (by omega) (by simp; omega)
        have e : slice (V.take s) (i - window) (i + 1) = slice V (i - window) (i + 1) := by
          unfold slice
          rw [List.take_take, Nat.min_eq_left (by omega)]
        rw [e, m1] at m1'
        cases m1'
        rw [m2, m2', rd_eq_of_take_eq (m := s) (xs := U.take s) (ys := U) (by simp) hi]
    · rw [List.getElem?_eq_none (by simp; omega), List.getElem?_eq_none (by simp [p2]; omega)]
  · apply List.ext_getElem?
    intro j
    rw [List.getElem?_drop, List.getElem?_drop]
    by_cases hj : s + window + j < txMax.length
    · obtain ⟨m, m1, m2⟩ := o4 (s + window + j) (by omega) hj
      obtain ⟨m', m1', m2'⟩ := q4 (window + j) (by omega) (by simp; omega)
      have e : slice (V.drop s) (window + j - window) (window + j + 1) =
          slice V (s + window + j - window) (s + window + j + 1) := by
        unfold slice
        rw [List.take_drop, List.drop_drop]
        congr 1
        · omega
        · congr 1
          omega
      rw [e, m1] at m1'
      cases m1'
      rw [m2, m2', rd_drop, ← Nat.add_assoc]
    · rw [List.getElem?_eq_none (by omega), List.getElem?_eq_none (by rw [q2]; simp; omega)]

end minmax

section examples

/-- The constant baseline needs `n` dry steps after the cut: with `n = 2` and only one, the piece starts a new baseline in the rain. -/
theorem C128_too_few_dry_steps :
    ∃ (trsl : List (Fl ℚ)) (wet : List Bool) (out₁ out₂ out : List (Fl ℚ)),
      baselineConstant (trsl.take 2) (wet.take 2) 2 = .ok out₁ ∧ baselineConstant (trsl.drop 2) (wet.drop 2) 2 = .ok out₂ ∧
      baselineConstant trsl wet 2 = .ok out ∧ wet[2]? = some false ∧ out ≠ out₁ ++ out₂ := by
  refine ⟨[.fin 50, .fin 50, .fin 50, .fin 60], [false, false, false, true], [.fin 50, .fin 50], [.fin 50, .fin 60],
    [.fin 50, .fin 50, .fin 50, .fin 50], ?_, ?_, ?_, rfl, ?_⟩ <;> decide +kernel

/-- The min/max attenuation of a record with gaps cannot be computed in pieces: a gap is filled with the mean of the whole record. -/
theorem C128_min_max_gaps :
    ∃ (tx rx : List (Fl ℚ)) (out out₂ : List (Fl ℚ)), calcAMinMax tx tx rx rx (.fin 0) (.fin 0) 1 = .ok out ∧
      calcAMinMax (tx.drop 1) (tx.drop 1) (rx.drop 1) (rx.drop 1) (.fin 0) (.fin 0) 1 = .ok out₂ ∧
      out.drop 2 ≠ out₂.drop 1 := by
  refine ⟨[.fin 9, .fin 0, .nan], [.fin 0, .fin 0, .fin 0], [.nan, .fin 0, .fin 4], [.nan, .fin 0], ?_, ?_, ?_⟩ <;> decide +kernel

/-- two dry steps at the cut, `n = 2`, a gap in the first piece -/
example : ∃ (trsl : List (Fl ℚ)) (wet : List Bool), trsl.length = 7 ∧
    (∀ i, 3 ≤ i → i < 3 + 2 → i < trsl.length → wet[i]? = some false) ∧
    baselineConstant trsl wet 2 = .ok [.fin 50, .fin 51, .fin (101 / 2), .fin 52, .fin 54, .fin 53, .fin 53] ∧
    baselineConstant (trsl.drop 3) (wet.drop 3) 2 = .ok [.fin 52, .fin 54, .fin 53, .fin 53] := by
  refine ⟨[.fin 50, .fin 51, .nan, .fin 52, .fin 54, .fin 60, .fin 61], [false, false, true, false, false, true, true], rfl, ?_, ?_, ?_⟩
  · intro i h1 h2 _
    interval_cases i <;> rfl
  · decide +kernel
  · decide +kernel

/-- the hypotheses of the rain rate theorem hold at a cut with a number, and at a cut with a missing value -/
example (x : ℝ) : ∀ z, [Fl.fin (50 : ℝ), .fin x, .fin 60][1]? = some z → isNaN z = true ∨ (z -ᶠ z) = PyFloat.ofInt 0 := by
  intro z hz
  cases hz
  right
  simp

example : ∀ z, [Fl.fin (50 : ℝ), .nan, .fin 60][1]? = some z → isNaN z = true ∨ (z -ᶠ z) = PyFloat.ofInt 0 := by
  intro z hz
  cases hz
  left
  rfl

example {K : Type} [Field K] [LinearOrder K] [IsStrictOrderedRing K] {R : Rounding K} (x : RFl R) (y : K) (h : x.val = .fin y) :
    ∀ z, [x, x][1]? = some z → isNaN z = true ∨ (z -ᶠ z) = PyFloat.ofInt 0 := by
  intro z hz
  cases hz
  right
  apply RFl.ext
  rw [RFl.val_sub, RFl.val_zero, h, Fl.pf_sub_fin, sub_self]
  exact R.zero

/-- a linear baseline with an event on either side of the shared dry step 2; the event after it has an unknown flag -/
example :
    baselineLinear (F := Fl ℚ) [.fin 50, .fin 60, .fin 52, .fin 70, .fin 56] [.fin 0, .fin 1, .fin 0, .nan, .fin 0] false =
      .ok [.fin 50, .fin 51, .nan, .nan, .nan] ∧
    baselineLinear (F := Fl ℚ) [.fin 50, .fin 60, .fin 52] [.fin 0, .fin 1, .fin 0] false = .ok [.fin 50, .fin 51, .fin 52] ∧
    baselineLinear (F := Fl ℚ) [.fin 52, .fin 70, .fin 56] [.fin 0, .nan, .fin 0] false = .ok [.nan, .nan, .nan] := by
  refine ⟨?_, ?_, ?_⟩ <;> decide +kernel

end examples

end Verif.Props
