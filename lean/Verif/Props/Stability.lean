import Verif.Lemmas.BaselineConstant
import Verif.Lemmas.BaselineLinear
import Verif.Props.RoundedRain
import Verif.Props.RoundedWaa

/-!
# Property C125: small changes of the levels change baselines, WAA and attenuation little
-/

namespace Verif.Baseline
open Verif

variable {F F' : Type} [PyFloat F] [PyFloat F']

theorem forall₂_set {α β : Type} {T : α → β → Prop} {xs : List α} {ys : List β} (h : List.Forall₂ T xs ys) (i : Nat) {x : α} {y : β}
    (hxy : T x y) : List.Forall₂ T (xs.set i x) (ys.set i y) := by
  induction h generalizing i with
  | nil => simp
  | cons hab h ih =>
    cases i with
    | zero => exact .cons hxy h
    | succ i => exact .cons hab (ih i)

theorem forall₂_setSlice {α β : Type} {T : α → β → Prop} {xs : List α} {ys : List β} (h : List.Forall₂ T xs ys) (a : Nat)
    {us : List α} {vs : List β} (huv : List.Forall₂ T us vs) : List.Forall₂ T (setSlice xs a us) (setSlice ys a vs) := by
  unfold setSlice
  rw [huv.length_eq]
  exact List.rel_append (List.rel_append (List.forall₂_take a h) huv) (List.forall₂_drop _ h)

/-- The loop of the linear baseline on two related signals; `S` relates the signals, `T` the baselines. -/
theorem linLoop_rel (S T : F → F' → Prop) (hST : ∀ a b, S a b → T a b) (hnan : T PyFloat.nan PyFloat.nan)
    (h0 : T (PyFloat.ofInt 0) (PyFloat.ofInt 0))
    {rsl wet : List F} {rsl' wet' : List F'} (ignoreNan : Bool) (hN : 0 < rsl.length) (hl : rsl'.length = rsl.length)
    (hlin : ∀ a a' b b' num, 2 ≤ num → num ≤ rsl.length → S a a' → S b b' →
      List.Forall₂ T (linspace a b num) (linspace a' b' num))
    (hs : ∀ i, i < rsl.length → S (rd rsl i) (rd rsl' i))
    (hw : ∀ i, i < rsl.length → isNaN (rd wet i) = isNaN (rd wet' i) ∧ truthy (rd wet i) = truthy (rd wet' i)) :
    List.Forall₂ T (forRange 1 rsl.length (linInit rsl) (linBody rsl wet ignoreNan)).baseline
      (forRange 1 rsl.length (linInit rsl') (linBody rsl' wet' ignoreNan)).baseline := by
  have key : ∀ m, 1 ≤ m → m ≤ rsl.length →
      let s := forRange 1 m (linInit rsl) (linBody rsl wet ignoreNan)
      let s' := forRange 1 m (linInit rsl') (linBody rsl' wet' ignoreNan)
      List.Forall₂ T s.baseline s'.baseline ∧ s.lastDryI = s'.lastDryI ∧ s.lastDryI < m ∧ S s.lastDryRsl s'.lastDryRsl ∧
        s.lastIsWet = s'.lastIsWet ∧ s.foundNan = s'.foundNan := by
    intro m hm
    induction m, hm using Nat.le_induction with
    | base =>
      intro _
      dsimp only
      rw [forRange_empty _ _ le_rfl, forRange_empty _ _ le_rfl]
      refine ⟨?_, rfl, Nat.one_pos, hs 0 hN, rfl, rfl⟩
      unfold linInit
      refine forall₂_set ?_ 0 (hST _ _ (hs 0 hN))
      rw [List.forall₂_map_left_iff, List.forall₂_map_right_iff]
      refine List.forall₂_iff_get.mpr ⟨hl.symm, fun _ _ _ => h0⟩
    | succ m hm ih =>
      intro hmN
      obtain ⟨i1, i2, i3, i4, i5, i6⟩ := ih (by omega)
      dsimp only
      rw [forRange_succ _ _ hm, forRange_succ _ _ hm]
      generalize forRange 1 m (linInit rsl) (linBody rsl wet ignoreNan) = s at *
      generalize forRange 1 m (linInit rsl') (linBody rsl' wet' ignoreNan) = s' at *
      obtain ⟨w1, w2⟩ := hw m (by omega)
      have hsm := hs m (by omega)
      unfold linBody
      dsimp only
      rw [← w1, ← w2, ← i5, ← i6, ← i2]
      generalize (if isNaN (rd wet m) && ignoreNan then s.lastIsWet else truthy (rd wet m)) = iw
      generalize (if isNaN (rd wet m) && !ignoreNan then true else s.foundNan) = fn
      generalize (if iw && !s.lastIsWet then true else s.lastIsWet) = lw
      by_cases c1 : (iw && lw) = true
      · rw [if_pos c1, if_pos c1]
        exact ⟨i1, rfl, by show s.lastDryI < m + 1; omega, i4, rfl, rfl⟩
      · rw [if_neg c1, if_neg c1]
        by_cases c2 : (lw && !iw) = true
        · rw [if_pos c2, if_pos c2]
          refine ⟨?_, rfl, Nat.lt_succ_self m, hsm, rfl, rfl⟩
          dsimp only
          split_ifs
          · unfold fillSlice
            refine forall₂_setSlice i1 _ ?_
            refine List.forall₂_iff_get.mpr ⟨by simp, fun i h1 h2 => by simpa using hnan⟩
          · exact forall₂_setSlice i1 _ (hlin _ _ _ _ _ (by omega) (by omega) i4 hsm)
        · rw [if_neg c2, if_neg c2]
          refine ⟨?_, rfl, Nat.lt_succ_self m, hsm, rfl, rfl⟩
          dsimp only
          split_ifs
          · exact forall₂_set i1 _ hnan
          · exact forall₂_set i1 _ (hST _ _ hsm)
  exact (key rsl.length hN le_rfl).1

end Verif.Baseline

namespace Verif.Props
open Verif Verif.Baseline Verif.Waa

variable {K : Type} [Field K] [LinearOrder K] [IsStrictOrderedRing K]

/-- Both missing, or two numbers that differ by at most `E`. -/
inductive UpTo (E : K) : Fl K → Fl K → Prop
  | nan : UpTo E .nan .nan
  | fin {x y : K} (h : |x - y| ≤ E) : UpTo E (.fin x) (.fin y)

omit [IsStrictOrderedRing K] in
theorem UpTo.mono {E E' : K} (h : E ≤ E') {a b : Fl K} (hab : UpTo E a b) : UpTo E' a b := by
  cases hab with
  | nan => exact .nan
  | fin h' => exact .fin (h'.trans h)

theorem UpTo.sub {E E' : K} {a b c d : Fl K} (h : UpTo E a b) (h' : UpTo E' c d) : UpTo (E + E') (a -ᶠ c) (b -ᶠ d) := by
  cases h with
  | nan => cases h' <;> exact .nan
  | fin h =>
    cases h' with
    | nan => exact .nan
    | fin h' =>
      rw [Fl.pf_sub_fin, Fl.pf_sub_fin]
      rename_i x y z w
      refine .fin ?_
      rw [show x - z - (y - w) = (x - y) - (z - w) by ring]
      exact (abs_sub _ _).trans (add_le_add h h')

theorem UpTo.add {E E' : K} {a b c d : Fl K} (h : UpTo E a b) (h' : UpTo E' c d) : UpTo (E + E') (a +ᶠ c) (b +ᶠ d) := by
  cases h with
  | nan => cases h' <;> exact .nan
  | fin h =>
    cases h' with
    | nan => exact .nan
    | fin h' =>
      rw [Fl.pf_add_fin, Fl.pf_add_fin]
      rename_i x y z w
      refine .fin ?_
      rw [show x + z - (y + w) = (x - y) + (z - w) by ring]
      exact (abs_add_le _ _).trans (add_le_add h h')

/-- mean of related values -/
theorem UpTo.npMean {E : K} {l l' : List (Fl K)} (h : List.Forall₂ (UpTo E) l l') (hne : l ≠ []) : UpTo E (npMean l) (npMean l') := by
  have key : ∀ (l l' : List (Fl K)), List.Forall₂ (UpTo E) l l' → ∀ (c c' : Fl K) (E' : K), UpTo E' c c' →
      UpTo (E' + l.length * E) (l.foldl (· +ᶠ ·) c) (l'.foldl (· +ᶠ ·) c') := by
    intro l l' h
    induction h with
    | nil => intro c c' E' hc; simpa using hc
    | cons hab h ih =>
      intro c c' E' hc
      simp only [List.foldl_cons, List.length_cons]
      refine (ih _ _ _ (hc.add hab)).mono (le_of_eq ?_)
      push_cast; ring
  have hs := key l l' h (PyFloat.ofInt 0) (PyFloat.ofInt 0) 0 (by rw [Fl.pf_ofInt]; exact .fin (by simp))
  unfold Verif.npMean fsum
  rw [← h.length_eq]
  have hpos : (0 : K) < l.length := by exact_mod_cast List.length_pos_iff.mpr hne
  rw [zero_add] at hs
  generalize l.foldl (· +ᶠ ·) (PyFloat.ofInt 0) = s at *
  generalize l'.foldl (· +ᶠ ·) (PyFloat.ofInt 0) = s' at *
  cases hs with
  | nan => exact .nan
  | fin hs =>
    rename_i x y
    rw [Fl.pf_ofInt, Int.cast_natCast, Fl.pf_div_fin_ne _ _ hpos.ne', Fl.pf_div_fin_ne _ _ hpos.ne']
    refine .fin ?_
    rw [← sub_div, abs_div, abs_of_pos hpos, div_le_iff₀ hpos, mul_comm]
    exact hs

omit [IsStrictOrderedRing K] in
theorem near_rd {E : K} {l l' : List (Fl K)} (h : List.Forall₂ (UpTo E) l l') {i : Nat} (hi : i < l.length) :
    UpTo E (rd l i) (rd l' i) := by
  have := (List.forall₂_iff_get.mp h).2 i hi (by rw [← h.length_eq]; exact hi)
  rw [rd_of_getElem? (List.getElem?_eq_getElem hi), rd_of_getElem? (List.getElem?_eq_getElem (by rw [← h.length_eq]; exact hi))]
  simpa using this

omit [IsStrictOrderedRing K] in
theorem near_of_rd {E : K} {l l' : List (Fl K)} (hl : l.length = l'.length) (h : ∀ i, i < l.length → UpTo E (rd l i) (rd l' i)) :
    List.Forall₂ (UpTo E) l l' := by
  refine List.forall₂_iff_get.mpr ⟨hl, fun i h1 h2 => ?_⟩
  have := h i h1
  rw [rd_of_getElem? (List.getElem?_eq_getElem h1), rd_of_getElem? (List.getElem?_eq_getElem h2)] at this
  simpa using this

/-- **C125** Constant baseline: if no level changes by more than `E` (missing levels stay missing), no baseline value does, for every
`n_average_last_dry >= 1`. -/
theorem C125_baseline_constant (E : K) (trsl trsl' : List (Fl K)) (wet : List Bool) (n : Nat) (hn : 1 ≤ n)
    (hlen : trsl.length ≤ wet.length) (h : List.Forall₂ (UpTo E) trsl trsl') :
    ∃ b b', baselineConstant trsl wet n = .ok b ∧ baselineConstant trsl' wet n = .ok b' ∧ List.Forall₂ (UpTo E) b b' := by
  have hl := h.length_eq
  refine ⟨constLoop trsl wet n, constLoop trsl' wet n, by rw [baselineConstant, if_neg (by omega)],
    by rw [baselineConstant, if_neg (by omega)], near_of_rd (by rw [constLoop_length, constLoop_length, hl]) fun i hi => ?_⟩
  rw [constLoop_length] at hi
  refine constLoop_rel (UpTo E) hn (m := trsl.length) le_rfl (by omega) (fun _ _ => rfl) (fun i hi => near_rd h hi) ?_ i hi
  intro l l' hl hl' hll
  exact UpTo.npMean (near_of_rd (by omega) fun i hi => hll i (by omega)) (by rintro rfl; simp at hl; omega)

/-- **C125** Linear baseline: if no level changes by more than `E` (missing levels stay missing), no baseline value does, with NaN flags
or without, for either setting of `ignore_nan`. -/
theorem C125_baseline_linear (E : K) (hE : 0 ≤ E) (rsl rsl' wet : List (Fl K)) (ignoreNan : Bool) (hN : 0 < rsl.length)
    (hlen : rsl.length ≤ wet.length) (h : List.Forall₂ (UpTo E) rsl rsl') :
    ∃ b b', baselineLinear rsl wet ignoreNan = .ok b ∧ baselineLinear rsl' wet ignoreNan = .ok b' ∧ List.Forall₂ (UpTo E) b b' := by
  have hl := h.length_eq
  refine ⟨_, _, by rw [baselineLinear, if_neg (by omega)], by rw [baselineLinear, if_neg (by omega)], ?_⟩
  rw [← hl]
  refine linLoop_rel (UpTo E) (UpTo E) (fun _ _ h => h) .nan (by rw [Fl.pf_ofInt]; exact .fin (by simpa using hE)) ignoreNan hN hl.symm ?_
    (fun i hi => near_rd h hi) (fun _ _ => ⟨rfl, rfl⟩)
  intro a a' b b' num hnum _ ha hb
  unfold linspace
  rw [List.forall₂_map_left_iff, List.forall₂_map_right_iff, List.forall₂_same]
  intro i hi
  rw [List.mem_range] at hi
  have h1 : ¬ num = 1 := by omega
  rw [if_neg h1, if_neg h1]
  by_cases hlast : i + 1 = num
  · rw [if_pos hlast, if_pos hlast]; exact hb
  rw [if_neg hlast, if_neg hlast]
  have hnumK : (0 : K) < ((num : ℤ) - 1 : ℤ) := by
    have : (0 : ℤ) < (num : ℤ) - 1 := by omega
    exact_mod_cast this
  cases ha with
  | nan => exact .nan
  | fin ha =>
    cases hb with
    | nan =>
      have : ∀ x c : Fl K, (x +ᶠ (c *ᶠ ((Fl.nan -ᶠ x) /ᶠ PyFloat.ofInt ((num : ℤ) - 1)))) = .nan := by
        intro x c
        cases x <;> cases c <;> rfl
      rw [this, this]
      exact .nan
    | fin hb =>
      rename_i x y z w
      simp only [Fl.pf_ofInt, Fl.pf_sub_fin, Fl.pf_div_fin_ne _ _ hnumK.ne', Fl.pf_mul_fin, Fl.pf_add_fin]
      refine .fin ?_
      set N : K := (((num : ℤ) - 1 : ℤ) : K) with hNdef
      have hiN : ((i : ℤ) : K) / N ≤ 1 := by
        rw [div_le_one hnumK, hNdef]
        exact_mod_cast (by omega : (i : ℤ) ≤ (num : ℤ) - 1)
      have hi0 : 0 ≤ ((i : ℤ) : K) / N := div_nonneg (by positivity) hnumK.le
      set θ : K := ((i : ℤ) : K) / N with hθ
      have e : x + ((i : ℤ) : K) * ((z - x) / N) - (y + ((i : ℤ) : K) * ((w - y) / N)) = (1 - θ) * (x - y) + θ * (z - w) := by
        rw [hθ]; field_simp; ring
      rw [e]
      refine (abs_add_le _ _).trans ?_
      rw [abs_mul, abs_mul, abs_of_nonneg hi0, abs_of_nonneg (by linarith : (0 : K) ≤ 1 - θ)]
      have k1 := mul_le_mul_of_nonneg_left ha (by linarith : (0 : K) ≤ 1 - θ)
      have k2 := mul_le_mul_of_nonneg_left hb hi0
      linarith

theorem UpTo.pyMin {E E' : K} (hE : E ≤ E') {a b c d : Fl K} (h : UpTo E a b) (h' : UpTo E' c d) :
    UpTo E' (pyMin a c) (pyMin b d) := by
  cases h with
  | nan => rw [pyMin_nan_left, pyMin_nan_left]; exact .nan
  | fin h =>
    cases h' with
    | nan => rw [pyMin_nan_right, pyMin_nan_right]; exact .fin (h.trans hE)
    | fin h' => rw [pyMin_fin_fin, pyMin_fin_fin]; exact .fin (abs_min_sub_min (h.trans hE) h')

/-- **C125** WAA of Schleiss for `0 <= 3 delta_t <= tau`: if no attenuation changes by more than `E` (missing ones stay missing), no WAA
does; errors do not accumulate along the record. -/
theorem C125_waa (E : K) (hE : 0 ≤ E) (rsl base rsl' base' wet : List (Fl K)) (M d t : K) (hd0 : 0 ≤ d) (ht0 : 0 < t) (h3 : 3 * d ≤ t)
    (hl : rsl.length = base.length) (hl' : rsl'.length = base'.length) (hw : rsl.length ≤ wet.length)
    (h : List.Forall₂ (UpTo E) (List.zipWith (· -ᶠ ·) rsl base) (List.zipWith (· -ᶠ ·) rsl' base')) :
    ∃ w w', waaSchleiss rsl base wet (.fin M) (.fin d) (.fin t) = .ok w ∧
      waaSchleiss rsl' base' wet (.fin M) (.fin d) (.fin t) = .ok w' ∧ w.length = rsl.length ∧ List.Forall₂ (UpTo E) w w' := by
  have hll : rsl.length = rsl'.length := by
    have := h.length_eq
    simp only [List.length_zipWith] at this
    omega
  have htau : ((Fl.fin t : Fl K) ==ᶠ PyFloat.ofInt 0) = false := by simpa using ht0.ne'
  obtain ⟨w, o1, o2, o3, o4⟩ := schleiss_rec rsl base wet (.fin M) (.fin d) (.fin t) hl hw htau
  obtain ⟨w', p1, p2, p3, p4⟩ := schleiss_rec rsl' base' wet (.fin M) (.fin d) (.fin t) hl' (by omega) htau
  refine ⟨w, w', o1, p1, o2, near_of_rd (by omega) ?_⟩
  set k := 3 * d / t with hk
  have hk0 : 0 ≤ k := div_nonneg (by linarith) ht0.le
  have hk1 : k ≤ 1 := by rw [hk, div_le_one ht0]; exact h3
  intro i
  induction i with
  | zero =>
    intro hi
    rw [o3 (by omega), p3 (by omega), Fl.pf_ofInt]
    exact .fin (by simpa using hE)
  | succ i ih =>
    intro hi
    have ih' := ih (by omega)
    clear ih
    rw [o4 (i + 1) (by omega) (by omega), p4 (i + 1) (by omega) (by omega)]
    unfold schleissVal
    rw [Nat.add_sub_cancel]
    have hA : UpTo E (rd (atten rsl base) (i + 1)) (rd (atten rsl' base') (i + 1)) :=
      near_rd h (by simp only [List.length_zipWith]; omega)
    have hM : UpTo E (Fl.fin M) (Fl.fin M) := .fin (by simpa using hE)
    split_ifs
    · refine UpTo.pyMin le_rfl (UpTo.pyMin le_rfl hA hM) ?_
      generalize rd w i = a at *
      generalize rd w' i = b at *
      cases ih' with
      | nan => exact .nan
      | fin ih =>
        rename_i x y
        have e : ∀ z : K, (Fl.fin z +ᶠ (Fl.fin M -ᶠ Fl.fin z) *ᶠ PyFloat.ofInt 3 *ᶠ Fl.fin d /ᶠ Fl.fin t : Fl K) =
            .fin (z + (M - z) * k) := by
          intro z
          simp only [Fl.pf_sub_fin, Fl.pf_ofInt, Fl.pf_mul_fin, Fl.pf_div_fin_ne _ _ ht0.ne', Fl.pf_add_fin]
          congr 1
          rw [hk]
          push_cast
          ring
        rw [e, e]
        refine .fin ?_
        rw [show x + (M - x) * k - (y + (M - y) * k) = (1 - k) * (x - y) by ring, abs_mul, abs_of_nonneg (by linarith)]
        have := mul_le_mul_of_nonneg_left ih (by linarith : 0 ≤ 1 - k)
        have := mul_nonneg hk0 hE
        linarith
    · exact UpTo.pyMin le_rfl hA hM

theorem near_zip_sub {E E' : K} {l l' m m' : List (Fl K)} (h : List.Forall₂ (UpTo E) l l') (h' : List.Forall₂ (UpTo E') m m') :
    List.Forall₂ (UpTo (E + E')) (List.zipWith (· -ᶠ ·) l m) (List.zipWith (· -ᶠ ·) l' m') := by
  induction h generalizing m m' with
  | nil => simp
  | cons hab h ih =>
    cases h' with
    | nil => simp
    | cons hcd h' => exact .cons (hab.sub hcd) (ih h')

/-- **C125** The attenuation of the chain `baseline_constant`, `waa_schleiss_2013`: if no level changes by more than `E`, the attenuation
`trsl - baseline` changes by at most `2 E`, the WAA by at most `2 E` and their difference by at most `4 E`, however long the record. -/
theorem C125_attenuation (E : K) (hE : 0 ≤ E) (trsl trsl' : List (Fl K)) (wet : List Bool) (n : Nat) (hn : 1 ≤ n)
    (hlen : trsl.length ≤ wet.length) (h : List.Forall₂ (UpTo E) trsl trsl') (M d t : K) (hd0 : 0 ≤ d) (ht0 : 0 < t) (h3 : 3 * d ≤ t) :
    ∃ b b' w w', baselineConstant trsl wet n = .ok b ∧ baselineConstant trsl' wet n = .ok b' ∧
      waaSchleiss trsl b (wet.map flagF) (.fin M) (.fin d) (.fin t) = .ok w ∧
      waaSchleiss trsl' b' (wet.map flagF) (.fin M) (.fin d) (.fin t) = .ok w' ∧
      b.length = trsl.length ∧ w.length = trsl.length ∧ List.Forall₂ (UpTo (2 * E)) w w' ∧
      List.Forall₂ (UpTo (4 * E)) (List.zipWith (· -ᶠ ·) (List.zipWith (· -ᶠ ·) trsl b) w)
        (List.zipWith (· -ᶠ ·) (List.zipWith (· -ᶠ ·) trsl' b') w') := by
  obtain ⟨b, b', hb, hb', hbb⟩ := C125_baseline_constant E trsl trsl' wet n hn hlen h
  obtain ⟨c, hc, hcl, -⟩ := C01_constant_dry trsl wet n hn hlen
  rw [hb] at hc
  cases hc
  have hA := near_zip_sub h hbb
  rw [← two_mul] at hA
  obtain ⟨w, w', hw, hw', hwl, hww⟩ := C125_waa (2 * E) (by linarith) trsl b trsl' b' (wet.map flagF) M d t hd0 ht0 h3 hcl.symm
    (by rw [← h.length_eq, ← hbb.length_eq, hcl]) (by simpa using hlen) hA
  refine ⟨b, b', w, w', hb, hb', hw, hw', hcl, hwl, hww, ?_⟩
  have := near_zip_sub hA hww
  rwa [← add_mul, show (2 + 2 : K) = 4 by norm_num] at this

/-- **C125** Rain rates: if no level changes by more than `E`, the rain rate at each step of the changed record lies between the rates of
the attenuations `A - 4 E` and `A + 4 E`, where `A = trsl - baseline - waa` is the attenuation of the original record (NaN where that is NaN). -/
theorem C125_rain (sp : KR.Spline) (p : ChainParams) (hp : p.Ok) (h3 : 3 * p.deltaT ≤ p.tau) (E : ℝ) (hE : 0 ≤ E)
    (trsl trsl' : List (Fl ℝ)) (wet : List Bool) (hlen : trsl.length ≤ wet.length) (h : List.Forall₂ (UpTo E) trsl trsl') :
    ∃ b w rs', baselineConstant trsl wet p.n = .ok b ∧
      waaSchleiss trsl b (wet.map flagF) (.fin p.waaMax) (.fin p.deltaT) (.fin p.tau) = .ok w ∧
      rainChain sp p trsl' wet = .ok rs' ∧ b.length = trsl.length ∧ w.length = trsl.length ∧ rs'.length = trsl.length ∧
      ∀ (i : Nat) x y z r, trsl[i]? = some x → b[i]? = some y → w[i]? = some z → rs'[i]? = some r →
        (isNaN ((x -ᶠ y) -ᶠ z) = true ∧ isNaN r = true) ∨
        ∃ A lo hi, (x -ᶠ y) -ᶠ z = .fin A ∧ callAB sp [.fin (A - 4 * E)] p.L p.a p.b p.Rmin = .ok [lo] ∧
          callAB sp [.fin (A + 4 * E)] p.L p.a p.b p.Rmin = .ok [hi] ∧ (lo ≤ᶠ r) = true ∧ (r ≤ᶠ hi) = true := by
  obtain ⟨b, b', w, w', hb, hb', hw, hw', hbl, hwl, hww, hAA⟩ := C125_attenuation E hE trsl trsl' wet p.n hp.n hlen h p.waaMax
    p.deltaT p.tau hp.deltaT hp.tau h3
  have hr : rainChain sp p trsl' wet = .ok _ := rainChain_ok hb' hw'
  refine ⟨b, w, _, hb, hw, hr, hbl, hwl, ?_, ?_⟩
  · have := hAA.length_eq
    simp only [List.length_zipWith] at this
    simp only [List.length_map, List.length_zipWith]
    omega
  intro i x y z r hx hy hz hri
  have hi : i < trsl.length := (List.getElem?_eq_some_iff.mp hx).1
  have hn := near_rd hAA (i := i) (by simp only [List.length_zipWith]; omega)
  have e : rd (List.zipWith (· -ᶠ ·) (List.zipWith (· -ᶠ ·) trsl b) w) i = (x -ᶠ y) -ᶠ z := by
    apply rd_of_getElem?
    simp [List.getElem?_zipWith, hx, hy, hz]
  rw [e] at hn
  rw [List.getElem?_map, Option.map_eq_some_iff] at hri
  obtain ⟨v, hv, rfl⟩ := hri
  rw [rd_of_getElem? hv] at hn
  generalize (x -ᶠ y) -ᶠ z = q at *
  cases hn with
  | nan => exact .inl ⟨rfl, by simp [KR.rate]⟩
  | fin hn =>
    rename_i A A'
    obtain ⟨n1, n2⟩ := abs_le.mp hn
    have s1 := callAB_eq sp [.fin (A - 4 * E)] p.L p.a p.b p.Rmin
    have s2 := callAB_eq sp [.fin (A + 4 * E)] p.L p.a p.b p.Rmin
    have s3 := callAB_eq sp [.fin A'] p.L p.a p.b p.Rmin
    refine .inr ⟨A, _, _, rfl, s1, s2, ?_, ?_⟩
    · have := C20_monotone_in_A sp _ _ _ _ p.L p.a p.b p.Rmin hp.a hp.b hp.L s1 s3 (.cons (by
        rw [Fl.pf_le_fin, decide_eq_true_eq]; linarith) .nil)
      cases this with
      | cons h _ => exact h
    · have := C20_monotone_in_A sp _ _ _ _ p.L p.a p.b p.Rmin hp.a hp.b hp.L s3 s2 (.cons (by
        rw [Fl.pf_le_fin, decide_eq_true_eq]; linarith) .nil)
      cases this with
      | cons h _ => exact h

/-- levels with a gap and measurement errors up to 1/2 dB -/
private theorem ex_near : List.Forall₂ (UpTo (1 / 2 : ℚ)) [.fin 50, .fin 52, .nan, .fin 60, .fin 50] [.fin (101 / 2), .fin 52, .nan, .fin (119 / 2), .fin 50] := by
  refine .cons (.fin ?_) (.cons (.fin ?_) (.cons .nan (.cons (.fin ?_) (.cons (.fin ?_) .nil)))) <;> norm_num [abs_le]

example : ∃ b b' : List (Fl ℚ), baselineConstant [.fin 50, .fin 52, .nan, .fin 60, .fin 50] [false, true, true, true, false] 1 = .ok b ∧
    baselineConstant [.fin (101 / 2), .fin 52, .nan, .fin (119 / 2), .fin 50] [false, true, true, true, false] 1 = .ok b' ∧
    List.Forall₂ (UpTo (1 / 2)) b b' :=
  C125_baseline_constant (1 / 2) _ _ _ 1 le_rfl (by simp) ex_near

example : ∃ b b' : List (Fl ℚ), baselineLinear [.fin 50, .fin 52, .nan, .fin 60, .fin 50] [.fin 0, .fin 1, .nan, .fin 1, .fin 0] true = .ok b ∧
    baselineLinear [.fin (101 / 2), .fin 52, .nan, .fin (119 / 2), .fin 50] [.fin 0, .fin 1, .nan, .fin 1, .fin 0] true = .ok b' ∧
    List.Forall₂ (UpTo (1 / 2)) b b' :=
  C125_baseline_linear (1 / 2) (by norm_num) _ _ _ true (by simp) (by simp) ex_near

example : ∃ b b' w w' : List (Fl ℚ), baselineConstant [.fin 50, .fin 52, .nan, .fin 60, .fin 50] [false, true, true, true, false] 1 = .ok b ∧
    baselineConstant [.fin (101 / 2), .fin 52, .nan, .fin (119 / 2), .fin 50] [false, true, true, true, false] 1 = .ok b' ∧
    waaSchleiss [.fin 50, .fin 52, .nan, .fin 60, .fin 50] b ([false, true, true, true, false].map flagF) (.fin 2) (.fin 1) (.fin 15) = .ok w ∧
    waaSchleiss [.fin (101 / 2), .fin 52, .nan, .fin (119 / 2), .fin 50] b' ([false, true, true, true, false].map flagF)
      (.fin 2) (.fin 1) (.fin 15) = .ok w' ∧ List.Forall₂ (UpTo 1) w w' := by
  obtain ⟨b, b', w, w', h1, h2, h3, h4, -, -, h5, -⟩ := C125_attenuation (1 / 2) (by norm_num) _ _ [false, true, true, true, false] 1
    le_rfl (by simp) ex_near 2 1 15 (by norm_num) (by norm_num) (by norm_num)
  exact ⟨b, b', w, w', h1, h2, h3, h4, by norm_num at h5; exact h5⟩

end Verif.Props
