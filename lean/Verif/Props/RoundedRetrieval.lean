import Verif.Props.RateClose
import Verif.Props.NearbyRain

/-!
# Property C124: the rain rates of the nearby approach in floating point arithmetic
-/

namespace Verif.Props
open Verif Verif.Nearby Verif.Bin

section rounded
variable {K : Type} [Field K] [LinearOrder K] [IsStrictOrderedRing K] {R : Rounding K}

/-- not a number or not negative -/
def NanOr0 (x : RFl R) : Prop := isNaN x = true ∨ ((PyFloat.ofInt 0 : RFl R) ≤ᶠ x) = true

theorem netAtten_nanOr0 (w r x : RFl R) : NanOr0 (netAtten w r x) := by
  unfold netAtten NanOr0
  dsimp only
  by_cases h : ((r -ᶠ x) -ᶠ w) <ᶠ (PyFloat.ofInt 0 : RFl R)
  · rw [if_pos h]
    exact .inr (LawfulPyFloat.le_refl (LawfulPyFloat.isNaN_ofInt 0))
  · rw [if_neg h]
    cases hn : isNaN ((r -ᶠ x) -ᶠ w)
    · right
      rw [LawfulPyFloat.le_iff _ _ (LawfulPyFloat.isNaN_ofInt 0) hn]
      simpa using h
    · exact .inl rfl

theorem NanOr0.mul {x y : RFl R} (hx : ((PyFloat.ofInt 0 : RFl R) ≤ᶠ x) = true) (hy : NanOr0 y) : NanOr0 (x *ᶠ y) := by
  cases hn : isNaN (x *ᶠ y)
  · rcases hy with hy | hy
    · rw [OrderedPyFloat.mul_nan _ _ (by rw [hy]; simp)] at hn
      cases hn
    · exact .inr (OrderedPyFloat.mul_nonneg _ _ hx hy hn)
  · exact .inl hn

theorem NanOr0.add {x y : RFl R} (hx : NanOr0 x) (hy : NanOr0 y) : NanOr0 (x +ᶠ y) := by
  cases hn : isNaN (x +ᶠ y)
  · rcases hx with hx | hx
    · rw [LawfulPyFloat.add_nan _ _ (by rw [hx]; simp)] at hn
      cases hn
    rcases hy with hy | hy
    · rw [LawfulPyFloat.add_nan _ _ (by rw [hy]; simp)] at hn
      cases hn
    have h := OrderedPyFloat.add_le_add _ _ x hy (by
      rw [OrderedPyFloat.add_zero]; exact (LawfulPyFloat.le_not_nan _ _ hx).2) hn
    rw [OrderedPyFloat.add_zero] at h
    exact .inr (LawfulPyFloat.le_trans hx h)
  · exact .inl hn

variable [PyPow (RFl R)]

theorem oneRateF_nanOr0 [PowLaws (RFl R)] {a b L : RFl R} (h : RainParams a b L) (w r x : RFl R) :
    NanOr0 (oneRateF a b L w r x) := by
  obtain ⟨⟨c, hc, hc0⟩, hb⟩ := h
  unfold oneRateF
  rcases netAtten_nanOr0 w r x with hn | h0
  · exact .inl (PowLaws.nan _ _ (OrderedPyFloat.div_nan _ _ (by rw [hn]; simp)) hb)
  · have hq := div_pos_mono hc hc0 h0
    rw [zero_div_pos hc hc0] at hq
    exact .inr (PowLaws.nonneg _ _ hq hb)

theorem unit_val {z : RFl R} (z0 : ((PyFloat.ofInt 0 : RFl R) ≤ᶠ z) = true) (z1 : (z ≤ᶠ (PyFloat.ofInt 1 : RFl R)) = true) :
    ∃ y, z.val = .fin y ∧ 0 ≤ y ∧ y ≤ 1 := by
  rw [RFl.le_def, RFl.val_zero] at z0
  rw [RFl.le_def, RFl.val_one] at z1
  cases hz : z.val with
  | nan => rw [hz] at z0; exact absurd z0 Bool.false_ne_true
  | ninf => rw [hz] at z0; exact absurd z0 Bool.false_ne_true
  | pinf => rw [hz] at z1; exact absurd z1 Bool.false_ne_true
  | fin y =>
    rw [hz] at z0 z1
    exact ⟨y, rfl, by simpa using z0, by simpa using z1⟩

/-- the weight of the rate of `p_c_max` -/
theorem one_sub_alpha {alpha : RFl R} (h1 : (alpha ≤ᶠ (PyFloat.ofInt 1 : RFl R)) = true)
    (h0 : ((PyFloat.ofInt 0 : RFl R) ≤ᶠ alpha) = true) :
    ((PyFloat.ofInt 0 : RFl R) ≤ᶠ ((PyFloat.ofInt 1 : RFl R) -ᶠ alpha)) = true := by
  apply OrderedPyFloat.sub_nonneg _ _ h1
  rw [RFl.isNaN_def, RFl.val_sub, R.isNaN_round, RFl.val_one]
  rw [RFl.le_def, RFl.val_one] at h1
  rw [RFl.le_def, RFl.val_zero] at h0
  cases h : alpha.val <;> rw [h] at h0 h1 <;> first | rfl | cases h0 | cases h1

/-- **C124** Rain rates are NaN or not negative, whatever the rounding, for all levels (missing or infinite ones too), every
`0 <= alpha <= 1`, every `waa_max` and every outlier filter. -/
theorem C124_nonneg [PowLaws (RFl R)] (ab : List (RFl R) → List String → String → Except Err (List (RFl R) × List (RFl R)))
    (pref pcmin pcmax F : List (RFl R)) (L a b : RFl R) (approx : String) (waa alpha : RFl R) (thr : Option (RFl R))
    (h : RainParams a b L) (h0 : ((PyFloat.ofInt 0 : RFl R) ≤ᶠ alpha) = true) (h1 : (alpha ≤ᶠ (PyFloat.ofInt 1 : RFl R)) = true)
    (hl1 : pcmin.length = pref.length) (hl2 : pcmax.length = pref.length) (hl3 : thr ≠ none → F.length = pref.length) :
    ∃ out, retrieval ab pref pcmin pcmax F L none none (some [a]) (some [b]) approx waa alpha thr = .ok out ∧
      out.length = pref.length ∧ ∀ r ∈ out, isNaN r = true ∨ ((PyFloat.ofInt 0 : RFl R) ≤ᶠ r) = true := by
  refine ⟨_, retrieval_scalar ab pref pcmin pcmax F L a b approx waa alpha thr hl1 hl2 hl3, by simp, ?_⟩
  intro r hr
  obtain ⟨t, _, rfl⟩ := List.mem_map.mp hr
  split_ifs
  · exact .inl LawfulPyFloat.isNaN_nan
  · exact NanOr0.add (.mul h0 (oneRateF_nanOr0 h _ _ _)) (.mul (one_sub_alpha h1 h0) (oneRateF_nanOr0 h _ _ _))

/-- **C124** No spurious rain: after `nearby_correct_received_signals`, every step that is not flagged wet and has a number as reference
level gets a rain rate of exactly zero (or NaN from the outlier filter), for every `waa_max >= 0`. -/
theorem C124_not_wet [PowLaws (RFl R)] (ab : List (RFl R) → List String → String → Except Err (List (RFl R) × List (RFl R)))
    (pmin pmax wet pref F : List (RFl R)) (L a b : RFl R) (approx : String) (waa alpha : RFl R) (thr : Option (RFl R))
    (h : RainParams a b L) (hw : ((PyFloat.ofInt 0 : RFl R) ≤ᶠ waa) = true)
    (h0 : ((PyFloat.ofInt 0 : RFl R) ≤ᶠ alpha) = true) (h1 : (alpha ≤ᶠ (PyFloat.ofInt 1 : RFl R)) = true)
    (hl1 : pmin.length = pref.length) (hl2 : pmax.length = pref.length)
    (hl3 : thr ≠ none → F.length = pref.length) (hl4 : wet.length = pref.length) :
    ∃ out, retrieval ab pref (correct_received_signals pmin pmax wet pref).1 (correct_received_signals pmin pmax wet pref).2 F L
        none none (some [a]) (some [b]) approx waa alpha thr = .ok out ∧ out.length = pref.length ∧
      ∀ (t : Nat) r w v, pref[t]? = some r → wet[t]? = some w → out[t]? = some v → (∃ x, r.val = .fin x) →
        (w ==ᶠ (PyFloat.ofInt 1 : RFl R)) = false →
        v = PyFloat.ofInt 0 ∨ (isNaN v = true ∧ ∃ q f, thr = some q ∧ F[t]? = some f ∧ (f ≤ᶠ q) = true) := by
  have l1 : (correct_received_signals pmin pmax wet pref).1.length = pref.length := by
    show (zip3 corrMin pmin wet pref).length = _
    rw [length_zip3 _ _ _ _ (by omega) (by omega), hl1]
  have l2 : (correct_received_signals pmin pmax wet pref).2.length = pref.length := by
    show (zip3 corrMax (zip3 corrMin pmin wet pref) pmax pref).length = _
    have : (zip3 corrMin pmin wet pref).length = pmin.length :=
      length_zip3 _ _ _ _ (by omega) (by omega)
    rw [length_zip3 _ _ _ _ (by omega) (by omega), this, hl1]
  refine ⟨_, retrieval_scalar ab pref _ _ F L a b approx waa alpha thr l1 l2 hl3, by simp, ?_⟩
  intro t r w v hr hwt hv hx hdry
  obtain ⟨x, hx⟩ := hx
  have ht : t < pref.length := (List.getElem?_eq_some_iff.mp hr).1
  obtain ⟨c, C, hc, hC, _, hd, _⟩ := C37_levels pmin pmax wet pref t _ _ _ _
    (getElem?_eq_rd (by omega)) (getElem?_eq_rd (by omega)) hwt hr
  obtain ⟨e1, e2⟩ := hd (Or.inl hdry)
  rw [List.getElem?_map, List.getElem?_range ht, Option.map_some, Option.some.injEq] at hv
  subst hv
  simp only [rd_of_getElem? hc, rd_of_getElem? hC, rd_of_getElem? hr, e1, e2]
  by_cases hq : outlierF thr (rd F t) = true
  · right
    rw [if_pos hq]
    refine ⟨LawfulPyFloat.isNaN_nan, ?_⟩
    cases thr with
    | none => cases hq
    | some q => exact ⟨q, rd F t, rfl, getElem?_eq_rd (by rw [hl3 (by simp)]; exact ht), hq⟩
  · left
    rw [if_neg hq]
    have hz : (r -ᶠ r) = (PyFloat.ofInt 0 : RFl R) := by
      apply RFl.ext
      rw [RFl.val_sub, hx, Fl.pf_sub_fin, sub_self, RFl.val_zero]
      exact R.zero
    have hA : netAtten waa r r = (PyFloat.ofInt 0 : RFl R) := by
      unfold netAtten
      dsimp only
      rw [hz]
      by_cases hlt : ((PyFloat.ofInt 0 : RFl R) -ᶠ waa) <ᶠ PyFloat.ofInt 0
      · rw [if_pos hlt]
      · rw [if_neg hlt]
        apply RFl.ext
        rw [RFl.lt_def, RFl.val_sub, RFl.val_zero] at hlt
        rw [RFl.val_sub, RFl.val_zero]
        rw [RFl.le_def, RFl.val_zero] at hw
        cases hwv : waa.val with
        | nan => rw [hwv] at hw; cases hw
        | ninf => rw [hwv] at hw; cases hw
        | pinf => rw [hwv] at hlt; exact absurd rfl hlt
        | fin y =>
          rw [hwv] at hw hlt
          have hy : 0 ≤ y := by simpa using hw
          rw [Fl.pf_sub_fin] at hlt ⊢
          have hle : R.round (.fin (0 - y)) ≤ᶠ R.round (.fin (0 : K)) := R.round_mono (by
            rw [Fl.pf_le_fin, decide_eq_true_eq]; linarith)
          have hr0 : R.round (.fin (0 : K)) = .fin 0 := R.zero
          rw [hr0] at hle
          cases hv : R.round (.fin (0 - y)) <;> rw [hv] at hle hlt
          · cases hle
          · exact absurd rfl hlt
          · simp only [Fl.pf_le_fin, Fl.pf_lt_fin, decide_eq_true_eq] at hle hlt
            rw [le_antisymm hle (not_lt.mp hlt)]
          · cases hle
    obtain ⟨⟨d, hd, hd0⟩, hb⟩ := h
    have hone : oneRateF a b L waa r r = PyFloat.ofInt 0 := by
      unfold oneRateF
      rw [hA, zero_div_pos hd hd0, PowLaws.zero _ hb]
    have hm : ∀ z : RFl R, ((PyFloat.ofInt 0 : RFl R) ≤ᶠ z) = true → (z ≤ᶠ (PyFloat.ofInt 1 : RFl R)) = true →
        (z *ᶠ (PyFloat.ofInt 0 : RFl R)) = PyFloat.ofInt 0 := by
      intro z z0 z1
      obtain ⟨y, hy, -⟩ := unit_val z0 z1
      apply RFl.ext
      rw [RFl.val_mul, RFl.val_zero, hy, Fl.pf_mul_fin, mul_zero]
      exact R.zero
    have hsub : ((PyFloat.ofInt 1 -ᶠ alpha) ≤ᶠ (PyFloat.ofInt 1 : RFl R)) = true := by
      obtain ⟨y, hyv, hy, -⟩ := unit_val h0 h1
      rw [RFl.le_def, RFl.val_sub, RFl.val_one, hyv, Fl.pf_sub_fin]
      have := R.round_mono (v := .fin (1 - y)) (w := .fin 1) (by rw [Fl.pf_le_fin, decide_eq_true_eq]; linarith)
      rwa [show R.round (.fin (1 : K)) = .fin 1 from R.one] at this
    unfold mixRateF
    rw [hone, hm _ h0 h1, hm _ (one_sub_alpha h1 h0) hsub, OrderedPyFloat.add_zero]

/-! ### Monotonicity -/

omit [PyPow (RFl R)] in
theorem rfl_sub_mono {x x' y y' : RFl R} (h : (x ≤ᶠ x') = true) (h' : (y' ≤ᶠ y) = true) (n1 : isNaN (x -ᶠ y) = false)
    (n2 : isNaN (x' -ᶠ y') = false) : ((x -ᶠ y) ≤ᶠ (x' -ᶠ y')) = true := by
  rw [RFl.isNaN_def, RFl.val_sub, R.isNaN_round] at n1 n2
  rw [RFl.le_def] at h h'
  rw [RFl.le_def, RFl.val_sub, RFl.val_sub]
  apply R.round_mono
  cases hx : x.val <;> cases hy : y.val <;> cases hx' : x'.val <;> cases hy' : y'.val <;>
    rw [hx, hx'] at h <;> rw [hy, hy'] at h' <;> rw [hx, hy] at n1 <;> rw [hx', hy'] at n2 <;>
    first
    | rfl
    | (exfalso; revert h; exact Bool.false_ne_true)
    | (exfalso; revert h'; exact Bool.false_ne_true)
    | (exfalso; revert n1; exact fun h => Bool.false_ne_true h.symm)
    | (exfalso; revert n2; exact fun h => Bool.false_ne_true h.symm)
    | skip
  simp only [Fl.pf_le_fin, decide_eq_true_eq] at h h'
  rw [Fl.pf_sub_fin, Fl.pf_sub_fin, Fl.pf_le_fin, decide_eq_true_eq]
  linarith

omit [PyPow (RFl R)] in
theorem rfl_add_mono {x x' y y' : RFl R} (h : (x ≤ᶠ x') = true) (h' : (y ≤ᶠ y') = true) (n1 : isNaN (x +ᶠ y) = false)
    (n2 : isNaN (x' +ᶠ y') = false) : ((x +ᶠ y) ≤ᶠ (x' +ᶠ y')) = true := by
  rw [RFl.isNaN_def, RFl.val_add, R.isNaN_round] at n1 n2
  rw [RFl.le_def] at h h'
  rw [RFl.le_def, RFl.val_add, RFl.val_add]
  apply R.round_mono
  cases hx : x.val <;> cases hy : y.val <;> cases hx' : x'.val <;> cases hy' : y'.val <;>
    rw [hx, hx'] at h <;> rw [hy, hy'] at h' <;> rw [hx, hy] at n1 <;> rw [hx', hy'] at n2 <;>
    first
    | rfl
    | (exfalso; revert h; exact Bool.false_ne_true)
    | (exfalso; revert h'; exact Bool.false_ne_true)
    | (exfalso; revert n1; exact fun h => Bool.false_ne_true h.symm)
    | (exfalso; revert n2; exact fun h => Bool.false_ne_true h.symm)
    | skip
  simp only [Fl.pf_le_fin, decide_eq_true_eq] at h h'
  rw [Fl.pf_add_fin, Fl.pf_add_fin, Fl.pf_le_fin, decide_eq_true_eq]
  linarith

omit [PyPow (RFl R)] in
theorem rfl_mul_comm (x y : RFl R) : (x *ᶠ y) = (y *ᶠ x) := by
  apply RFl.ext
  rw [RFl.val_mul, RFl.val_mul]
  congr 1
  cases x.val <;> cases y.val <;> first | rfl | skip
  rw [Fl.pf_mul_fin, Fl.pf_mul_fin, mul_comm]

omit [PyPow (RFl R)] in
theorem rfl_mul_mono {c x y : RFl R} (hc : ((PyFloat.ofInt 0 : RFl R) ≤ᶠ c) = true) (h : (x ≤ᶠ y) = true)
    (n1 : isNaN (c *ᶠ x) = false) (n2 : isNaN (c *ᶠ y) = false) : ((c *ᶠ x) ≤ᶠ (c *ᶠ y)) = true := by
  rw [rfl_mul_comm c x, rfl_mul_comm c y] at *
  exact OrderedPyFloat.mul_le_of_nonneg _ _ _ h hc n1 n2

omit [PyPow (RFl R)] in
theorem netAtten_mono {w r x x' : RFl R} (h : (x' ≤ᶠ x) = true) (n1 : isNaN (netAtten w r x) = false)
    (n2 : isNaN (netAtten w r x') = false) : (netAtten w r x ≤ᶠ netAtten w r x') = true := by
  have h0 : ((PyFloat.ofInt 0 : RFl R) ≤ᶠ netAtten w r x') = true := by
    rcases netAtten_nanOr0 w r x' with h | h
    · rw [h] at n2; cases n2
    · exact h
  by_cases c1 : ((r -ᶠ x) -ᶠ w) <ᶠ (PyFloat.ofInt 0 : RFl R)
  · have e : netAtten w r x = PyFloat.ofInt 0 := by
      unfold netAtten
      dsimp only
      rw [if_pos c1]
    rw [e]; exact h0
  · have e : netAtten w r x = (r -ᶠ x) -ᶠ w := by
      unfold netAtten
      dsimp only
      rw [if_neg c1]
    rw [e] at n1 ⊢
    have sub_nan : ∀ a b : RFl R, isNaN (a -ᶠ b) = false → isNaN a = false ∧ isNaN b = false := by
      intro a b hab
      constructor
      · by_contra hn
        rw [LawfulPyFloat.sub_nan _ _ (by rw [Bool.not_eq_false] at hn; rw [hn]; simp)] at hab
        cases hab
      · by_contra hn
        rw [LawfulPyFloat.sub_nan _ _ (by rw [Bool.not_eq_false] at hn; rw [hn]; simp)] at hab
        cases hab
    obtain ⟨m1, m2⟩ := sub_nan _ _ n1
    obtain ⟨m3, -⟩ := sub_nan _ _ m1
    have key : isNaN ((r -ᶠ x') -ᶠ w) = false → (((r -ᶠ x) -ᶠ w) ≤ᶠ ((r -ᶠ x') -ᶠ w)) = true := by
      intro hn
      obtain ⟨k1, -⟩ := sub_nan _ _ hn
      exact rfl_sub_mono (rfl_sub_mono (LawfulPyFloat.le_refl m3) h m1 k1) (LawfulPyFloat.le_refl m2) n1 hn
    by_cases c2 : ((r -ᶠ x') -ᶠ w) <ᶠ (PyFloat.ofInt 0 : RFl R)
    · exfalso
      have hle := key (LawfulPyFloat.lt_not_nan _ _ c2).1
      apply c1
      by_contra hlt
      have h0' : ((PyFloat.ofInt 0 : RFl R) ≤ᶠ ((r -ᶠ x) -ᶠ w)) = true := by
        rw [LawfulPyFloat.le_iff _ _ (LawfulPyFloat.isNaN_ofInt 0) n1]
        simpa using hlt
      have := LawfulPyFloat.not_lt_of_le (LawfulPyFloat.le_trans h0' hle)
      rw [c2] at this
      cases this
    · have e' : netAtten w r x' = (r -ᶠ x') -ᶠ w := by
        unfold netAtten
        dsimp only
        rw [if_neg c2]
      rw [e'] at n2 ⊢
      exact key n2

theorem oneRateF_mono [MonoPow (RFl R)] {a b L : RFl R} (h : RainParams a b L) {w r x x' : RFl R} (hx : (x' ≤ᶠ x) = true)
    (n1 : isNaN (oneRateF a b L w r x) = false) (n2 : isNaN (oneRateF a b L w r x') = false) :
    (oneRateF a b L w r x ≤ᶠ oneRateF a b L w r x') = true := by
  obtain ⟨⟨c, hc, hc0⟩, hb⟩ := h
  have key : ∀ z, isNaN (oneRateF a b L w r z) = false → isNaN (netAtten w r z) = false := by
    intro z hz
    by_contra hn
    rw [Bool.not_eq_false] at hn
    unfold oneRateF at hz
    rw [PowLaws.nan _ _ (OrderedPyFloat.div_nan _ _ (by rw [hn]; simp)) hb] at hz
    cases hz
  have hm := netAtten_mono hx (key _ n1) (key _ n2)
  have h0 : ((PyFloat.ofInt 0 : RFl R) ≤ᶠ netAtten w r x) = true := by
    rcases netAtten_nanOr0 w r x with h | h
    · rw [key _ n1] at h; cases h
    · exact h
  have hq := div_pos_mono hc hc0 h0
  rw [zero_div_pos hc hc0] at hq
  exact MonoPow.mono _ _ _ hq (div_pos_mono hc hc0 hm) hb

/-- **C124** With a monotone `pow`: lower levels never give less rain (as far as both rain rates are numbers). -/
theorem C124_monotone [MonoPow (RFl R)] (ab : List (RFl R) → List String → String → Except Err (List (RFl R) × List (RFl R)))
    (pref pcmin pcmax pcmin' pcmax' F : List (RFl R)) (L a b : RFl R) (approx : String) (waa alpha : RFl R)
    (thr : Option (RFl R)) (out out' : List (RFl R))
    (h : RainParams a b L) (h0 : ((PyFloat.ofInt 0 : RFl R) ≤ᶠ alpha) = true) (h1 : (alpha ≤ᶠ (PyFloat.ofInt 1 : RFl R)) = true)
    (hl1 : pcmin.length = pref.length) (hl2 : pcmax.length = pref.length) (hl3 : thr ≠ none → F.length = pref.length)
    (hmin : List.Forall₂ (fun x y => (x ≤ᶠ y) = true) pcmin' pcmin) (hmax : List.Forall₂ (fun x y => (x ≤ᶠ y) = true) pcmax' pcmax)
    (ho : retrieval ab pref pcmin pcmax F L none none (some [a]) (some [b]) approx waa alpha thr = .ok out)
    (ho' : retrieval ab pref pcmin' pcmax' F L none none (some [a]) (some [b]) approx waa alpha thr = .ok out')
    (t : Nat) (v v' : RFl R) (hv : out[t]? = some v) (hv' : out'[t]? = some v') (n1 : isNaN v = false) (n2 : isNaN v' = false) :
    (v ≤ᶠ v') = true := by
  rw [retrieval_scalar ab pref pcmin pcmax F L a b approx waa alpha thr hl1 hl2 hl3] at ho
  rw [retrieval_scalar ab pref pcmin' pcmax' F L a b approx waa alpha thr (by rw [hmin.length_eq, hl1])
    (by rw [hmax.length_eq, hl2]) hl3] at ho'
  cases ho
  cases ho'
  have ht : t < pref.length := by
    by_contra hn
    rw [List.getElem?_eq_none (by simp; omega)] at hv
    cases hv
  rw [List.getElem?_map, List.getElem?_range ht, Option.map_some, Option.some.injEq] at hv hv'
  subst hv
  subst hv'
  by_cases hq : outlierF thr (rd F t) = true
  · rw [if_pos hq, LawfulPyFloat.isNaN_nan] at n1
    cases n1
  rw [if_neg hq] at n1 n2 ⊢
  rw [if_neg hq]
  have hx : (rd pcmin' t ≤ᶠ rd pcmin t) = true := by
    have := (List.forall₂_iff_get.mp hmin).2 t (by rw [hmin.length_eq]; omega) (by omega)
    rw [rd_of_getElem? (List.getElem?_eq_getElem (by rw [hmin.length_eq]; omega)),
      rd_of_getElem? (List.getElem?_eq_getElem (by omega))]
    simpa using this
  have hy : (rd pcmax' t ≤ᶠ rd pcmax t) = true := by
    have := (List.forall₂_iff_get.mp hmax).2 t (by rw [hmax.length_eq]; omega) (by omega)
    rw [rd_of_getElem? (List.getElem?_eq_getElem (by rw [hmax.length_eq]; omega)),
      rd_of_getElem? (List.getElem?_eq_getElem (by omega))]
    simpa using this
  have add_nan : ∀ x y : RFl R, isNaN (x +ᶠ y) = false → isNaN x = false ∧ isNaN y = false := by
    intro x y hxy
    constructor
    · by_contra hn
      rw [LawfulPyFloat.add_nan _ _ (by rw [Bool.not_eq_false] at hn; rw [hn]; simp)] at hxy
      cases hxy
    · by_contra hn
      rw [LawfulPyFloat.add_nan _ _ (by rw [Bool.not_eq_false] at hn; rw [hn]; simp)] at hxy
      cases hxy
  have mul_nan : ∀ x y : RFl R, isNaN (x *ᶠ y) = false → isNaN y = false := by
    intro x y hxy
    by_contra hn
    rw [OrderedPyFloat.mul_nan _ _ (by rw [Bool.not_eq_false] at hn; rw [hn]; simp)] at hxy
    cases hxy
  unfold mixRateF at n1 n2 ⊢
  obtain ⟨a1, a2⟩ := add_nan _ _ n1
  obtain ⟨b1, b2⟩ := add_nan _ _ n2
  exact rfl_add_mono (rfl_mul_mono h0 (oneRateF_mono h hx (mul_nan _ _ a1) (mul_nan _ _ b1)) a1 b1)
    (rfl_mul_mono (one_sub_alpha h1 h0) (oneRateF_mono h hy (mul_nan _ _ a2) (mul_nan _ _ b2)) a2 b2) n1 n2

end rounded

/-! ### Accuracy -/

/-- real analysis of the weighted mean -/
theorem mix_real {al Tx Ty rx ry m p1 p2 v : ℝ} (h0 : 0 ≤ al) (h1 : al ≤ 1) (hTx : 0 ≤ Tx) (hTy : 0 ≤ Ty)
    (hrx : |rx - Tx| ≤ 2 ^ (-46 : ℤ) * Tx + 2 ^ (-99 : ℤ)) (hry : |ry - Ty| ≤ 2 ^ (-46 : ℤ) * Ty + 2 ^ (-99 : ℤ))
    (hrx0 : 0 ≤ rx) (hry0 : 0 ≤ ry) (hm : |m - (1 - al)| ≤ 2 ^ (-53 : ℤ) * (1 - al)) 
    (hp1 : |p1 - al * rx| ≤ 2 ^ (-53 : ℤ) * (al * rx) + 2 ^ (-1000 : ℤ))
    (hp2 : |p2 - m * ry| ≤ 2 ^ (-53 : ℤ) * (m * ry) + 2 ^ (-1000 : ℤ)) (hv : |v - (p1 + p2)| ≤ 2 ^ (-53 : ℤ) * |p1 + p2|) :
    |v - (al * Tx + (1 - al) * Ty)| ≤ 2 ^ (-45 : ℤ) * (al * Tx + (1 - al) * Ty) + 2 ^ (-96 : ℤ) := by
  have q1 : (2 : ℝ) ^ (-1000 : ℤ) ≤ 2 ^ (-120 : ℤ) := zpow_le_zpow_right₀ (by norm_num) (by norm_num)
  have heta : (0 : ℝ) ≤ 2 ^ (-1000 : ℤ) := by positivity
  generalize (2 : ℝ) ^ (-1000 : ℤ) = eta at *
  have g0 : 0 ≤ 1 - al := by linarith
  obtain ⟨a1, a2⟩ := abs_le.mp hrx
  obtain ⟨b1, b2⟩ := abs_le.mp hry
  obtain ⟨c1, c2⟩ := abs_le.mp hm
  obtain ⟨d1, d2⟩ := abs_le.mp hp1
  obtain ⟨e1, e2⟩ := abs_le.mp hp2
  have X0 : 0 ≤ al * Tx := mul_nonneg h0 hTx
  have Y0 : 0 ≤ (1 - al) * Ty := mul_nonneg g0 hTy
  have Xr : 0 ≤ al * rx := mul_nonneg h0 hrx0
  have Yr : 0 ≤ (1 - al) * ry := mul_nonneg g0 hry0
  have al1 : al * (2 : ℝ) ^ (-99 : ℤ) ≤ 2 ^ (-99 : ℤ) := mul_le_of_le_one_left (by positivity) h1
  have al2 : (1 - al) * (2 : ℝ) ^ (-99 : ℤ) ≤ 2 ^ (-99 : ℤ) := mul_le_of_le_one_left (by positivity) (by linarith)
  have A1 : al * Tx - (2 ^ (-46 : ℤ) * (al * Tx) + 2 ^ (-99 : ℤ)) ≤ al * rx := by
    have := mul_le_mul_of_nonneg_left a1 h0
    linarith only [this, al1]
  have A2 : al * rx ≤ al * Tx + (2 ^ (-46 : ℤ) * (al * Tx) + 2 ^ (-99 : ℤ)) := by
    have := mul_le_mul_of_nonneg_left a2 h0
    linarith only [this, al1]
  have B1 : (1 - al) * Ty - (2 ^ (-46 : ℤ) * ((1 - al) * Ty) + 2 ^ (-99 : ℤ)) ≤ (1 - al) * ry := by
    have := mul_le_mul_of_nonneg_left b1 g0
    linarith only [this, al2]
  have B2 : (1 - al) * ry ≤ (1 - al) * Ty + (2 ^ (-46 : ℤ) * ((1 - al) * Ty) + 2 ^ (-99 : ℤ)) := by
    have := mul_le_mul_of_nonneg_left b2 g0
    linarith only [this, al2]
  have C1 : (1 - al) * ry - 2 ^ (-53 : ℤ) * ((1 - al) * ry) ≤ m * ry := by
    have := mul_le_mul_of_nonneg_right c1 hry0
    linarith only [this]
  have C2 : m * ry ≤ (1 - al) * ry + 2 ^ (-53 : ℤ) * ((1 - al) * ry) := by
    have := mul_le_mul_of_nonneg_right c2 hry0
    linarith only [this]
  have e0 : (0 : ℝ) ≤ eta := heta
  clear a1 a2 b1 b2 c1 c2 hrx hry hm hp1 hp2 al1 al2 
  generalize al * Tx = X at *
  generalize (1 - al) * Ty = Y at *
  generalize al * rx = P at *
  generalize (1 - al) * ry = Q at *
  generalize m * ry = W at *
  norm_num at A1 A2 B1 B2 C1 C2 d1 d2 e1 e2 hv q1 ⊢
  have hS : |p1 + p2| ≤ 2 * (X + Y) + 1 / 158456325028528675187087900672 * 2 := by
    rw [abs_le]
    constructor <;> linarith only [A1, A2, B1, B2, C1, C2, d1, d2, e1, e2, q1, X0, Y0, Xr, Yr, e0]
  obtain ⟨f1, f2⟩ := abs_le.mp hv
  rw [abs_le]
  constructor <;> linarith only [A1, A2, B1, B2, C1, C2, d1, d2, e1, e2, q1, X0, Y0, Xr, Yr, e0, hS, f1, f2]

/-- the net attenuation in double arithmetic -/
theorem netAtten_close {w r x : DblR} {ω ρ χ B : ℝ} (hw : w.val = .fin ω) (hr : r.val = .fin ρ) (hx : x.val = .fin χ)
    (bw : |ω| ≤ B) (br : |ρ| ≤ B) (bx : |χ| ≤ B) (hB : B ≤ 2 ^ (290 : ℤ)) :
    ∃ z, (netAtten w r x).val = .fin z ∧ 0 ≤ z ∧ z ≤ 4 * B ∧ |z - max 0 (ρ - χ - ω)| ≤ 2 ^ (-50 : ℤ) * B := by
  have hp := binary64_precision (K := ℝ)
  have hB0 : 0 ≤ B := (abs_nonneg _).trans bw
  have big : 4 * B ≤ 2 ^ (1023 : ℤ) := by
    have : (2 : ℝ) ^ (292 : ℤ) ≤ 2 ^ (1023 : ℤ) := zpow_le_zpow_right₀ (by norm_num) (by norm_num)
    have e : (2 : ℝ) ^ (292 : ℤ) = 4 * 2 ^ (290 : ℤ) := by
      rw [show (292 : ℤ) = 2 + 290 from rfl, zpow_add₀ (by norm_num)]; norm_num
    rw [e] at this
    exact (mul_le_mul_of_nonneg_left hB (by norm_num)).trans this
  have idem : ∀ (q : DblR) (y : ℝ), q.val = .fin y → (binary64 (K := ℝ)).rnd y = .fin y := by
    intro q y hq
    have := q.2
    rw [hq] at this
    exact this
  have b1 : |ρ - χ| ≤ 2 * B := (abs_sub _ _).trans (by linarith)
  obtain ⟨z1, hz1, e1⟩ := hp.sub_err ρ χ (idem r _ hr) (idem x _ hx) (b1.trans (le_trans (by linarith only [hB0]) big))
  have v1 : (r -ᶠ x).val = .fin z1 := by rw [RFl.val_sub, hr, hx, Fl.pf_sub_fin]; exact hz1
  have e1' : |z1 - (ρ - χ)| ≤ 2 ^ (-53 : ℤ) * (2 * B) := e1.trans (mul_le_mul_of_nonneg_left b1 (by positivity))
  have b2 : |z1 - ω| ≤ 3 * B + 2 ^ (-53 : ℤ) * (2 * B) := by
    have h : z1 - ω = (z1 - (ρ - χ)) + ((ρ - χ) - ω) := by ring
    rw [h]
    have := abs_add_le (z1 - (ρ - χ)) ((ρ - χ) - ω)
    have := abs_sub (ρ - χ) ω
    linarith
  have b3 : 3 * B + 2 ^ (-53 : ℤ) * (2 * B) ≤ (31 / 10) * B := by
    have : (2 : ℝ) ^ (-53 : ℤ) * (2 * B) ≤ 1 / 10 * B := by
      rw [← mul_assoc]
      exact mul_le_mul_of_nonneg_right (by norm_num) hB0
    linarith only [this]
  obtain ⟨z2, hz2, e2⟩ := hp.sub_err z1 ω (idem _ _ v1) (idem w _ hw) (b2.trans (b3.trans (le_trans (by linarith only [hB0]) big)))
  have v2 : ((r -ᶠ x) -ᶠ w).val = .fin z2 := by rw [RFl.val_sub, v1, hw, Fl.pf_sub_fin]; exact hz2
  have e2' : |z2 - (z1 - ω)| ≤ 2 ^ (-53 : ℤ) * (31 / 10 * B) :=
    e2.trans (mul_le_mul_of_nonneg_left (b2.trans b3) (by positivity))
  have etot : |z2 - (ρ - χ - ω)| ≤ 2 ^ (-50 : ℤ) * B := by
    have h : z2 - (ρ - χ - ω) = (z2 - (z1 - ω)) + (z1 - (ρ - χ)) := by ring
    rw [h]
    have k := abs_add_le (z2 - (z1 - ω)) (z1 - (ρ - χ))
    have k2 : (2 : ℝ) ^ (-53 : ℤ) * (31 / 10 * B) + 2 ^ (-53 : ℤ) * (2 * B) ≤ 2 ^ (-50 : ℤ) * B := by
      rw [show (2 : ℝ) ^ (-53 : ℤ) * (31 / 10 * B) + 2 ^ (-53 : ℤ) * (2 * B) = (2 ^ (-53 : ℤ) * (51 / 10)) * B by ring]
      exact mul_le_mul_of_nonneg_right (by norm_num) hB0
    exact k.trans ((add_le_add e2' e1').trans k2)
  have hv : (netAtten w r x).val = .fin (max 0 z2) := by
    unfold netAtten
    dsimp only
    split_ifs with c
    · rw [RFl.lt_def, v2, RFl.val_zero, Fl.pf_lt_fin, decide_eq_true_eq] at c
      rw [RFl.val_zero, max_eq_left c.le]
    · rw [RFl.lt_def, v2, RFl.val_zero, Fl.pf_lt_fin, decide_eq_true_eq] at c
      rw [v2, max_eq_right (not_lt.mp c)]
  refine ⟨_, hv, le_max_left _ _, ?_, ?_⟩
  · have k : z2 ≤ 4 * B := by
      have := (abs_le.mp etot).2
      have a1 := (abs_le.mp br).2
      have a2 := (abs_le.mp bx).1
      have a3 := (abs_le.mp bw).1
      have : (2 : ℝ) ^ (-50 : ℤ) * B ≤ 1 * B := mul_le_mul_of_nonneg_right (by norm_num) hB0
      linarith
    exact max_le (by linarith) k
  · have := abs_max_sub_max_le_abs z2 (ρ - χ - ω) 0
    rw [max_comm 0 z2, max_comm 0 (ρ - χ - ω)]
    exact this.trans etot

/-- **C124** Accuracy in double arithmetic: for levels, reference and `waa_max` of magnitude at most `B`, each rain rate is, up to a
relative error of `2^-45` and an absolute error of `2^-96`, the weighted mean of the power law at two attenuations that differ from
`max (0, pref - p_c_max - waa_max)` and `max (0, pref - p_c_min - waa_max)` by at most `2^-50 B`. -/
theorem C124_accuracy [PyPow DblR] (hacc : PowClose)
    (ab : List DblR → List String → String → Except Err (List DblR × List DblR))
    (pref pcmin pcmax F : List DblR) (L a b : DblR) (approx : String) (waa alpha : DblR)
    (hl1 : pcmin.length = pref.length) (hl2 : pcmax.length = pref.length)
    (l α β ω al B : ℝ) (h : RateRange L a b l α β) (hw : waa.val = .fin ω) (hal : alpha.val = .fin al) (h0 : 0 ≤ al) (h1 : al ≤ 1)
    (bw : |ω| ≤ B) (hB : B ≤ 2 ^ (290 : ℤ)) (hT : (4 * B / (α * l)) ^ (1 / β) ≤ 2 ^ (64 : ℤ)) :
    ∃ out, retrieval ab pref pcmin pcmax F L none none (some [a]) (some [b]) approx waa alpha none = .ok out ∧
      out.length = pref.length ∧
      ∀ (t : Nat) r x y v (ρ χ ψ : ℝ), pref[t]? = some r → pcmin[t]? = some x → pcmax[t]? = some y → out[t]? = some v →
        r.val = .fin ρ → x.val = .fin χ → y.val = .fin ψ → |ρ| ≤ B → |χ| ≤ B → |ψ| ≤ B →
        ∃ A₁ A₂ R : ℝ, 0 ≤ A₁ ∧ 0 ≤ A₂ ∧ |A₁ - max 0 (ρ - χ - ω)| ≤ 2 ^ (-50 : ℤ) * B ∧
          |A₂ - max 0 (ρ - ψ - ω)| ≤ 2 ^ (-50 : ℤ) * B ∧ v.val = .fin R ∧
          |R - (al * (A₁ / (α * l)) ^ (1 / β) + (1 - al) * (A₂ / (α * l)) ^ (1 / β))| ≤
            2 ^ (-45 : ℤ) * (al * (A₁ / (α * l)) ^ (1 / β) + (1 - al) * (A₂ / (α * l)) ^ (1 / β)) + 2 ^ (-96 : ℤ) := by
  refine ⟨_, retrieval_scalar ab pref pcmin pcmax F L a b approx waa alpha none hl1 hl2 (fun h => absurd rfl h), by simp, ?_⟩
  intro t r x y v ρ χ ψ hr hx hy hv vr vx vy br bx bb
  have hp := binary64_precision (K := ℝ)
  have ht : t < pref.length := (List.getElem?_eq_some_iff.mp hr).1
  rw [List.getElem?_map, List.getElem?_range ht, Option.map_some, Option.some.injEq] at hv
  rw [if_neg (by exact Bool.false_ne_true), rd_of_getElem? hr, rd_of_getElem? hx, rd_of_getElem? hy] at hv
  subst hv
  have hB0 : 0 ≤ B := (abs_nonneg _).trans bw
  have p300 : (0 : ℝ) < 2 ^ (-300 : ℤ) := by positivity
  have hαl : 0 < α * l := mul_pos (p300.trans_le h.α1) (p300.trans_le h.l1)
  have hβ : 0 < 1 / β := by have := h.β1; positivity
  have hbd : ∀ z, 0 ≤ z → z ≤ 4 * B → (z / (α * l)) ^ (1 / β) ≤ 2 ^ (64 : ℤ) := fun z z0 z1 =>
    le_trans (Real.rpow_le_rpow (div_nonneg z0 hαl.le) (div_le_div_of_nonneg_right z1 hαl.le) hβ.le) hT
  have h4 : 4 * B ≤ 2 ^ (300 : ℤ) := by
    have e : (4 : ℝ) * 2 ^ (290 : ℤ) ≤ 2 ^ (300 : ℤ) := by
      rw [show (300 : ℤ) = 10 + 290 from rfl, zpow_add₀ (by norm_num)]
      exact mul_le_mul_of_nonneg_right (by norm_num) (by positivity)
    exact (mul_le_mul_of_nonneg_left hB (by norm_num)).trans e
  obtain ⟨A₁, va, a0, a1, ae⟩ := netAtten_close hw vr vx bw br bx hB
  obtain ⟨A₂, vb, b0, b1, be⟩ := netAtten_close hw vr vy bw br bb hB
  obtain ⟨R₁, hR1, R10, R1e⟩ := rate_close hacc h va a0 (a1.trans h4) (hbd _ a0 a1)
  obtain ⟨R₂, hR2, R20, R2e⟩ := rate_close hacc h vb b0 (b1.trans h4) (hbd _ b0 b1)
  have hT1 : 0 ≤ (A₁ / (α * l)) ^ (1 / β) := Real.rpow_nonneg (div_nonneg a0 hαl.le) _
  have hT2 : 0 ≤ (A₂ / (α * l)) ^ (1 / β) := Real.rpow_nonneg (div_nonneg b0 hαl.le) _
  have hb1 := hbd _ a0 a1
  have hb2 := hbd _ b0 b1
  refine ⟨A₁, A₂, ?_⟩
  generalize (A₁ / (α * l)) ^ (1 / β) = T₁ at *
  generalize (A₂ / (α * l)) ^ (1 / β) = T₂ at *
  have big : ∀ T R' : ℝ, T ≤ 2 ^ (64 : ℤ) → |R' - T| ≤ 2 ^ (-46 : ℤ) * T + 2 ^ (-99 : ℤ) → R' ≤ 2 ^ (66 : ℤ) := by
    intro T R' h1 h2
    have := (abs_le.mp h2).2
    have k : (2 : ℝ) ^ (-46 : ℤ) * T ≤ 2 ^ (-46 : ℤ) * 2 ^ (64 : ℤ) := mul_le_mul_of_nonneg_left h1 (by positivity)
    have k2 : (2 : ℝ) ^ (-46 : ℤ) * 2 ^ (64 : ℤ) + 2 ^ (-99 : ℤ) + 2 ^ (64 : ℤ) ≤ 2 ^ (66 : ℤ) := by norm_num
    linarith only [this, k, k2, h1]
  have g1 := big _ _ hb1 R1e
  have g2 := big _ _ hb2 R2e
  have b66 : (2 : ℝ) ^ (70 : ℤ) ≤ 2 ^ (1023 : ℤ) := zpow_le_zpow_right₀ (by norm_num) (by norm_num)
  have idem : ∀ (q : DblR) (y : ℝ), q.val = .fin y → (binary64 (K := ℝ)).rnd y = .fin y := by
    intro q y hq
    have := q.2
    rw [hq] at this
    exact this
  obtain ⟨m, hm, me⟩ := hp.sub_err 1 al (idem (PyFloat.ofInt 1) _ (RFl.val_one)) (idem alpha _ hal) (by
    rw [abs_of_nonneg (by linarith)]
    have : (1 : ℝ) ≤ 2 ^ (1023 : ℤ) := one_le_zpow₀ (by norm_num) (by norm_num)
    exact le_trans (by linarith only [h0]) this)
  rw [abs_of_nonneg (by linarith : (0 : ℝ) ≤ 1 - al)] at me
  have hm0 : 0 ≤ m := rnd_nonneg hm (by linarith)
  have hm2 : m ≤ 2 := by
    have := (abs_le.mp me).2
    have k : (2 : ℝ) ^ (-53 : ℤ) * (1 - al) ≤ 1 * 1 := mul_le_mul (by norm_num) (by linarith) (by linarith) (by norm_num)
    linarith only [this, k, h0]
  have vm : ((PyFloat.ofInt 1 : DblR) -ᶠ alpha).val = .fin m := by rw [RFl.val_sub, RFl.val_one, hal, Fl.pf_sub_fin]; exact hm
  have q1 : al * R₁ ≤ 2 ^ (67 : ℤ) := by
    calc al * R₁ ≤ 1 * 2 ^ (66 : ℤ) := mul_le_mul h1 g1 R10 (by norm_num)
      _ ≤ _ := by norm_num
  have q2 : m * R₂ ≤ 2 ^ (67 : ℤ) := by
    calc m * R₂ ≤ 2 * 2 ^ (66 : ℤ) := mul_le_mul hm2 g2 R20 (by norm_num)
      _ ≤ _ := by norm_num
  have b67 : (2 : ℝ) ^ (67 : ℤ) ≤ 2 ^ (1023 : ℤ) := zpow_le_zpow_right₀ (by norm_num) (by norm_num)
  have n1 : 0 ≤ al * R₁ := mul_nonneg h0 R10
  have n2 : 0 ≤ m * R₂ := mul_nonneg hm0 R20
  obtain ⟨p1, hp1, e1⟩ := hp.err (al * R₁) (by rw [abs_of_nonneg n1]; exact q1.trans b67)
  obtain ⟨p2, hp2, e2⟩ := hp.err (m * R₂) (by rw [abs_of_nonneg n2]; exact q2.trans b67)
  have w1 : (alpha *ᶠ oneRateF a b L waa r x).val = .fin p1 := by
    rw [RFl.val_mul, hal]
    unfold oneRateF
    rw [hR1, Fl.pf_mul_fin]; exact hp1
  have w2 : (((PyFloat.ofInt 1 : DblR) -ᶠ alpha) *ᶠ oneRateF a b L waa r y).val = .fin p2 := by
    rw [RFl.val_mul, vm]
    unfold oneRateF
    rw [hR2, Fl.pf_mul_fin]; exact hp2
  rw [abs_of_nonneg n1] at e1
  rw [abs_of_nonneg n2] at e2
  have eta : (2 : ℝ) ^ (-1075 : ℤ) ≤ 2 ^ (-1000 : ℤ) := zpow_le_zpow_right₀ (by norm_num) (by norm_num)
  have e1' := e1.trans (add_le_add_right eta _)
  have e2' := e2.trans (add_le_add_right eta _)
  have s1 : |p1 + p2| ≤ 2 ^ (1023 : ℤ) := by
    have m1 : 0 ≤ p1 := rnd_nonneg hp1 n1
    have m2 : 0 ≤ p2 := rnd_nonneg hp2 n2
    rw [abs_of_nonneg (by linarith)]
    have t1 := (abs_le.mp e1').2
    have t2 := (abs_le.mp e2').2
    have k : ∀ z : ℝ, z ≤ 2 ^ (67 : ℤ) → (2 : ℝ) ^ (-53 : ℤ) * z ≤ 2 ^ (-53 : ℤ) * 2 ^ (67 : ℤ) := fun z hz =>
      mul_le_mul_of_nonneg_left hz (by positivity)
    have k1 := k _ q1
    have k2 := k _ q2
    have k3 : (2 : ℝ) ^ (-1000 : ℤ) ≤ 1 := zpow_le_one_of_nonpos₀ (by norm_num) (by norm_num)
    have k4 : 2 * ((2 : ℝ) ^ (-53 : ℤ) * 2 ^ (67 : ℤ) + 2 ^ (67 : ℤ) + 1) ≤ 2 ^ (70 : ℤ) := by norm_num
    refine le_trans ?_ b66
    refine le_trans ?_ k4
    generalize (2 : ℝ) ^ (-53 : ℤ) * 2 ^ (67 : ℤ) = c1 at *
    generalize (2 : ℝ) ^ (67 : ℤ) = c2 at *
    generalize (2 : ℝ) ^ (-1000 : ℤ) = c3 at *
    generalize (2 : ℝ) ^ (-53 : ℤ) * (al * R₁) = c4 at *
    generalize (2 : ℝ) ^ (-53 : ℤ) * (m * R₂) = c5 at *
    linarith only [t1, t2, k1, k2, k3, q1, q2]
  obtain ⟨R, hR, Re⟩ := hp.add_err p1 p2 (idem _ _ w1) (idem _ _ w2) s1
  refine ⟨R, a0, b0, ae, be, ?_, mix_real h0 h1 hT1 hT2 R1e R2e R10 R20 me e1' e2' Re⟩
  unfold mixRateF
  rw [RFl.val_add, w1, w2, Fl.pf_add_fin]; exact hR

/-! ### Examples: a link of 10 km with `a = b = 1` -/

private noncomputable abbrev N (n : ℕ) : DblR := PyFloat.ofInt n

private theorem N_val (n : ℕ) (h : n ≤ 2 ^ 53) : (N n).val = .fin (n : ℝ) := val_ofNat_b64 n h

/-- a level of 10 below a reference of 30: 2 mm/h up to `10^-12` -/
example : letI := correctPow (binary64 (K := ℝ))
    ∃ v, retrieval (fun _ _ _ => .error .valueError) [N 30] [N 10] [N 30] [] (N 10) none none (some [N 1]) (some [N 1]) "ITU_2005"
        (N 0) (N 1) none = .ok [v] ∧ ∃ R : ℝ, v.val = .fin R ∧ |R - 2| ≤ 1 / 10 ^ 12 := by
  let _ := correctPow (binary64 (K := ℝ))
  have lo : ∀ x : ℝ, 1 ≤ x → (2 : ℝ) ^ (-300 : ℤ) ≤ x := fun x hx =>
    le_trans (zpow_le_one_of_nonpos₀ (by norm_num) (by norm_num)) hx
  have hi : ∀ x : ℝ, x ≤ 2 ^ (10 : ℤ) → x ≤ 2 ^ (290 : ℤ) := fun x hx =>
    le_trans hx (zpow_le_zpow_right₀ (by norm_num) (by norm_num))
  have hi' : ∀ x : ℝ, x ≤ 2 ^ (10 : ℤ) → x ≤ 2 ^ (300 : ℤ) := fun x hx =>
    le_trans hx (zpow_le_zpow_right₀ (by norm_num) (by norm_num))
  have hr : RateRange (N 10) (N 1) (N 1) 10 1 1 :=
    ⟨by simpa using N_val 10 (by norm_num), by simpa using N_val 1 (by norm_num), by simpa using N_val 1 (by norm_num),
      lo _ (by norm_num), hi' _ (by norm_num), lo _ (by norm_num), hi' _ (by norm_num), by norm_num, by norm_num⟩
  obtain ⟨out, ho, hlen, hacc⟩ := C124_accuracy correctPow_close (fun _ _ _ => .error .valueError) [N 30] [N 10] [N 30] [] (N 10)
    (N 1) (N 1) "ITU_2005" (N 0) (N 1) rfl rfl 10 1 1 0 1 30 hr (by simpa using N_val 0 (by norm_num))
    (by simpa using N_val 1 (by norm_num)) (by norm_num) (by norm_num) (by norm_num) (hi _ (by norm_num)) (by norm_num)
  obtain ⟨v, rfl⟩ := List.length_eq_one_iff.mp hlen
  refine ⟨v, ho, ?_⟩
  obtain ⟨A₁, A₂, R, a0, b0, ae, be, hR, he⟩ := hacc 0 _ _ _ _ 30 10 30 rfl rfl rfl rfl (by simpa using N_val 30 (by norm_num))
    (by simpa using N_val 10 (by norm_num)) (by simpa using N_val 30 (by norm_num)) (by norm_num) (by norm_num) (by norm_num)
  refine ⟨R, hR, ?_⟩
  rw [show (1 : ℝ) / 1 = 1 by norm_num, Real.rpow_one, Real.rpow_one] at he
  norm_num at he ae
  rw [abs_le] at he ae ⊢
  constructor <;> linarith [he.1, he.2, ae.1, ae.2]

/-- the hypotheses of C124 about `pow` and the parameters hold on doubles: a higher level never gives more rain -/
example (out out' : List DblR) (v v' : DblR) : letI := correctPow (binary64 (K := ℝ))
    retrieval (fun _ _ _ => .error .valueError) [N 30] [N 20] [N 30] [] (N 10) none none (some [N 1]) (some [N 1]) "ITU_2005"
        (N 0) (N 1) none = .ok out →
    retrieval (fun _ _ _ => .error .valueError) [N 30] [N 10] [N 25] [] (N 10) none none (some [N 1]) (some [N 1]) "ITU_2005"
        (N 0) (N 1) none = .ok out' →
    out[0]? = some v → out'[0]? = some v' → isNaN v = false → isNaN v' = false → (v ≤ᶠ v') = true := by
  let _ := correctPow (binary64 (K := ℝ))
  have := correctPow_laws (binary64 (K := ℝ))
  intro h h' hv hv' n1 n2
  exact C124_monotone _ [N 30] [N 20] [N 30] [N 10] [N 25] [] (N 10) (N 1) (N 1) "ITU_2005" (N 0) (N 1) none out out' rainParams_b64
    (OrderedPyFloat.ofInt_mono _ _ (by norm_num)) (OrderedPyFloat.ofInt_mono _ _ (by norm_num)) rfl rfl (fun h => absurd rfl h)
    (by simp only [List.forall₂_cons, List.Forall₂.nil, and_true]; exact OrderedPyFloat.ofInt_mono _ _ (by norm_num))
    (by simp only [List.forall₂_cons, List.Forall₂.nil, and_true]; exact OrderedPyFloat.ofInt_mono _ _ (by norm_num))
    h h' 0 v v' hv hv' n1 n2

/-- a step that is not wet: no rain -/
example : letI := correctPow (binary64 (K := ℝ))
    ∃ out, retrieval (fun _ _ _ => .error .valueError) [N 60, N 60] (correct_received_signals [N 50, N 40] [N 65, N 45] [N 0, N 1] [N 60, N 60]).1
        (correct_received_signals [N 50, N 40] [N 65, N 45] [N 0, N 1] [N 60, N 60]).2 [] (N 10) none none (some [N 1]) (some [N 1]) "ITU_2005"
        (N 2) (N 1) none = .ok out ∧ out[0]? = some (PyFloat.ofInt 0) := by
  let _ := correctPow (binary64 (K := ℝ))
  have := correctPow_laws (binary64 (K := ℝ))
  obtain ⟨out, ho, hlen, h⟩ := C124_not_wet (fun _ _ _ => .error .valueError) [N 50, N 40] [N 65, N 45] [N 0, N 1] [N 60, N 60] []
    (N 10) (N 1) (N 1) "ITU_2005" (N 2) (N 1) none rainParams_b64
    (OrderedPyFloat.ofInt_mono _ _ (by norm_num)) (OrderedPyFloat.ofInt_mono _ _ (by norm_num))
    (OrderedPyFloat.ofInt_mono _ _ (by norm_num)) rfl rfl (fun h => absurd rfl h) rfl
  refine ⟨out, ho, ?_⟩
  have h0 : 0 < out.length := by rw [hlen]; simp
  rw [List.getElem?_eq_getElem h0]
  rcases h 0 _ _ _ rfl rfl (List.getElem?_eq_getElem h0) ⟨_, N_val 60 (by norm_num)⟩ (by
    rw [RFl.eq_def, N_val 0 (by norm_num), RFl.val_one]; simp) with e | ⟨_, _, _, e, _⟩
  · rw [e]
  · cases e

end Verif.Props
