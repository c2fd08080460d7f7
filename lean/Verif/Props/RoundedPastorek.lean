import Verif.Props.RateClose
import Verif.Props.WaaModels
import Verif.RoundingReal

/-!
# Property C154: the wet antenna attenuation of Pastorek et al. in double arithmetic
-/

namespace Verif.Props
open Verif Verif.KR Verif.Bin Verif.WaaModels

/-- What every `exp` of a C library gives for arguments that are not positive: a number between 0 and 1, NaN for NaN. -/
structure ExpRange [PyExp DblR] : Prop where
  bounds : ∀ x : DblR, x ≤ᶠ (PyFloat.ofInt 0 : DblR) →
    (PyFloat.ofInt 0 : DblR) ≤ᶠ PyExp.exp x ∧ PyExp.exp x ≤ᶠ (PyFloat.ofInt 1 : DblR)
  nan : ∀ x : DblR, isNaN x → isNaN (PyExp.exp x)

/-- `exp` is monotone (true if it is correctly rounded; not promised by every C library). -/
def ExpMono [PyExp DblR] : Prop := ∀ x y : DblR, x ≤ᶠ y → PyExp.exp x ≤ᶠ PyExp.exp y

/-- `exp` has a relative error of at most `2^-51` (two units in the last place) up to an absolute error of `2^-1000` near
underflow, for arguments that are not positive. -/
def ExpClose [PyExp DblR] : Prop :=
  ∀ (x : DblR) (a : ℝ), x.val = .fin a → a ≤ 0 →
    ∃ c, (PyExp.exp x).val = .fin c ∧ |c - Real.exp a| ≤ 2 ^ (-51 : ℤ) * Real.exp a + 2 ^ (-1000 : ℤ)

/-- the correctly rounded exponential function -/
@[reducible] noncomputable def correctExp : PyExp DblR := ⟨fun x => RFl.mk' _ (Fl.exp x.val)⟩

theorem flexp_mono {x y : Fl ℝ} (h : x ≤ᶠ y) : Fl.exp x ≤ᶠ Fl.exp y := by
  cases x <;> cases y <;> first
    | rfl
    | (exfalso; revert h; exact Bool.false_ne_true)
    | skip
  · simp only [Fl.exp, Fl.pf_le_fin, decide_eq_true_eq, le_refl]
  · simp only [Fl.exp, Fl.pf_le_fin, decide_eq_true_eq]
    exact (Real.exp_pos _).le
  · simp only [Fl.exp, Fl.pf_le_fin, decide_eq_true_eq] at h ⊢
    exact Real.exp_le_exp.mpr h

theorem correctExp_mono : @ExpMono correctExp := by
  letI := correctExp
  intro x y h
  rw [RFl.le_def] at h ⊢
  exact (binary64 (K := ℝ)).round_mono (flexp_mono h)

theorem correctExp_range : @ExpRange correctExp := by
  letI := correctExp
  constructor
  · intro x h
    have h' := correctExp_mono _ _ h
    rw [RFl.le_def] at h
    constructor
    · rw [RFl.le_def, RFl.val_zero]
      have : Fl.fin 0 ≤ᶠ Fl.exp x.val := by
        cases hx : x.val <;> rw [hx] at h <;> first
          | (exfalso; revert h; exact Bool.false_ne_true)
          | skip
        · simp [Fl.exp]
        · simp only [Fl.exp, Fl.pf_le_fin, decide_eq_true_eq]
          exact (Real.exp_pos _).le
        · rfl
      have := (binary64 (K := ℝ)).round_mono this
      rwa [show (binary64 (K := ℝ)).round (.fin 0) = .fin 0 from (binary64 (K := ℝ)).zero] at this
    · have e : PyExp.exp (PyFloat.ofInt 0 : DblR) = PyFloat.ofInt 1 := by
        apply RFl.ext
        show (binary64 (K := ℝ)).round (Fl.exp (PyFloat.ofInt 0 : DblR).val) = _
        rw [RFl.val_zero, RFl.val_one, Fl.exp_fin, Real.exp_zero]
        exact (binary64 (K := ℝ)).one
      rwa [e] at h'
  · intro x hx
    show isNaN ((binary64 (K := ℝ)).round (Fl.exp x.val)) = true
    have : x.val = .nan := by
      cases h : x.val <;> first | rfl | (exfalso; change isNaN x.val = true at hx; rw [h] at hx; cases hx)
    rw [this]
    rfl

theorem correctExp_close : @ExpClose correctExp := by
  letI := correctExp
  intro x a hx ha
  have h0 := Real.exp_pos a
  have h1 : Real.exp a ≤ 1 := Real.exp_le_one_iff.mpr ha
  obtain ⟨c, hc, hce⟩ := (binary64_precision (K := ℝ)).err (Real.exp a) (by
    rw [abs_of_pos h0]
    exact h1.trans (one_le_zpow₀ (by norm_num) (by norm_num)))
  refine ⟨c, ?_, ?_⟩
  · show (binary64 (K := ℝ)).round (Fl.exp x.val) = _
    rw [hx]
    exact hc
  · rw [abs_of_pos h0] at hce
    refine hce.trans (add_le_add (mul_le_mul_of_nonneg_right ?_ h0.le) ?_)
    · exact zpow_le_zpow_right₀ (by norm_num) (by norm_num)
    · exact zpow_le_zpow_right₀ (by norm_num) (by norm_num)

/-- Parameters: finite and positive. -/
structure PastorekParams (A_max zeta d : DblR) (α δ : ℝ) : Prop where
  hA : A_max.val = .fin α
  α0 : 0 < α
  hd : d.val = .fin δ
  δ0 : 0 < δ
  hz : (PyFloat.ofInt 0 : DblR) <ᶠ zeta

theorem rep_fin {x : DblR} {a : ℝ} (h : x.val = .fin a) : (binary64 (K := ℝ)).rnd a = .fin a := by
  have := x.rep
  rw [h] at this
  exact this

theorem neg_val {d : DblR} {δ : ℝ} (hd : d.val = .fin δ) (h0 : 0 < δ) : ((PyFloat.ofInt 0 : DblR) -ᶠ d).val = .fin (-δ) := by
  rw [RFl.val_sub, RFl.val_zero, hd, Fl.pf_sub_fin, zero_sub]
  show rndFmt 53 (-1074) 1024 (-δ) = _
  rw [rndFmt_neg _ h0.ne']
  have : rndFmt 53 (-1074) 1024 δ = .fin δ := rep_fin hd
  rw [this]
  rfl

/-- the argument of `exp` -/
theorem pastorek_arg [PyPow DblR] [MonoPow DblR] {A zeta d : DblR} {α δ : ℝ} (h : PastorekParams A zeta d α δ) {x : DblR}
    (hx : (PyFloat.ofInt 0 : DblR) ≤ᶠ x) :
    (((PyFloat.ofInt 0 : DblR) -ᶠ d) *ᶠ PyPow.pow x zeta) ≤ᶠ (PyFloat.ofInt 0 : DblR) := by
  have hp := PowLaws.nonneg x zeta hx h.hz
  rw [RFl.le_def, RFl.val_zero] at hp
  rw [RFl.le_def, RFl.val_mul, neg_val h.hd h.δ0, RFl.val_zero]
  have key : (Fl.fin (-δ) *ᶠ (PyPow.pow x zeta).val) ≤ᶠ Fl.fin 0 := by
    cases hv : (PyPow.pow x zeta).val <;> rw [hv] at hp <;> first
      | (exfalso; revert hp; exact Bool.false_ne_true)
      | skip
    · rename_i c
      rw [Fl.pf_le_fin, decide_eq_true_eq] at hp
      rw [Fl.pf_mul_fin, Fl.pf_le_fin, decide_eq_true_eq]
      have := mul_nonneg h.δ0.le hp
      linarith
    · rw [Fl.pf_fin_mul_pinf]
      unfold Fl.infSign
      rw [if_neg (by linarith [h.δ0]), if_pos (by linarith [h.δ0])]
      rfl
  have := (binary64 (K := ℝ)).round_mono key
  rwa [show (binary64 (K := ℝ)).round (.fin 0) = .fin 0 from (binary64 (K := ℝ)).zero] at this

theorem pastorek_arg_mono [PyPow DblR] [MonoPow DblR] {A zeta d : DblR} {α δ : ℝ} (h : PastorekParams A zeta d α δ) {x y : DblR}
    (hx : (PyFloat.ofInt 0 : DblR) ≤ᶠ x) (hxy : x ≤ᶠ y) :
    (((PyFloat.ofInt 0 : DblR) -ᶠ d) *ᶠ PyPow.pow y zeta) ≤ᶠ (((PyFloat.ofInt 0 : DblR) -ᶠ d) *ᶠ PyPow.pow x zeta) := by
  have hm := MonoPow.mono x y zeta hx hxy h.hz
  have hp := PowLaws.nonneg x zeta hx h.hz
  rw [RFl.le_def, RFl.val_zero] at hp
  rw [RFl.le_def] at hm
  rw [RFl.le_def, RFl.val_mul, RFl.val_mul, neg_val h.hd h.δ0]
  apply (binary64 (K := ℝ)).round_mono
  have i0 : (Fl.infSign (-δ) : Fl ℝ) = Fl.ninf := by
    unfold Fl.infSign
    rw [if_neg (by linarith [h.δ0]), if_pos (by linarith [h.δ0])]
  cases hv : (PyPow.pow x zeta).val <;> cases hw : (PyPow.pow y zeta).val <;> rw [hv, hw] at hm <;> rw [hv] at hp <;> first
    | (exfalso; revert hp; exact Bool.false_ne_true)
    | (exfalso; revert hm; exact Bool.false_ne_true)
    | skip
  · rw [Fl.pf_le_fin, decide_eq_true_eq] at hm
    rw [Fl.pf_mul_fin, Fl.pf_mul_fin, Fl.pf_le_fin, decide_eq_true_eq]
    exact mul_le_mul_of_nonpos_left hm (by linarith [h.δ0])
  · rw [Fl.pf_fin_mul_pinf, i0, Fl.pf_mul_fin]; rfl
  · rw [Fl.pf_fin_mul_pinf, i0]; rfl

/-- the part behind `exp` -/
theorem pastorek_tail {A e : DblR} {α : ℝ} (hA : A.val = .fin α) (α0 : 0 < α)
    (h0 : (PyFloat.ofInt 0 : DblR) ≤ᶠ e) (h1 : e ≤ᶠ (PyFloat.ofInt 1 : DblR)) :
    ∃ ε s w : ℝ, e.val = .fin ε ∧ 0 ≤ ε ∧ ε ≤ 1 ∧ (binary64 (K := ℝ)).rnd (1 - ε) = .fin s ∧ 0 ≤ s ∧ s ≤ 1 ∧
      (binary64 (K := ℝ)).rnd (α * s) = .fin w ∧ (A *ᶠ ((PyFloat.ofInt 1 : DblR) -ᶠ e)).val = .fin w ∧ 0 ≤ w ∧ w ≤ α := by
  rw [RFl.le_def, RFl.val_zero] at h0
  rw [RFl.le_def, RFl.val_one] at h1
  have hz := (binary64 (K := ℝ)).zero
  have ho := (binary64 (K := ℝ)).one
  cases he : e.val <;> rw [he] at h0 h1 <;> first
    | (exfalso; revert h0; exact Bool.false_ne_true)
    | (exfalso; revert h1; exact Bool.false_ne_true)
    | skip
  rename_i ε
  rw [Fl.pf_le_fin, decide_eq_true_eq] at h0 h1
  have a1 := (binary64 (K := ℝ)).mono 0 (1 - ε) (by linarith)
  have a2 := (binary64 (K := ℝ)).mono (1 - ε) 1 (by linarith)
  rw [hz] at a1
  rw [ho] at a2
  cases hs : (binary64 (K := ℝ)).rnd (1 - ε) <;> rw [hs] at a1 a2 <;> first
    | (exfalso; revert a1; exact Bool.false_ne_true)
    | (exfalso; revert a2; exact Bool.false_ne_true)
    | skip
  rename_i s
  rw [Fl.pf_le_fin, decide_eq_true_eq] at a1 a2
  have b1 := (binary64 (K := ℝ)).mono 0 (α * s) (mul_nonneg α0.le a1)
  have b2 := (binary64 (K := ℝ)).mono (α * s) α (by nlinarith)
  rw [hz] at b1
  rw [rep_fin hA] at b2
  cases hw : (binary64 (K := ℝ)).rnd (α * s) <;> rw [hw] at b1 b2 <;> first
    | (exfalso; revert b1; exact Bool.false_ne_true)
    | (exfalso; revert b2; exact Bool.false_ne_true)
    | skip
  rename_i w
  rw [Fl.pf_le_fin, decide_eq_true_eq] at b1 b2
  refine ⟨ε, s, w, rfl, h0, h1, hs, a1, a2, hw, ?_, b1, b2⟩
  rw [RFl.val_mul, RFl.val_sub, RFl.val_one, he, Fl.pf_sub_fin, hA]
  rw [show (binary64 (K := ℝ)).round (Fl.fin (1 - ε)) = .fin s from hs, Fl.pf_mul_fin]
  exact hw

theorem pastorek_elem_zero [PyPow DblR] [PyExp DblR] {A zeta d x : DblR} (hx : (x ==ᶠ (PyFloat.ofInt 0 : DblR)) = true) :
    pastorekElem A zeta d x = PyFloat.ofInt 0 := by
  unfold pastorekElem
  rw [if_pos hx]

theorem pastorek_elem_range [PyPow DblR] [MonoPow DblR] [PyExp DblR] (he : ExpRange) {A zeta d : DblR} {α δ : ℝ}
    (h : PastorekParams A zeta d α δ) {x : DblR} (hx : (PyFloat.ofInt 0 : DblR) ≤ᶠ x) :
    ∃ w, (pastorekElem A zeta d x).val = .fin w ∧ 0 ≤ w ∧ w ≤ α := by
  by_cases h0 : (x ==ᶠ (PyFloat.ofInt 0 : DblR)) = true
  · rw [pastorek_elem_zero h0]
    exact ⟨0, RFl.val_zero, le_rfl, h.α0.le⟩
  · obtain ⟨h1, h2⟩ := he.bounds _ (pastorek_arg h hx)
    obtain ⟨_, _, w, _, _, _, _, _, _, _, hw, w0, w1⟩ := pastorek_tail h.hA h.α0 h1 h2
    refine ⟨w, ?_, w0, w1⟩
    unfold pastorekElem
    rw [if_neg h0]
    exact hw

theorem pastorek_elem_mono [PyPow DblR] [MonoPow DblR] [PyExp DblR] (he : ExpRange) (hm : ExpMono) {A zeta d : DblR} {α δ : ℝ}
    (h : PastorekParams A zeta d α δ) {x y : DblR} (hx : (PyFloat.ofInt 0 : DblR) ≤ᶠ x) (hxy : x ≤ᶠ y) :
    pastorekElem A zeta d x ≤ᶠ pastorekElem A zeta d y := by
  have hy := LawfulPyFloat.le_trans hx hxy
  by_cases h0 : (x ==ᶠ (PyFloat.ofInt 0 : DblR)) = true
  · obtain ⟨w, hw, w0, _⟩ := pastorek_elem_range he h hy
    rw [pastorek_elem_zero h0, RFl.le_def, RFl.val_zero, hw, Fl.pf_le_fin, decide_eq_true_eq]
    exact w0
  · have h0y : ¬ (y ==ᶠ (PyFloat.ofInt 0 : DblR)) = true := by
      intro e
      apply h0
      rw [LawfulPyFloat.eq_iff, Bool.and_eq_true] at e ⊢
      exact ⟨LawfulPyFloat.le_trans hxy e.1, hx⟩
    obtain ⟨h1, h2⟩ := he.bounds _ (pastorek_arg h hx)
    obtain ⟨k1, k2⟩ := he.bounds _ (pastorek_arg h hy)
    have hmm := hm _ _ (pastorek_arg_mono h hx hxy)
    obtain ⟨ε, s, w, e1, _, _, s1, _, _, w1, v1, _⟩ := pastorek_tail h.hA h.α0 h1 h2
    obtain ⟨ε', s', w', e1', _, _, s1', _, _, w1', v1', _⟩ := pastorek_tail h.hA h.α0 k1 k2
    rw [RFl.le_def, e1, e1', Fl.pf_le_fin, decide_eq_true_eq] at hmm
    have a := (binary64 (K := ℝ)).mono (1 - ε) (1 - ε') (by linarith)
    rw [s1, s1', Fl.pf_le_fin, decide_eq_true_eq] at a
    have b := (binary64 (K := ℝ)).mono (α * s) (α * s') (mul_le_mul_of_nonneg_left a h.α0.le)
    rw [w1, w1'] at b
    unfold pastorekElem
    rw [if_neg h0, if_neg h0y, RFl.le_def, v1, v1']
    exact b

theorem pastorek_elem_nan [PyPow DblR] [MonoPow DblR] [PyExp DblR] (he : ExpRange) {A zeta d : DblR} {α δ : ℝ}
    (h : PastorekParams A zeta d α δ) {x : DblR} (hx : isNaN x) : isNaN (pastorekElem A zeta d x) := by
  have h0 : ¬ (x ==ᶠ (PyFloat.ofInt 0 : DblR)) = true := by
    intro e
    rw [LawfulPyFloat.eq_iff, Bool.and_eq_true] at e
    have := (LawfulPyFloat.le_not_nan _ _ e.1).1
    rw [hx] at this
    cases this
  unfold pastorekElem
  rw [if_neg h0]
  apply OrderedPyFloat.mul_nan
  rw [Bool.or_eq_true]
  right
  apply LawfulPyFloat.sub_nan
  rw [Bool.or_eq_true]
  right
  apply he.nan
  apply OrderedPyFloat.mul_nan
  rw [Bool.or_eq_true]
  right
  exact PowLaws.nan x zeta hx h.hz

/-- **C154** In double arithmetic, with positive finite parameters, a power function and an exponential function that need not be
exact: the wet antenna attenuation is a finite number between 0 and `A_max` for every rain rate that is
not negative, infinite ones too; it is exactly zero where it does not rain and NaN where the rain rate is NaN; and with a
monotone exponential function it does not decrease with the rain rate. -/
theorem C154_range [PyPow DblR] [MonoPow DblR] [PyExp DblR] (he : ExpRange) {A_max zeta d : DblR} {α δ : ℝ}
    (h : PastorekParams A_max zeta d α δ) (R : List DblR) :
    ∃ waa, waa_pastorek_2021 (.array R) A_max zeta d = .ok waa ∧ waa.length = R.length ∧
      (∀ (i : Nat) (x : DblR), R[i]? = some x → isNaN x → ∃ v, waa[i]? = some v ∧ isNaN v) ∧
      (∀ (i : Nat) (x : DblR), R[i]? = some x → x.val = .fin 0 → waa[i]? = some (PyFloat.ofInt 0)) ∧
      (∀ (i : Nat) (x : DblR), R[i]? = some x → (PyFloat.ofInt 0 : DblR) ≤ᶠ x →
        ∃ v w, waa[i]? = some v ∧ v.val = .fin w ∧ 0 ≤ w ∧ w ≤ α) ∧
      (ExpMono → ∀ (i j : Nat) (x y v w : DblR), R[i]? = some x → R[j]? = some y → waa[i]? = some v → waa[j]? = some w →
        (PyFloat.ofInt 0 : DblR) ≤ᶠ x → x ≤ᶠ y → v ≤ᶠ w) := by
  refine ⟨_, rfl, by simp, ?_, ?_, ?_, ?_⟩
  · intro i x hi hx
    exact ⟨_, by rw [List.getElem?_map, hi]; rfl, pastorek_elem_nan he h hx⟩
  · intro i x hi hx
    rw [List.getElem?_map, hi, Option.map_some, pastorek_elem_zero]
    rw [RFl.eq_def, hx, RFl.val_zero]
    simp
  · intro i x hi hx
    obtain ⟨w, h1, h2, h3⟩ := pastorek_elem_range he h hx
    exact ⟨_, w, by rw [List.getElem?_map, hi]; rfl, h1, h2, h3⟩
  · intro hm i j x y v w hi hj hv hw hx hxy
    rw [List.getElem?_map, hi, Option.map_some, Option.some.injEq] at hv
    rw [List.getElem?_map, hj, Option.map_some, Option.some.injEq] at hw
    subst hv hw
    exact pastorek_elem_mono he hm h hx hxy

/-! ### Accuracy -/

/-- real analysis: `exp (-t)` changes little with relative errors of `t`, however large `t` is -/
theorem exp_neg_close {s t δ η : ℝ} (hs : 0 ≤ s) (ht : 0 ≤ t) (hδ : 0 ≤ δ) (hδ1 : δ ≤ 1 / 2) (hη : 0 ≤ η)
    (h : |s - t| ≤ δ * t + η) : |Real.exp (-s) - Real.exp (-t)| ≤ 2 * δ + 2 * η := by
  have key : ∀ m d : ℝ, 0 ≤ m → 0 ≤ d → Real.exp (-m) - Real.exp (-(m + d)) ≤ Real.exp (-m) * d := by
    intro m d _ _
    rw [neg_add, Real.exp_add]
    have := Real.add_one_le_exp (-d)
    have := Real.exp_pos (-m)
    nlinarith
  have hm : ∀ m : ℝ, 0 ≤ m → t * (1 - δ) ≤ m + η → ∀ d, 0 ≤ d → d ≤ δ * t + η → Real.exp (-m) * d ≤ 2 * δ + 2 * η := by
    intro m hm0 htm d hd0 hd
    have e0 := Real.exp_pos (-m)
    have e1 : Real.exp (-m) ≤ 1 := Real.exp_le_one_iff.mpr (by linarith)
    have e2 : Real.exp (-m) * m ≤ 1 := by
      have h1 := Real.add_one_le_exp m
      have : Real.exp (-m) * m ≤ Real.exp (-m) * Real.exp m := mul_le_mul_of_nonneg_left (by linarith) e0.le
      rwa [← Real.exp_add, neg_add_cancel, Real.exp_zero] at this
    have t2 : t ≤ 2 * m + 2 * η := by nlinarith
    have d2 : d ≤ 2 * δ * m + 2 * η := by nlinarith
    calc Real.exp (-m) * d ≤ Real.exp (-m) * (2 * δ * m + 2 * η) := mul_le_mul_of_nonneg_left d2 e0.le
      _ = 2 * δ * (Real.exp (-m) * m) + Real.exp (-m) * (2 * η) := by ring
      _ ≤ 2 * δ * 1 + 1 * (2 * η) :=
        add_le_add (mul_le_mul_of_nonneg_left e2 (by linarith)) (mul_le_mul_of_nonneg_right e1 (by linarith))
      _ = _ := by ring
  obtain ⟨h1, h2⟩ := abs_le.mp h
  rcases le_total s t with hst | hst
  · have := key s (t - s) hs (by linarith)
    rw [show s + (t - s) = t by ring] at this
    rw [abs_of_nonneg (by linarith [Real.exp_le_exp.mpr (neg_le_neg hst)])]
    exact this.trans (hm s hs (by linarith) _ (by linarith) (by linarith))
  · have := key t (s - t) ht (by linarith)
    rw [show t + (s - t) = s by ring] at this
    rw [abs_sub_comm, abs_of_nonneg (by linarith [Real.exp_le_exp.mpr (neg_le_neg hst)])]
    exact this.trans (hm t ht (by nlinarith) _ (by linarith) (by linarith))

/-- **C154** The wet antenna attenuation computed in doubles differs from `A_max (1 - exp (-d R^zeta))` by at most `A_max`
times `2^-48`, if `pow` and `exp` are accurate to two units in the last place. -/
theorem C154_accuracy [PyPow DblR] [MonoPow DblR] [PyExp DblR] (hpow : PowClose) (hexp : ExpClose) (he : ExpRange)
    {A_max zeta d : DblR} {α ζ δ : ℝ} (h : PastorekParams A_max zeta d α δ) (hζ : zeta.val = .fin ζ)
    (hα1 : 2 ^ (-300 : ℤ) ≤ α) (hα2 : α ≤ 2 ^ (300 : ℤ)) (hδ2 : δ ≤ 2 ^ (100 : ℤ)) (R : List DblR) :
    ∃ waa, waa_pastorek_2021 (.array R) A_max zeta d = .ok waa ∧ waa.length = R.length ∧
      ∀ (i : Nat) (x : DblR) (ρ : ℝ), R[i]? = some x → x.val = .fin ρ → 0 ≤ ρ → ρ ^ ζ ≤ 2 ^ (900 : ℤ) →
        ∃ v w, waa[i]? = some v ∧ v.val = .fin w ∧
          |w - α * (1 - Real.exp (-(δ * ρ ^ ζ)))| ≤ 2 ^ (-48 : ℤ) * α := by
  refine ⟨_, rfl, by simp, ?_⟩
  intro i x ρ hi hx hρ hpw
  have ζ0 : 0 < ζ := by
    have := h.hz
    rw [RFl.lt_def, RFl.val_zero, hζ, Fl.pf_lt_fin, decide_eq_true_eq] at this
    exact this
  have α0 := h.α0
  have δ0 := h.δ0
  have hxz : (PyFloat.ofInt 0 : DblR) ≤ᶠ x := by
    rw [RFl.le_def, RFl.val_zero, hx, Fl.pf_le_fin, decide_eq_true_eq]
    exact hρ
  refine ⟨pastorekElem A_max zeta d x, ?_⟩
  by_cases h0 : (x ==ᶠ (PyFloat.ofInt 0 : DblR)) = true
  · refine ⟨0, by rw [List.getElem?_map, hi]; rfl, by rw [pastorek_elem_zero h0, RFl.val_zero], ?_⟩
    rw [RFl.eq_def, hx, RFl.val_zero, Fl.pf_eq_fin, decide_eq_true_eq] at h0
    rw [h0, Real.zero_rpow ζ0.ne']
    simp only [mul_zero, neg_zero, Real.exp_zero, sub_self, abs_zero]
    positivity
  obtain ⟨c, hc, c0, hce⟩ := hpow x zeta ρ ζ hx hζ hρ ζ0 hpw
  have P0 : 0 ≤ ρ ^ ζ := Real.rpow_nonneg hρ ζ
  set P := ρ ^ ζ with hP
  clear_value P
  have c2 : c ≤ 2 ^ (902 : ℤ) := by
    have e1 : (2 : ℝ) ^ (-51 : ℤ) * P ≤ 1 * P := mul_le_mul_of_nonneg_right (by norm_num) P0
    have e2 : (2 : ℝ) ^ (-1000 : ℤ) ≤ 2 ^ (900 : ℤ) := zpow_le_zpow_right₀ (by norm_num) (by norm_num)
    have e3 : (2 : ℝ) ^ (902 : ℤ) = 4 * 2 ^ (900 : ℤ) := by
      rw [show (902 : ℤ) = 2 + 900 by norm_num, zpow_add₀ (by norm_num)]; norm_num
    have e4 := (abs_le.mp hce).2
    rw [e3]
    generalize (2 : ℝ) ^ (-51 : ℤ) * P = u1 at *
    generalize (2 : ℝ) ^ (-1000 : ℤ) = u2 at *
    generalize (2 : ℝ) ^ (900 : ℤ) = u3 at *
    have : 0 ≤ u3 := P0.trans hpw
    linarith only [e1, e2, e4, hpw, this]
  have dc0 : 0 ≤ δ * c := mul_nonneg δ0.le c0
  have dc2 : δ * c ≤ 2 ^ (1002 : ℤ) := by
    calc δ * c ≤ 2 ^ (100 : ℤ) * 2 ^ (902 : ℤ) := mul_le_mul hδ2 c2 c0 (by positivity)
      _ = _ := by rw [← zpow_add₀ (by norm_num)]; norm_num
  have eg : |-δ * c| = δ * c := by rw [neg_mul, abs_neg, abs_of_nonneg dc0]
  obtain ⟨g, hg, hge⟩ := (binary64_precision (K := ℝ)).err (-δ * c) (by
    rw [eg]
    exact dc2.trans (zpow_le_zpow_right₀ (by norm_num) (by norm_num)))
  rw [eg] at hge
  have g0 : g ≤ 0 := rnd_nonpos hg (by rw [neg_mul]; linarith)
  have hgv : (((PyFloat.ofInt 0 : DblR) -ᶠ d) *ᶠ PyPow.pow x zeta).val = .fin g := by
    rw [RFl.val_mul, neg_val h.hd δ0, hc, Fl.pf_mul_fin]
    exact hg
  obtain ⟨b1, b2⟩ := he.bounds _ (pastorek_arg h hxz)
  obtain ⟨ε, s, w, hε, ε0, ε1, hs, s0, s1, hw, hv, _⟩ := pastorek_tail h.hA α0 b1 b2
  obtain ⟨c', hc', hee⟩ := hexp _ g hgv g0
  rw [hε] at hc'
  cases hc'
  refine ⟨w, by rw [List.getElem?_map, hi]; rfl, ?_, ?_⟩
  · unfold pastorekElem
    rw [if_neg h0]
    exact hv
  -- errors
  have T0 : 0 ≤ δ * P := mul_nonneg δ0.le P0
  have eG : |(-g) - δ * P| ≤ 2 ^ (-50 : ℤ) * (δ * P) + 2 ^ (-600 : ℤ) := by
    have k1 : |(-g) - δ * P| ≤ |g - -δ * c| + δ * |c - P| := by
      rw [show (-g) - δ * P = -(g - -δ * c) + δ * (c - P) by ring]
      refine (abs_add_le _ _).trans ?_
      rw [abs_neg, abs_mul, abs_of_pos δ0]
    have k2 : δ * |c - P| ≤ 2 ^ (-51 : ℤ) * (δ * P) + δ * 2 ^ (-1000 : ℤ) := by
      calc δ * |c - P| ≤ δ * (2 ^ (-51 : ℤ) * P + 2 ^ (-1000 : ℤ)) := mul_le_mul_of_nonneg_left hce δ0.le
        _ = _ := by ring
    have k3 : δ * c ≤ 2 * (δ * P) + δ * 2 ^ (-1000 : ℤ) := by
      have e1 : (2 : ℝ) ^ (-51 : ℤ) * (δ * P) ≤ 1 * (δ * P) := mul_le_mul_of_nonneg_right (by norm_num) T0
      have e4 := mul_le_mul_of_nonneg_left (abs_le.mp (le_refl |c - P|)).2 δ0.le
      rw [mul_sub] at e4
      linarith only [e1, e4, k2]
    have k4 : δ * (2 : ℝ) ^ (-1000 : ℤ) ≤ 2 ^ (-900 : ℤ) := by
      calc δ * (2 : ℝ) ^ (-1000 : ℤ) ≤ 2 ^ (100 : ℤ) * 2 ^ (-1000 : ℤ) := mul_le_mul_of_nonneg_right hδ2 (by positivity)
        _ = _ := by rw [← zpow_add₀ (by norm_num)]; norm_num
    have k5 : (2 : ℝ) ^ (-53 : ℤ) * (δ * c) ≤ 2 ^ (-53 : ℤ) * (2 * (δ * P)) + 2 ^ (-900 : ℤ) := by
      have a := mul_le_mul_of_nonneg_left k3 (show (0 : ℝ) ≤ 2 ^ (-53 : ℤ) by positivity)
      have b : (2 : ℝ) ^ (-53 : ℤ) * (δ * 2 ^ (-1000 : ℤ)) ≤ 1 * 2 ^ (-900 : ℤ) :=
        mul_le_mul (by norm_num) k4 (by positivity) (by norm_num)
      rw [mul_add] at a
      linarith only [a, b]
    have k6 : (2 : ℝ) ^ (-53 : ℤ) * (2 * (δ * P)) + 2 ^ (-51 : ℤ) * (δ * P) ≤ 2 ^ (-50 : ℤ) * (δ * P) := by
      have : (2 : ℝ) ^ (-53 : ℤ) * 2 + 2 ^ (-51 : ℤ) ≤ 2 ^ (-50 : ℤ) := by norm_num
      have := mul_le_mul_of_nonneg_right this T0
      linarith only [this]
    have k7 : (2 : ℝ) ^ (-900 : ℤ) + 2 ^ (-900 : ℤ) + 2 ^ (-1075 : ℤ) ≤ 2 ^ (-600 : ℤ) := by
      have a : (2 : ℝ) ^ (-1075 : ℤ) ≤ 2 ^ (-900 : ℤ) := zpow_le_zpow_right₀ (by norm_num) (by norm_num)
      have b : (2 : ℝ) ^ (-900 : ℤ) * 4 ≤ 2 ^ (-600 : ℤ) := by
        rw [show (4 : ℝ) = 2 ^ (2 : ℤ) by norm_num, ← zpow_add₀ (by norm_num)]
        exact zpow_le_zpow_right₀ (by norm_num) (by norm_num)
      have c : (0 : ℝ) ≤ 2 ^ (-900 : ℤ) := by positivity
      linarith only [a, b, c]
    linarith only [k1, k2, k4, k5, k6, k7, hge]
  have eE := exp_neg_close (s := -g) (t := δ * P) (by linarith) T0 (by positivity) (by norm_num) (by positivity) eG
  rw [neg_neg] at eE
  have eE2 : |ε - Real.exp (-(δ * P))| ≤ 2 ^ (-51 : ℤ) + 2 ^ (-1000 : ℤ) + (2 * 2 ^ (-50 : ℤ) + 2 * 2 ^ (-600 : ℤ)) := by
    have k1 := abs_add_le (ε - Real.exp g) (Real.exp g - Real.exp (-(δ * P)))
    rw [sub_add_sub_cancel] at k1
    have k2 : Real.exp g ≤ 1 := Real.exp_le_one_iff.mpr g0
    have k3 := mul_le_mul_of_nonneg_left k2 (show (0 : ℝ) ≤ 2 ^ (-51 : ℤ) by positivity)
    linarith only [k1, k3, eE, hee]
  have eS : |s - (1 - ε)| ≤ 2 ^ (-53 : ℤ) := by
    obtain ⟨z, hz, hze⟩ := (binary64_precision (K := ℝ)).sub_err 1 ε (binary64 (K := ℝ)).one (rep_fin hε) (by
      rw [abs_of_nonneg (by linarith)]
      exact le_trans (by linarith) (one_le_zpow₀ (by norm_num) (by norm_num : (0 : ℤ) ≤ 1023)))
    rw [hs] at hz
    cases hz
    rw [abs_of_nonneg (by linarith : 0 ≤ 1 - ε)] at hze
    refine hze.trans ?_
    have := mul_le_mul_of_nonneg_left (show 1 - ε ≤ 1 by linarith) (show (0 : ℝ) ≤ 2 ^ (-53 : ℤ) by positivity)
    linarith only [this]
  have eW : |w - α * s| ≤ 2 ^ (-53 : ℤ) * α + 2 ^ (-1075 : ℤ) := by
    have as0 : 0 ≤ α * s := mul_nonneg α0.le s0
    have as1 : α * s ≤ α := by nlinarith
    obtain ⟨z, hz, hze⟩ := (binary64_precision (K := ℝ)).err (α * s) (by
      rw [abs_of_nonneg as0]
      exact (as1.trans hα2).trans (zpow_le_zpow_right₀ (by norm_num) (by norm_num)))
    rw [hw] at hz
    cases hz
    rw [abs_of_nonneg as0] at hze
    have := mul_le_mul_of_nonneg_left as1 (show (0 : ℝ) ≤ 2 ^ (-53 : ℤ) by positivity)
    linarith only [this, hze]
  have eA : (2 : ℝ) ^ (-1075 : ℤ) ≤ 2 ^ (-53 : ℤ) * α := by
    calc (2 : ℝ) ^ (-1075 : ℤ) ≤ 2 ^ (-53 + -300 : ℤ) := zpow_le_zpow_right₀ (by norm_num) (by norm_num)
      _ = 2 ^ (-53 : ℤ) * 2 ^ (-300 : ℤ) := zpow_add₀ (by norm_num) _ _
      _ ≤ _ := mul_le_mul_of_nonneg_left hα1 (by positivity)
  generalize Real.exp (-(δ * P)) = E at *
  have k1 : |w - α * (1 - E)| ≤ |w - α * s| + α * (|s - (1 - ε)| + |ε - E|) := by
    rw [show w - α * (1 - E) = (w - α * s) + α * ((s - (1 - ε)) + -(ε - E)) by ring]
    refine (abs_add_le _ _).trans ?_
    rw [abs_mul, abs_of_pos α0]
    have := abs_add_le (s - (1 - ε)) (-(ε - E))
    rw [abs_neg] at this
    have := mul_le_mul_of_nonneg_left this α0.le
    linarith only [this]
  have k2 := mul_le_mul_of_nonneg_left (add_le_add eS eE2) α0.le
  have k3 : (2 : ℝ) ^ (-53 : ℤ) + 2 ^ (-53 : ℤ) +
      (2 ^ (-53 : ℤ) + (2 ^ (-51 : ℤ) + 2 ^ (-1000 : ℤ) + (2 * 2 ^ (-50 : ℤ) + 2 * 2 ^ (-600 : ℤ)))) ≤ 2 ^ (-48 : ℤ) := by
    have a : (2 : ℝ) ^ (-1000 : ℤ) ≤ 2 ^ (-60 : ℤ) := zpow_le_zpow_right₀ (by norm_num) (by norm_num)
    have b : (2 : ℝ) ^ (-600 : ℤ) ≤ 2 ^ (-60 : ℤ) := zpow_le_zpow_right₀ (by norm_num) (by norm_num)
    have c : (2 : ℝ) ^ (-53 : ℤ) + 2 ^ (-53 : ℤ) +
      (2 ^ (-53 : ℤ) + (2 ^ (-51 : ℤ) + 2 ^ (-60 : ℤ) + (2 * 2 ^ (-50 : ℤ) + 2 * 2 ^ (-60 : ℤ)))) ≤ 2 ^ (-48 : ℤ) := by norm_num
    generalize (2 : ℝ) ^ (-1000 : ℤ) = u1 at *
    generalize (2 : ℝ) ^ (-600 : ℤ) = u2 at *
    linarith only [a, b, c]
  have k4 := mul_le_mul_of_nonneg_left k3 α0.le
  linarith only [k1, k2, k4, eW, eA]

/-! ### Cancellation -/

/-- the floats nearest to numbers slightly below one are one -/
theorem rnd_near_one {y : ℝ} (h1 : 1 - 2 ^ (-55 : ℤ) ≤ y) (h2 : y ≤ 1) : (binary64 (K := ℝ)).rnd y = .fin 1 := by
  have e : (binary64 (K := ℝ)).rnd (1 - 2 ^ (-55 : ℤ)) = .fin 1 := by
    rw [binary64_rnd (k := -1) (m := 2 ^ 53) (by norm_num) (by norm_num) (by norm_num) (by norm_num)]
    · norm_num
    · apply rintK_eq
      rw [abs_lt]
      constructor <;> norm_num
  have a := (binary64 (K := ℝ)).mono _ _ h1
  have b := (binary64 (K := ℝ)).mono _ _ h2
  rw [e] at a
  rw [(binary64 (K := ℝ)).one] at b
  cases hy : (binary64 (K := ℝ)).rnd y <;> rw [hy] at a b <;> first
    | (exfalso; revert a; exact Bool.false_ne_true)
    | (exfalso; revert b; exact Bool.false_ne_true)
    | skip
  rw [Fl.pf_le_fin, decide_eq_true_eq] at a b
  rw [le_antisymm b a]

/-- **C154** The relative error is not bounded: with correctly rounded functions, light rain whose (computed) exponent `d R^zeta`
is at most `2^-55` gives the wet antenna attenuation zero, as if it did not rain (compare C15: over the reals it is zero
only at `R = 0`). -/
theorem C154_cancellation [PyPow DblR] [MonoPow DblR] {A_max zeta d x : DblR} {α δ c : ℝ}
    (h : PastorekParams A_max zeta d α δ) (hx : (PyFloat.ofInt 0 : DblR) ≤ᶠ x) (hc : (PyPow.pow x zeta).val = .fin c)
    (hs : δ * c ≤ 2 ^ (-55 : ℤ)) :
    @waa_pastorek_2021 DblR _ _ correctExp (.array [x]) A_max zeta d = .ok [PyFloat.ofInt 0] := by
  letI := correctExp
  have hp := PowLaws.nonneg x zeta hx h.hz
  rw [RFl.le_def, RFl.val_zero, hc, Fl.pf_le_fin, decide_eq_true_eq] at hp
  show Except.ok [pastorekElem A_max zeta d x] = _
  congr 2
  by_cases h0 : (x ==ᶠ (PyFloat.ofInt 0 : DblR)) = true
  · exact pastorek_elem_zero h0
  unfold pastorekElem
  rw [if_neg h0]
  have rep : (binary64 (K := ℝ)).rnd (-(2 ^ (-55 : ℤ))) = .fin (-(2 ^ (-55 : ℤ))) := by
    show rndFmt 53 (-1074) 1024 _ = _
    rw [rndFmt_neg _ (by positivity)]
    have : rndFmt 53 (-1074) 1024 ((2 : ℝ) ^ (-55 : ℤ)) = .fin (2 ^ (-55 : ℤ)) := by
      have := binary64_dyadic (K := ℝ) (m := 1) (e := -55) (by norm_num) (by norm_num) (by norm_num) (by norm_num)
      rw [Int.cast_one, one_mul] at this
      exact this
    rw [this]
    rfl
  have g1 := (binary64 (K := ℝ)).mono (-(2 ^ (-55 : ℤ))) (-δ * c) (by rw [neg_mul]; linarith)
  have g2 := (binary64 (K := ℝ)).mono (-δ * c) 0 (by rw [neg_mul]; linarith [mul_nonneg h.δ0.le hp])
  rw [rep] at g1
  rw [(binary64 (K := ℝ)).zero] at g2
  have hv : (((PyFloat.ofInt 0 : DblR) -ᶠ d) *ᶠ PyPow.pow x zeta).val = (binary64 (K := ℝ)).rnd (-δ * c) := by
    rw [RFl.val_mul, neg_val h.hd h.δ0, hc, Fl.pf_mul_fin]
    rfl
  cases hg : (binary64 (K := ℝ)).rnd (-δ * c) <;> rw [hg] at g1 g2 hv <;> first
    | (exfalso; revert g1; exact Bool.false_ne_true)
    | (exfalso; revert g2; exact Bool.false_ne_true)
    | skip
  rename_i g
  rw [Fl.pf_le_fin, decide_eq_true_eq] at g1 g2
  have he : (PyExp.exp (((PyFloat.ofInt 0 : DblR) -ᶠ d) *ᶠ PyPow.pow x zeta)).val = .fin 1 := by
    show (binary64 (K := ℝ)).round (Fl.exp _) = _
    rw [hv]
    apply rnd_near_one
    · have := Real.add_one_le_exp g
      linarith
    · exact Real.exp_le_one_iff.mpr g2
  apply RFl.ext
  rw [RFl.val_mul, RFl.val_sub, he, RFl.val_one, RFl.val_zero, Fl.pf_sub_fin, sub_self, h.hA]
  rw [show (binary64 (K := ℝ)).round (Fl.fin 0) = .fin 0 from (binary64 (K := ℝ)).zero, Fl.pf_mul_fin, mul_zero]
  exact (binary64 (K := ℝ)).zero

/-! ### Examples -/

/-- the double `m 2^e` -/
noncomputable def dyad (m e : ℤ) (h0 : 0 ≤ m) (hm : m ≤ 2 ^ 53) (he : -1074 ≤ e) (he' : e ≤ 900) : DblR :=
  ⟨.fin ((m : ℝ) * 2 ^ e), binary64_dyadic h0 hm he he'⟩

/-- `A_max = 14`, `zeta = 1/2`, `d = 1/8`: correctly rounded functions meet all hypotheses -/
example (R : List DblR) : ∃ waa,
    @waa_pastorek_2021 DblR _ (correctPow _) correctExp (.array R) (dyad 14 0 (by norm_num) (by norm_num) (by norm_num) (by norm_num))
      (dyad 1 (-1) (by norm_num) (by norm_num) (by norm_num) (by norm_num))
      (dyad 1 (-3) (by norm_num) (by norm_num) (by norm_num) (by norm_num)) = .ok waa ∧ waa.length = R.length := by
  letI := correctPow (binary64 (K := ℝ))
  letI := correctExp
  haveI := correctPow_laws (binary64 (K := ℝ))
  obtain ⟨w, h1, h2, _⟩ := C154_accuracy correctPow_close correctExp_close correctExp_range
    (A_max := dyad 14 0 (by norm_num) (by norm_num) (by norm_num) (by norm_num))
    (zeta := dyad 1 (-1) (by norm_num) (by norm_num) (by norm_num) (by norm_num))
    (d := dyad 1 (-3) (by norm_num) (by norm_num) (by norm_num) (by norm_num)) (α := 14) (ζ := 1 / 2) (δ := 1 / 8)
    ⟨by simp [dyad], by norm_num, by simp [dyad]; norm_num, by norm_num, by
      rw [RFl.lt_def, RFl.val_zero]; simp [dyad]⟩ (by simp [dyad])
    ((zpow_le_one_of_nonpos₀ (by norm_num) (by norm_num)).trans (by norm_num))
    (le_trans (by norm_num : (14 : ℝ) ≤ 2 ^ (4 : ℤ)) (zpow_le_zpow_right₀ (by norm_num) (by norm_num)))
    (le_trans (by norm_num) (one_le_zpow₀ (by norm_num) (by norm_num))) R
  exact ⟨w, h1, h2⟩

/-- the rain rate `2^-200` mm/h with the same parameters -/
example :
    @waa_pastorek_2021 DblR _ (correctPow _) correctExp
      (.array [dyad 1 (-200) (by norm_num) (by norm_num) (by norm_num) (by norm_num)])
      (dyad 14 0 (by norm_num) (by norm_num) (by norm_num) (by norm_num))
      (dyad 1 (-1) (by norm_num) (by norm_num) (by norm_num) (by norm_num))
      (dyad 1 (-3) (by norm_num) (by norm_num) (by norm_num) (by norm_num)) = .ok [PyFloat.ofInt 0] := by
  letI := correctPow (binary64 (K := ℝ))
  haveI := correctPow_laws (binary64 (K := ℝ))
  refine C154_cancellation (α := 14) (δ := 1 / 8) (c := 2 ^ (-100 : ℤ))
    ⟨by simp [dyad], by norm_num, by simp [dyad]; norm_num, by norm_num, by rw [RFl.lt_def, RFl.val_zero]; simp [dyad]⟩ ?_ ?_ ?_
  · rw [RFl.le_def, RFl.val_zero]; simp [dyad]
  · show (binary64 (K := ℝ)).round (Fl.pow (.fin _) (.fin _)) = _
    rw [Fl.pow_fin (by positivity) (by norm_num)]
    have e : (((1 : ℤ) : ℝ) * 2 ^ (-200 : ℤ)) ^ (((1 : ℤ) : ℝ) * 2 ^ (-1 : ℤ)) = ((1 : ℤ) : ℝ) * 2 ^ (-100 : ℤ) := by
      rw [Int.cast_one, one_mul, one_mul, one_mul, ← Real.rpow_intCast, ← Real.rpow_mul (by norm_num), ← Real.rpow_intCast]
      norm_num
    rw [e]
    have := binary64_dyadic (K := ℝ) (m := 1) (e := -100) (by norm_num) (by norm_num) (by norm_num) (by norm_num)
    refine this.trans ?_
    rw [Int.cast_one, one_mul]
  · norm_num

end Verif.Props
