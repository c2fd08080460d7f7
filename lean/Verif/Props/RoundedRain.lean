import Verif.Props.Rounding
import Verif.Props.Chain

/-!
# Properties C112, C113: rain rates and the processing chain in floating point arithmetic
-/

namespace Verif.Props
open Verif Verif.Waa Verif.Baseline Verif.KR

/-- What C99 guarantees for `pow` with a base that is not negative and a positive exponent: the result is not negative (and not
NaN), zero to a positive power is zero, and a power of NaN is NaN. -/
class PowLaws (F : Type) [PyFloat F] [PyPow F] : Prop where
  nonneg : ∀ x y : F, (PyFloat.ofInt 0 : F) ≤ᶠ x → (PyFloat.ofInt 0 : F) <ᶠ y → (PyFloat.ofInt 0 : F) ≤ᶠ PyPow.pow x y
  zero : ∀ y : F, (PyFloat.ofInt 0 : F) <ᶠ y → PyPow.pow (PyFloat.ofInt 0) y = PyFloat.ofInt 0
  nan : ∀ x y : F, isNaN x → (PyFloat.ofInt 0 : F) <ᶠ y → isNaN (PyPow.pow x y)

/-- `pow` is monotone in the base (true if it is correctly rounded; not promised by every C library). -/
class MonoPow (F : Type) [PyFloat F] [PyPow F] : Prop extends PowLaws F where
  mono : ∀ x x' y : F, (PyFloat.ofInt 0 : F) ≤ᶠ x → x ≤ᶠ x' → (PyFloat.ofInt 0 : F) <ᶠ y →
    PyPow.pow x y ≤ᶠ PyPow.pow x' y

section instances

theorem flpow_zero {y : Fl ℝ} (hy : Fl.fin 0 <ᶠ y) : Fl.pow (.fin 0) y = .fin 0 := by
  cases y with
  | nan => simp at hy
  | ninf => exact absurd hy Bool.false_ne_true
  | fin y =>
    have hy : 0 < y := by simpa using hy
    simp [Fl.pow, hy, hy.ne']
  | pinf => simp [Fl.pow]

theorem flpow_nan {x y : Fl ℝ} (hx : isNaN x) (hy : Fl.fin 0 <ᶠ y) : isNaN (Fl.pow x y) := by
  cases x with
  | nan =>
    cases y with
    | fin y =>
      have hy : 0 < y := by simpa using hy
      simp [Fl.pow, hy.ne']
    | _ => rfl
  | _ => cases hx

theorem flpow_mono {v w y : Fl ℝ} (h0 : Fl.fin 0 ≤ᶠ v) (h : v ≤ᶠ w) (hy : Fl.fin 0 <ᶠ y) :
    Fl.pow v y ≤ᶠ Fl.pow w y := by
  cases v with
  | nan => simp at h
  | ninf => exact absurd h0 Bool.false_ne_true
  | fin x =>
    have h0 : 0 ≤ x := by simpa using h0
    cases y with
    | nan => simp at hy
    | ninf => exact absurd hy Bool.false_ne_true
    | fin y =>
      have hy : 0 < y := by simpa using hy
      cases w with
      | nan => simp at h
      | ninf => exact absurd h Bool.false_ne_true
      | fin x' =>
        have h : x ≤ x' := by simpa using h
        rw [Fl.pow_fin h0 hy, Fl.pow_fin (h0.trans h) hy, Fl.pf_le_fin, decide_eq_true_eq]
        exact Real.rpow_le_rpow h0 h hy.le
      | pinf =>
        rw [Fl.pow_fin h0 hy]
        simp [Fl.pow, hy, hy.ne']
        rfl
    | pinf =>
      cases w with
      | nan => simp at h
      | ninf => exact absurd h Bool.false_ne_true
      | fin x' =>
        have h : x ≤ x' := by simpa using h
        simp only [Fl.pow, abs_of_nonneg h0, abs_of_nonneg (h0.trans h)]
        rcases lt_trichotomy x' 1 with h1 | h1 | h1
        · have h2 : x < 1 := h.trans_lt h1
          simp [h1.ne, h2.ne, h1.not_gt, h2.not_gt, h0, h0.trans h]
        · rcases h.lt_or_eq with h2 | h2
          · rw [h1] at h2
            simp [h1, h2.ne, h2.not_gt, h0]
          · simp [h1, h2]
        · simp only [h1.ne', h1, if_false, if_true]
          split_ifs <;> first | rfl | (exfalso; linarith)
      | pinf =>
        simp only [Fl.pow]
        split_ifs <;> rfl
  | pinf =>
    cases w with
    | pinf => exact LawfulPyFloat.le_refl (by
        cases y with
        | nan => simp at hy
        | ninf => exact absurd hy Bool.false_ne_true
        | fin y =>
          have hy : 0 < y := by simpa using hy
          simp [Fl.pow, hy, hy.ne']
        | pinf => rfl)
    | _ => exact absurd h Bool.false_ne_true

instance : MonoPow (Fl ℝ) where
  nonneg x y hx hy := by
    have e : (PyFloat.ofInt 0 : Fl ℝ) = .fin 0 := by simp
    rw [e] at hx hy ⊢
    have := flpow_mono (v := .fin 0) (w := x) (y := y) (by simp) hx hy
    rwa [flpow_zero hy] at this
  zero y hy := by
    have e : (PyFloat.ofInt 0 : Fl ℝ) = .fin 0 := by simp
    rw [e] at hy ⊢
    exact flpow_zero hy
  nan x y hx hy := by
    have e : (PyFloat.ofInt 0 : Fl ℝ) = .fin 0 := by simp
    rw [e] at hy
    exact flpow_nan hx hy
  mono x x' y h0 h hy := by
    have e : (PyFloat.ofInt 0 : Fl ℝ) = .fin 0 := by simp
    rw [e] at h0 hy
    exact flpow_mono h0 h hy

/-- the correctly rounded power -/
@[reducible] noncomputable def correctPow (R : Rounding ℝ) : PyPow (RFl R) := ⟨fun x y => RFl.mk' R (Fl.pow x.val y.val)⟩

/-- The laws hold for the correctly rounded power, whatever the rounding. -/
theorem correctPow_laws (R : Rounding ℝ) : @MonoPow (RFl R) _ (correctPow R) := by
  let _ := correctPow R
  have hz : ∀ y : RFl R, (PyFloat.ofInt 0 : RFl R) <ᶠ y → Fl.fin 0 <ᶠ y.val := by
    intro y hy
    rwa [RFl.lt_def, RFl.val_zero] at hy
  have key : ∀ x x' y : RFl R, (PyFloat.ofInt 0 : RFl R) ≤ᶠ x → x ≤ᶠ x' → (PyFloat.ofInt 0 : RFl R) <ᶠ y →
      PyPow.pow x y ≤ᶠ PyPow.pow x' y := by
    intro x x' y h0 h hy
    rw [RFl.le_def, RFl.val_zero] at h0
    exact R.round_mono (flpow_mono h0 h (hz y hy))
  have zero : ∀ y : RFl R, (PyFloat.ofInt 0 : RFl R) <ᶠ y → PyPow.pow (PyFloat.ofInt 0) y = (PyFloat.ofInt 0 : RFl R) := by
    intro y hy
    apply RFl.ext
    show R.round (Fl.pow (PyFloat.ofInt 0 : RFl R).val y.val) = _
    rw [RFl.val_zero, flpow_zero (hz y hy)]
    exact R.zero
  exact { nonneg := fun x y hx hy => by
            have := key _ x y (LawfulPyFloat.le_refl (LawfulPyFloat.isNaN_ofInt 0)) hx hy
            rwa [zero y hy] at this
          zero := zero
          nan := fun x y hx hy => by
            have e := flpow_nan (x := x.val) hx (hz y hy)
            show isNaN (R.round (Fl.pow x.val y.val)) = true
            cases h : Fl.pow x.val y.val <;> rw [h] at e <;> first | cases e | skip
            rfl
          mono := key }

end instances

/-! ### C112 -/

section generic
variable {F : Type} [PyFloat F] [PyPow F]

/-- The rain rate of one attenuation value, for every number type. -/
def rateF (a b L R_min x : F) : F :=
  if isNaN x then PyFloat.nan
  else
    let r := if (PyFloat.ofInt 0 : F) ≤ᶠ x then PyPow.pow (x /ᶠ (a *ᶠ L)) (PyFloat.ofInt 1 /ᶠ b) else PyFloat.ofInt 0
    if r <ᶠ R_min then PyFloat.ofInt 0 else r

theorem calcR_scalar (ab : List F → List String → String → Except Err (List F × List F)) (A : List F) (L a b R_min : F)
    (approx : String) :
    calcR ab A L none none (some [a]) (some [b]) approx R_min = .ok (A.map (rateF a b L R_min)) := by
  show rainRates A L [a] [b] R_min = _
  unfold rainRates
  have e0 : (List.replicate A.length (PyFloat.ofInt 0) : List F) = A.map fun _ => PyFloat.ofInt 0 := by
    rw [List.map_const']
  have e1 : List.zipWith (fun n x => !n && ((PyFloat.ofInt 0 : F) ≤ᶠ x)) (A.map isNaN) A =
      A.map fun x => !isNaN x && ((PyFloat.ofInt 0 : F) ≤ᶠ x) := by
    rw [List.zipWith_map_left, List.zipWith_self]
  dsimp only
  rw [e0, assignMask_const, e1, select_map]
  simp only [List.map_cons, List.map_nil, bind, Except.bind, bcast_singleton, List.map_map]
  rw [assignMask_map A _ _ ((fun x => PyPow.pow x (PyFloat.ofInt 1 /ᶠ b)) ∘ fun x => x /ᶠ (a *ᶠ L))]
  simp only [Function.comp_def, List.zipWith_map, List.zipWith_self]
  rw [assignMask_const]
  congr 1
  apply List.map_congr_left
  intro x _
  unfold rateF
  cases h : isNaN x
  · simp only [Bool.not_false, Bool.true_and, Bool.false_eq_true, if_false]
  · simp

end generic

section rounded
variable {K : Type} [Field K] [LinearOrder K] [IsStrictOrderedRing K] {R : Rounding K}

/-- parameters for which nothing overflows or vanishes: the product `a * L` is a positive number, and so is `1 / b` -/
def RainParams (a b L : RFl R) : Prop :=
  (∃ c, (a *ᶠ L).val = .fin c ∧ 0 < c) ∧ ((PyFloat.ofInt 0 : RFl R) <ᶠ (PyFloat.ofInt 1 /ᶠ b)) = true

/-- dividing by a positive number keeps the order and gives no NaN -/
theorem div_pos_mono {x y c : RFl R} {d : K} (hc : c.val = .fin d) (hd : 0 < d) (h : x ≤ᶠ y) : (x /ᶠ c) ≤ᶠ (y /ᶠ c) := by
  rw [RFl.le_def, RFl.val_div, RFl.val_div, hc]
  rw [RFl.le_def] at h
  apply R.round_mono
  cases hx : x.val <;> cases hy : y.val <;> rw [hx, hy] at h <;>
    first
    | (exfalso; revert h; exact Bool.false_ne_true)
    | skip
  · show (if d < 0 then Fl.pinf else Fl.ninf) ≤ᶠ (if d < 0 then Fl.pinf else Fl.ninf : Fl K)
    rw [if_neg (not_lt.mpr hd.le)]; rfl
  · rw [Fl.pf_div_fin_ne _ _ hd.ne']
    show (if d < 0 then Fl.pinf else Fl.ninf) ≤ᶠ (_ : Fl K)
    rw [if_neg (not_lt.mpr hd.le)]; rfl
  · show (if d < 0 then Fl.pinf else Fl.ninf) ≤ᶠ (if d < 0 then Fl.ninf else Fl.pinf : Fl K)
    rw [if_neg (not_lt.mpr hd.le), if_neg (not_lt.mpr hd.le)]; rfl
  · rw [Fl.pf_div_fin_ne _ _ hd.ne', Fl.pf_div_fin_ne _ _ hd.ne', Fl.pf_le_fin, decide_eq_true_eq]
    exact div_le_div_of_nonneg_right (by simpa using h) hd.le
  · rw [Fl.pf_div_fin_ne _ _ hd.ne']
    show _ ≤ᶠ (if d < 0 then Fl.ninf else Fl.pinf : Fl K)
    rw [if_neg (not_lt.mpr hd.le)]; rfl
  · show (if d < 0 then Fl.ninf else Fl.pinf) ≤ᶠ (if d < 0 then Fl.ninf else Fl.pinf : Fl K)
    rw [if_neg (not_lt.mpr hd.le)]; rfl

theorem zero_div_pos {c : RFl R} {d : K} (hc : c.val = .fin d) (hd : 0 < d) :
    ((PyFloat.ofInt 0 : RFl R) /ᶠ c) = PyFloat.ofInt 0 := by
  apply RFl.ext
  rw [RFl.val_div, RFl.val_zero, hc, Fl.pf_div_fin_ne _ _ hd.ne', zero_div]
  exact R.zero

variable [PyPow (RFl R)]

theorem rateF_zero [PowLaws (RFl R)] {a b L R_min : RFl R} (h : RainParams a b L) :
    rateF a b L R_min (PyFloat.ofInt 0) = PyFloat.ofInt 0 := by
  obtain ⟨⟨c, hc, hc0⟩, hb⟩ := h
  unfold rateF
  simp only [LawfulPyFloat.isNaN_ofInt, Bool.false_eq_true, if_false,
    LawfulPyFloat.le_refl (LawfulPyFloat.isNaN_ofInt (F := RFl R) 0), if_true]
  rw [zero_div_pos hc hc0, PowLaws.zero _ hb]
  split_ifs <;> rfl

theorem rateF_neg {a b L R_min x : RFl R} (hx : x <ᶠ PyFloat.ofInt 0) : rateF a b L R_min x = PyFloat.ofInt 0 := by
  have hn := (LawfulPyFloat.lt_not_nan _ _ hx).1
  have : ((PyFloat.ofInt 0 : RFl R) ≤ᶠ x) = false := by
    rw [LawfulPyFloat.le_iff _ _ (LawfulPyFloat.isNaN_ofInt 0) hn, hx]; rfl
  unfold rateF
  simp only [hn, this, Bool.false_eq_true, if_false]
  split_ifs <;> rfl

theorem rateF_cases [PowLaws (RFl R)] {a b L R_min x : RFl R} (h : RainParams a b L) (hR : isNaN R_min = false)
    (hx : isNaN x = false) :
    rateF a b L R_min x = PyFloat.ofInt 0 ∨
      (PyFloat.ofInt 0 : RFl R) ≤ᶠ x ∧ R_min ≤ᶠ rateF a b L R_min x ∧ (PyFloat.ofInt 0 : RFl R) ≤ᶠ rateF a b L R_min x ∧
        rateF a b L R_min x = PyPow.pow (x /ᶠ (a *ᶠ L)) (PyFloat.ofInt 1 /ᶠ b) := by
  obtain ⟨⟨c, hc, hc0⟩, hb⟩ := h
  by_cases h0 : (PyFloat.ofInt 0 : RFl R) ≤ᶠ x
  · have hq := div_pos_mono hc hc0 h0
    rw [zero_div_pos hc hc0] at hq
    have hp := PowLaws.nonneg _ _ hq hb
    unfold rateF
    simp only [hx, h0, Bool.false_eq_true, if_false, if_true]
    split_ifs with hcut
    · left; rfl
    · right
      refine ⟨trivial, ?_, hp, rfl⟩
      rw [LawfulPyFloat.le_iff _ _ hR (LawfulPyFloat.le_not_nan _ _ hp).2]
      simpa using hcut
  · left
    have : x <ᶠ (PyFloat.ofInt 0 : RFl R) := by
      rw [LawfulPyFloat.le_iff _ _ (LawfulPyFloat.isNaN_ofInt 0) hx] at h0
      simpa using h0
    exact rateF_neg this

theorem rateF_nonpos [PowLaws (RFl R)] {a b L R_min x : RFl R} (h : RainParams a b L) (hle : x ≤ᶠ PyFloat.ofInt 0) :
    rateF a b L R_min x = PyFloat.ofInt 0 := by
  by_cases hlt : x <ᶠ (PyFloat.ofInt 0 : RFl R)
  · exact rateF_neg hlt
  · have hx0 : x = PyFloat.ofInt 0 := by
      apply RFl.ext
      rw [RFl.val_zero]
      rw [RFl.le_def, RFl.val_zero] at hle
      rw [RFl.lt_def, RFl.val_zero] at hlt
      cases hv : x.val <;> rw [hv] at hle hlt <;>
        first
        | (exfalso; revert hle; exact Bool.false_ne_true)
        | (exfalso; exact hlt rfl)
        | skip
      simp only [Fl.pf_le_fin, Fl.pf_lt_fin, decide_eq_true_eq] at hle hlt
      rw [le_antisymm hle (not_lt.mp hlt)]
    rw [hx0]
    exact rateF_zero h

/-- **C112** Rain rates in floating point arithmetic, with any rounding and any `pow` that follows C99: NaN exactly for a NaN
attenuation, otherwise zero, or not negative and at least `R_min`; zero for every attenuation that is zero or negative. -/
theorem C112_rain_rate [PowLaws (RFl R)] (ab : List (RFl R) → List String → String → Except Err (List (RFl R) × List (RFl R)))
    (A : List (RFl R)) (L a b R_min : RFl R) (approx : String) (h : RainParams a b L) (hR : isNaN R_min = false) :
    ∃ out, calcR ab A L none none (some [a]) (some [b]) approx R_min = .ok out ∧ out.length = A.length ∧
      ∀ (i : Nat) x r, A[i]? = some x → out[i]? = some r →
        (isNaN r = isNaN x) ∧
        (isNaN x = false → r = PyFloat.ofInt 0 ∨ R_min ≤ᶠ r ∧ (PyFloat.ofInt 0 : RFl R) ≤ᶠ r) ∧
        (x ≤ᶠ PyFloat.ofInt 0 → r = PyFloat.ofInt 0) := by
  refine ⟨_, calcR_scalar ab A L a b R_min approx, by simp, ?_⟩
  intro i x r hx hr
  rw [List.getElem?_map, hx, Option.map_some, Option.some.injEq] at hr
  subst hr
  refine ⟨?_, ?_, ?_⟩
  · cases hn : isNaN x
    · rcases rateF_cases h hR hn with e | ⟨-, -, e, -⟩
      · rw [e]; exact LawfulPyFloat.isNaN_ofInt 0
      · exact (LawfulPyFloat.le_not_nan _ _ e).2
    · unfold rateF
      rw [if_pos hn]; exact LawfulPyFloat.isNaN_nan
  · intro hn
    rcases rateF_cases h hR hn with e | ⟨-, e1, e2, -⟩
    · exact .inl e
    · exact .inr ⟨e1, e2⟩
  · intro hle
    exact rateF_nonpos h hle

/-- **C112** With a monotone `pow` (for instance a correctly rounded one) more attenuation never gives less rain. -/
theorem C112_monotone [MonoPow (RFl R)] (ab : List (RFl R) → List String → String → Except Err (List (RFl R) × List (RFl R)))
    (A A' out out' : List (RFl R)) (L a b R_min : RFl R) (approx : String) (h : RainParams a b L) (hR : isNaN R_min = false)
    (ho : calcR ab A L none none (some [a]) (some [b]) approx R_min = .ok out)
    (ho' : calcR ab A' L none none (some [a]) (some [b]) approx R_min = .ok out')
    (hA : List.Forall₂ (fun x y => (x ≤ᶠ y) = true) A A') :
    List.Forall₂ (fun x y => (x ≤ᶠ y) = true) out out' := by
  rw [calcR_scalar] at ho ho'
  cases ho; cases ho'
  rw [List.forall₂_map_left_iff, List.forall₂_map_right_iff]
  refine hA.imp fun x y hxy => ?_
  obtain ⟨hx, hy⟩ := LawfulPyFloat.le_not_nan _ _ hxy
  have z : (PyFloat.ofInt 0 : RFl R) ≤ᶠ PyFloat.ofInt 0 := LawfulPyFloat.le_refl (LawfulPyFloat.isNaN_ofInt 0)
  have hy0 : (PyFloat.ofInt 0 : RFl R) ≤ᶠ rateF a b L R_min y := by
    rcases rateF_cases h hR hy with e | ⟨-, -, e, -⟩
    · rw [e]; exact z
    · exact e
  rcases rateF_cases h hR hx with e | ⟨hx0, hcut, -, e⟩
  · rw [e]; exact hy0
  · have hy00 := LawfulPyFloat.le_trans hx0 hxy
    obtain ⟨⟨c, hc, hc0⟩, hb⟩ := h
    have hq := div_pos_mono hc hc0 hx0
    rw [zero_div_pos hc hc0] at hq
    have hm := MonoPow.mono _ _ _ hq (div_pos_mono hc hc0 hxy) hb
    rw [← e] at hm
    have : rateF a b L R_min y = PyPow.pow (y /ᶠ (a *ᶠ L)) (PyFloat.ofInt 1 /ᶠ b) := by
      unfold rateF
      simp only [hy, hy00, Bool.false_eq_true, if_false, if_true]
      rw [if_neg]
      rw [LawfulPyFloat.not_lt_of_le (LawfulPyFloat.le_trans hcut hm)]
      simp
    rw [this]; exact hm

/-! ### C113 -/

/-- The chain of C76 for every number type: `baseline_constant`, `waa_schleiss_2013`, then `calc_R_from_A` of
`trsl - baseline - waa` with given `a` and `b`. -/
def rainChainF {F : Type} [PyFloat F] [PyPow F] (n : Nat) (waaMax deltaT tau L a b Rmin : F) (trsl : List F) (wet : List Bool) :
    Except Err (List F) := do
  let baseline ← baselineConstant trsl wet n
  let waa ← waaSchleiss trsl baseline (wet.map flagF) waaMax deltaT tau
  calcR (fun _ _ _ => .error .valueError) (List.zipWith (· -ᶠ ·) (List.zipWith (· -ᶠ ·) trsl baseline) waa) L
    none none (some [a]) (some [b]) "ITU_2005" Rmin

/-- In exact arithmetic this is the chain of C76. -/
example (sp : Spline) (p : ChainParams) (trsl : List (Fl ℝ)) (wet : List Bool) :
    rainChain sp p trsl wet = rainChainF p.n (.fin p.waaMax) (.fin p.deltaT) (.fin p.tau) (.fin p.L) (.fin p.a) (.fin p.b)
      (.fin p.Rmin) trsl wet := rfl

theorem sub_self_fin {x : RFl R} {y : K} (h : x.val = .fin y) : (x -ᶠ x) = PyFloat.ofInt 0 := by
  apply RFl.ext
  rw [RFl.val_sub, RFl.val_zero, h, Fl.pf_sub_fin, sub_self]
  exact R.zero

theorem zero_sub_zero : ((PyFloat.ofInt 0 : RFl R) -ᶠ PyFloat.ofInt 0) = PyFloat.ofInt 0 :=
  sub_self_fin RFl.val_zero

/-- no attenuation, no previous WAA: no WAA -/
theorem schleissVal_zero {A wet : List (RFl R)} {waaMax deltaT tau : RFl R} {i : Nat} {prev : RFl R}
    (hA : rd A i = PyFloat.ofInt 0) (hmax : (PyFloat.ofInt 0 : RFl R) ≤ᶠ waaMax) (hdt : (PyFloat.ofInt 0 : RFl R) ≤ᶠ deltaT)
    (htau : (PyFloat.ofInt 0 : RFl R) <ᶠ tau)
    (hprev : (rd wet i ==ᶠ PyFloat.ofInt 1) = true → prev = PyFloat.ofInt 0) :
    schleissVal A wet waaMax deltaT tau i prev = PyFloat.ofInt 0 := by
  have h1 : pyMin (PyFloat.ofInt 0 : RFl R) waaMax = PyFloat.ofInt 0 := by
    unfold pyMin
    rw [if_neg]
    rw [LawfulPyFloat.not_lt_of_le hmax]; simp
  unfold schleissVal
  rw [hA, h1]
  split_ifs with hw
  · rw [hprev hw]
    unfold pyMin
    rw [if_neg]
    intro hlt
    have hn := (LawfulPyFloat.lt_not_nan _ _ hlt).1
    have := schleiss_step_ge hmax hdt htau hn
    rw [LawfulPyFloat.not_lt_of_le this] at hlt
    cases hlt
  · rfl

/-- where there is no attenuation up to step `i`, or none at the dry step `i`, the rain rate at step `i` is zero -/
theorem rainChainF_zero [PowLaws (RFl R)] {n : Nat} {waaMax deltaT tau L a b Rmin : RFl R} {trsl base : List (RFl R)}
    {wet : List Bool} (hmax : (PyFloat.ofInt 0 : RFl R) ≤ᶠ waaMax) (hdt : (PyFloat.ofInt 0 : RFl R) ≤ᶠ deltaT)
    (htau : (PyFloat.ofInt 0 : RFl R) <ᶠ tau) (h : RainParams a b L) (hlen : trsl.length ≤ wet.length)
    (hbase : baselineConstant trsl wet n = .ok base) (hbl : base.length = trsl.length) :
    ∃ rs, rainChainF n waaMax deltaT tau L a b Rmin trsl wet = .ok rs ∧ rs.length = trsl.length ∧
      ∀ i, i < trsl.length →
        ((∀ j, j ≤ i → rd (atten trsl base) j = PyFloat.ofInt 0) ∨
          0 < i ∧ wet[i]? = some false ∧ rd (atten trsl base) i = PyFloat.ofInt 0) →
        rs[i]? = some (PyFloat.ofInt 0) := by
  obtain ⟨waa, hw1, hw2, hw3, hw4⟩ := schleiss_rec trsl base (wet.map flagF) waaMax deltaT tau hbl.symm
    (by simpa using hlen) (not_eq_zero_of_pos htau)
  refine ⟨_, by simp only [rainChainF, hbase, bind, Except.bind, hw1]; exact calcR_scalar _ _ _ _ _ _ _, ?_, ?_⟩
  · simp [hbl, hw2]
  · intro i hi hz
    have hAi : rd (atten trsl base) i = PyFloat.ofInt 0 := by
      rcases hz with hz | hz
      · exact hz i le_rfl
      · exact hz.2.2
    have hwi : rd waa i = PyFloat.ofInt 0 := by
      rcases hz with hz | ⟨h0, hdry, hz⟩
      · have : ∀ j, j ≤ i → rd waa j = PyFloat.ofInt 0 := by
          intro j
          induction j with
          | zero => intro _; exact hw3 (by omega)
          | succ j ih =>
            intro hj
            rw [hw4 (j + 1) (by omega) (by omega)]
            exact schleissVal_zero (hz _ hj) hmax hdt htau fun _ => by simpa using ih (by omega)
        exact this i le_rfl
      · rw [hw4 i h0 hi]
        refine schleissVal_zero hz hmax hdt htau fun hwet => ?_
        exfalso
        have : rd (wet.map flagF : List (RFl R)) i = PyFloat.ofInt 0 := by
          apply rd_of_getElem?
          rw [List.getElem?_map, hdry]; rfl
        rw [this, RFl.eq_def, RFl.val_zero, RFl.val_one] at hwet
        simp at hwet
    rw [List.getElem?_map]
    have e : (List.zipWith (· -ᶠ ·) (List.zipWith (· -ᶠ ·) trsl base) waa)[i]? = some (PyFloat.ofInt 0) := by
      have e1 : (List.zipWith (fun a b => a -ᶠ b) trsl base)[i]? = some (PyFloat.ofInt 0) := by
        rw [← hAi]
        exact getElem?_eq_rd (by simp [atten, hbl, hi])
      rw [List.getElem?_zipWith, e1, getElem?_eq_rd (show i < waa.length by omega), hwi]
      simp [zero_sub_zero]
    rw [e, Option.map_some, rateF_zero h]

/-- **C113** In floating point arithmetic, too, dry steps and the first `n` steps get exactly zero rain (if the level there is finite),
and every rain rate of the chain is NaN or not negative. -/
theorem C113_dry_is_zero [PowLaws (RFl R)] (n : Nat) (hn : 1 ≤ n) (waaMax deltaT tau L a b Rmin : RFl R)
    (trsl : List (RFl R)) (wet : List Bool) (hlen : trsl.length ≤ wet.length)
    (hmax : (PyFloat.ofInt 0 : RFl R) ≤ᶠ waaMax) (hdt : (PyFloat.ofInt 0 : RFl R) ≤ᶠ deltaT)
    (htau : (PyFloat.ofInt 0 : RFl R) <ᶠ tau) (h : RainParams a b L) (hR : isNaN Rmin = false) :
    ∃ rs, rainChainF n waaMax deltaT tau L a b Rmin trsl wet = .ok rs ∧ rs.length = trsl.length ∧
      (∀ r ∈ rs, isNaN r = true ∨ (PyFloat.ofInt 0 : RFl R) ≤ᶠ r) ∧
      ∀ i, i < trsl.length →
        ((i < n ∧ ∀ j x, j ≤ i → trsl[j]? = some x → ∃ y, x.val = .fin y) ∨
          wet[i]? = some false ∧ ∀ x, trsl[i]? = some x → ∃ y, x.val = .fin y) →
        rs[i]? = some (PyFloat.ofInt 0) := by
  obtain ⟨base, hb1, hb2, hb3⟩ := C01_constant_dry trsl wet n hn hlen
  obtain ⟨rs, hr1, hr2, hr3⟩ := rainChainF_zero (Rmin := Rmin) hmax hdt htau h hlen hb1 hb2
  have hat : ∀ j, j < trsl.length → (j < n ∨ wet[j]? = some false) → (∀ x, trsl[j]? = some x → ∃ y, x.val = .fin y) →
      rd (atten trsl base) j = PyFloat.ofInt 0 := by
    intro j hj hdry hfin
    obtain ⟨x, hx⟩ : ∃ x, trsl[j]? = some x := ⟨_, getElem?_eq_rd hj⟩
    obtain ⟨y, hy⟩ := hfin x hx
    apply rd_of_getElem?
    unfold atten
    rw [List.getElem?_zipWith, hb3 j hj hdry, hx]
    simp [sub_self_fin hy]
  refine ⟨rs, hr1, hr2, ?_, ?_⟩
  · obtain ⟨waa, hw1, -⟩ := schleiss_rec trsl base (wet.map flagF) waaMax deltaT tau hb2.symm
      (by simpa using hlen) (not_eq_zero_of_pos htau)
    simp only [rainChainF, hb1, bind, Except.bind, hw1] at hr1
    rw [calcR_scalar] at hr1
    cases hr1
    intro r hr
    obtain ⟨x, -, rfl⟩ := List.mem_map.1 hr
    cases hx : isNaN x
    · right
      rcases rateF_cases h hR hx with e | ⟨-, -, e, -⟩
      · rw [e]; exact LawfulPyFloat.le_refl (LawfulPyFloat.isNaN_ofInt 0)
      · exact e
    · left
      unfold rateF
      rw [if_pos hx]; exact LawfulPyFloat.isNaN_nan
  · intro i hi hc
    apply hr3 i hi
    rcases hc with ⟨hin, hfin⟩ | ⟨hdry, hfin⟩
    · left
      intro j hj
      exact hat j (by omega) (.inl (by omega)) fun x hx => hfin j x hj hx
    · by_cases h0 : 0 < i
      · exact .inr ⟨h0, hdry, hat i hi (.inr hdry) hfin⟩
      · left
        intro j hj
        obtain rfl : j = i := by omega
        exact hat j hi (.inr hdry) hfin

/-- the mean of one number is this number -/
theorem npMean_single (x : RFl R) : npMean [x] = x := by
  apply RFl.ext
  have h2 : ((PyFloat.ofInt 0 : RFl R) +ᶠ x) = x := by
    apply RFl.ext
    rw [RFl.val_add, RFl.val_zero]
    have := x.rep
    cases hx : x.val with
    | fin y => rw [Fl.pf_add_fin, zero_add, ← hx]; exact this
    | _ => rfl
  have h3 : npMean [x] = ((PyFloat.ofInt 0 : RFl R) +ᶠ x) /ᶠ PyFloat.ofInt 1 := rfl
  rw [h3, h2, RFl.val_div, RFl.val_one]
  have := x.rep
  cases hx : x.val with
  | fin y =>
    rw [Fl.pf_div_fin_ne _ _ one_ne_zero, div_one, ← hx]; exact this
  | nan => rfl
  | pinf =>
    show R.round (if (1 : K) < 0 then _ else _) = _
    rw [if_neg (not_lt.mpr zero_le_one)]
    rfl
  | ninf =>
    show R.round (if (1 : K) < 0 then _ else _) = _
    rw [if_neg (not_lt.mpr zero_le_one)]
    rfl

/-- **C113** A constant signal gives no rain at all, whatever the wet flags, with the default `n_average_last_dry=1` (compare C83). -/
theorem C113_constant_signal [PowLaws (RFl R)] (waaMax deltaT tau L a b Rmin x : RFl R) (y : K) (hx : x.val = .fin y)
    (N : Nat) (wet : List Bool) (hlen : N ≤ wet.length)
    (hmax : (PyFloat.ofInt 0 : RFl R) ≤ᶠ waaMax) (hdt : (PyFloat.ofInt 0 : RFl R) ≤ᶠ deltaT)
    (htau : (PyFloat.ofInt 0 : RFl R) <ᶠ tau) (h : RainParams a b L) :
    rainChainF 1 waaMax deltaT tau L a b Rmin (List.replicate N x) wet = .ok (List.replicate N (PyFloat.ofInt 0)) := by
  obtain ⟨base, hb1, hb2, -⟩ := C01_constant_dry (List.replicate N x) wet 1 le_rfl (by simpa using hlen)
  have hbase : base = constLoop (List.replicate N x) wet 1 := by
    rw [baselineConstant, if_neg (by simp; omega)] at hb1
    cases hb1; rfl
  obtain ⟨rs, hr1, hr2, hr3⟩ := rainChainF_zero (Rmin := Rmin) hmax hdt htau h (by simpa using hlen) hb1 hb2
  have hval : ∀ i, i < N → rd base i = x := by
    intro i hi
    rw [hbase]
    refine constLoop_rel (m := N) (F' := RFl R) (trsl' := List.replicate N x) (wet' := wet) (fun a _ => a = x) le_rfl
      (by simp) (by simp) (fun _ _ => rfl) ?_ ?_ i hi
    · intro i hi
      exact rd_of_getElem? (by rw [List.getElem?_replicate, if_pos hi])
    · intro l l' hl hl' hall
      match l, hl with
      | [z], _ =>
        have : z = x := hall 0 (by omega)
        rw [this, npMean_single]
  have hA : ∀ i, i < N → rd (atten (List.replicate N x) base) i = PyFloat.ofInt 0 := by
    intro i hi
    apply rd_of_getElem?
    unfold atten
    rw [List.getElem?_zipWith, List.getElem?_replicate, if_pos hi,
      getElem?_eq_rd (show i < base.length by rw [hb2]; simpa using hi), hval i hi]
    simp [sub_self_fin hx]
  rw [hr1]
  congr 1
  rw [List.length_replicate] at hr2 hr3
  apply List.ext_getElem?
  intro i
  rcases Nat.lt_or_ge i N with hi | hi
  · rw [hr3 i hi (.inl fun j hj => hA j (by omega)), List.getElem?_replicate, if_pos hi]
  · rw [List.getElem?_eq_none (by omega), List.getElem?_eq_none (by simpa using hi)]

end rounded

section examples
open Bin

theorem val_ofNat_b64 (n : ℕ) (h : n ≤ 2 ^ 53) : (PyFloat.ofInt n : RFl (binary64 (K := ℝ))).val = .fin n := by
  rw [RFl.val_ofInt]
  exact (binary64_precision (K := ℝ)).int_exact n (by exact_mod_cast h)

theorem rainParams_b64 : RainParams (R := binary64 (K := ℝ)) (PyFloat.ofInt (1 : ℕ)) (PyFloat.ofInt (1 : ℕ)) (PyFloat.ofInt (10 : ℕ)) := by
  have h1 := val_ofNat_b64 1 (by norm_num)
  have h10 := val_ofNat_b64 10 (by norm_num)
  refine ⟨⟨10, ?_, by norm_num⟩, ?_⟩
  · have h := (PyFloat.ofInt (10 : ℕ) : RFl (binary64 (K := ℝ))).rep
    rw [h10] at h
    rw [RFl.val_mul, h1, h10, Fl.pf_mul_fin, Nat.cast_one, one_mul]
    exact_mod_cast h
  · rw [RFl.lt_def, RFl.val_zero, RFl.val_div, RFl.val_one, h1, Nat.cast_one, Fl.pf_div_fin_ne _ _ one_ne_zero, div_one]
    have : (binary64 (K := ℝ)).round (.fin 1) = .fin 1 := by
      have := (PyFloat.ofInt 1 : RFl (binary64 (K := ℝ))).rep
      rwa [RFl.val_one] at this
    rw [this]
    simp

/-- the hypotheses of C112 and C113 hold on doubles with the correctly rounded power, for a link of 10 km with `a = b = 1` -/
example : letI := correctPow (binary64 (K := ℝ))
    rainChainF (F := RFl (binary64 (K := ℝ))) 1 (PyFloat.ofInt 2) (PyFloat.ofInt 1) (PyFloat.ofInt 15) (PyFloat.ofInt (10 : ℕ))
      (PyFloat.ofInt (1 : ℕ)) (PyFloat.ofInt (1 : ℕ)) (PyFloat.ofInt 0) (List.replicate 3 (PyFloat.ofInt (70 : ℕ))) [false, true, true] =
      .ok (List.replicate 3 (PyFloat.ofInt 0)) := by
  letI := correctPow (binary64 (K := ℝ))
  haveI := correctPow_laws (binary64 (K := ℝ))
  exact C113_constant_signal _ _ _ _ _ _ _ _ 70 (val_ofNat_b64 70 (by norm_num)) 3 _ (by simp)
    (LawfulPyFloat.le_of_lt (ofInt_pos (by norm_num))) (LawfulPyFloat.le_of_lt (ofInt_pos (by norm_num)))
    (ofInt_pos (by norm_num)) rainParams_b64

/-- on the same link the attenuations NaN, -1 and 20 dB give the rain rates NaN, 0 and 2 mm/h -/
example (ab : List (RFl (binary64 (K := ℝ))) → List String → String → Except Err (List (RFl (binary64 (K := ℝ))) × List (RFl (binary64 (K := ℝ))))) :
    letI := correctPow (binary64 (K := ℝ))
    calcR ab [PyFloat.nan, PyFloat.ofInt (-1), PyFloat.ofInt (20 : ℕ)] (PyFloat.ofInt (10 : ℕ)) none none
      (some [PyFloat.ofInt (1 : ℕ)]) (some [PyFloat.ofInt (1 : ℕ)]) "ITU_2005" (PyFloat.ofInt (1 : ℕ)) =
      .ok [PyFloat.nan, PyFloat.ofInt 0, PyFloat.ofInt (2 : ℕ)] := by
  letI := correctPow (binary64 (K := ℝ))
  have h1 := val_ofNat_b64 1 (by norm_num)
  have h2 := val_ofNat_b64 2 (by norm_num)
  have h10 := val_ofNat_b64 10 (by norm_num)
  have h20 := val_ofNat_b64 20 (by norm_num)
  have r1 : (binary64 (K := ℝ)).round (.fin 1) = .fin 1 := by
    have := (PyFloat.ofInt 1 : RFl (binary64 (K := ℝ))).rep
    rwa [RFl.val_one] at this
  have r2 : (binary64 (K := ℝ)).round (.fin 2) = .fin 2 := by
    have := (PyFloat.ofInt (2 : ℕ) : RFl (binary64 (K := ℝ))).rep
    rw [h2] at this
    exact_mod_cast this
  have r10 : (binary64 (K := ℝ)).round (.fin 10) = .fin 10 := by
    have := (PyFloat.ofInt (10 : ℕ) : RFl (binary64 (K := ℝ))).rep
    rw [h10] at this
    exact_mod_cast this
  have hn : (PyFloat.ofInt (-1) : RFl (binary64 (K := ℝ))) ≤ᶠ PyFloat.ofInt 0 := OrderedPyFloat.ofInt_mono _ _ (by norm_num)
  have := correctPow_laws (binary64 (K := ℝ))
  rw [calcR_scalar]
  simp only [List.map_cons, List.map_nil]
  rw [rateF_nonpos rainParams_b64 hn]
  have e1 : rateF (PyFloat.ofInt (1 : ℕ)) (PyFloat.ofInt (1 : ℕ)) (PyFloat.ofInt (10 : ℕ)) (PyFloat.ofInt (1 : ℕ))
      (PyFloat.nan : RFl (binary64 (K := ℝ))) = PyFloat.nan := by
    unfold rateF
    rw [if_pos LawfulPyFloat.isNaN_nan]
  have e2 : rateF (PyFloat.ofInt (1 : ℕ)) (PyFloat.ofInt (1 : ℕ)) (PyFloat.ofInt (10 : ℕ)) (PyFloat.ofInt (1 : ℕ))
      (PyFloat.ofInt (20 : ℕ) : RFl (binary64 (K := ℝ))) = PyFloat.ofInt (2 : ℕ) := by
    have hp : (PyPow.pow ((PyFloat.ofInt (20 : ℕ) : RFl (binary64 (K := ℝ))) /ᶠ (PyFloat.ofInt (1 : ℕ) *ᶠ PyFloat.ofInt (10 : ℕ)))
        (PyFloat.ofInt 1 /ᶠ PyFloat.ofInt (1 : ℕ))) = PyFloat.ofInt (2 : ℕ) := by
      apply RFl.ext
      show (binary64 (K := ℝ)).round (Fl.pow _ _) = _
      rw [RFl.val_div, RFl.val_div, RFl.val_mul, RFl.val_one, h1, h10, h20, h2, Fl.pf_mul_fin]
      norm_num
      rw [r10, Fl.pf_div_fin_ne _ _ (by norm_num), Fl.pf_div_fin_ne _ _ (by norm_num)]
      norm_num
      rw [r2, r1, Fl.pow_fin (by norm_num) one_pos, Real.rpow_one, r2]
    unfold rateF
    rw [hp]
    have c1 : isNaN (PyFloat.ofInt (20 : ℕ) : RFl (binary64 (K := ℝ))) = false := LawfulPyFloat.isNaN_ofInt _
    have c2 : ((PyFloat.ofInt 0 : RFl (binary64 (K := ℝ))) ≤ᶠ PyFloat.ofInt (20 : ℕ)) = true := by
      rw [RFl.le_def, RFl.val_zero, h20]; simp
    have c3 : ((PyFloat.ofInt (2 : ℕ) : RFl (binary64 (K := ℝ))) <ᶠ PyFloat.ofInt (1 : ℕ)) = false := by
      rw [RFl.lt_def, h1, h2]; simp
    simp only [c1, c2, c3, Bool.false_eq_true, if_false, if_true]
  rw [e1, e2]

end examples

end Verif.Props
