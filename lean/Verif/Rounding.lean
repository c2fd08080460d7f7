import Verif.Np
import Mathlib.Algebra.Order.AbsoluteValue.Basic

/-!
# Arithmetic with rounding

`OrderedPyFloat` lists order laws of the arithmetic operations that hold for IEEE arithmetic
with any rounding mode as well as for exact numbers (`Fl K`).

A `Rounding` maps every exact result to a representable number or an infinity. `RFl R` is the type of
the numbers representable under `R` (with NaN and infinities); its operations are the exact ones
followed by the rounding. Signed zeros are not modelled.
-/

namespace Verif

/-- Order laws of float arithmetic. Each result may also be NaN (`inf - inf`, `0 * inf`). -/
class OrderedPyFloat (F : Type) [PyFloat F] : Prop extends LawfulPyFloat F where
  ofInt_zero_lt_one : (PyFloat.ofInt 0 : F) <ᶠ PyFloat.ofInt 1
  ofInt_mono : ∀ m n : Int, m ≤ n → (PyFloat.ofInt m : F) ≤ᶠ PyFloat.ofInt n
  sub_nonneg : ∀ a b : F, a ≤ᶠ b → isNaN (b -ᶠ a) = false → PyFloat.ofInt 0 ≤ᶠ (b -ᶠ a)
  sub_nonpos : ∀ a b : F, a ≤ᶠ b → isNaN (a -ᶠ b) = false → (a -ᶠ b) ≤ᶠ PyFloat.ofInt 0
  mul_nonneg : ∀ a b : F, PyFloat.ofInt 0 ≤ᶠ a → PyFloat.ofInt 0 ≤ᶠ b →
    isNaN (a *ᶠ b) = false → PyFloat.ofInt 0 ≤ᶠ (a *ᶠ b)
  mul_nonpos : ∀ a b : F, PyFloat.ofInt 0 ≤ᶠ a → b ≤ᶠ PyFloat.ofInt 0 →
    isNaN (a *ᶠ b) = false → (a *ᶠ b) ≤ᶠ PyFloat.ofInt 0
  mul_le_of_nonneg : ∀ a b c : F, a ≤ᶠ b → PyFloat.ofInt 0 ≤ᶠ c → isNaN (a *ᶠ c) = false →
    isNaN (b *ᶠ c) = false → (a *ᶠ c) ≤ᶠ (b *ᶠ c)
  mul_le_of_nonpos : ∀ a b c : F, a ≤ᶠ b → c ≤ᶠ PyFloat.ofInt 0 → isNaN (a *ᶠ c) = false →
    isNaN (b *ᶠ c) = false → (b *ᶠ c) ≤ᶠ (a *ᶠ c)
  div_nonneg : ∀ a b : F, PyFloat.ofInt 0 ≤ᶠ a → PyFloat.ofInt 0 <ᶠ b →
    isNaN (a /ᶠ b) = false → PyFloat.ofInt 0 ≤ᶠ (a /ᶠ b)
  div_nonpos : ∀ a b : F, a ≤ᶠ PyFloat.ofInt 0 → PyFloat.ofInt 0 <ᶠ b →
    isNaN (a /ᶠ b) = false → (a /ᶠ b) ≤ᶠ PyFloat.ofInt 0
  add_le_add : ∀ a b c : F, a ≤ᶠ b → isNaN (c +ᶠ a) = false → isNaN (c +ᶠ b) = false →
    (c +ᶠ a) ≤ᶠ (c +ᶠ b)
  add_zero : ∀ a : F, a +ᶠ PyFloat.ofInt 0 = a
  mul_nan : ∀ a b : F, isNaN a || isNaN b → isNaN (a *ᶠ b)
  div_nan : ∀ a b : F, isNaN a || isNaN b → isNaN (a /ᶠ b)

namespace Fl
variable {K : Type} [Field K] [LinearOrder K] [IsStrictOrderedRing K]

theorem pf_fin_mul_pinf (x : K) : (fin x *ᶠ pinf : Fl K) = infSign x := rfl
theorem pf_fin_mul_ninf (x : K) : (fin x *ᶠ ninf : Fl K) = infSign (-x) := rfl
theorem pf_pinf_mul_fin (x : K) : (pinf *ᶠ fin x : Fl K) = infSign x := rfl
theorem pf_ninf_mul_fin (x : K) : (ninf *ᶠ fin x : Fl K) = infSign (-x) := rfl

omit [IsStrictOrderedRing K] in
theorem infSign_mono {x y : K} (h : x ≤ y) (hx : PyFloat.isNaN (infSign x) = false)
    (hy : PyFloat.isNaN (infSign y) = false) : (infSign x : Fl K) ≤ᶠ infSign y := by
  unfold infSign at *
  split_ifs at * <;> first | rfl | (exfalso; linarith) | simp_all
  exfalso
  exact absurd (lt_of_lt_of_le ‹0 < x› h) (not_lt.mpr (le_of_lt ‹y < 0›))

instance : OrderedPyFloat (Fl K) where
  ofInt_zero_lt_one := by simp
  ofInt_mono m n h := by simpa using h
  sub_nonneg a b h hn := by
    cases a <;> cases b <;>
      first
      | rfl
      | (exfalso; revert h; exact Bool.false_ne_true)
      | (exfalso; revert hn; exact fun h => Bool.false_ne_true h.symm)
      | simp_all
  sub_nonpos a b h hn := by
    cases a <;> cases b <;>
      first
      | rfl
      | (exfalso; revert h; exact Bool.false_ne_true)
      | (exfalso; revert hn; exact fun h => Bool.false_ne_true h.symm)
      | simp_all
  mul_nonneg a b ha hb hn := by
    cases a <;> cases b <;>
      first
      | rfl
      | (exfalso; revert ha; exact Bool.false_ne_true)
      | (exfalso; revert hb; exact Bool.false_ne_true)
      | (exfalso; revert hn; exact fun h => Bool.false_ne_true h.symm)
      | skip
    · simp only [pf_ofInt, Int.cast_zero, pf_mul_fin, pf_le_fin, decide_eq_true_eq] at *
      exact _root_.mul_nonneg ha hb
    · rename_i x
      simp only [pf_ofInt, Int.cast_zero, pf_le_fin, decide_eq_true_eq, pf_fin_mul_pinf] at *
      unfold infSign at *
      split_ifs at * with h1 h2
      · rfl
      · exact absurd h2 (not_lt.mpr ha)
      · cases hn
    · rename_i x
      simp only [pf_ofInt, Int.cast_zero, pf_le_fin, decide_eq_true_eq, pf_pinf_mul_fin] at *
      unfold infSign at *
      split_ifs at * with h1 h2
      · rfl
      · exact absurd h2 (not_lt.mpr hb)
      · cases hn
  mul_nonpos a b ha hb hn := by
    cases a <;> cases b <;>
      first
      | rfl
      | (exfalso; revert ha; exact Bool.false_ne_true)
      | (exfalso; revert hb; exact Bool.false_ne_true)
      | (exfalso; revert hn; exact fun h => Bool.false_ne_true h.symm)
      | skip
    · rename_i x
      simp only [pf_ofInt, Int.cast_zero, pf_le_fin, decide_eq_true_eq, pf_fin_mul_ninf] at *
      unfold infSign at *
      split_ifs at * with h1 h2
      · linarith
      · rfl
      · cases hn
    · simp only [pf_ofInt, Int.cast_zero, pf_mul_fin, pf_le_fin, decide_eq_true_eq] at *
      exact mul_nonpos_of_nonneg_of_nonpos ha hb
    · rename_i x
      simp only [pf_ofInt, Int.cast_zero, pf_le_fin, decide_eq_true_eq, pf_pinf_mul_fin] at *
      unfold infSign at *
      split_ifs at * with h1 h2
      · exact absurd h1 (not_lt.mpr hb)
      · rfl
      · cases hn
  mul_le_of_nonneg a b c h hc h1 h2 := by
    cases a <;> cases b <;> cases c <;>
      first
      | rfl
      | (exfalso; revert h; exact Bool.false_ne_true)
      | (exfalso; revert hc; exact Bool.false_ne_true)
      | (exfalso; revert h1; exact fun h => Bool.false_ne_true h.symm)
      | (exfalso; revert h2; exact fun h => Bool.false_ne_true h.symm)
      | skip
    all_goals
      simp only [pf_ofInt, Int.cast_zero, pf_le_fin, decide_eq_true_eq, pf_fin_mul_pinf, pf_mul_fin,
        pf_pinf_mul_fin, pf_ninf_mul_fin] at *
    case fin.fin.fin => exact mul_le_mul_of_nonneg_right h hc
    case fin.fin.pinf => exact infSign_mono h h1 h2
    all_goals
      unfold infSign at *
      split_ifs at * <;> first | rfl | (exfalso; linarith) | (cases h1; done) | (cases h2; done)
  mul_le_of_nonpos a b c h hc h1 h2 := by
    cases a <;> cases b <;> cases c <;>
      first
      | rfl
      | (exfalso; revert h; exact Bool.false_ne_true)
      | (exfalso; revert hc; exact Bool.false_ne_true)
      | (exfalso; revert h1; exact fun h => Bool.false_ne_true h.symm)
      | (exfalso; revert h2; exact fun h => Bool.false_ne_true h.symm)
      | skip
    all_goals
      simp only [pf_ofInt, Int.cast_zero, pf_le_fin, decide_eq_true_eq, pf_fin_mul_ninf, pf_mul_fin,
        pf_pinf_mul_fin, pf_ninf_mul_fin] at *
    case fin.fin.fin => exact mul_le_mul_of_nonpos_right h hc
    case fin.fin.ninf => exact infSign_mono (neg_le_neg h) h2 h1
    all_goals
      unfold infSign at *
      split_ifs at * <;> first | rfl | (exfalso; linarith) | (cases h1; done) | (cases h2; done)
  div_nonneg a b ha hb hn := by
    cases a <;> cases b <;>
      first
      | rfl
      | (exfalso; revert ha; exact Bool.false_ne_true)
      | (exfalso; revert hb; exact Bool.false_ne_true)
      | (exfalso; revert hn; exact fun h => Bool.false_ne_true h.symm)
      | skip
    · simp only [pf_ofInt, Int.cast_zero, pf_le_fin, pf_lt_fin, decide_eq_true_eq] at *
      rw [pf_div_fin_ne _ _ hb.ne', pf_le_fin, decide_eq_true_eq]
      exact _root_.div_nonneg ha hb.le
    · show decide _ = true
      simp
    · rename_i x
      simp only [pf_ofInt, Int.cast_zero, pf_lt_fin, decide_eq_true_eq] at *
      show (fin 0 ≤ᶠ (if x < 0 then ninf else pinf : Fl K)) = true
      rw [if_neg (not_lt.mpr hb.le)]
      rfl
  div_nonpos a b ha hb hn := by
    cases a <;> cases b <;>
      first
      | rfl
      | (exfalso; revert ha; exact Bool.false_ne_true)
      | (exfalso; revert hb; exact Bool.false_ne_true)
      | (exfalso; revert hn; exact fun h => Bool.false_ne_true h.symm)
      | skip
    · rename_i x
      simp only [pf_ofInt, Int.cast_zero, pf_lt_fin, decide_eq_true_eq] at *
      show ((if x < 0 then pinf else ninf : Fl K) ≤ᶠ fin 0) = true
      rw [if_neg (not_lt.mpr hb.le)]
      rfl
    · simp only [pf_ofInt, Int.cast_zero, pf_le_fin, pf_lt_fin, decide_eq_true_eq] at *
      rw [pf_div_fin_ne _ _ hb.ne', pf_le_fin, decide_eq_true_eq]
      exact div_nonpos_of_nonpos_of_nonneg ha hb.le
    · show decide _ = true
      simp
  add_le_add a b c h h1 h2 := by
    cases a <;> cases b <;> cases c <;>
      first
      | rfl
      | (exfalso; revert h; exact Bool.false_ne_true)
      | (exfalso; revert h1; exact fun h => Bool.false_ne_true h.symm)
      | (exfalso; revert h2; exact fun h => Bool.false_ne_true h.symm)
      | skip
    simp only [pf_add_fin, pf_le_fin, decide_eq_true_eq] at *
    linarith
  add_zero a := by cases a <;> simp <;> rfl
  mul_nan a b h := by cases a <;> cases b <;> simp_all
  div_nan a b h := by cases a <;> cases b <;> simp_all

end Fl

/-- Rounding of an exact real result to a representable number or an infinity (overflow). Any
rounding mode of IEEE 754 gives such a map. -/
structure Rounding (K : Type) [Field K] [LinearOrder K] where
  rnd : K → Fl K
  not_nan : ∀ x, PyFloat.isNaN (rnd x) = false
  mono : ∀ x y, x ≤ y → rnd x ≤ᶠ rnd y
  /-- a rounded number is representable -/
  idem : ∀ x y, rnd x = .fin y → rnd y = .fin y
  zero : rnd 0 = .fin 0
  one : rnd 1 = .fin 1

namespace Rounding
variable {K : Type} [Field K] [LinearOrder K] (R : Rounding K)

/-- Rounding of a result that may be NaN or infinite. -/
def round : Fl K → Fl K
  | .fin x => R.rnd x
  | v => v

/-- Values of the float type: NaN, infinities and the numbers that rounding leaves alone. -/
def Rep (v : Fl K) : Prop := R.round v = v

theorem rep_round (v : Fl K) : R.Rep (R.round v) := by
  unfold Rep
  cases v <;> try rfl
  rename_i x
  show R.round (R.rnd x) = R.rnd x
  cases h : R.rnd x <;> try rfl
  rename_i y
  exact R.idem x y h

theorem isNaN_round (v : Fl K) : PyFloat.isNaN (R.round v) = PyFloat.isNaN v := by
  cases v <;> try rfl
  exact R.not_nan _

theorem round_mono {v w : Fl K} (h : v ≤ᶠ w) : R.round v ≤ᶠ R.round w := by
  cases v <;> cases w <;>
    first
    | rfl
    | (exfalso; revert h; exact Bool.false_ne_true)
    | skip
  · rename_i x
    have := R.not_nan x
    show (Fl.ninf ≤ᶠ R.rnd x) = true
    cases h : R.rnd x <;> first | rfl | (rw [h] at this; cases this)
  · exact R.mono _ _ (by simpa using h)
  · rename_i x
    have := R.not_nan x
    show (R.rnd x ≤ᶠ Fl.pinf) = true
    cases h : R.rnd x <;> first | rfl | (rw [h] at this; cases this)

end Rounding

/-- Floats under the rounding `R`: the representable values. -/
@[ext] structure RFl {K : Type} [Field K] [LinearOrder K] (R : Rounding K) where
  val : Fl K
  rep : R.Rep val

namespace RFl
variable {K : Type} [Field K] [LinearOrder K] {R : Rounding K}

/-- The float nearest to an exact value (by `R`). -/
def mk' (R : Rounding K) (v : Fl K) : RFl R := ⟨R.round v, R.rep_round v⟩

/-- Every operation is the exact one followed by the rounding (IEEE 754 section 4.3). -/
instance : PyFloat (RFl R) where
  nan := ⟨.nan, rfl⟩
  isNaN a := PyFloat.isNaN a.val
  add a b := mk' R (a.val +ᶠ b.val)
  sub a b := mk' R (a.val -ᶠ b.val)
  mul a b := mk' R (a.val *ᶠ b.val)
  div a b := mk' R (a.val /ᶠ b.val)
  lt a b := a.val <ᶠ b.val
  le a b := a.val ≤ᶠ b.val
  eq a b := a.val ==ᶠ b.val
  ofInt n := mk' R (PyFloat.ofInt n)

theorem val_nan : (PyFloat.nan : RFl R).val = .nan := rfl
theorem val_add (a b : RFl R) : (a +ᶠ b).val = R.round (a.val +ᶠ b.val) := rfl
theorem val_sub (a b : RFl R) : (a -ᶠ b).val = R.round (a.val -ᶠ b.val) := rfl
theorem val_mul (a b : RFl R) : (a *ᶠ b).val = R.round (a.val *ᶠ b.val) := rfl
theorem val_div (a b : RFl R) : (a /ᶠ b).val = R.round (a.val /ᶠ b.val) := rfl
theorem val_ofInt (n : Int) : (PyFloat.ofInt n : RFl R).val = R.rnd (n : K) := rfl
theorem lt_def (a b : RFl R) : (a <ᶠ b) = (a.val <ᶠ b.val) := rfl
theorem le_def (a b : RFl R) : (a ≤ᶠ b) = (a.val ≤ᶠ b.val) := rfl
theorem eq_def (a b : RFl R) : (a ==ᶠ b) = (a.val ==ᶠ b.val) := rfl
theorem isNaN_def (a : RFl R) : PyFloat.isNaN a = PyFloat.isNaN a.val := rfl
theorem val_zero : (PyFloat.ofInt 0 : RFl R).val = .fin 0 := by
  rw [val_ofInt, Int.cast_zero, R.zero]
theorem val_one : (PyFloat.ofInt 1 : RFl R).val = .fin 1 := by
  rw [val_ofInt, Int.cast_one, R.one]

/-- A finite float is a representable number. -/
theorem rnd_of_val {a : RFl R} {x : K} (h : a.val = .fin x) : R.rnd x = .fin x := by
  have := a.rep
  rw [h] at this
  exact this

instance : LawfulPyFloat (RFl R) where
  isNaN_nan := rfl
  isNaN_ofInt n := R.not_nan _
  lt_not_nan a b h := LawfulPyFloat.lt_not_nan a.val b.val h
  le_iff a b ha hb := LawfulPyFloat.le_iff a.val b.val ha hb
  le_not_nan a b h := LawfulPyFloat.le_not_nan a.val b.val h
  eq_iff a b := LawfulPyFloat.eq_iff a.val b.val
  lt_irrefl a := LawfulPyFloat.lt_irrefl a.val
  lt_trans a b c := LawfulPyFloat.lt_trans a.val b.val c.val
  lt_cotrans a b c := LawfulPyFloat.lt_cotrans a.val b.val c.val
  add_nan a b h := by
    rw [isNaN_def, val_add, R.isNaN_round]; exact LawfulPyFloat.add_nan _ _ h
  sub_nan a b h := by
    rw [isNaN_def, val_sub, R.isNaN_round]; exact LawfulPyFloat.sub_nan _ _ h

variable [IsStrictOrderedRing K]

/-- The order laws hold whatever the rounding. -/
instance : OrderedPyFloat (RFl R) where
  ofInt_zero_lt_one := by rw [lt_def, val_zero, val_one]; simp
  ofInt_mono m n h := R.mono _ _ (by exact_mod_cast h)
  sub_nonneg a b h hn := by
    rw [isNaN_def, val_sub, R.isNaN_round] at hn
    exact R.round_mono (OrderedPyFloat.sub_nonneg a.val b.val h hn)
  sub_nonpos a b h hn := by
    rw [isNaN_def, val_sub, R.isNaN_round] at hn
    exact R.round_mono (OrderedPyFloat.sub_nonpos a.val b.val h hn)
  mul_nonneg a b ha hb hn := by
    rw [isNaN_def, val_mul, R.isNaN_round] at hn
    rw [le_def, val_zero] at ha hb
    exact R.round_mono (OrderedPyFloat.mul_nonneg a.val b.val (by simpa using ha)
      (by simpa using hb) hn)
  mul_nonpos a b ha hb hn := by
    rw [isNaN_def, val_mul, R.isNaN_round] at hn
    rw [le_def, val_zero] at ha hb
    exact R.round_mono (OrderedPyFloat.mul_nonpos a.val b.val (by simpa using ha)
      (by simpa using hb) hn)
  mul_le_of_nonneg a b c h hc h1 h2 := by
    rw [isNaN_def, val_mul, R.isNaN_round] at h1 h2
    rw [le_def, val_zero] at hc
    exact R.round_mono (OrderedPyFloat.mul_le_of_nonneg a.val b.val c.val h (by simpa using hc) h1 h2)
  mul_le_of_nonpos a b c h hc h1 h2 := by
    rw [isNaN_def, val_mul, R.isNaN_round] at h1 h2
    rw [le_def, val_zero] at hc
    exact R.round_mono (OrderedPyFloat.mul_le_of_nonpos a.val b.val c.val h (by simpa using hc) h1 h2)
  div_nonneg a b ha hb hn := by
    rw [isNaN_def, val_div, R.isNaN_round] at hn
    rw [le_def, val_zero] at ha
    rw [lt_def, val_zero] at hb
    exact R.round_mono (OrderedPyFloat.div_nonneg a.val b.val (by simpa using ha)
      (by simpa using hb) hn)
  div_nonpos a b ha hb hn := by
    rw [isNaN_def, val_div, R.isNaN_round] at hn
    rw [le_def, val_zero] at ha
    rw [lt_def, val_zero] at hb
    exact R.round_mono (OrderedPyFloat.div_nonpos a.val b.val (by simpa using ha)
      (by simpa using hb) hn)
  add_le_add a b c h h1 h2 := by
    rw [isNaN_def, val_add, R.isNaN_round] at h1 h2
    exact R.round_mono (OrderedPyFloat.add_le_add a.val b.val c.val h h1 h2)
  add_zero a := by
    apply RFl.ext
    rw [val_add, val_zero]
    have := OrderedPyFloat.add_zero a.val
    rw [Fl.pf_ofInt, Int.cast_zero] at this
    rw [this]
    exact a.rep
  mul_nan a b h := by
    rw [isNaN_def, val_mul, R.isNaN_round]; exact OrderedPyFloat.mul_nan _ _ h
  div_nan a b h := by
    rw [isNaN_def, val_div, R.isNaN_round]; exact OrderedPyFloat.div_nan _ _ h

end RFl

/-- Precision of a rounding: relative error `u` per operation, absolute error `eta` where gradual
underflow can occur (not in sums and differences of floats), no overflow up to `big`, integers up to
`imax` exact. -/
structure Rounding.Precision {K : Type} [Field K] [LinearOrder K] (R : Rounding K)
    (u eta big imax : K) : Prop where
  u_nonneg : 0 ≤ u
  eta_nonneg : 0 ≤ eta
  err : ∀ x, |x| ≤ big → ∃ z, R.rnd x = .fin z ∧ |z - x| ≤ u * |x| + eta
  add_err : ∀ x y, R.rnd x = .fin x → R.rnd y = .fin y → |x + y| ≤ big →
    ∃ z, R.rnd (x + y) = .fin z ∧ |z - (x + y)| ≤ u * |x + y|
  sub_err : ∀ x y, R.rnd x = .fin x → R.rnd y = .fin y → |x - y| ≤ big →
    ∃ z, R.rnd (x - y) = .fin z ∧ |z - (x - y)| ≤ u * |x - y|
  int_exact : ∀ n : ℕ, (n : K) ≤ imax → R.rnd n = .fin n

end Verif
