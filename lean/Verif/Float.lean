import Mathlib.Algebra.Order.Field.Basic
import Mathlib.Tactic.Linarith
import Mathlib.Tactic.Ring
import Mathlib.Tactic.FieldSimp
import Mathlib.Tactic.NormNum

/-!
# Floating point values

`PyFloat` lists the float operations used by the modelled code, without any law.
Models written against it make sense for every interpretation of the operations,
in particular for IEEE doubles with rounding.

`LawfulPyFloat` adds the laws about comparison and NaN that hold both for IEEE
doubles and for the exact type `Fl K` below. No law about `+ - * /` is
assumed, except that a NaN operand of `add`/`sub` gives NaN.

`Fl K` is a number type with exact arithmetic over an ordered field `K`
and IEEE-style NaN and infinities. Not modelled: rounding, overflow, signed zero.
-/

namespace Verif

/-- Exceptions raised by the modelled Python code. -/
inductive Err
  | valueError | indexError | typeError | keyError | zeroDivision
  | attributeError | assertionError | runtimeError | nameError
  | osError | importError
  /-- a bare `Exception` -/
  | exception
  | notImplemented
  /-- the call is outside the domain of the model (e.g. numba code
  reading beyond the end of an array) -/
  | outOfModel
  deriving DecidableEq, Repr

/-- Float operations, no laws. -/
class PyFloat (F : Type) where
  nan : F
  isNaN : F → Bool
  add : F → F → F
  sub : F → F → F
  mul : F → F → F
  div : F → F → F
  lt : F → F → Bool
  le : F → F → Bool
  eq : F → F → Bool
  ofInt : Int → F

scoped infixl:65 " +ᶠ " => PyFloat.add
scoped infixl:65 " -ᶠ " => PyFloat.sub
scoped infixl:70 " *ᶠ " => PyFloat.mul
scoped infixl:70 " /ᶠ " => PyFloat.div
scoped infix:50 " <ᶠ " => PyFloat.lt
scoped infix:50 " ≤ᶠ " => PyFloat.le
scoped infix:50 " ==ᶠ " => PyFloat.eq

export PyFloat (isNaN)

/-- Laws of comparison and NaN shared by IEEE doubles and `Fl K`. -/
class LawfulPyFloat (F : Type) [PyFloat F] : Prop where
  isNaN_nan : isNaN (PyFloat.nan : F) = true
  isNaN_ofInt : ∀ n : Int, isNaN (PyFloat.ofInt n : F) = false
  lt_not_nan : ∀ a b : F, a <ᶠ b → isNaN a = false ∧ isNaN b = false
  le_iff : ∀ a b : F, isNaN a = false → isNaN b = false →
    (a ≤ᶠ b) = !(b <ᶠ a)
  le_not_nan : ∀ a b : F, a ≤ᶠ b → isNaN a = false ∧ isNaN b = false
  eq_iff : ∀ a b : F, (a ==ᶠ b) = ((a ≤ᶠ b) && (b ≤ᶠ a))
  lt_irrefl : ∀ a : F, (a <ᶠ a) = false
  lt_trans : ∀ a b c : F, a <ᶠ b → b <ᶠ c → a <ᶠ c
  /-- negative transitivity: the order is a total preorder on numbers -/
  lt_cotrans : ∀ a b c : F, isNaN b = false → a <ᶠ c → (a <ᶠ b) || (b <ᶠ c)
  add_nan : ∀ a b : F, isNaN a || isNaN b → isNaN (a +ᶠ b)
  sub_nan : ∀ a b : F, isNaN a || isNaN b → isNaN (a -ᶠ b)

/-- Exact numbers with NaN and infinities. -/
inductive Fl (K : Type)
  | nan
  | ninf
  | fin (x : K)
  | pinf
  deriving DecidableEq, Repr

namespace Fl

variable {K : Type} [Field K] [LinearOrder K]

instance : Coe K (Fl K) := ⟨Fl.fin⟩

/-- `np.isnan` -/
def isNaN : Fl K → Bool
  | nan => true
  | _ => false

/-- `np.isfinite` -/
def isFin : Fl K → Bool
  | fin _ => true
  | _ => false

def neg : Fl K → Fl K
  | nan => nan
  | ninf => pinf
  | fin x => fin (-x)
  | pinf => ninf

def add : Fl K → Fl K → Fl K
  | nan, _ => nan
  | _, nan => nan
  | fin x, fin y => fin (x + y)
  | fin _, pinf => pinf
  | fin _, ninf => ninf
  | pinf, fin _ => pinf
  | ninf, fin _ => ninf
  | pinf, pinf => pinf
  | ninf, ninf => ninf
  | pinf, ninf => nan
  | ninf, pinf => nan

def sub (a b : Fl K) : Fl K := add a (neg b)

/-- infinity with the sign of `x`, NaN for zero: `x * inf` -/
def infSign (x : K) : Fl K :=
  if 0 < x then pinf else if x < 0 then ninf else nan

def mul : Fl K → Fl K → Fl K
  | nan, _ => nan
  | _, nan => nan
  | fin x, fin y => fin (x * y)
  | fin x, pinf => infSign x
  | fin x, ninf => infSign (-x)
  | pinf, fin x => infSign x
  | ninf, fin x => infSign (-x)
  | pinf, pinf => pinf
  | ninf, ninf => pinf
  | pinf, ninf => ninf
  | ninf, pinf => ninf

/-- numpy division: `x/0` is NaN or an infinity with the sign of `x`
(zeros are unsigned in this model). -/
def div : Fl K → Fl K → Fl K
  | nan, _ => nan
  | _, nan => nan
  | fin x, fin y => if y = 0 then infSign x else fin (x / y)
  | fin _, pinf => fin 0
  | fin _, ninf => fin 0
  | pinf, fin x => if x < 0 then ninf else pinf
  | ninf, fin x => if x < 0 then pinf else ninf
  | pinf, pinf => nan
  | ninf, ninf => nan
  | pinf, ninf => nan
  | ninf, pinf => nan

/-- IEEE `<` : false if an operand is NaN. -/
def lt : Fl K → Fl K → Bool
  | nan, _ => false
  | _, nan => false
  | fin x, fin y => decide (x < y)
  | fin _, pinf => true
  | fin _, ninf => false
  | pinf, _ => false
  | ninf, fin _ => true
  | ninf, pinf => true
  | ninf, ninf => false

/-- IEEE `<=` : false if an operand is NaN. -/
def le : Fl K → Fl K → Bool
  | nan, _ => false
  | _, nan => false
  | fin x, fin y => decide (x ≤ y)
  | fin _, pinf => true
  | fin _, ninf => false
  | pinf, fin _ => false
  | pinf, pinf => true
  | pinf, ninf => false
  | ninf, _ => true

/-- IEEE `==` : false if an operand is NaN. -/
def eq : Fl K → Fl K → Bool
  | fin x, fin y => decide (x = y)
  | pinf, pinf => true
  | ninf, ninf => true
  | _, _ => false

instance : PyFloat (Fl K) where
  nan := nan
  isNaN := isNaN
  add := add
  sub := sub
  mul := mul
  div := div
  lt := lt
  le := le
  eq := eq
  ofInt n := fin (n : K)

section simp_lemmas
variable (x y : K)

@[simp] theorem pf_nan : (PyFloat.nan : Fl K) = nan := rfl
@[simp] theorem pf_ofInt (n : Int) : (PyFloat.ofInt n : Fl K) = fin (n : K) := rfl
@[simp] theorem pf_add_fin : (fin x +ᶠ fin y : Fl K) = fin (x + y) := rfl
@[simp] theorem pf_sub_fin : (fin x -ᶠ fin y : Fl K) = fin (x - y) := by
  show fin (x + -y) = _
  rw [sub_eq_add_neg]
@[simp] theorem pf_mul_fin : (fin x *ᶠ fin y : Fl K) = fin (x * y) := rfl
theorem pf_div_fin : (fin x /ᶠ fin y : Fl K) = if y = 0 then infSign x else fin (x / y) := rfl
theorem pf_div_fin_ne (h : y ≠ 0) : (fin x /ᶠ fin y : Fl K) = fin (x / y) := by
  rw [pf_div_fin, if_neg h]
@[simp] theorem pf_lt_fin : (fin x <ᶠ fin y : Bool) = decide (x < y) := rfl
@[simp] theorem pf_le_fin : (fin x ≤ᶠ fin y : Bool) = decide (x ≤ y) := rfl
@[simp] theorem pf_eq_fin : (fin x ==ᶠ fin y : Bool) = decide (x = y) := rfl
@[simp] theorem pf_isNaN_fin : PyFloat.isNaN (fin x : Fl K) = false := rfl
@[simp] theorem pf_isNaN_nan : PyFloat.isNaN (nan : Fl K) = true := rfl
@[simp] theorem pf_isNaN_pinf : PyFloat.isNaN (pinf : Fl K) = false := rfl
@[simp] theorem pf_isNaN_ninf : PyFloat.isNaN (ninf : Fl K) = false := rfl
@[simp] theorem pf_nan_add (a : Fl K) : nan +ᶠ a = nan := by cases a <;> rfl
@[simp] theorem pf_add_nan (a : Fl K) : a +ᶠ nan = nan := by cases a <;> rfl
@[simp] theorem pf_nan_sub (a : Fl K) : nan -ᶠ a = nan := by cases a <;> rfl
@[simp] theorem pf_sub_nan (a : Fl K) : a -ᶠ nan = nan := by cases a <;> rfl
@[simp] theorem pf_nan_mul (a : Fl K) : nan *ᶠ a = nan := by cases a <;> rfl
@[simp] theorem pf_mul_nan (a : Fl K) : a *ᶠ nan = nan := by cases a <;> rfl
@[simp] theorem pf_nan_div (a : Fl K) : nan /ᶠ a = nan := by cases a <;> rfl
@[simp] theorem pf_div_nan (a : Fl K) : a /ᶠ nan = nan := by cases a <;> rfl
@[simp] theorem pf_nan_lt (a : Fl K) : (nan <ᶠ a) = false := by cases a <;> rfl
@[simp] theorem pf_lt_nan (a : Fl K) : (a <ᶠ nan) = false := by cases a <;> rfl
@[simp] theorem pf_nan_le (a : Fl K) : (nan ≤ᶠ a) = false := by cases a <;> rfl
@[simp] theorem pf_le_nan (a : Fl K) : (a ≤ᶠ nan) = false := by cases a <;> rfl
@[simp] theorem pf_nan_eq (a : Fl K) : (nan ==ᶠ a) = false := by cases a <;> rfl
@[simp] theorem pf_eq_nan (a : Fl K) : (a ==ᶠ nan) = false := by cases a <;> rfl

theorem isNaN_iff (a : Fl K) : PyFloat.isNaN a = true ↔ a = nan := by
  cases a <;> simp

end simp_lemmas

omit [Field K] in
private theorem cotrans {x z : K} (y : K) (h : x < z) : x < y ∨ y < z := by
  rcases lt_or_ge x y with h' | h'
  · exact Or.inl h'
  · exact Or.inr (lt_of_le_of_lt h' h)

instance : LawfulPyFloat (Fl K) where
  isNaN_nan := rfl
  isNaN_ofInt _ := rfl
  lt_not_nan a b h := by cases a <;> cases b <;> simp_all
  le_iff a b ha hb := by
    cases a <;> cases b <;> first | rfl | (simp_all; done) | skip
    rename_i x y
    rw [pf_le_fin, pf_lt_fin, ← decide_not]
    exact decide_eq_decide.mpr not_lt.symm
  le_not_nan a b h := by cases a <;> cases b <;> simp_all
  eq_iff a b := by
    cases a <;> cases b <;> first | rfl | skip
    rename_i x y
    rw [pf_le_fin, pf_le_fin, pf_eq_fin, ← Bool.decide_and]
    exact decide_eq_decide.mpr le_antisymm_iff
  lt_irrefl a := by cases a <;> first | rfl | simp
  lt_trans a b c hab hbc := by
    cases a <;> cases b <;> cases c <;>
      first
      | rfl
      | (exfalso; revert hab; exact Bool.false_ne_true)
      | (exfalso; revert hbc; exact Bool.false_ne_true)
      | (simp only [pf_lt_fin, decide_eq_true_eq] at *; exact lt_trans hab hbc)
  lt_cotrans a b c hb hac := by
    cases a <;> cases b <;> cases c <;>
      first
      | rfl
      | (exfalso; revert hb; exact fun h => Bool.false_ne_true h.symm)
      | (exfalso; revert hac; exact Bool.false_ne_true)
      | (rw [Bool.or_eq_true]; exact Or.inr rfl)
      | (simp only [pf_lt_fin, decide_eq_true_eq, Bool.or_eq_true] at *
         exact cotrans _ hac)
  add_nan a b h := by cases a <;> cases b <;> simp_all
  sub_nan a b h := by cases a <;> cases b <;> simp_all

end Fl

/-! ### Derived laws of `LawfulPyFloat` -/

namespace LawfulPyFloat
variable {F : Type} [PyFloat F] [LawfulPyFloat F]

theorem le_refl {a : F} (h : isNaN a = false) : a ≤ᶠ a := by
  rw [le_iff a a h h, lt_irrefl]; rfl

theorem le_of_not_lt {a b : F} (ha : isNaN a = false) (hb : isNaN b = false)
    (h : (b <ᶠ a) = false) : a ≤ᶠ b := by
  rw [le_iff a b ha hb, h]; rfl

theorem not_lt_of_le {a b : F} (h : a ≤ᶠ b) : (b <ᶠ a) = false := by
  have hn := le_not_nan a b h
  rw [le_iff a b hn.1 hn.2] at h
  simpa using h

theorem lt_asymm {a b : F} (h : a <ᶠ b) : (b <ᶠ a) = false := by
  by_contra hc
  have hc' : b <ᶠ a := by simpa using hc
  have := lt_trans a b a h hc'
  rw [lt_irrefl] at this
  exact Bool.false_ne_true this

theorem le_of_lt {a b : F} (h : a <ᶠ b) : a ≤ᶠ b := by
  have hn := lt_not_nan a b h
  exact le_of_not_lt hn.1 hn.2 (lt_asymm h)

theorem le_trans {a b c : F} (hab : a ≤ᶠ b) (hbc : b ≤ᶠ c) : a ≤ᶠ c := by
  have h1 := le_not_nan a b hab
  have h2 := le_not_nan b c hbc
  refine le_of_not_lt h1.1 h2.2 ?_
  by_contra hc
  have hc' : c <ᶠ a := by simpa using hc
  have := lt_cotrans c b a h1.2 hc'
  rw [not_lt_of_le hab, not_lt_of_le hbc] at this
  exact Bool.false_ne_true this

theorem le_total {a b : F} (ha : isNaN a = false) (hb : isNaN b = false) :
    (a ≤ᶠ b) = true ∨ (b ≤ᶠ a) = true := by
  cases h : (b <ᶠ a)
  · exact Or.inl (le_of_not_lt ha hb h)
  · exact Or.inr (le_of_lt h)

theorem lt_of_lt_of_le {a b c : F} (hab : a <ᶠ b) (hbc : b ≤ᶠ c) : a <ᶠ c := by
  have h2 := le_not_nan b c hbc
  have := lt_cotrans a c b h2.2 hab
  rw [not_lt_of_le hbc] at this
  simpa using this

theorem lt_of_le_of_lt {a b c : F} (hab : a ≤ᶠ b) (hbc : b <ᶠ c) : a <ᶠ c := by
  have h1 := le_not_nan a b hab
  have := lt_cotrans b a c h1.1 hbc
  rw [not_lt_of_le hab] at this
  simpa using this

end LawfulPyFloat

end Verif
