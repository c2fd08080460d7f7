import Verif.Rounding
import Verif.Props.MinMax
import Mathlib.Data.Int.Log
import Mathlib.Tactic.Positivity

/-!
# IEEE binary formats

`binFmt p emin emax` rounds to the nearest number `m * 2^e` with `|m| < 2^p` and `emin ≤ e` (ties to
even `m`), results of size `2^emax` or more become infinite. `binary64` is the double format
(`p = 53`, `emin = -1074`, `emax = 1024`). IEEE 754-2019 sections 3.3, 4.3.1 and 7.4.
-/

namespace Verif.Bin
open Verif Verif.MinMax Verif.Props

variable {K : Type} [Field K] [LinearOrder K] [IsStrictOrderedRing K] [FloorRing K]

theorem rintK_mono {x y : K} (h : x ≤ y) : rintK x ≤ rintK y := by
  have hf : ⌊x⌋ ≤ ⌊y⌋ := Int.floor_le_floor h
  rcases hf.lt_or_eq with hlt | heq
  · have h1 : rintK x ≤ ⌊x⌋ + 1 := by
      unfold rintK; dsimp only; split_ifs <;> omega
    have h2 : ⌊y⌋ ≤ rintK y := by
      unfold rintK; dsimp only; split_ifs <;> omega
    omega
  · unfold rintK
    dsimp only
    rw [heq]
    split_ifs <;> first | omega | (exfalso; linarith)

theorem rintK_intCast (n : ℤ) : rintK (n : K) = n := by
  unfold rintK
  simp

theorem rintK_le {x : K} {n : ℤ} (h : x ≤ n) : rintK x ≤ n := by
  have := rintK_mono h
  rwa [rintK_intCast] at this

theorem le_rintK {x : K} {n : ℤ} (h : (n : K) ≤ x) : n ≤ rintK x := by
  have := rintK_mono h
  rwa [rintK_intCast] at this

/-- An integer at distance less than one half is the rounded value. -/
theorem rintK_eq {x : K} {n : ℤ} (h : |x - n| < 1 / 2) : rintK x = n := by
  have h1 := (C27_rint_nearest x).1
  have h2 : |(rintK x : K) - n| < 1 := by
    have : (rintK x : K) - n = (x - n) - (x - rintK x) := by ring
    rw [this]
    calc _ ≤ |x - n| + |x - rintK x| := abs_sub _ _
      _ < 1 := by linarith
  have h3 : |rintK x - n| < 1 := by exact_mod_cast h2
  have := Int.abs_lt_one_iff.mp h3
  omega

section fmt
variable (p : ℕ) (emin : ℤ)

/-- Exponent of the last digit of `x ≥ 0`. -/
def ulpExp (x : K) : ℤ := max (Int.log 2 x - ((p : ℤ) - 1)) emin

/-- Rounding of `x ≥ 0` with unbounded exponent range above. -/
def rndPos (x : K) : K := (rintK (x / 2 ^ ulpExp p emin x) : K) * 2 ^ ulpExp p emin x

variable {p emin}

omit [IsStrictOrderedRing K] in
theorem ulpExp_ge (x : K) : emin ≤ ulpExp p emin x := le_max_right _ _

theorem two_zpow_pos (k : ℤ) : (0 : K) < 2 ^ k := zpow_pos two_pos k

theorem lt_two_zpow (x : K) : x < 2 ^ (ulpExp p emin x + p) := by
  have h := Int.lt_zpow_succ_log_self (b := 2) one_lt_two x
  refine lt_of_lt_of_le h ?_
  push_cast
  refine zpow_le_zpow_right₀ one_le_two ?_
  have : Int.log 2 x - ((p : ℤ) - 1) ≤ ulpExp p emin x := le_max_left _ _
  omega

/-- Bounding the exponent. -/
theorem ulpExp_le {x : K} {e : ℤ} (hx : 0 < x) (he : emin ≤ e) (h : x < 2 ^ (e + p)) :
    ulpExp p emin x ≤ e := by
  have := (Int.lt_zpow_iff_log_lt (b := 2) one_lt_two (x := e + p) hx).mp (by exact_mod_cast h)
  unfold ulpExp
  omega

/-- A multiple of a power of two that is not below the quantum is kept. -/
theorem rndPos_mul_zpow {m e : ℤ} (h : ulpExp p emin ((m : K) * 2 ^ e) ≤ e) :
    rndPos p emin ((m : K) * 2 ^ e) = (m : K) * 2 ^ e := by
  unfold rndPos
  set E := ulpExp p emin ((m : K) * 2 ^ e) with hE
  obtain ⟨d, hd⟩ : ∃ d : ℕ, e = E + d := ⟨(e - E).toNat, by omega⟩
  have hq : (m : K) * 2 ^ e = ((m * 2 ^ d : ℤ) : K) * 2 ^ E := by
    rw [hd, zpow_add₀ two_ne_zero, zpow_natCast]; push_cast; ring
  rw [hq, mul_div_cancel_right₀ _ (two_zpow_pos E).ne', rintK_intCast]

theorem rndPos_zero : rndPos p emin (0 : K) = 0 := by
  have := rndPos_mul_zpow (p := p) (emin := emin) (K := K) (m := 0)
    (e := ulpExp p emin (0 : K)) (by simp)
  simpa using this

theorem rndPos_two_zpow (hp : 1 ≤ p) {j : ℤ} (hj : emin ≤ j) :
    rndPos p emin ((2 : K) ^ j) = 2 ^ j := by
  have := rndPos_mul_zpow (p := p) (emin := emin) (K := K) (m := 1) (e := j) (by
    refine ulpExp_le (by simpa using two_zpow_pos j) hj ?_
    rw [Int.cast_one, one_mul]
    exact zpow_lt_zpow_right₀ one_lt_two (by omega))
  simpa using this

/-- A multiple of the quantum above `x` is above the rounded value. -/
theorem rndPos_le {x : K} {m e : ℤ} (h : x ≤ (m : K) * 2 ^ e) (he : ulpExp p emin x ≤ e) :
    rndPos p emin x ≤ (m : K) * 2 ^ e := by
  unfold rndPos
  set E := ulpExp p emin x
  obtain ⟨d, hd⟩ : ∃ d : ℕ, e = E + d := ⟨(e - E).toNat, by omega⟩
  have hq : (m : K) * 2 ^ e = ((m * 2 ^ d : ℤ) : K) * 2 ^ E := by
    rw [hd, zpow_add₀ two_ne_zero, zpow_natCast]; push_cast; ring
  rw [hq] at h ⊢
  refine mul_le_mul_of_nonneg_right ?_ (two_zpow_pos E).le
  have : x / 2 ^ E ≤ ((m * 2 ^ d : ℤ) : K) := by rwa [div_le_iff₀ (two_zpow_pos E)]
  exact_mod_cast rintK_le this

theorem le_rndPos {x : K} {m e : ℤ} (h : (m : K) * 2 ^ e ≤ x) (he : ulpExp p emin x ≤ e) :
    (m : K) * 2 ^ e ≤ rndPos p emin x := by
  unfold rndPos
  set E := ulpExp p emin x
  obtain ⟨d, hd⟩ : ∃ d : ℕ, e = E + d := ⟨(e - E).toNat, by omega⟩
  have hq : (m : K) * 2 ^ e = ((m * 2 ^ d : ℤ) : K) * 2 ^ E := by
    rw [hd, zpow_add₀ two_ne_zero, zpow_natCast]; push_cast; ring
  rw [hq] at h ⊢
  refine mul_le_mul_of_nonneg_right ?_ (two_zpow_pos E).le
  have : ((m * 2 ^ d : ℤ) : K) ≤ x / 2 ^ E := by rwa [le_div_iff₀ (two_zpow_pos E)]
  exact_mod_cast le_rintK this

theorem rndPos_nonneg {x : K} (hx : 0 ≤ x) : 0 ≤ rndPos p emin x := by
  have := le_rndPos (p := p) (emin := emin) (x := x) (m := 0) (e := ulpExp p emin x)
    (by simpa using hx) le_rfl
  simpa using this

/-- Where the quantum is not the smallest one, `x` is at least `2^(p-1)` quanta. -/
theorem zpow_le_of_lt_ulpExp {x : K} (hx : 0 < x) (h : emin < ulpExp p emin x) :
    (2 : K) ^ (ulpExp p emin x + (p - 1)) ≤ x := by
  have h1 : ulpExp p emin x = Int.log 2 x - ((p : ℤ) - 1) := by
    unfold ulpExp at *
    omega
  rw [h1]
  have := Int.zpow_log_le_self (b := 2) one_lt_two hx
  rw [show Int.log 2 x - ((p : ℤ) - 1) + (p - 1) = Int.log 2 x by ring]
  exact_mod_cast this

theorem rndPos_mono (hp : 1 ≤ p) {x y : K} (hx : 0 ≤ x) (h : x ≤ y) :
    rndPos p emin x ≤ rndPos p emin y := by
  rcases hx.eq_or_lt with rfl | hx
  · rw [rndPos_zero]; exact rndPos_nonneg h
  have hy : 0 < y := lt_of_lt_of_le hx h
  have hle : ulpExp p emin x ≤ ulpExp p emin y := by
    unfold ulpExp
    have := Int.log_mono_right (b := 2) hx h
    omega
  rcases hle.lt_or_eq with hlt | heq
  · have h1 := zpow_le_of_lt_ulpExp hy (lt_of_le_of_lt (ulpExp_ge x) hlt)
    have h2 : (2 : K) ^ (ulpExp p emin y + (p - 1)) ≤ rndPos p emin y := by
      have := le_rndPos (p := p) (emin := emin) (x := y) (m := 1)
        (e := ulpExp p emin y + (p - 1)) (by simpa using h1) (by omega)
      simpa using this
    refine le_trans ?_ h2
    have h3 : x < 2 ^ (ulpExp p emin y + (p - 1) : ℤ) :=
      lt_of_lt_of_le (lt_two_zpow (p := p) (emin := emin) x)
        (zpow_le_zpow_right₀ one_le_two (by omega))
    have := rndPos_le (p := p) (emin := emin) (x := x) (m := 1)
      (e := ulpExp p emin y + (p - 1)) (by simpa using h3.le) (by omega)
    simpa using this
  · unfold rndPos
    rw [heq]
    refine mul_le_mul_of_nonneg_right ?_ (two_zpow_pos _).le
    exact_mod_cast rintK_mono (div_le_div_of_nonneg_right h (two_zpow_pos _).le)

theorem rndPos_idem (hp : 1 ≤ p) {x : K} (hx : 0 ≤ x) :
    rndPos p emin (rndPos p emin x) = rndPos p emin x := by
  have h0 := rndPos_nonneg (p := p) (emin := emin) hx
  have hle : rndPos p emin x ≤ 2 ^ (ulpExp p emin x + p) := by
    have := rndPos_le (p := p) (emin := emin) (x := x) (m := 1) (e := ulpExp p emin x + p)
      (by simpa using (lt_two_zpow x).le) (by omega)
    simpa using this
  rcases hle.lt_or_eq with hlt | heq
  · rcases h0.eq_or_lt with h0 | h0
    · rw [← h0, rndPos_zero]
    · have := ulpExp_le (p := p) (emin := emin) h0 (ulpExp_ge x) hlt
      exact rndPos_mul_zpow this
  · rw [heq]
    exact rndPos_two_zpow hp (by have := ulpExp_ge (p := p) (emin := emin) x; omega)

theorem rndPos_err_ulp (x : K) : |rndPos p emin x - x| ≤ 2 ^ ulpExp p emin x / 2 := by
  unfold rndPos
  set E := ulpExp p emin x
  have h := (C27_rint_nearest (x / 2 ^ E)).1
  have hE : (0 : K) < 2 ^ E := two_zpow_pos E
  have : (rintK (x / 2 ^ E) : K) * 2 ^ E - x = -((x / 2 ^ E - rintK (x / 2 ^ E)) * 2 ^ E) := by
    field_simp
    ring
  rw [this, abs_neg, abs_mul, abs_of_pos hE]
  calc _ ≤ 1 / 2 * (2 : K) ^ E := mul_le_mul_of_nonneg_right h hE.le
    _ = _ := by ring

/-- Half a unit in the last place. -/
def unit (p : ℕ) : K := 2 ^ (-(p : ℤ))

theorem rndPos_err {x : K} (hx : 0 < x) (h : emin < ulpExp p emin x) :
    |rndPos p emin x - x| ≤ unit p * x := by
  refine (rndPos_err_ulp x).trans ?_
  have h1 := zpow_le_of_lt_ulpExp hx h
  have h2 : (2 : K) ^ ulpExp p emin x / 2 = unit p * 2 ^ (ulpExp p emin x + (p - 1)) := by
    unfold unit
    rw [← zpow_add₀ two_ne_zero, div_eq_iff two_ne_zero, ← zpow_add_one₀ two_ne_zero]
    congr 1
    ring
  rw [h2]
  exact mul_le_mul_of_nonneg_left h1 (two_zpow_pos _).le

/-- Every rounded number is a multiple of the smallest quantum. -/
theorem rndPos_multiple (x : K) : ∃ m : ℤ, rndPos p emin x = (m : K) * 2 ^ emin := by
  unfold rndPos
  obtain ⟨d, hd⟩ : ∃ d : ℕ, ulpExp p emin x = emin + d :=
    ⟨(ulpExp p emin x - emin).toNat, by have := ulpExp_ge (p := p) (emin := emin) x; omega⟩
  refine ⟨rintK (x / 2 ^ ulpExp p emin x) * 2 ^ d, ?_⟩
  generalize rintK (x / 2 ^ ulpExp p emin x) = r
  rw [hd, zpow_add₀ two_ne_zero, zpow_natCast]
  push_cast
  ring

/-- No multiple of the quantum is closer to `x` than the rounded value. -/
theorem rndPos_nearest_multiple {x : K} {m e : ℤ} (he : ulpExp p emin x ≤ e) :
    |rndPos p emin x - x| ≤ |(m : K) * 2 ^ e - x| := by
  set E := ulpExp p emin x with hE
  have hEp : (0 : K) < 2 ^ E := two_zpow_pos E
  obtain ⟨d, hd⟩ : ∃ d : ℕ, e = E + d := ⟨(e - E).toNat, by omega⟩
  have hq : (m : K) * 2 ^ e = ((m * 2 ^ d : ℤ) : K) * 2 ^ E := by
    rw [hd, zpow_add₀ two_ne_zero, zpow_natCast]; push_cast; ring
  rw [hq]
  generalize m * 2 ^ d = m'
  by_cases hmr : m' = rintK (x / 2 ^ E)
  · rw [hmr]; exact le_rfl
  · refine (rndPos_err_ulp x).trans ?_
    have h2 : 1 / 2 ≤ |(m' : K) - x / 2 ^ E| := by
      by_contra hc
      push Not at hc
      rw [abs_sub_comm] at hc
      exact hmr (rintK_eq hc).symm
    have h3 : (m' : K) * 2 ^ E - x = ((m' : K) - x / 2 ^ E) * 2 ^ E := by
      field_simp
    rw [h3, abs_mul, abs_of_pos hEp]
    calc (2 : K) ^ E / 2 = 1 / 2 * 2 ^ E := by ring
      _ ≤ _ := mul_le_mul_of_nonneg_right h2 hEp.le

/-- No number that rounding keeps is closer to `x` than the rounded value. -/
theorem rndPos_nearest (hp : 1 ≤ p) {x y : K} (hx : 0 ≤ x) (hy : 0 ≤ y)
    (h : rndPos p emin y = y) : |rndPos p emin x - x| ≤ |y - x| := by
  rcases hx.eq_or_lt with rfl | hx
  · rw [rndPos_zero]; simp
  rcases hy.eq_or_lt with rfl | hy
  · simpa using rndPos_nearest_multiple (p := p) (emin := emin) (x := x) (m := 0) le_rfl
  rcases le_or_gt (ulpExp p emin x) (ulpExp p emin y) with hle | hlt
  · have := rndPos_nearest_multiple (p := p) (emin := emin) (x := x)
      (m := rintK (y / 2 ^ ulpExp p emin y)) hle
    rw [← rndPos, h] at this
    exact this
  · have h1 := zpow_le_of_lt_ulpExp hx (lt_of_le_of_lt (ulpExp_ge y) hlt)
    have h2 : y < 2 ^ (ulpExp p emin x + (p - 1) : ℤ) :=
      lt_of_lt_of_le (lt_two_zpow (p := p) (emin := emin) y)
        (zpow_le_zpow_right₀ one_le_two (by omega))
    have h3 := rndPos_nearest_multiple (p := p) (emin := emin) (x := x) (m := 1)
      (e := ulpExp p emin x + (p - 1)) (by omega)
    rw [Int.cast_one, one_mul, abs_of_nonpos (a := (2 : K) ^ _ - x) (by linarith)] at h3
    rw [abs_of_nonpos (a := y - x) (by linarith)]
    linarith

/-- The rounding of the format with `p` digits, smallest quantum `2^emin` and overflow at `2^emax`. -/
def rndFmt (p : ℕ) (emin emax : ℤ) (x : K) : Fl K :=
  if 0 ≤ x then
    if 2 ^ emax ≤ rndPos p emin x then .pinf else .fin (rndPos p emin x)
  else
    if 2 ^ emax ≤ rndPos p emin (-x) then .ninf else .fin (-rndPos p emin (-x))

theorem rndFmt_neg (emax : ℤ) {x : K} (hx : x ≠ 0) :
    rndFmt p emin emax (-x) = Fl.neg (rndFmt p emin emax x) := by
  unfold rndFmt
  rcases lt_or_gt_of_ne hx with h | h
  · rw [if_pos (by linarith : 0 ≤ -x), if_neg (not_le.mpr h)]
    split_ifs <;> simp [Fl.neg]
  · rw [if_neg (by linarith : ¬ 0 ≤ -x), if_pos h.le, neg_neg]
    split_ifs <;> simp [Fl.neg]

theorem rndFmt_fin_iff {emax : ℤ} {x y : K} :
    rndFmt p emin emax x = .fin y ↔
      rndPos p emin |x| < 2 ^ emax ∧
        y = if 0 ≤ x then rndPos p emin |x| else -rndPos p emin |x| := by
  unfold rndFmt
  rcases le_or_gt 0 x with h | h
  · rw [if_pos h, if_pos h, abs_of_nonneg h]
    split_ifs with h1
    · simp only [reduceCtorEq, false_iff]; rintro ⟨h2, _⟩; linarith
    · simp only [Fl.fin.injEq]
      exact ⟨fun h => ⟨not_le.mp h1, h.symm⟩, fun h => h.2.symm⟩
  · rw [if_neg (not_le.mpr h), if_neg (not_le.mpr h), abs_of_neg h]
    split_ifs with h1
    · simp only [reduceCtorEq, false_iff]; rintro ⟨h2, _⟩; linarith
    · simp only [Fl.fin.injEq]
      exact ⟨fun h => ⟨not_le.mp h1, h.symm⟩, fun h => h.2.symm⟩

/-- A number that rounding keeps, up to the sign. -/
theorem rndFmt_self_iff {emax : ℤ} {x : K} :
    rndFmt p emin emax x = .fin x ↔ rndPos p emin |x| = |x| ∧ |x| < 2 ^ emax := by
  rw [rndFmt_fin_iff]
  rcases le_or_gt 0 x with h | h
  · rw [if_pos h, abs_of_nonneg h]
    constructor
    · rintro ⟨h1, h2⟩; rw [← h2] at h1; exact ⟨h2.symm, h1⟩
    · rintro ⟨h1, h2⟩; rw [h1]; exact ⟨h2, rfl⟩
  · rw [if_neg (not_le.mpr h), abs_of_neg h]
    constructor
    · rintro ⟨h1, h2⟩
      have : rndPos p emin (-x) = -x := by linarith
      exact ⟨this, by rwa [this] at h1⟩
    · rintro ⟨h1, h2⟩; rw [h1]; exact ⟨h2, by ring⟩

/-- The format as a rounding. -/
def fmt (p : ℕ) (emin emax : ℤ) (hp : 1 ≤ p) (he : emin ≤ 0) (hE : 1 ≤ emax) : Rounding K where
  rnd := rndFmt p emin emax
  not_nan x := by
    unfold rndFmt
    split_ifs <;> rfl
  mono x y h := by
    unfold rndFmt
    split_ifs with h1 h2 h3 h4 h5 h6 h7 h8 h9 h10 <;>
      first
      | rfl
      | (exfalso; linarith)
      | skip
    · exfalso
      have := rndPos_mono (p := p) (emin := emin) hp h1 h
      linarith
    · simpa using rndPos_mono (p := p) (emin := emin) hp h1 h
    · simp only [Fl.pf_le_fin, decide_eq_true_eq]
      have e1 := rndPos_nonneg (p := p) (emin := emin) (x := -x) (by linarith)
      have e2 := rndPos_nonneg (p := p) (emin := emin) (x := y) (by assumption)
      linarith
    · exfalso
      have := rndPos_mono (p := p) (emin := emin) hp (x := -y) (y := -x) (by linarith) (by linarith)
      linarith
    · simp only [Fl.pf_le_fin, decide_eq_true_eq]
      have := rndPos_mono (p := p) (emin := emin) hp (x := -y) (y := -x) (by linarith) (by linarith)
      linarith
  idem x y h := by
    obtain ⟨h1, h2⟩ := rndFmt_fin_iff.mp h
    have h3 : |y| = rndPos p emin |x| := by
      have := rndPos_nonneg (p := p) (emin := emin) (abs_nonneg x)
      rw [h2]
      split_ifs
      · exact abs_of_nonneg this
      · rw [abs_neg, abs_of_nonneg this]
    rw [rndFmt_self_iff, h3]
    exact ⟨rndPos_idem hp (abs_nonneg x), h1⟩
  zero := by
    rw [rndFmt_self_iff, abs_zero]
    exact ⟨rndPos_zero, two_zpow_pos _⟩
  one := by
    rw [rndFmt_self_iff, abs_one]
    refine ⟨?_, ?_⟩
    · have := rndPos_two_zpow (p := p) (emin := emin) (K := K) hp (j := 0) he
      simpa using this
    · have : (2 : K) ^ (0 : ℤ) < 2 ^ emax := zpow_lt_zpow_right₀ one_lt_two (by omega)
      simpa using this

theorem rndFmt_err_abs {emax : ℤ} {x z : K} (h : rndFmt p emin emax x = .fin z) :
    |z - x| = abs (rndPos p emin |x| - |x|) := by
  obtain ⟨-, rfl⟩ := rndFmt_fin_iff.mp h
  rcases le_or_gt 0 x with h | h
  · rw [if_pos h, abs_of_nonneg h]
  · rw [if_neg (not_le.mpr h), abs_of_neg h, ← abs_neg]
    congr 1
    ring

theorem rndFmt_no_overflow (hp : 1 ≤ p) {emax : ℤ} (he : emin ≤ emax - 1) {x : K}
    (h : |x| ≤ 2 ^ (emax - 1)) : ∃ z, rndFmt p emin emax x = .fin z := by
  have h1 := rndPos_mono (p := p) (emin := emin) hp (abs_nonneg x) h
  rw [rndPos_two_zpow hp he] at h1
  have h2 : (2 : K) ^ (emax - 1) < 2 ^ emax := zpow_lt_zpow_right₀ one_lt_two (by omega)
  exact ⟨_, rndFmt_fin_iff.mpr ⟨by linarith, rfl⟩⟩

theorem rep_multiple {emax : ℤ} {x : K} (h : rndFmt p emin emax x = .fin x) :
    ∃ m : ℤ, x = (m : K) * 2 ^ emin := by
  obtain ⟨m, hm⟩ := rndPos_multiple (p := p) (emin := emin) |x|
  rw [(rndFmt_self_iff.mp h).1] at hm
  rcases le_or_gt 0 x with h | h
  · exact ⟨m, by rwa [abs_of_nonneg h] at hm⟩
  · exact ⟨-m, by rw [abs_of_neg h] at hm; push_cast; linarith⟩

/-- Rounding a multiple of the smallest quantum has only a relative error. -/
theorem rndFmt_err_multiple (hp : 1 ≤ p) {emax : ℤ} (he : emin ≤ emax - 1) {x : K} {m : ℤ}
    (hm : x = (m : K) * 2 ^ emin) (h : |x| ≤ 2 ^ (emax - 1)) :
    ∃ z, rndFmt p emin emax x = .fin z ∧ |z - x| ≤ unit p * |x| := by
  obtain ⟨z, hz⟩ := rndFmt_no_overflow (p := p) (emin := emin) hp he h
  refine ⟨z, hz, ?_⟩
  rw [rndFmt_err_abs hz]
  have hu : (0 : K) ≤ unit p := (two_zpow_pos _).le
  rcases (abs_nonneg x).eq_or_lt with h0 | h0
  · rw [← h0, rndPos_zero]; simp
  rcases (ulpExp_ge (p := p) (emin := emin) |x|).lt_or_eq with h1 | h1
  · exact rndPos_err h0 h1
  · have hm' : |x| = ((|m| : ℤ) : K) * 2 ^ emin := by
      rw [hm, abs_mul, abs_of_pos (a := (2 : K) ^ emin) (two_zpow_pos emin)]; push_cast; rfl
    have : rndPos p emin |x| = |x| := by
      rw [hm'] at h1 ⊢
      exact rndPos_mul_zpow h1.ge
    rw [this, sub_self, abs_zero]
    exact mul_nonneg hu h0.le

/-- Precision of the format. -/
theorem fmt_precision (p : ℕ) (emin emax : ℤ) (hp : 1 ≤ p) (he : emin ≤ 0) (hE : 1 ≤ emax) :
    (fmt (K := K) p emin emax hp he hE).Precision (unit p) (2 ^ (emin - 1)) (2 ^ (emax - 1))
      (min (2 ^ p) (2 ^ (emax - 1))) where
  u_nonneg := (two_zpow_pos _).le
  eta_nonneg := (two_zpow_pos _).le
  err x h := by
    obtain ⟨z, hz⟩ := rndFmt_no_overflow (p := p) (emin := emin) hp (by omega) h
    refine ⟨z, hz, ?_⟩
    rw [rndFmt_err_abs hz]
    have hu : (0 : K) ≤ unit p := (two_zpow_pos _).le
    have hη : (0 : K) < 2 ^ (emin - 1) := two_zpow_pos _
    rcases (abs_nonneg x).eq_or_lt with h0 | h0
    · rw [← h0, rndPos_zero]; simpa using hη.le
    rcases (ulpExp_ge (p := p) (emin := emin) |x|).lt_or_eq with h1 | h1
    · have := rndPos_err h0 h1
      linarith
    · have := rndPos_err_ulp (p := p) (emin := emin) |x|
      rw [← h1] at this
      have h2 : (2 : K) ^ (emin - 1) = 2 ^ emin / 2 := by
        rw [zpow_sub_one₀ two_ne_zero, div_eq_mul_inv]
      rw [h2]
      have := mul_nonneg hu h0.le
      linarith
  add_err x y hx hy h := by
    obtain ⟨m, hm⟩ := rep_multiple hx
    obtain ⟨n, hn⟩ := rep_multiple hy
    exact rndFmt_err_multiple hp (by omega) (m := m + n) (by push_cast; rw [add_mul, ← hm, ← hn]) h
  sub_err x y hx hy h := by
    obtain ⟨m, hm⟩ := rep_multiple hx
    obtain ⟨n, hn⟩ := rep_multiple hy
    exact rndFmt_err_multiple hp (by omega) (m := m - n) (by push_cast; rw [sub_mul, ← hm, ← hn]) h
  int_exact n hn := by
    show rndFmt p emin emax (n : K) = .fin n
    have h2 : (2 : K) ^ (emax - 1) < 2 ^ emax := zpow_lt_zpow_right₀ one_lt_two (by omega)
    rw [rndFmt_self_iff, abs_of_nonneg (Nat.cast_nonneg n)]
    refine ⟨?_, lt_of_le_of_lt (hn.trans (min_le_right _ _)) h2⟩
    have hn' := hn.trans (min_le_left _ _)
    rcases hn'.lt_or_eq with hlt | heq
    · rcases Nat.eq_zero_or_pos n with rfl | h0
      · simpa using rndPos_zero
      have := rndPos_mul_zpow (p := p) (emin := emin) (K := K) (m := n) (e := 0) (by
        simp only [Int.cast_natCast, zpow_zero, mul_one]
        exact ulpExp_le (by exact_mod_cast h0) he (by simpa using hlt))
      simpa using this
    · rw [heq]
      have := rndPos_two_zpow (p := p) (emin := emin) (K := K) hp (j := p) (by omega)
      simpa using this

/-- Rounding is to the nearest float. -/
theorem fmt_nearest (p : ℕ) (emin emax : ℤ) (hp : 1 ≤ p) (he : emin ≤ 0) (hE : 1 ≤ emax)
    {x y z : K} (hz : (fmt p emin emax hp he hE).rnd x = .fin z)
    (hy : (fmt p emin emax hp he hE).rnd y = .fin y) : |z - x| ≤ |y - x| := by
  have hz' : rndFmt p emin emax x = .fin z := hz
  have hy' : rndFmt p emin emax y = .fin y := hy
  rw [rndFmt_err_abs hz']
  refine (rndPos_nearest hp (abs_nonneg x) (abs_nonneg y) (rndFmt_self_iff.mp hy').1).trans ?_
  exact abs_abs_sub_abs_le y x

end fmt

/-- IEEE 754 binary64 (Python `float`, numpy `float64`), round to nearest even. -/
def binary64 : Rounding K := fmt 53 (-1074) 1024 (by norm_num) (by norm_num) (by norm_num)

/-- Evaluation of a rounding in the normal range. -/
theorem binary64_rnd {x : K} {k m : ℤ} (hk : -1022 ≤ k) (hk' : k < 1023) (h1 : 2 ^ k ≤ x)
    (h2 : x < 2 ^ (k + 1)) (hm : rintK (x / 2 ^ (k - 52)) = m) :
    (binary64 (K := K)).rnd x = .fin ((m : K) * 2 ^ (k - 52)) := by
  have hx : 0 < x := lt_of_lt_of_le (two_zpow_pos k) h1
  have hlog : Int.log 2 x = k := by
    have a1 : k ≤ Int.log 2 x :=
      (Int.zpow_le_iff_le_log (b := 2) one_lt_two hx).mp (by exact_mod_cast h1)
    have a2 : Int.log 2 x < k + 1 :=
      (Int.lt_zpow_iff_log_lt (b := 2) one_lt_two hx).mp (by exact_mod_cast h2)
    omega
  have hu : ulpExp 53 (-1074) x = k - 52 := by
    unfold ulpExp
    rw [hlog]
    push_cast
    omega
  have hr : rndPos 53 (-1074) x = (m : K) * 2 ^ (k - 52) := by
    unfold rndPos
    rw [hu, hm]
  show rndFmt 53 (-1074) 1024 x = _
  rw [rndFmt_fin_iff, abs_of_pos hx, if_pos hx.le, hr]
  refine ⟨?_, rfl⟩
  rw [← hr]
  have : rndPos 53 (-1074) x ≤ rndPos 53 (-1074) (2 ^ (k + 1)) :=
    rndPos_mono (by norm_num) hx.le h2.le
  rw [rndPos_two_zpow (by norm_num) (by omega)] at this
  exact lt_of_le_of_lt this (zpow_lt_zpow_right₀ one_lt_two (by omega))

end Verif.Bin
