import Verif.Model.KR
import Mathlib.Tactic.Positivity

/-! # Lemmas: boolean-mask assignment and rain rates -/

namespace Verif.KR

variable {α β γ : Type}

theorem select_map (A : List α) (m : α → Bool) : select A (A.map m) = A.filter m := by
  unfold select
  induction A with
  | nil => rfl
  | cons x A ih =>
    simp only [List.map_cons, List.zip_cons_cons, List.filter_cons]
    cases m x <;> simp [ih]

theorem count_map (A : List α) (m : α → Bool) : (A.map m).count true = (A.filter m).length := by
  rw [List.count, List.countP_map, ← List.countP_eq_length_filter]
  congr 1
  funext x
  simp

theorem place_map (A : List α) (r : α → β) (m : α → Bool) (g : α → β) :
    place (A.map r) (A.map m) ((A.filter m).map g) =
      A.map fun x => if m x then g x else r x := by
  induction A with
  | nil => rfl
  | cons x A ih =>
    simp only [List.map_cons, List.filter_cons]
    cases h : m x
    · simp only [Bool.false_eq_true, if_false]
      rw [← ih]
      cases (A.filter m).map g <;> rfl
    · simp only [if_true, List.map_cons, place, ih]

theorem place_length (R : List α) (m : List Bool) (v : List α) :
    (place R m v).length = R.length := by
  induction R generalizing m v with
  | nil => cases m <;> rfl
  | cons r R ih =>
    cases m with
    | nil => rfl
    | cons b m =>
      cases b <;> cases v <;> simp [place, ih]

theorem assignMask_map (A : List α) (r : α → β) (m : α → Bool) (g : α → β) :
    assignMask (A.map r) (A.map m) ((A.filter m).map g) =
      .ok (A.map fun x => if m x then g x else r x) := by
  unfold assignMask
  rw [if_pos (by rw [count_map, List.length_map]), place_map]

theorem assignMask_const (A : List α) (r : α → β) (m : α → Bool) (v : β) :
    assignMask (A.map r) (A.map m) [v] = .ok (A.map fun x => if m x then v else r x) := by
  have h : List.replicate (A.filter m).length v = (A.filter m).map fun _ => v := by
    rw [List.map_const']
  unfold assignMask
  rw [count_map]
  split_ifs with h1
  · have : [v] = (A.filter m).map fun _ => v := by
      rw [← h]
      rw [List.length_singleton] at h1
      rw [← h1]; rfl
    rw [this, place_map]
  · simp only [h, place_map]

theorem bcast_singleton (f : α → β → γ) (xs : List α) (y : β) :
    bcast f xs [y] = .ok (xs.map fun x => f x y) := by
  unfold bcast
  split_ifs with h
  · obtain ⟨x, rfl⟩ := List.length_eq_one_iff.mp h
    rfl
  · rfl

/-- The rain rate of one attenuation value. -/
noncomputable def rate (a b L R_min x : Fl ℝ) : Fl ℝ :=
  if isNaN x then .nan
  else
    let r := if PyFloat.ofInt 0 ≤ᶠ x then Fl.pow (x /ᶠ (a *ᶠ L)) (PyFloat.ofInt 1 /ᶠ b) else .fin 0
    if r <ᶠ R_min then .fin 0 else r

/-- `rainRates` in exact real arithmetic -/
noncomputable def rainRatesFl (A : List (Fl ℝ)) (L_km : Fl ℝ) (a b : List (Fl ℝ)) (R_min : Fl ℝ) :
    Except Err (List (Fl ℝ)) := do
  let R : List (Fl ℝ) := List.replicate A.length (.fin 0)
  let nan_index := A.map isNaN
  let R ← assignMask R nan_index [.nan]
  let mask := List.zipWith (fun n x => !n && (PyFloat.ofInt 0 ≤ᶠ x)) nan_index A
  let q ← bcast (· /ᶠ ·) (select A mask) (a.map (· *ᶠ L_km))
  let vals ← bcast Fl.pow q (b.map fun b => PyFloat.ofInt 1 /ᶠ b)
  let R ← assignMask R mask vals
  let mask2 := List.zipWith (fun n r => !n && (r <ᶠ R_min)) nan_index R
  assignMask R mask2 [.fin 0]

theorem rainRates_fl (A : List (Fl ℝ)) (L_km : Fl ℝ) (a b : List (Fl ℝ)) (R_min : Fl ℝ) :
    rainRates A L_km a b R_min = rainRatesFl A L_km a b R_min := by
  have h0 : (PyFloat.ofInt 0 : Fl ℝ) = .fin 0 := by simp
  unfold rainRates rainRatesFl
  simp only [h0]
  rfl

/-- With scalar `a`, `b` every element is treated separately. -/
theorem rainRates_scalar (A : List (Fl ℝ)) (L a b R_min : Fl ℝ) :
    rainRates A L [a] [b] R_min = .ok (A.map (rate a b L R_min)) := by
  rw [rainRates_fl]
  unfold rainRatesFl
  have e0 : (List.replicate A.length (Fl.fin 0) : List (Fl ℝ)) = A.map fun _ => Fl.fin 0 := by
    rw [List.map_const']
  have e1 : List.zipWith (fun n x => !n && (PyFloat.ofInt 0 ≤ᶠ x)) (A.map isNaN) A =
      A.map fun x => !isNaN x && (PyFloat.ofInt 0 ≤ᶠ x) := by
    rw [List.zipWith_map_left, List.zipWith_self]
  dsimp only
  rw [e0, assignMask_const, e1, select_map]
  simp only [List.map_cons, List.map_nil, bind, Except.bind, bcast_singleton, List.map_map]
  rw [assignMask_map A _ _ ((fun x => Fl.pow x (PyFloat.ofInt 1 /ᶠ b)) ∘ fun x => x /ᶠ (a *ᶠ L))]
  simp only [Function.comp_def, List.zipWith_map, List.zipWith_self]
  rw [assignMask_const]
  congr 1
  apply List.map_congr_left
  intro x _
  unfold rate
  cases h : isNaN x
  · simp only [Bool.not_false, Bool.true_and, Bool.false_eq_true, if_false]
  · simp

/-- `rate` on finite positive parameters -/
theorem rate_fin {a b L R_min x : ℝ} (ha : 0 < a) (hb : 0 < b) (hL : 0 < L) :
    rate (.fin a) (.fin b) (.fin L) (.fin R_min) (.fin x) =
      .fin (if x < 0 then 0
        else if (x / (a * L)) ^ (1 / b) < R_min then 0 else (x / (a * L)) ^ (1 / b)) := by
  have haL : a * L ≠ 0 := (mul_pos ha hL).ne'
  unfold rate
  simp only [Fl.pf_isNaN_fin, Bool.false_eq_true, if_false, Fl.pf_ofInt, Fl.pf_le_fin,
    decide_eq_true_eq, Fl.pf_mul_fin]
  rw [Fl.pf_div_fin_ne _ _ haL, Fl.pf_div_fin_ne _ _ hb.ne']
  push_cast
  by_cases hx : x < 0
  · rw [if_neg (not_le.mpr hx), if_pos hx]
    simp
  · rw [if_pos (not_lt.mp hx), if_neg hx,
      Fl.pow_fin (div_nonneg (not_lt.mp hx) (mul_pos ha hL).le) (by positivity)]
    simp only [Fl.pf_lt_fin, decide_eq_true_eq]
    split_ifs <;> rfl

theorem rate_nan (a b L R_min : Fl ℝ) : rate a b L R_min .nan = .nan := by
  simp [rate]

theorem rate_ninf (a b L R_min : Fl ℝ) : rate a b L R_min .ninf = .fin 0 := by
  unfold rate
  have : ((PyFloat.ofInt 0 : Fl ℝ) ≤ᶠ .ninf) = false := rfl
  simp only [Fl.pf_isNaN_ninf, this, Bool.false_eq_true, if_false]
  split_ifs <;> rfl

theorem rate_pinf {a b L R_min : ℝ} (ha : 0 < a) (hb : 0 < b) (hL : 0 < L) :
    rate (.fin a) (.fin b) (.fin L) (.fin R_min) .pinf = .pinf := by
  unfold rate
  have h0 : ((PyFloat.ofInt 0 : Fl ℝ) ≤ᶠ .pinf) = true := rfl
  have h1 : (Fl.pinf /ᶠ (Fl.fin a *ᶠ Fl.fin L) : Fl ℝ) = .pinf := by
    show (if a * L < 0 then Fl.ninf else Fl.pinf) = _
    rw [if_neg (not_lt.mpr (mul_pos ha hL).le)]
  have h2 : (PyFloat.ofInt 1 /ᶠ Fl.fin b : Fl ℝ) = .fin (1 / b) := by
    rw [Fl.pf_ofInt, Fl.pf_div_fin_ne _ _ hb.ne']
    push_cast; rfl
  have h3 : Fl.pow .pinf (.fin (1 / b)) = .pinf := by
    have : 0 < 1 / b := by positivity
    simp only [Fl.pow]
    rw [if_neg this.ne', if_pos this]
  have h4 : ((Fl.pinf : Fl ℝ) <ᶠ Fl.fin R_min) = false := rfl
  simp only [Fl.pf_isNaN_pinf, Bool.false_eq_true, if_false, h0, if_true, h1, h2, h3, h4]

end Verif.KR
