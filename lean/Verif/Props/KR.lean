import Verif.Lemmas.KR
import Mathlib.Tactic.IntervalCases

/-!
# C19 - C24: rain rate from attenuation
-/

namespace Verif.Props

open Verif.KR

/-- call of `calc_R_from_A` with given scalar power-law parameters -/
noncomputable def callAB (sp : Spline) (A : List (Fl ℝ)) (L a b R_min : ℝ) :
    Except Err (List (Fl ℝ)) :=
  calc_R_from_A sp A (.fin L) none none (some [.fin a]) (some [.fin b]) "ITU_2005" (.fin R_min)

theorem callAB_eq (sp : Spline) (A : List (Fl ℝ)) (L a b R_min : ℝ) :
    callAB sp A L a b R_min = .ok (A.map (rate (.fin a) (.fin b) (.fin L) (.fin R_min))) := by
  unfold callAB calc_R_from_A
  exact rainRates_scalar _ _ _ _ _

/-- C19: what `calc_R_from_A` returns for each attenuation value. -/
theorem C19_rain_rate (sp : Spline) (A : List (Fl ℝ)) (L a b R_min : ℝ)
    (ha : 0 < a) (hb : 0 < b) (hL : 0 < L) :
    ∃ R, callAB sp A L a b R_min = .ok R ∧ R.length = A.length ∧
      ∀ i (hi : i < A.length) (hi' : i < R.length),
        (A[i] = .nan → R[i] = .nan) ∧
        (A[i] = .ninf → R[i] = .fin 0) ∧
        (A[i] = .pinf → R[i] = .pinf) ∧
        (∀ x : ℝ, A[i] = .fin x → x < 0 → R[i] = .fin 0) ∧
        (∀ x : ℝ, A[i] = .fin x → 0 ≤ x → (x / (a * L)) ^ (1 / b) < R_min → R[i] = .fin 0) ∧
        (∀ x : ℝ, A[i] = .fin x → 0 ≤ x → R_min ≤ (x / (a * L)) ^ (1 / b) →
          R[i] = .fin ((x / (a * L)) ^ (1 / b))) := by
  refine ⟨_, callAB_eq sp A L a b R_min, by simp, ?_⟩
  intro i hi hi'
  rw [List.getElem_map]
  refine ⟨?_, ?_, ?_, ?_, ?_, ?_⟩
  · intro h; rw [h, rate_nan]
  · intro h; rw [h, rate_ninf]
  · intro h; rw [h, rate_pinf ha hb hL]
  · intro x h hx; rw [h, rate_fin ha hb hL, if_pos hx]
  · intro x h hx hv; rw [h, rate_fin ha hb hL, if_neg (not_lt.mpr hx), if_pos hv]
  · intro x h hx hv
    rw [h, rate_fin ha hb hL, if_neg (not_lt.mpr hx), if_neg (not_lt.mpr hv)]

/-- C19: each result is NaN (exactly where `A` is), 0, or a number >= R_min; never negative. -/
theorem C19_rain_rate_range (sp : Spline) (A R : List (Fl ℝ)) (L a b R_min : ℝ)
    (ha : 0 < a) (hb : 0 < b) (hL : 0 < L) (hR : callAB sp A L a b R_min = .ok R) :
    (∀ i : Nat, R[i]? = some Fl.nan ↔ A[i]? = some Fl.nan) ∧
    ∀ r ∈ R, r = .nan ∨ r = .fin 0 ∨ ((Fl.fin R_min ≤ᶠ r) = true ∧ (Fl.fin 0 ≤ᶠ r) = true) := by
  rw [callAB_eq] at hR
  injection hR with hR
  subst hR
  have pos : ∀ x : ℝ, 0 ≤ x → 0 ≤ (x / (a * L)) ^ (1 / b) := fun x hx =>
    Real.rpow_nonneg (div_nonneg hx (mul_pos ha hL).le) _
  constructor
  · intro i
    rw [List.getElem?_map, Option.map_eq_some_iff]
    constructor
    · rintro ⟨x, hx, h⟩
      rw [hx]
      cases x with
      | nan => rfl
      | ninf => rw [rate_ninf] at h; cases h
      | pinf => rw [rate_pinf ha hb hL] at h; cases h
      | fin x => rw [rate_fin ha hb hL] at h; cases h
    · intro h
      exact ⟨_, h, rate_nan _ _ _ _⟩
  · intro r hr
    obtain ⟨x, -, rfl⟩ := List.mem_map.mp hr
    cases x with
    | nan => exact Or.inl (rate_nan _ _ _ _)
    | ninf => exact Or.inr (Or.inl (rate_ninf _ _ _ _))
    | pinf => rw [rate_pinf ha hb hL]; exact Or.inr (Or.inr ⟨rfl, rfl⟩)
    | fin x =>
      rw [rate_fin ha hb hL]
      split_ifs with h1 h2
      · exact Or.inr (Or.inl rfl)
      · exact Or.inr (Or.inl rfl)
      · refine Or.inr (Or.inr ⟨?_, ?_⟩)
        · rw [Fl.pf_le_fin, decide_eq_true_eq]; exact not_lt.mp h2
        · rw [Fl.pf_le_fin, decide_eq_true_eq]; exact pos x (not_lt.mp h1)

/-- Concrete case for C19/C21: a = 1, b = 1, L = 2, A = 4 dB gives 2 mm/h. -/
example (sp : Spline) : callAB sp [.fin 4, .nan, .fin (-1)] 2 1 1 (1 / 10) =
    .ok [.fin 2, .nan, .fin 0] := by
  rw [callAB_eq]
  simp only [List.map_cons, List.map_nil, rate_nan]
  rw [rate_fin one_pos one_pos two_pos, rate_fin one_pos one_pos two_pos]
  norm_num

/-! ### C20 -/

theorem cut_mono {R_min v w : ℝ} (hv : 0 ≤ v) (hvw : v ≤ w) :
    (if v < R_min then 0 else v) ≤ (if w < R_min then 0 else w) := by
  split_ifs with h1 h2 h2
  · exact le_refl _
  · linarith
  · exact absurd (lt_of_le_of_lt hvw h2) h1
  · exact hvw

theorem rate_nonneg {a b L R_min : ℝ} (ha : 0 < a) (hb : 0 < b) (hL : 0 < L) {x : Fl ℝ}
    (hx : isNaN x = false) :
    (Fl.fin 0 ≤ᶠ rate (.fin a) (.fin b) (.fin L) (.fin R_min) x) = true := by
  cases x with
  | nan => simp at hx
  | ninf => rw [rate_ninf]; simp
  | pinf => rw [rate_pinf ha hb hL]; rfl
  | fin x =>
    rw [rate_fin ha hb hL, Fl.pf_le_fin, decide_eq_true_eq]
    split_ifs with h1 h2
    · exact le_refl _
    · exact le_refl _
    · exact Real.rpow_nonneg (div_nonneg (not_lt.mp h1) (mul_pos ha hL).le) _

theorem rate_mono {a b L R_min : ℝ} (ha : 0 < a) (hb : 0 < b) (hL : 0 < L) {x y : Fl ℝ}
    (h : x ≤ᶠ y) :
    (rate (.fin a) (.fin b) (.fin L) (.fin R_min) x ≤ᶠ
      rate (.fin a) (.fin b) (.fin L) (.fin R_min) y) = true := by
  have hn := LawfulPyFloat.le_not_nan x y h
  cases x with
  | nan => simp at h
  | ninf =>
    rw [rate_ninf]
    exact rate_nonneg ha hb hL hn.2
  | pinf =>
    cases y <;> first | cases h | skip
    rw [rate_pinf ha hb hL]; rfl
  | fin x =>
    cases y with
    | nan => simp at h
    | ninf => cases h
    | pinf => rw [rate_fin ha hb hL, rate_pinf ha hb hL]; rfl
    | fin y =>
      have hxy : x ≤ y := by simpa using h
      rw [rate_fin ha hb hL, rate_fin ha hb hL, Fl.pf_le_fin, decide_eq_true_eq]
      by_cases hx : x < 0
      · rw [if_pos hx]
        have := rate_nonneg (R_min := R_min) ha hb hL (x := .fin y) rfl
        rw [rate_fin ha hb hL, Fl.pf_le_fin, decide_eq_true_eq] at this
        exact this
      · have hx' := not_lt.mp hx
        rw [if_neg hx, if_neg (show ¬ y < 0 by linarith)]
        have haL := mul_pos ha hL
        apply cut_mono (Real.rpow_nonneg (div_nonneg hx' haL.le) _)
        exact Real.rpow_le_rpow (div_nonneg hx' haL.le)
          (div_le_div_of_nonneg_right hxy haL.le) (by positivity)

/-- C20: the rain rate is non-decreasing in the attenuation. -/
theorem C20_monotone_in_A (sp : Spline) (A A' R R' : List (Fl ℝ)) (L a b R_min : ℝ)
    (ha : 0 < a) (hb : 0 < b) (hL : 0 < L)
    (hR : callAB sp A L a b R_min = .ok R) (hR' : callAB sp A' L a b R_min = .ok R')
    (h : List.Forall₂ (fun x y => (x ≤ᶠ y) = true) A A') :
    List.Forall₂ (fun x y => (x ≤ᶠ y) = true) R R' := by
  rw [callAB_eq] at hR hR'
  injection hR with hR
  injection hR' with hR'
  subst hR
  subst hR'
  rw [List.forall₂_map_left_iff, List.forall₂_map_right_iff]
  exact h.imp fun x y hxy => rate_mono ha hb hL hxy

/-- C20: for the same attenuation (not NaN), a larger `a * L` gives a smaller or equal rate. -/
theorem C20_antitone_in_a_and_L (sp : Spline) (A R R' : List (Fl ℝ)) (L L' a a' b R_min : ℝ)
    (ha : 0 < a) (hb : 0 < b) (hL : 0 < L) (haa : a ≤ a') (hLL : L ≤ L')
    (hA : ∀ x ∈ A, isNaN x = false)
    (hR : callAB sp A L a b R_min = .ok R) (hR' : callAB sp A L' a' b R_min = .ok R') :
    List.Forall₂ (fun x y => (x ≤ᶠ y) = true) R' R := by
  rw [callAB_eq] at hR hR'
  injection hR with hR
  injection hR' with hR'
  subst hR
  subst hR'
  rw [List.forall₂_map_left_iff, List.forall₂_map_right_iff, List.forall₂_same]
  intro x hx
  have ha' : 0 < a' := by linarith
  have hL' : 0 < L' := by linarith
  cases x with
  | nan => have := hA _ hx; simp at this
  | ninf => rw [rate_ninf, rate_ninf]; simp
  | pinf => rw [rate_pinf ha hb hL, rate_pinf ha' hb hL']; rfl
  | fin x =>
    rw [rate_fin ha hb hL, rate_fin ha' hb hL', Fl.pf_le_fin, decide_eq_true_eq]
    by_cases h : x < 0
    · rw [if_pos h, if_pos h]
    · rw [if_neg h, if_neg h]
      have h' := not_lt.mp h
      apply cut_mono (Real.rpow_nonneg (div_nonneg h' (mul_pos ha' hL').le) _)
      apply Real.rpow_le_rpow (div_nonneg h' (mul_pos ha' hL').le) _ (by positivity)
      apply div_le_div_of_nonneg_left h' (mul_pos ha hL)
      exact mul_le_mul haa hLL hL.le ha'.le

/-- C20: scaling attenuation and length by the same factor changes nothing: only `A / L`
matters. -/
theorem C20_depends_on_ratio (sp : Spline) (A : List (Fl ℝ)) (L a b R_min c : ℝ)
    (ha : 0 < a) (hb : 0 < b) (hL : 0 < L) (hc : 0 < c) :
    callAB sp (A.map fun x => .fin c *ᶠ x) (c * L) a b R_min = callAB sp A L a b R_min := by
  rw [callAB_eq, callAB_eq, List.map_map]
  congr 1
  apply List.map_congr_left
  intro x _
  have hcL := mul_pos hc hL
  simp only [Function.comp_def]
  cases x with
  | nan => simp [rate_nan]
  | ninf =>
    have : (Fl.fin c *ᶠ Fl.ninf : Fl ℝ) = .ninf := by
      show Fl.infSign (-c) = _
      unfold Fl.infSign
      rw [if_neg (by linarith), if_pos (by linarith)]
    rw [this, rate_ninf, rate_ninf]
  | pinf =>
    have : (Fl.fin c *ᶠ Fl.pinf : Fl ℝ) = .pinf := by
      show Fl.infSign c = _
      unfold Fl.infSign
      rw [if_pos hc]
    rw [this, rate_pinf ha hb hcL, rate_pinf ha hb hL]
  | fin x =>
    rw [Fl.pf_mul_fin, rate_fin ha hb hcL, rate_fin ha hb hL]
    have h1 : c * x < 0 ↔ x < 0 := by
      constructor
      · intro h
        by_contra hx
        have := mul_nonneg hc.le (not_lt.mp hx)
        linarith
      · intro h; exact mul_neg_of_pos_of_neg hc h
    have h2 : c * x / (a * (c * L)) = x / (a * L) := by
      field_simp
    simp only [h1, h2]

/-- Concrete case for C20. -/
example : List.Forall₂ (fun x y : Fl ℝ => (x ≤ᶠ y) = true) [.fin 1, .ninf] [.fin 2, .pinf] := by
  refine .cons ?_ (.cons ?_ .nil)
  · simp
  · rfl

/-! ### C21 -/

/-- C21: the attenuation `a R^b L` produced by rain rate `R` gives back `R`. -/
theorem C21_round_trip (sp : Spline) (Rs : List ℝ) (L a b R_min : ℝ)
    (ha : 0 < a) (hb : 0 < b) (hL : 0 < L) (hR : ∀ R ∈ Rs, 0 ≤ R ∧ R_min ≤ R) :
    callAB sp (Rs.map fun R => .fin (a * R ^ b * L)) L a b R_min = .ok (Rs.map Fl.fin) := by
  rw [callAB_eq, List.map_map]
  congr 1
  apply List.map_congr_left
  intro R hRm
  obtain ⟨h0, h1⟩ := hR R hRm
  have hp := Real.rpow_nonneg h0 b
  simp only [Function.comp_def]
  rw [rate_fin ha hb hL]
  have hA : 0 ≤ a * R ^ b * L := by positivity
  have hv : (a * R ^ b * L / (a * L)) ^ (1 / b) = R := by
    have : a * R ^ b * L / (a * L) = R ^ b := by field_simp
    rw [this, ← Real.rpow_mul h0, mul_one_div_cancel hb.ne', Real.rpow_one]
  rw [hv, if_neg (not_lt.mpr hA), if_neg (not_lt.mpr h1)]

/-- C21: conversely, a returned rate that was not cut reproduces the attenuation. -/
theorem C21_round_trip_back (sp : Spline) (A R : List (Fl ℝ)) (L a b R_min x r : ℝ) (i : Nat)
    (ha : 0 < a) (hb : 0 < b) (hL : 0 < L) (hR : callAB sp A L a b R_min = .ok R)
    (hx : A[i]? = some (.fin x)) (hr : R[i]? = some (.fin r))
    (hx0 : 0 ≤ x) (hcut : r ≠ 0 ∨ R_min ≤ 0) :
    a * r ^ b * L = x := by
  rw [callAB_eq] at hR
  injection hR with hR
  subst hR
  rw [List.getElem?_map, hx, Option.map_some, rate_fin ha hb hL, if_neg (not_lt.mpr hx0)] at hr
  injection hr with hr
  injection hr with hr
  have haL := mul_pos ha hL
  have hq : 0 ≤ x / (a * L) := div_nonneg hx0 haL.le
  have hv : r = (x / (a * L)) ^ (1 / b) := by
    split_ifs at hr with h
    · rcases hcut with h' | h'
      · exact absurd hr.symm h'
      · have := Real.rpow_nonneg hq (1 / b)
        linarith
    · exact hr.symm
  rw [hv, ← Real.rpow_mul hq, one_div_mul_cancel hb.ne', Real.rpow_one]
  field_simp

/-- Concrete case for C21. -/
example : ∀ R ∈ ([1, 5] : List ℝ), 0 ≤ R ∧ (1 / 10 : ℝ) ≤ R := by
  intro R hR
  simp at hR
  rcases hR with rfl | rfl <;> norm_num

/-! ### C22 -/

/-- C22: only the two documented argument combinations are accepted; each of the other 14
raises `ValueError`. -/
theorem C22_calc_R_arguments (sp : Spline) (A : List (Fl ℝ)) (L : Fl ℝ)
    (f : Option (List (Fl ℝ))) (pol : Option (List String)) (a b : Option (List (Fl ℝ)))
    (approx : String) (R_min : Fl ℝ)
    (h : ¬ (f.isSome ∧ pol.isSome ∧ a.isNone ∧ b.isNone) ∧
      ¬ (f.isNone ∧ pol.isNone ∧ a.isSome ∧ b.isSome)) :
    calc_R_from_A sp A L f pol a b approx R_min = .error .valueError := by
  unfold calc_R_from_A calcR
  cases f <;> cases pol <;> cases a <;> cases b <;> first | rfl | (simp at h)

/-- C22: the first accepted combination computes `a`, `b` from frequency and polarization; the
result is that of passing these. -/
theorem C22_calc_R_from_frequency (sp : Spline) (A : List (Fl ℝ)) (L : Fl ℝ)
    (f : List (Fl ℝ)) (pol : List String) (approx : String) (R_min : Fl ℝ)
    (a b : List (Fl ℝ)) (h : a_b sp f pol approx = .ok (a, b)) :
    calc_R_from_A sp A L (some f) (some pol) none none approx R_min =
      calc_R_from_A sp A L none none (some a) (some b) approx R_min := by
  unfold calc_R_from_A calcR
  simp only [h]

/-- Concrete case: `f_GHz` without `pol`. -/
example (sp : Spline) : calc_R_from_A sp [.fin 1] (.fin 1) (some [.fin 20]) none none none
    "ITU_2005" (.fin 0) = .error .valueError :=
  C22_calc_R_arguments sp _ _ _ _ _ _ _ _ (by simp)

/-! ### C23 -/

/-- number of entries that are used: not NaN and not negative -/
noncomputable def nUsable (A : List (Fl ℝ)) : Nat :=
  (A.filter fun x => !isNaN x && (PyFloat.ofInt 0 ≤ᶠ x)).length

theorem bcast_ok_iff {α β γ : Type} (f : α → β → γ) (xs : List α) (ys : List β)
    (hy : 1 < ys.length) :
    (xs.length = ys.length → bcast f xs ys = .ok (List.zipWith f xs ys)) ∧
    (xs.length ≠ ys.length → xs.length ≠ 1 → bcast f xs ys = .error .valueError) ∧
    (xs.length = 1 → ∃ zs, bcast f xs ys = .ok zs ∧ zs.length = ys.length) := by
  refine ⟨fun h => by simp [bcast, h], ?_, ?_⟩
  · intro h h1
    unfold bcast
    rw [if_neg h]
    split
    · simp at hy
    · simp at h1
    · rfl
  · intro h1
    obtain ⟨x, rfl⟩ := List.length_eq_one_iff.mp h1
    unfold bcast
    rw [if_neg (by simp; omega)]
    split
    · simp at hy
    · rename_i h; exact ⟨_, rfl, by simp⟩
    · rename_i h1 h2
      exact absurd rfl (h2 x)

theorem rainRates_match (A : List (Fl ℝ)) (L R_min : Fl ℝ) (a b : List (Fl ℝ))
    (hab : a.length = b.length) (ha : 1 < a.length) (h : nUsable A = a.length) :
    ∃ R, rainRates A L a b R_min = .ok R := by
  rw [rainRates_fl]
  unfold rainRatesFl
  have e0 : (List.replicate A.length (Fl.fin 0) : List (Fl ℝ)) = A.map fun _ => Fl.fin 0 := by
    rw [List.map_const']
  have e1 : List.zipWith (fun n x => !n && (PyFloat.ofInt 0 ≤ᶠ x)) (A.map isNaN) A =
      A.map fun x => !isNaN x && (PyFloat.ofInt 0 ≤ᶠ x) := by
    rw [List.zipWith_map_left, List.zipWith_self]
  dsimp only
  rw [e0, assignMask_const, e1, select_map]
  simp only [bind, Except.bind]
  set m : Fl ℝ → Bool := fun x => !isNaN x && (PyFloat.ofInt 0 ≤ᶠ x) with hm
  have hlen : (A.filter m).length = nUsable A := rfl
  rw [(bcast_ok_iff (fun x y : Fl ℝ => x /ᶠ y) (A.filter m) (a.map (· *ᶠ L))
    (by simpa using ha)).1 (by rw [hlen, h, List.length_map])]
  dsimp only
  rw [(bcast_ok_iff Fl.pow _ _ (by simp; omega)).1 (by simp [hlen, h, hab])]
  dsimp only
  have hv : (List.zipWith Fl.pow
      (List.zipWith (fun x y : Fl ℝ => x /ᶠ y) (A.filter m) (a.map (· *ᶠ L)))
      (b.map fun b => (PyFloat.ofInt 1 : Fl ℝ) /ᶠ b)).length = (A.map m).count true := by
    rw [count_map, hlen]
    simp [hlen, h, hab]
  unfold assignMask
  rw [if_pos hv]
  dsimp only
  split_ifs <;> exact ⟨_, rfl⟩

theorem rainRates_mismatch (A : List (Fl ℝ)) (L R_min : Fl ℝ) (a b : List (Fl ℝ))
    (hab : a.length = b.length) (ha : 1 < a.length) (h : nUsable A ≠ a.length) :
    rainRates A L a b R_min = .error .valueError := by
  rw [rainRates_fl]
  unfold rainRatesFl
  have e0 : (List.replicate A.length (Fl.fin 0) : List (Fl ℝ)) = A.map fun _ => Fl.fin 0 := by
    rw [List.map_const']
  have e1 : List.zipWith (fun n x => !n && (PyFloat.ofInt 0 ≤ᶠ x)) (A.map isNaN) A =
      A.map fun x => !isNaN x && (PyFloat.ofInt 0 ≤ᶠ x) := by
    rw [List.zipWith_map_left, List.zipWith_self]
  dsimp only
  rw [e0, assignMask_const, e1, select_map]
  simp only [bind, Except.bind]
  set m : Fl ℝ → Bool := fun x => !isNaN x && (PyFloat.ofInt 0 ≤ᶠ x) with hm
  have hlen : (A.filter m).length = nUsable A := rfl
  have hcount : (A.map m).count true = nUsable A := count_map A m
  have herr : ∀ (R : List (Fl ℝ)) (zs : List (Fl ℝ)), zs.length = a.length →
      assignMask R (A.map m) zs = .error .valueError := by
    intro R zs hz
    unfold assignMask
    rw [if_neg (by rw [hcount, hz]; exact fun h' => h h'.symm)]
    match zs, hz with
    | [], _ => rfl
    | [z], hz => simp at hz; omega
    | _ :: _ :: _, _ => rfl
  obtain ⟨b1, b2, b3⟩ := bcast_ok_iff (fun x y : Fl ℝ => x /ᶠ y) (A.filter m)
    (a.map (· *ᶠ L)) (by simpa using ha)
  rw [hlen, List.length_map] at b1 b2 b3
  by_cases h1 : nUsable A = 1
  · obtain ⟨zs, hz, hzl⟩ := b3 h1
    rw [hz]
    dsimp only
    rw [(bcast_ok_iff Fl.pow _ _ (by simp; omega)).1 (by simp [hzl, hab])]
    dsimp only
    rw [herr _ _ (by simp [hzl, hab])]
  · rw [b2 h h1]

/-- C23: parameter arrays of length `m > 1` are accepted exactly if the number of usable
attenuation values is `m`. -/
theorem C23_array_parameters (sp : Spline) (A : List (Fl ℝ)) (L R_min : Fl ℝ)
    (a b : List (Fl ℝ)) (approx : String) (hab : a.length = b.length) (ha : 1 < a.length) :
    ((∃ R, calc_R_from_A sp A L none none (some a) (some b) approx R_min = .ok R) ↔
      nUsable A = a.length) ∧
    (nUsable A ≠ a.length →
      calc_R_from_A sp A L none none (some a) (some b) approx R_min = .error .valueError) := by
  have hcall : calc_R_from_A sp A L none none (some a) (some b) approx R_min =
      rainRates A L a b R_min := rfl
  rw [hcall]
  refine ⟨⟨?_, rainRates_match A L R_min a b hab ha⟩, rainRates_mismatch A L R_min a b hab ha⟩
  rintro ⟨R, hR⟩
  by_contra h
  rw [rainRates_mismatch A L R_min a b hab ha h] at hR
  cases hR

theorem rate_usable (a b L R_min x : Fl ℝ) (hx : (Fl.fin 0 ≤ᶠ x) = true) :
    rate a b L R_min x =
      if Fl.pow (x /ᶠ (a *ᶠ L)) (PyFloat.ofInt 1 /ᶠ b) <ᶠ R_min then .fin 0
      else Fl.pow (x /ᶠ (a *ᶠ L)) (PyFloat.ofInt 1 /ᶠ b) := by
  have h0 : (PyFloat.ofInt 0 : Fl ℝ) = .fin 0 := by simp
  unfold rate
  simp only [(LawfulPyFloat.le_not_nan _ _ hx).2, h0, hx, Bool.false_eq_true, if_false, if_true]

/-- C23, positive case: parameters per sample and no NaN or negative sample. -/
theorem C23_array_values (sp : Spline) (A : List (Fl ℝ)) (L R_min : Fl ℝ)
    (a b : List (Fl ℝ)) (approx : String) (hab : a.length = b.length) (ha : 1 < a.length)
    (hA : A.length = a.length) (hpos : ∀ x ∈ A, (Fl.fin 0 ≤ᶠ x) = true) :
    calc_R_from_A sp A L none none (some a) (some b) approx R_min =
      .ok (List.zipWith (fun x ab => rate ab.1 ab.2 L R_min x) A (a.zip b)) := by
  have hn : ∀ x ∈ A, isNaN x = false := fun x hx =>
    (LawfulPyFloat.le_not_nan _ _ (hpos x hx)).2
  show rainRates A L a b R_min = _
  rw [rainRates_fl]
  unfold rainRatesFl
  have e0 : (List.replicate A.length (Fl.fin 0) : List (Fl ℝ)) = A.map fun _ => Fl.fin 0 := by
    rw [List.map_const']
  have e1 : List.zipWith (fun n x => !n && (PyFloat.ofInt 0 ≤ᶠ x)) (A.map isNaN) A =
      A.map fun _ => true := by
    rw [List.zipWith_map_left, List.zipWith_self]
    apply List.map_congr_left
    intro x hx
    rw [hn x hx]
    have := hpos x hx
    have h0 : (PyFloat.ofInt 0 : Fl ℝ) = .fin 0 := by simp
    rw [h0, this]; rfl
  dsimp only
  rw [e0, assignMask_const, e1, select_map]
  simp only [bind, Except.bind, List.filter_true]
  rw [(bcast_ok_iff (fun x y : Fl ℝ => x /ᶠ y) A (a.map (· *ᶠ L)) (by simpa using ha)).1
    (by simpa using hA)]
  dsimp only
  rw [(bcast_ok_iff Fl.pow _ _ (by simp; omega)).1 (by simp; omega)]
  dsimp only
  set vals := List.zipWith Fl.pow
          (List.zipWith (fun x y : Fl ℝ => x /ᶠ y) A (a.map (· *ᶠ L)))
          (b.map fun b => (PyFloat.ofInt 1 : Fl ℝ) /ᶠ b) with hvals
  have hvl : vals.length = A.length := by rw [hvals]; simp; omega
  have hplace : ∀ (R : List (Fl ℝ)) (v : List (Fl ℝ)) , v.length = R.length →
      place R (R.map fun _ => true) v = v := by
    intro R
    induction R with
    | nil => intro v hv; cases v <;> simp_all [place]
    | cons r R ih =>
      intro v hv
      cases v with
      | nil => simp at hv
      | cons w v => simp only [List.map_cons, place]; rw [ih v (by simpa using hv)]
  have h1 : assignMask (A.map fun x => if isNaN x then Fl.nan else Fl.fin 0)
      (A.map fun _ => true) vals = .ok vals := by
    unfold assignMask
    rw [if_pos (by rw [count_map]; simp [hvl])]
    have := hplace (A.map fun x => if isNaN x then Fl.nan else Fl.fin 0) vals (by simpa using hvl)
    rw [List.map_map] at this
    simp only [Function.comp_def] at this
    rw [this]
  rw [h1]
  dsimp only
  have e2 : List.zipWith (fun n r => !n && (r <ᶠ R_min)) (A.map isNaN) vals =
      vals.map fun r => r <ᶠ R_min := by
    have hz : A.map isNaN = vals.map fun _ => false := by
      rw [List.map_const', hvl]
      rw [List.map_congr_left hn, List.map_const']
    rw [hz, List.zipWith_map_left, List.zipWith_self]
    simp
  rw [e2]
  have := assignMask_const vals id (fun r => r <ᶠ R_min) (Fl.fin 0)
  rw [List.map_id] at this
  rw [this]
  congr 1
  apply List.ext_getElem
  · simp; omega
  · intro i h1 h2
    simp only [List.length_map] at h1
    have hiA : i < A.length := by omega
    simp only [hvals, List.getElem_zipWith, List.getElem_map, List.getElem_zip, id]
    rw [rate_usable _ _ _ _ _ (hpos _ (List.getElem_mem hiA))]

/-- Concrete case for C23: two parameters, two samples, one of them negative: it raises. -/
example (sp : Spline) : calc_R_from_A sp [.fin 3, .fin (-1)] (.fin 1) none none
    (some [.fin 1, .fin 2]) (some [.fin 1, .fin 1]) "ITU_2005" (.fin 0) = .error .valueError := by
  refine (C23_array_parameters sp _ _ _ [.fin 1, .fin 2] [.fin 1, .fin 1] _ rfl (by simp)).2 ?_
  simp [nUsable]

/-! ### C24 -/

/-- C24: the min/max rain rate is the plain rain rate (without cut) divided by
`ln k + gamma`, then cut at `R_min`. -/
theorem C24_min_max (sp : Spline) (A : List (Fl ℝ)) (L a b R_min k : ℝ) (pol : String)
    (ha : 0 < a) (hb : 0 < b) (hL : 0 < L) (hk : 0 < k) (hc : 0 < Real.log k + 0.57721566) :
    ∃ Rp R, callAB sp A L a b 0 = .ok Rp ∧
      calc_R_from_A_min_max sp A (.fin L) none (some [.fin a]) (some [.fin b]) pol (.fin R_min)
        (.fin k) = .ok R ∧
      Rp.length = A.length ∧ R.length = A.length ∧
      ∀ i : Nat, (∀ x : ℝ, Rp[i]? = some (.fin x) →
          R[i]? = some (.fin (if x / (Real.log k + 0.57721566) < R_min then 0
            else x / (Real.log k + 0.57721566)))) ∧
        (R[i]? = some .nan ↔ A[i]? = some .nan) := by
  have he : (0.57721566 : ℝ) = eulerGamma := by unfold eulerGamma; norm_num
  rw [he] at hc ⊢
  set c := Real.log k + eulerGamma with hcdef
  have hac : 0 < a * c ^ b := mul_pos ha (Real.rpow_pos_of_pos hc b)
  refine ⟨_, A.map (rate (.fin (a * c ^ b)) (.fin b) (.fin L) (.fin R_min)),
    callAB_eq sp A L a b 0, ?_, by simp, by simp, ?_⟩
  · unfold calc_R_from_A_min_max calcRMinMax
    rw [show PyLog.log (Fl.fin k) = _ from Fl.log_fin hk, Fl.pf_add_fin, ← hcdef]
    simp only [bind, Except.bind, List.map_cons, List.map_nil, show PyPow.pow (Fl.fin c) (Fl.fin b) = _ from Fl.pow_fin_pos hc,
      bcast_singleton, Fl.pf_mul_fin]
    exact rainRates_scalar _ _ _ _ _
  · intro i
    rw [List.getElem?_map, List.getElem?_map]
    cases hA : A[i]? with
    | none => simp
    | some x =>
      simp only [Option.map_some, Option.some.injEq]
      cases x with
      | nan => simp [rate_nan]
      | ninf =>
        simp only [rate_ninf]
        refine ⟨?_, by simp⟩
        intro x hx
        injection hx with hx
        subst hx
        simp
      | pinf =>
        rw [rate_pinf ha hb hL, rate_pinf hac hb hL]
        refine ⟨?_, by simp⟩
        intro x hx
        cases hx
      | fin x =>
        rw [rate_fin ha hb hL, rate_fin hac hb hL]
        refine ⟨?_, by simp⟩
        intro y hy
        injection hy with hy
        congr 1
        by_cases hx : x < 0
        · rw [if_pos hx] at hy
          rw [if_pos hx, ← hy]
          simp
        · have hx' := not_lt.mp hx
          have hq : 0 ≤ x / (a * L) := div_nonneg hx' (mul_pos ha hL).le
          rw [if_neg hx, if_neg (not_lt.mpr (Real.rpow_nonneg hq _))] at hy
          rw [if_neg hx]
          have : (x / (a * c ^ b * L)) ^ (1 / b) = y / c := by
            have e : x / (a * c ^ b * L) = (x / (a * L)) / c ^ b := by
              field_simp
            rw [e, Real.div_rpow hq (Real.rpow_nonneg hc.le b), hy, ← Real.rpow_mul hc.le,
              mul_one_div_cancel hb.ne', Real.rpow_one]
          rw [this]

/-- C24: results are NaN, 0 or at least `R_min`. -/
theorem C24_min_max_range (sp : Spline) (A R : List (Fl ℝ)) (L a b R_min k : ℝ) (pol : String)
    (ha : 0 < a) (hb : 0 < b) (hL : 0 < L) (hk : 0 < k) (hc : 0 < Real.log k + 0.57721566)
    (hR : calc_R_from_A_min_max sp A (.fin L) none (some [.fin a]) (some [.fin b]) pol
      (.fin R_min) (.fin k) = .ok R) :
    ∀ r ∈ R, r = .nan ∨ r = .fin 0 ∨ ((Fl.fin R_min ≤ᶠ r) = true ∧ (Fl.fin 0 ≤ᶠ r) = true) := by
  have he : (0.57721566 : ℝ) = eulerGamma := by unfold eulerGamma; norm_num
  rw [he] at hc
  have hac : 0 < a * (Real.log k + eulerGamma) ^ b := mul_pos ha (Real.rpow_pos_of_pos hc b)
  unfold calc_R_from_A_min_max calcRMinMax at hR
  rw [show PyLog.log (Fl.fin k) = _ from Fl.log_fin hk, Fl.pf_add_fin] at hR
  simp only [bind, Except.bind, List.map_cons, List.map_nil,
    show PyPow.pow (Fl.fin (Real.log k + eulerGamma)) (Fl.fin b) = _ from Fl.pow_fin_pos hc,
    bcast_singleton, Fl.pf_mul_fin] at hR
  have := (C19_rain_rate_range sp A R L (a * (Real.log k + eulerGamma) ^ b) b R_min hac hb hL
    hR).2
  exact this

/-- Concrete case for C24: the default k = 90. -/
example : 0 < Real.log 90 + 0.57721566 :=
  add_pos (Real.log_pos (by norm_num)) (by norm_num)

end Verif.Props
