import Verif.Lemmas.KR
import Mathlib.Tactic.IntervalCases
import Mathlib.Data.List.Pairwise
import Mathlib.Data.Rat.Cast.Order
import Mathlib.Algebra.Order.Ring.Rat

/-!
# Properties C25 and C26: the power-law parameters `a_b` and the ITU tables
-/

namespace Verif.Props
open Verif Verif.KR

/-! ### C26: the tables -/

/-- What the interpolation needs from a table of integers. -/
def rawOk (t : List (List Nat)) (n : Nat) : Bool :=
  t.length == 5 && t.all (fun r => r.length == n) &&
  (t.getD 0 []).head? == some 10000000 && (t.getD 0 []).getLast? == some 1000000000 &&
  decide ((t.getD 0 []).IsChain (· < ·)) && t.all (fun r => r.all (0 < ·))

theorem rawOk_2005 : rawOk rawTable2005 105 = true := by decide +kernel
theorem rawOk_2003 : rawOk rawTable2003 21 = true := by decide +kernel

theorem tables_of_rawOk {t : List (List Nat)} {n : Nat} (h : rawOk t n = true) :
    (∀ r, r < 5 → (row t r).length = n ∧ ∀ v ∈ row t r, 0 < v) ∧
    (row t 0).Pairwise (· < ·) ∧ (row t 0).head? = some 1 ∧ (row t 0).getLast? = some 100 := by
  simp only [rawOk, Bool.and_eq_true, beq_iff_eq, List.all_eq_true, decide_eq_true_eq] at h
  obtain ⟨⟨⟨⟨⟨h1, h2⟩, h3⟩, h4⟩, h5⟩, h6⟩ := h
  refine ⟨?_, ?_, ?_, ?_⟩
  · intro r hr
    have hm : t.getD r [] ∈ t := by
      rw [List.getD_eq_getElem?_getD, List.getElem?_eq_getElem (by omega)]
      simp
    refine ⟨by simp only [row, List.length_map]; exact h2 _ hm, ?_⟩
    intro v hv
    simp only [row, List.mem_map] at hv
    obtain ⟨k, hk, rfl⟩ := hv
    have := h6 _ hm k hk
    positivity
  · rw [row, List.pairwise_map]
    refine (List.isChain_iff_pairwise.mp h5).imp ?_
    intro a b hab
    have : (a : ℚ) < b := by exact_mod_cast hab
    linarith
  · rw [row, List.head?_map, h3]; norm_num
  · rw [row, List.getLast?_map, h4]; norm_num

/-- **C26** Both ITU tables: five rows of one common length (105 and 21), all entries positive,
and frequencies strictly increasing from 1 GHz to 100 GHz. -/
theorem C26_tables_well_formed :
    ∀ t n, (t = rawTable2005 ∧ n = 105) ∨ (t = rawTable2003 ∧ n = 21) →
      t.length = 5 ∧
      (∀ r, r < 5 → (row t r).length = n ∧ ∀ v ∈ row t r, 0 < v) ∧
      (row t 0).Pairwise (· < ·) ∧ (row t 0).head? = some 1 ∧
      (row t 0).getLast? = some 100 := by
  rintro t n (⟨rfl, rfl⟩ | ⟨rfl, rfl⟩)
  · exact ⟨by decide +kernel, tables_of_rawOk rawOk_2005⟩
  · exact ⟨by decide +kernel, tables_of_rawOk rawOk_2003⟩

example : (row rawTable2005 0)[14]? = some 10 ∧ (row rawTable2005 1)[14]? = some (1217/100000) := by
  decide +kernel

/-! ### C25 -/

theorem mapM_ok {α β : Type} (g : α → Except Err β) (h : α → β) (l : List α)
    (H : ∀ x ∈ l, g x = .ok (h x)) : l.mapM g = .ok (l.map h) := by
  induction l with
  | nil => rfl
  | cons x l ih =>
    rw [List.mapM_cons, H x (by simp), ih fun y hy => H y (by simp [hy])]
    rfl

theorem mapM_error {α β : Type} (g : α → Except Err β) (e : Err) (l : List α)
    (H : ∀ x ∈ l, (∃ y, g x = .ok y) ∨ g x = .error e) (x : α) (hx : x ∈ l)
    (hg : g x = .error e) : l.mapM g = .error e := by
  induction l with
  | nil => simp at hx
  | cons y l ih =>
    rw [List.mapM_cons]
    rcases H y (by simp) with ⟨v, hv⟩ | hv
    · rw [hv]
      rcases List.mem_cons.mp hx with rfl | hx
      · rw [hg] at hv; cases hv
      · rw [ih (fun z hz => H z (by simp [hz])) hx]; rfl
    · rw [hv]; rfl

/-- the accepted frequencies: NaN, or a number from 1 to 100 -/
def freqOk : Fl ℝ → Prop
  | .nan => True
  | .fin x => 1 ≤ x ∧ x ≤ 100
  | _ => False

/-- the documented spellings of the two polarizations -/
def isH (p : String) : Prop := p = "h" ∨ p = "H" ∨ p = "horizontal" ∨ p = "Horizontal"
def isV (p : String) : Prop := p = "v" ∨ p = "V" ∨ p = "vertical" ∨ p = "Vertical"

/-- the values of an interpolated table row -/
noncomputable def tableValue (spline : Spline) (t : List (List Nat)) (r : Nat) : Fl ℝ → Fl ℝ
  | .fin x => .fin (spline (row t 0) (row t r) x)
  | _ => .nan

theorem polH_iff (p : String) : polH.contains p = true ↔ isH p := by
  simp [polH, isH]

theorem polV_iff (p : String) : polV.contains p = true ↔ isV p := by
  simp [polV, isV]

theorem not_H_V (p : String) : ¬ (isH p ∧ isV p) := by
  rintro ⟨h, hv⟩
  rcases h with rfl | rfl | rfl | rfl <;> revert hv <;> unfold isV <;> decide

theorem npMaximum_cases (x y : Fl ℝ) : npMaximum x y = x ∨ npMaximum x y = y := by
  unfold npMaximum; split_ifs <;> simp

theorem npMinimum_cases (x y : Fl ℝ) : npMinimum x y = x ∨ npMinimum x y = y := by
  unfold npMinimum pyMin; split_ifs <;> simp

theorem npMax_mem (l : List (Fl ℝ)) (m : Fl ℝ) (h : npMax l = .ok m) : m ∈ l := by
  have key : ∀ (l : List (Fl ℝ)) (x : Fl ℝ), l.foldl npMaximum x ∈ x :: l := by
    intro l
    induction l with
    | nil => intro x; simp
    | cons y l ih =>
      intro x
      rw [List.foldl_cons]
      have := ih (npMaximum x y)
      rcases npMaximum_cases x y with e | e <;> rw [e] at this ⊢ <;>
        simp only [List.mem_cons] at this ⊢ <;> tauto
  cases l with
  | nil => cases h
  | cons x l => cases h; exact key l x

theorem npMin_mem (l : List (Fl ℝ)) (m : Fl ℝ) (h : npMin l = .ok m) : m ∈ l := by
  have key : ∀ (l : List (Fl ℝ)) (x : Fl ℝ), l.foldl npMinimum x ∈ x :: l := by
    intro l
    induction l with
    | nil => intro x; simp
    | cons y l ih =>
      intro x
      rw [List.foldl_cons]
      have := ih (npMinimum x y)
      rcases npMinimum_cases x y with e | e <;> rw [e] at this ⊢ <;>
        simp only [List.mem_cons] at this ⊢ <;> tauto
  cases l with
  | nil => cases h
  | cons x l => cases h; exact key l x

/-- interpolation outside the table raises, inside it gives the interpolated value -/
theorem interp_of_freqOk (spline : Spline) {t : List (List Nat)} {n : Nat} (ht : rawOk t n = true)
    (r : Nat) (f : Fl ℝ) :
    (freqOk f → interp spline (row t 0) (row t r) f = .ok (tableValue spline t r f)) ∧
    (¬ freqOk f → interp spline (row t 0) (row t r) f = .error .valueError) := by
  obtain ⟨_, _, h1, h2⟩ := tables_of_rawOk ht
  have e1 : (row t 0).headD 0 = 1 := by
    rw [List.headD_eq_head?_getD, h1]; rfl
  have e2 : (row t 0).getLastD 0 = 100 := by
    rw [List.getLastD_eq_getLast?, h2]; rfl
  cases f with
  | nan => simp [freqOk, interp, tableValue]
  | ninf => simp [freqOk, interp]
  | pinf => simp [freqOk, interp]
  | fin x =>
    simp only [freqOk, interp, tableValue, e1, e2]
    constructor
    · rintro ⟨ha, hb⟩
      rw [if_neg (by push_cast; simp; exact ⟨ha, hb⟩)]
    · intro h
      rw [if_pos (by push_cast; by_contra hc; push Not at hc; exact h hc)]

/-- the table belonging to an approximation type -/
def tableOf (approx : String) : Option (List (List Nat)) :=
  if approx = "ITU_2005" then some rawTable2005
  else if approx = "ITU_2003" then some rawTable2003
  else none

theorem tableOf_rawOk {s : String} {t : List (List Nat)} (h : tableOf s = some t) :
    ∃ n, rawOk t n = true := by
  unfold tableOf at h
  split_ifs at h <;> cases h
  · exact ⟨_, rawOk_2005⟩
  · exact ⟨_, rawOk_2003⟩

theorem select_map' {α β : Type} (Z : List α) (g : α → β) (m : α → Bool) :
    select (Z.map g) (Z.map m) = (Z.filter m).map g := by
  unfold select
  induction Z with
  | nil => rfl
  | cons x A ih =>
    simp only [List.map_cons, List.zip_cons_cons, List.filter_cons]
    cases m x <;> simp [ih]

/-- Accepted input: the parameters, position by position. -/
theorem a_b_ok (spline : Spline) (Z : List (Fl ℝ × String)) (s : String) (t : List (List Nat))
    (hs : tableOf s = some t) (hne : Z ≠ []) (hf : ∀ z ∈ Z, freqOk z.1)
    (hp : ∀ z ∈ Z, isH z.2 ∨ isV z.2) :
    a_b spline (Z.map (·.1)) (Z.map (·.2)) s = .ok
      (Z.map fun z => if polV.contains z.2 then tableValue spline t 2 z.1 else
          tableValue spline t 1 z.1,
       Z.map fun z => if polV.contains z.2 then tableValue spline t 4 z.1 else
          tableValue spline t 3 z.1) := by
  obtain ⟨n, ht⟩ := tableOf_rawOk hs
  have hf' : ∀ x ∈ Z.map (·.1), freqOk x := by
    intro x hx
    obtain ⟨z, hz, rfl⟩ := List.mem_map.mp hx
    exact hf z hz
  have hI : ∀ r, (Z.map (·.1)).mapM (interp spline (row t 0) (row t r)) =
      .ok ((Z.map (·.1)).map (tableValue spline t r)) := fun r =>
    mapM_ok _ _ _ fun x hx => (interp_of_freqOk spline ht r x).1 (hf' x hx)
  obtain ⟨mn, hmn⟩ : ∃ m, npMin (Z.map (·.1)) = .ok m := by
    cases Z with
    | nil => exact absurd rfl hne
    | cons z Z => exact ⟨_, rfl⟩
  obtain ⟨mx, hmx⟩ : ∃ m, npMax (Z.map (·.1)) = .ok m := by
    cases Z with
    | nil => exact absurd rfl hne
    | cons z Z => exact ⟨_, rfl⟩
  have h1 : ((mn <ᶠ PyFloat.ofInt 1) || (PyFloat.ofInt 100 <ᶠ mx)) = false := by
    have a1 := hf' _ (npMin_mem _ _ hmn)
    have a2 := hf' _ (npMax_mem _ _ hmx)
    rw [Bool.or_eq_false_iff]
    constructor
    · cases mn <;> simp_all [freqOk]
    · cases mx <;> simp_all [freqOk]
  have hT : selectTable s = .ok t := by
    unfold tableOf at hs
    unfold selectTable
    split_ifs at hs ⊢ <;> simp_all
  have hpol : ((Z.map (·.2)).all fun p => (polV ++ polH).contains p) = true := by
    rw [List.all_eq_true]
    intro p hp'
    obtain ⟨z, hz, rfl⟩ := List.mem_map.mp hp'
    have := hp z hz
    simp only [isH, isV, polH, polV] at this ⊢
    rcases this with (h | h | h | h) | (h | h | h | h) <;> rw [h] <;> decide
  have e0 : (List.replicate (Z.map (·.1)).length (Fl.nan) : List (Fl ℝ)) =
      Z.map fun _ => Fl.nan := by
    rw [List.map_const', List.length_map]
  unfold a_b
  rw [if_neg (by simp)]
  simp only [hmn, hmx, hpol, hT, bind, Except.bind]
  rw [if_neg (by rw [h1]; simp), if_neg (by simp)]
  unfold a_b_table
  simp only [hI, bind, Except.bind, pure, Except.pure, e0, List.map_map, select_map',
    assignMask_map, Function.comp_def]
  congr 2
  · apply List.map_congr_left
    intro z hz
    have := hp z hz
    rw [← polH_iff, ← polV_iff] at this
    split_ifs <;> simp_all
  · apply List.map_congr_left
    intro z hz
    have := hp z hz
    rw [← polH_iff, ← polV_iff] at this
    split_ifs <;> simp_all

/-- Rejected input: always `ValueError`. -/
theorem a_b_error (spline : Spline) (f : List (Fl ℝ)) (pol : List String) (s : String)
    (h : f.length ≠ pol.length ∨ f = [] ∨ (∃ x ∈ f, ¬ freqOk x) ∨
      (∃ p ∈ pol, ¬ (isH p ∨ isV p)) ∨ tableOf s = none) :
    a_b spline f pol s = .error .valueError := by
  unfold a_b
  by_cases h0 : f.length ≠ pol.length
  · rw [if_pos h0]
  rw [if_neg h0]
  rcases h with h | h | h
  · exact absurd h h0
  · subst h; rfl
  cases f with
  | nil => rfl
  | cons x0 f =>
  obtain ⟨mn, hmn⟩ : ∃ m, npMin (x0 :: f) = .ok m := ⟨_, rfl⟩
  obtain ⟨mx, hmx⟩ : ∃ m, npMax (x0 :: f) = .ok m := ⟨_, rfl⟩
  simp only [hmn, hmx, bind, Except.bind]
  by_cases h1 : ((mn <ᶠ PyFloat.ofInt 1) || (PyFloat.ofInt 100 <ᶠ mx)) = true
  · rw [if_pos h1]
  rw [if_neg h1]
  by_cases h2 : (pol.all fun p => (polV ++ polH).contains p) = true
  swap
  · rw [if_pos h2]
  rw [if_neg (not_not.mpr h2)]
  cases hT : selectTable s with
  | error e =>
    unfold selectTable at hT
    split_ifs at hT
    cases hT; rfl
  | ok t =>
    have hs : tableOf s = some t := by
      unfold selectTable at hT
      unfold tableOf
      split_ifs at hT ⊢ <;> simp_all
    rcases h with ⟨x, hx, hbad⟩ | ⟨p, hp, hbad⟩ | h
    · obtain ⟨n, ht⟩ := tableOf_rawOk hs
      dsimp only
      unfold a_b_table
      rw [mapM_error _ .valueError _ ?_ x hx ((interp_of_freqOk spline ht 2 x).2 hbad)]
      · rfl
      · intro y _
        by_cases hy : freqOk y
        · exact .inl ⟨_, (interp_of_freqOk spline ht 2 y).1 hy⟩
        · exact .inr ((interp_of_freqOk spline ht 2 y).2 hy)
    · exfalso
      have := List.all_eq_true.mp h2 p hp
      simp only [List.contains_eq_mem, List.mem_append, decide_eq_true_eq] at this
      rw [← polH_iff, ← polV_iff] at hbad
      simp only [List.contains_eq_mem, decide_eq_true_eq] at hbad
      tauto
    · rw [hs] at h; cases h

/-- **C25** `a_b` raises `ValueError` exactly when the shapes differ, the input is empty, a
frequency is neither NaN nor in `[1, 100]` GHz, a polarization is not one of the eight
spellings, or the approximation type is unknown. -/
theorem C25_accepts_iff (spline : Spline) (f : List (Fl ℝ)) (pol : List String) (s : String) :
    ((∃ ab, a_b spline f pol s = .ok ab) ↔
      f.length = pol.length ∧ f ≠ [] ∧ (∀ x ∈ f, freqOk x) ∧ (∀ p ∈ pol, isH p ∨ isV p) ∧
      (s = "ITU_2003" ∨ s = "ITU_2005")) ∧
    ((∃ ab, a_b spline f pol s = .ok ab) ∨ a_b spline f pol s = .error .valueError) := by
  have htab : tableOf s ≠ none ↔ s = "ITU_2003" ∨ s = "ITU_2005" := by
    unfold tableOf; split_ifs <;> simp_all
  by_cases h : f.length = pol.length ∧ f ≠ [] ∧ (∀ x ∈ f, freqOk x) ∧
      (∀ p ∈ pol, isH p ∨ isV p) ∧ (s = "ITU_2003" ∨ s = "ITU_2005")
  · obtain ⟨h1, h2, h3, h4, h5⟩ := h
    obtain ⟨t, ht⟩ := Option.ne_none_iff_exists'.mp (htab.mpr h5)
    have e1 : (f.zip pol).map (·.1) = f := List.map_fst_zip (by omega)
    have e2 : (f.zip pol).map (·.2) = pol := List.map_snd_zip (by omega)
    have := a_b_ok spline (f.zip pol) s t ht
      (by intro h; rw [h] at e1; exact h2 e1.symm)
      (fun z hz => h3 _ (by rw [← e1]; exact List.mem_map_of_mem hz))
      (fun z hz => h4 _ (by rw [← e2]; exact List.mem_map_of_mem hz))
    rw [e1, e2] at this
    exact ⟨⟨fun _ => ⟨h1, h2, h3, h4, h5⟩, fun _ => ⟨_, this⟩⟩, .inl ⟨_, this⟩⟩
  · have := a_b_error spline f pol s (by
      rw [← htab] at h
      push Not at h
      by_contra hc
      push Not at hc
      obtain ⟨h1, h2, h3, h4, h5⟩ := hc
      exact h5 (h h1 h2 h3 (fun p hp => h4 p hp)))
    exact ⟨⟨fun ⟨ab, hab⟩ => (by rw [this] at hab; cases hab), fun hc => absurd hc h⟩, .inr this⟩

/-- **C25** Every entry is interpolated in the table rows of its own polarization: `a` from
k_H (row 1) or k_V (row 2), `b` from alpha_H (row 3) or alpha_V (row 4); a NaN frequency gives
NaN parameters, and no entry depends on the other links. -/
theorem C25_entries (spline : Spline) (f : List (Fl ℝ)) (pol : List String) (s : String)
    (t : List (List Nat)) (ht : tableOf s = some t) (a b : List (Fl ℝ))
    (h : a_b spline f pol s = .ok (a, b)) :
    a.length = f.length ∧ b.length = f.length ∧
    ∀ (i : Nat) (x : Fl ℝ) (p : String), f[i]? = some x → pol[i]? = some p →
      (x = .nan → a[i]? = some .nan ∧ b[i]? = some .nan) ∧
      (∀ r, x = .fin r → isH p →
        a[i]? = some (.fin (spline (row t 0) (row t 1) r)) ∧
        b[i]? = some (.fin (spline (row t 0) (row t 3) r))) ∧
      (∀ r, x = .fin r → isV p →
        a[i]? = some (.fin (spline (row t 0) (row t 2) r)) ∧
        b[i]? = some (.fin (spline (row t 0) (row t 4) r))) := by
  obtain ⟨h1, h2, h3, h4, h5⟩ := (C25_accepts_iff spline f pol s).1.mp ⟨_, h⟩
  have e1 : (f.zip pol).map (·.1) = f := List.map_fst_zip (by omega)
  have e2 : (f.zip pol).map (·.2) = pol := List.map_snd_zip (by omega)
  have := a_b_ok spline (f.zip pol) s t ht
    (by intro h; rw [h] at e1; exact h2 e1.symm)
    (fun z hz => h3 _ (by rw [← e1]; exact List.mem_map_of_mem hz))
    (fun z hz => h4 _ (by rw [← e2]; exact List.mem_map_of_mem hz))
  rw [e1, e2, h] at this
  obtain ⟨rfl, rfl⟩ := Prod.mk.inj (Except.ok.inj this)
  refine ⟨by simp; omega, by simp; omega, ?_⟩
  intro i x p hx hp
  have hz : (f.zip pol)[i]? = some (x, p) := by
    rw [List.getElem?_zip_eq_some]; exact ⟨hx, hp⟩
  simp only [List.getElem?_map, hz, Option.map_some]
  refine ⟨?_, ?_, ?_⟩
  · rintro rfl
    simp [tableValue]
  · rintro r rfl hH
    have : polV.contains p = false := by
      rw [Bool.eq_false_iff]
      intro hc
      exact not_H_V p ⟨hH, (polV_iff p).mp hc⟩
    rw [this]
    exact ⟨rfl, rfl⟩
  · rintro r rfl hV
    have : polV.contains p = true := (polV_iff p).mpr hV
    rw [this]
    exact ⟨rfl, rfl⟩

/-- What is assumed of the external cubic spline: it passes through its data points. -/
def Interpolates (spline : Spline) : Prop :=
  ∀ (xs ys : List ℚ) (k : Nat) (x y : ℚ), xs.length = ys.length → xs.Pairwise (· < ·) →
    xs[k]? = some x → ys[k]? = some y → spline xs ys x = y

/-- **C25** At a tabulated frequency the result is exactly the tabulated pair, for any spline
that passes through its data points. -/
theorem C25_tabulated (spline : Spline) (hsp : Interpolates spline) (f : List (Fl ℝ))
    (pol : List String) (s : String) (t : List (List Nat)) (ht : tableOf s = some t)
    (a b : List (Fl ℝ)) (h : a_b spline f pol s = .ok (a, b)) (i k : Nat) (x : ℚ) (p : String)
    (hx : f[i]? = some (.fin (x : ℝ))) (hp : pol[i]? = some p) (hk : (row t 0)[k]? = some x) :
    (isH p → ∃ v w : ℚ, (row t 1)[k]? = some v ∧ (row t 3)[k]? = some w ∧
      a[i]? = some (.fin (v : ℝ)) ∧ b[i]? = some (.fin (w : ℝ)) ∧ 0 < v ∧ 0 < w) ∧
    (isV p → ∃ v w : ℚ, (row t 2)[k]? = some v ∧ (row t 4)[k]? = some w ∧
      a[i]? = some (.fin (v : ℝ)) ∧ b[i]? = some (.fin (w : ℝ)) ∧ 0 < v ∧ 0 < w) := by
  obtain ⟨n, hraw⟩ := tableOf_rawOk ht
  obtain ⟨hrows, hsort, _, _⟩ := tables_of_rawOk hraw
  have hkn : k < n := by
    have := (List.getElem?_eq_some_iff.mp hk).1
    rwa [(hrows 0 (by omega)).1] at this
  have hval : ∀ r, r < 5 → ∃ v : ℚ, (row t r)[k]? = some v ∧ 0 < v ∧
      spline (row t 0) (row t r) x = v := by
    intro r hr
    have hl := (hrows r hr).1
    refine ⟨(row t r)[k]'(by omega), List.getElem?_eq_getElem (by omega),
      (hrows r hr).2 _ (List.getElem_mem _), ?_⟩
    exact hsp _ _ k x _ (by rw [hl, (hrows 0 (by omega)).1]) hsort hk
      (List.getElem?_eq_getElem (by omega))
  obtain ⟨_, _, he⟩ := C25_entries spline f pol s t ht a b h
  obtain ⟨_, hH, hV⟩ := he i _ p hx hp
  constructor
  · intro hh
    obtain ⟨v, e1, e2, e3⟩ := hval 1 (by omega)
    obtain ⟨w, e4, e5, e6⟩ := hval 3 (by omega)
    obtain ⟨e7, e8⟩ := hH _ rfl hh
    rw [e3] at e7; rw [e6] at e8
    exact ⟨v, w, e1, e4, e7, e8, e2, e5⟩
  · intro hh
    obtain ⟨v, e1, e2, e3⟩ := hval 2 (by omega)
    obtain ⟨w, e4, e5, e6⟩ := hval 4 (by omega)
    obtain ⟨e7, e8⟩ := hV _ rfl hh
    rw [e3] at e7; rw [e6] at e8
    exact ⟨v, w, e1, e4, e7, e8, e2, e5⟩

/-- The assumption on the spline can be met. -/
theorem interpolates_exists : ∃ spline, Interpolates spline := by
  classical
  refine ⟨fun xs ys r => if h : ∃ (k : Nat) (x y : ℚ), xs[k]? = some x ∧ ys[k]? = some y ∧ (x : ℝ) = r then
    ((h.choose_spec.choose_spec.choose : ℚ) : ℝ) else 0, ?_⟩
  intro xs ys k x y hl hs hx hy
  have h : ∃ (k' : Nat) (x' y' : ℚ), xs[k']? = some x' ∧ ys[k']? = some y' ∧ (x' : ℝ) = (x : ℝ) :=
    ⟨k, x, y, hx, hy, rfl⟩
  dsimp only
  rw [dif_pos h]
  obtain ⟨h1, h2, h3⟩ := h.choose_spec.choose_spec.choose_spec
  have h3' : h.choose_spec.choose = x := by exact_mod_cast h3
  have hk : h.choose = k := by
    obtain ⟨b1, c1⟩ := List.getElem?_eq_some_iff.mp h1
    obtain ⟨b2, c2⟩ := List.getElem?_eq_some_iff.mp hx
    have hinj := List.pairwise_iff_getElem.mp hs
    rcases Nat.lt_trichotomy h.choose k with hlt | heq | hlt
    · have := hinj _ _ b1 b2 hlt
      rw [c1, c2, h3'] at this
      exact absurd this (lt_irrefl _)
    · exact heq
    · have := hinj _ _ b2 b1 hlt
      rw [c1, c2, h3'] at this
      exact absurd this (lt_irrefl _)
  generalize h.choose_spec.choose_spec.choose = w at h2
  rw [hk, hy] at h2
  exact_mod_cast (Option.some.inj h2).symm

example : ∃ spline a b, Interpolates spline ∧
    a_b spline [.fin 10, .nan, .fin 10] ["H", "v", "Vertical"] "ITU_2005" = .ok (a, b) ∧
    a[0]? = some (.fin (((1217/100000 : ℚ)) : ℝ)) ∧ a[1]? = some .nan ∧
    a[2]? = some (.fin (((1129/100000 : ℚ)) : ℝ)) := by
  obtain ⟨spline, hs⟩ := interpolates_exists
  obtain ⟨⟨a, b⟩, h⟩ := (C25_accepts_iff spline [.fin 10, .nan, .fin 10]
    ["H", "v", "Vertical"] "ITU_2005").1.mpr ⟨rfl, by simp, by
      intro x hx; simp at hx; rcases hx with rfl | rfl | rfl <;> norm_num [freqOk], by
      intro x hx; simp at hx; rcases hx with rfl | rfl | rfl <;> simp [isH, isV], .inr rfl⟩
  have hk : (row rawTable2005 0)[14]? = some 10 := by decide +kernel
  obtain ⟨v, w, e1, _, e3, _⟩ := (C25_tabulated spline hs _ _ _ _ rfl a b h 0 14 10 "H"
    (by simp) rfl hk).1 (by simp [isH])
  obtain ⟨v', w', e1', _, e3', _⟩ := (C25_tabulated spline hs _ _ _ _ rfl a b h 2 14 10 "Vertical"
    (by simp) rfl hk).2 (by simp [isV])
  have hv : (row rawTable2005 1)[14]? = some (1217/100000) := by decide +kernel
  have hv' : (row rawTable2005 2)[14]? = some (1129/100000) := by decide +kernel
  rw [hv] at e1; rw [hv'] at e1'
  cases e1; cases e1'
  refine ⟨spline, a, b, hs, h, e3, ?_, e3'⟩
  exact ((C25_entries spline _ _ _ _ rfl a b h).2.2 1 .nan "v" rfl rfl).1 rfl |>.1

example (spline : Spline) : a_b spline [.fin 10, .fin 101] ["H", "V"] "ITU_2005" =
    .error .valueError := by
  apply a_b_error
  right; right; left
  exact ⟨.fin 101, by simp, by norm_num [freqOk]⟩

/-- **C25** One polarization string for many links is the same as repeating it. -/
theorem C25_string_polarization (spline : Spline) (f : List (Fl ℝ)) (p s : String) :
    ((∃ ab, a_b_str spline f p s = .ok ab) ↔
      f ≠ [] ∧ (∀ x ∈ f, freqOk x) ∧ (isH p ∨ isV p) ∧ (s = "ITU_2003" ∨ s = "ITU_2005")) := by
  unfold a_b_str
  rw [(C25_accepts_iff spline f _ s).1]
  constructor
  · rintro ⟨_, h2, h3, h4, h5⟩
    refine ⟨h2, h3, h4 p ?_, h5⟩
    rw [List.mem_replicate]
    exact ⟨fun h => h2 (List.length_eq_zero_iff.mp h), rfl⟩
  · rintro ⟨h2, h3, h4, h5⟩
    exact ⟨by simp, h2, h3, fun q hq => by rw [List.eq_of_mem_replicate hq]; exact h4, h5⟩

/-! ### C65 -/

/-- **C65** `calc_R_from_A` turns a polarization string into an array of length one before
calling `a_b`, so a string together with several frequencies always raises `ValueError`,
although the documentation says that the string is expanded to the shape of `f_GHz`; `a_b`
itself accepts the same input. -/
theorem C65_string_polarization_rejected (spline : Spline) (A : List (Fl ℝ)) (L R_min : Fl ℝ)
    (f : List (Fl ℝ)) (p s : String) (hf : 2 ≤ f.length) :
    calc_R_from_A spline A L (some f) (some [p]) none none s R_min = .error .valueError ∧
    ((∀ x ∈ f, freqOk x) → (isH p ∨ isV p) → (s = "ITU_2003" ∨ s = "ITU_2005") →
      ∃ ab, a_b_str spline f p s = .ok ab) := by
  constructor
  · unfold calc_R_from_A calcR
    dsimp only
    rw [a_b_error spline f [p] s (.inl (by simp; omega))]
    rfl
  · intro h1 h2 h3
    exact (C25_string_polarization spline f p s).mpr
      ⟨by rintro rfl; simp at hf, h1, h2, h3⟩

example (spline : Spline) : calc_R_from_A spline [.fin 1, .fin 2] (.fin 5)
    (some [.fin 10, .fin 20]) (some ["V"]) none none "ITU_2005" (.fin 0) = .error .valueError :=
  (C65_string_polarization_rejected spline _ _ _ [.fin 10, .fin 20] "V" "ITU_2005" (by simp)).1

end Verif.Props
