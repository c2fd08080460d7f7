import Verif.Model.CalcStats

/-!
# Properties C88, C89: `Validator.calc_stats`, corner arrays of `plot_intersections`
-/

namespace Verif.Props
open Verif Verif.Validator

section
variable {F : Type}

/-- **C88** (negative) Whatever the join and the correlation give, a call replaces the time stamps of the caller's cml
by text; values and all other cmls stay. -/
theorem C88_changes_argument (fmt : Int → String) (joinCorr : List (Int × F) → List (String × F) → Except Err F)
    (objs : List (CmlData F)) (cml : Nat) (stamps : List Int) (vals : List F)
    (h : objs[cml]? = some ⟨.stamps stamps, vals⟩) (ts : List (Int × F)) :
    (calcStats fmt joinCorr objs cml ts).1 = joinCorr ts ((stamps.map fmt).zip vals) ∧
    (calcStats fmt joinCorr objs cml ts).2[cml]? = some ⟨.text (stamps.map fmt), vals⟩ ∧
    ∀ j : Nat, j ≠ cml → (calcStats fmt joinCorr objs cml ts).2[j]? = objs[j]? := by
  unfold calcStats
  rw [h]
  refine ⟨rfl, ?_, ?_⟩
  · exact List.getElem?_set_self (List.getElem?_eq_some_iff.mp h).1
  · intro j hj
    exact List.getElem?_set_ne (Ne.symm hj)

theorem calcStats_keeps_text (fmt : Int → String)
    (joinCorr : List (Int × F) → List (String × F) → Except Err F)
    (objs : List (CmlData F)) (cml j : Nat) (lab : List String) (vals : List F)
    (h : objs[j]? = some ⟨.text lab, vals⟩) (ts : List (Int × F)) :
    (calcStats fmt joinCorr objs cml ts).2[j]? = some ⟨.text lab, vals⟩ := by
  unfold calcStats
  by_cases hj : cml = j
  · subst hj
    rw [h]
    exact h
  · cases hc : objs[cml]? with
    | none => exact h
    | some c =>
      dsimp only
      cases hi : c.index.strftime fmt with
      | error e => exact h
      | ok idx =>
        dsimp only
        rw [List.getElem?_set_ne hj]
        exact h

theorem calcStatsRun_keeps_text (fmt : Int → String)
    (joinCorr : List (Int × F) → List (String × F) → Except Err F) (j : Nat) (lab : List String) (vals : List F)
    (calls : List (Nat × List (Int × F))) : ∀ (objs : List (CmlData F)),
    objs[j]? = some ⟨.text lab, vals⟩ →
    (calcStatsRun fmt joinCorr objs calls).2[j]? = some ⟨.text lab, vals⟩ := by
  induction calls with
  | nil => intro objs h; exact h
  | cons c calls ih =>
    intro objs h
    exact ih _ (calcStats_keeps_text fmt joinCorr objs c.1 j lab vals h c.2)

/-- **C88** (negative) After a first call with a cml, and any further calls with any cmls, another call with that cml
raises `AttributeError` and changes nothing. -/
theorem C88_second_call (fmt : Int → String) (joinCorr : List (Int × F) → List (String × F) → Except Err F)
    (objs : List (CmlData F)) (cml : Nat) (stamps : List Int) (vals : List F)
    (h : objs[cml]? = some ⟨.stamps stamps, vals⟩) (ts ts' : List (Int × F))
    (calls : List (Nat × List (Int × F))) (objs' : List (CmlData F))
    (hobjs : objs' = (calcStatsRun fmt joinCorr objs ((cml, ts) :: calls)).2) :
    calcStats fmt joinCorr objs' cml ts' = (.error .attributeError, objs') := by
  have h1 := (C88_changes_argument fmt joinCorr objs cml stamps vals h ts).2.1
  have h2 := calcStatsRun_keeps_text fmt joinCorr cml _ _ calls _ h1
  have h3 : objs'[cml]? = some ⟨.text (stamps.map fmt), vals⟩ := by rw [hobjs]; exact h2
  unfold calcStats
  rw [h3]
  rfl

/-- a cml with two time stamps, then a second call -/
example : calcStatsRun (F := Fl ℚ) (fun t => if t = 0 then "1970-01-01 00:00:00" else "?")
    (fun _ _ => .ok Fl.nan) [⟨.stamps [0], [Fl.fin 2]⟩] [(0, [(0, Fl.fin 1)]), (0, [(0, Fl.fin 1)])] =
    ([.ok Fl.nan, .error .attributeError], [⟨.text ["1970-01-01 00:00:00"], [Fl.fin 2]⟩]) := by decide +kernel

end

section
variable {α : Type}

theorem setWhere_get (p : Nat → Nat → Bool) (v : Nat → Nat → α) (a : List (List α)) (i j : Nat) :
    ((setWhere p v a)[i]?.bind fun row => row[j]?) =
      (a[i]?.bind fun row => row[j]?).map fun x => if p i j then v i j else x := by
  unfold setWhere
  rw [List.getElem?_mapIdx]
  cases a[i]? with
  | none => rfl
  | some row =>
    simp only [Option.map_some, Option.bind_some]
    rw [List.getElem?_mapIdx]

theorem setWhere_shape (p : Nat → Nat → Bool) (v : Nat → Nat → α) (a : List (List α)) (n : Nat)
    (h : ∀ r ∈ a, r.length = n) :
    (setWhere p v a).length = a.length ∧ ∀ r ∈ setWhere p v a, r.length = n := by
  unfold setWhere
  refine ⟨List.length_mapIdx, ?_⟩
  intro r hr
  rw [List.mem_mapIdx] at hr
  obtain ⟨i, hi, rfl⟩ := hr
  rw [List.length_mapIdx]
  exact h _ (List.getElem_mem hi)

/-- **C89** The corner array of a grid of at least one pixel has one row and one column more than the grid; each entry
is a corner of a pixel next to it. If neighbouring pixels share their corners, the four entries around each pixel are its
four corners. -/
theorem C89_corners (zero : α) (ll ul lr ur : Nat → Nat → α) (ny nx : Nat) (hy : 1 ≤ ny) (hx : 1 ≤ nx) :
    ∃ a, cornerMesh zero ll ul lr ur ny nx = .ok a ∧
      a.length = ny + 1 ∧ (∀ r ∈ a, r.length = nx + 1) ∧
      (∀ i j, i < ny → j < nx → (a[i]?.bind fun row => row[j]?) = some (ll i j)) ∧
      ((∀ i j, i < ny → j + 1 < nx → ll i (j + 1) = lr i j ∧ ul i (j + 1) = ur i j) →
       (∀ i j, i + 1 < ny → j < nx → ll (i + 1) j = ul i j ∧ lr (i + 1) j = ur i j) →
        ∀ i j, i < ny → j < nx →
          (a[i]?.bind fun row => row[j]?) = some (ll i j) ∧
          (a[i]?.bind fun row => row[j + 1]?) = some (lr i j) ∧
          (a[i + 1]?.bind fun row => row[j]?) = some (ul i j) ∧
          (a[i + 1]?.bind fun row => row[j + 1]?) = some (ur i j)) := by
  have hval : ∀ i j, i ≤ ny → j ≤ nx → ∀ a, cornerMesh zero ll ul lr ur ny nx = .ok a →
      (a[i]?.bind fun row => row[j]?) = some (
        if i < ny then if j < nx then ll i j else lr i (nx - 1)
        else if j < nx then ul (ny - 1) j else ur (ny - 1) (nx - 1)) := by
    intro i j hi hj a ha
    unfold cornerMesh at ha
    rw [if_neg (by omega)] at ha
    dsimp only at ha
    obtain rfl := Except.ok.inj ha
    rw [setWhere_get, setWhere_get, setWhere_get, setWhere_get]
    rw [List.getElem?_replicate, if_pos (by omega), Option.bind_some, List.getElem?_replicate, if_pos (by omega)]
    simp only [Option.map_some, Bool.and_eq_true, decide_eq_true_eq]
    by_cases h1 : i < ny <;> by_cases h2 : j < nx
    · simp [h1, h2, show ¬ i = ny by omega, show ¬ j = nx by omega]
    · simp [h1, show ¬ i = ny by omega, show j = nx by omega]
    · simp [h2, show i = ny by omega, show ¬ j = nx by omega]
    · simp [show i = ny by omega, show j = nx by omega]
  have hex : ∃ a, cornerMesh zero ll ul lr ur ny nx = .ok a ∧ a.length = ny + 1 ∧ ∀ r ∈ a, r.length = nx + 1 := by
    unfold cornerMesh
    rw [if_neg (by omega)]
    refine ⟨_, rfl, ?_⟩
    have s0 : (List.replicate (ny + 1) (List.replicate (nx + 1) zero)).length = ny + 1 ∧
        ∀ r ∈ (List.replicate (ny + 1) (List.replicate (nx + 1) zero)), r.length = nx + 1 := by
      refine ⟨by simp, ?_⟩
      intro r hr
      rw [List.eq_of_mem_replicate hr]
      simp
    have stp : ∀ (p : Nat → Nat → Bool) (v : Nat → Nat → α) (a : List (List α)),
        (a.length = ny + 1 ∧ ∀ r ∈ a, r.length = nx + 1) →
        ((setWhere p v a).length = ny + 1 ∧ ∀ r ∈ setWhere p v a, r.length = nx + 1) := by
      intro p v a ⟨h1, h2⟩
      obtain ⟨h3, h4⟩ := setWhere_shape p v a (nx + 1) h2
      exact ⟨h3.trans h1, h4⟩
    exact stp _ _ _ (stp _ _ _ (stp _ _ _ (stp _ _ _ s0)))
  obtain ⟨a, ha, hl, hr⟩ := hex
  refine ⟨a, ha, hl, hr, ?_, ?_⟩
  · intro i j hi hj
    rw [hval i j (by omega) (by omega) a ha, if_pos hi, if_pos hj]
  · intro hc1 hc2 i j hi hj
    refine ⟨?_, ?_, ?_, ?_⟩
    · rw [hval i j (by omega) (by omega) a ha, if_pos hi, if_pos hj]
    · rw [hval i (j + 1) (by omega) (by omega) a ha, if_pos hi]
      by_cases h : j + 1 < nx
      · rw [if_pos h, (hc1 i j hi h).1]
      · rw [if_neg h, show nx - 1 = j by omega]
    · rw [hval (i + 1) j (by omega) (by omega) a ha]
      by_cases h : i + 1 < ny
      · rw [if_pos h, if_pos hj, (hc2 i j h hj).1]
      · rw [if_neg h, if_pos hj, show ny - 1 = i by omega]
    · rw [hval (i + 1) (j + 1) (by omega) (by omega) a ha]
      by_cases h : i + 1 < ny <;> by_cases h' : j + 1 < nx
      · rw [if_pos h, if_pos h', (hc1 (i + 1) j h h').1, (hc2 i j h hj).2]
      · rw [if_pos h, if_neg h', show nx - 1 = j by omega, (hc2 i j h hj).2]
      · rw [if_neg h, if_pos h', show ny - 1 = i by omega, (hc1 i j hi h').2]
      · rw [if_neg h, if_neg h', show ny - 1 = i by omega, show nx - 1 = j by omega]

/-- regular pixels share their corners: a 1x2 grid of pixels of size 2 around (1,1) and (3,1) -/
example : cornerMesh (0, 0) (fun i j => (2 * j, 2 * i)) (fun i j => (2 * j, 2 * i + 2))
    (fun i j => (2 * j + 2, 2 * i)) (fun i j => (2 * j + 2, 2 * i + 2)) 1 2 =
    .ok [[(0, 0), (2, 0), (4, 0)], [(0, 2), (2, 2), (4, 2)]] := by decide

end

end Verif.Props
