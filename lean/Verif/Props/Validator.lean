import Verif.Model.Validator
import Verif.Lemmas.FlList
import Mathlib.Algebra.BigOperators.Fin
import Mathlib.Tactic.Linarith

/-!
# Properties C62, C74: grid validator and wet error rates
-/

namespace Verif.Validator

section boxes

theorem slice_filter {α : Type} (p : α → Bool) (l : List α) (a b : Nat)
    (h : ∀ i x, l[i]? = some x → p x = true → a ≤ i ∧ i < b) : (slice l a b).filter p = l.filter p := by
  have h1 : l.filter p = ((l.take b).take a).filter p ++ (slice l a b).filter p ++ (l.drop b).filter p := by
    unfold slice
    rw [← List.filter_append, List.take_append_drop, ← List.filter_append, List.take_append_drop]
  have h2 : ((l.take b).take a).filter p = [] := by
    rw [List.filter_eq_nil_iff]
    intro x hx hp
    obtain ⟨i, hi⟩ := List.mem_iff_getElem?.mp hx
    rw [List.getElem?_take] at hi
    split_ifs at hi with hlt
    rw [List.getElem?_take] at hi
    split_ifs at hi with hlt'
    exact absurd (h i x hi hp).1 (by omega)
  have h3 : (l.drop b).filter p = [] := by
    rw [List.filter_eq_nil_iff]
    intro x hx hp
    obtain ⟨i, hi⟩ := List.mem_iff_getElem?.mp hx
    rw [List.getElem?_drop] at hi
    exact absurd (h _ x hi hp).2 (by omega)
  rw [h1, h2, h3, List.nil_append, List.append_nil]

theorem slice_flatten {α : Type} (l : List (List α)) (a b : Nat)
    (h : ∀ i x, l[i]? = some x → x ≠ [] → a ≤ i ∧ i < b) : (slice l a b).flatten = l.flatten := by
  have h1 := slice_filter (fun x : List α => !x.isEmpty) l a b (by
    intro i x hi hx
    exact h i x hi (by rintro rfl; simp at hx))
  have h2 : ∀ l : List (List α), (l.filter fun x => !x.isEmpty).flatten = l.flatten := by
    intro l
    induction l with
    | nil => rfl
    | cons x l ih =>
      cases x with
      | nil => rw [List.filter_cons_of_neg (by simp), ih]; rfl
      | cons y x => rw [List.filter_cons_of_pos (by simp), List.flatten_cons, List.flatten_cons, ih]
  rw [← h2, h1, h2]

theorem slice_zipWith {α β γ : Type} (f : α → β → γ) (l : List α) (m : List β) (a b : Nat) :
    List.zipWith f (slice l a b) (slice m a b) = slice (List.zipWith f l m) a b := by
  unfold slice
  rw [List.take_zipWith, List.drop_zipWith]

theorem zipWith_map_slice {α β γ : Type} (f : α → β → γ) (l : List (List α)) (m : List (List β)) (a b : Nat) :
    List.zipWith (List.zipWith f) (l.map fun r => slice r a b) (m.map fun r => slice r a b) =
      (List.zipWith (List.zipWith f) l m).map fun r => slice r a b := by
  rw [List.zipWith_map, List.map_zipWith]
  congr 1
  funext x y
  exact slice_zipWith f x y a b

theorem bounds_spec (l : List Nat) (lo hi : Nat) (h : bounds l = some (lo, hi)) : ∀ i ∈ l, lo ≤ i ∧ i ≤ hi := by
  cases l with
  | nil => cases h
  | cons a l =>
    injection h with h
    injection h with h1 h2
    subst h1 h2
    have key : ∀ (l : List Nat) (a b : Nat), a ≤ b → l.foldl min a ≤ a ∧ b ≤ l.foldl max b ∧
        ∀ i ∈ l, l.foldl min a ≤ i ∧ i ≤ l.foldl max b := by
      intro l
      induction l with
      | nil => intro a b _; exact ⟨le_refl _, le_refl _, by simp⟩
      | cons c l ih =>
        intro a b hab
        obtain ⟨h1, h2, h3⟩ := ih (min a c) (max b c) (by omega)
        rw [List.foldl_cons, List.foldl_cons]
        refine ⟨by omega, by omega, ?_⟩
        intro i hi
        rcases List.mem_cons.mp hi with rfl | hi
        · omega
        · exact h3 i hi
    obtain ⟨h1, h2, h3⟩ := key l a a (le_refl _)
    intro i hi
    rcases List.mem_cons.mp hi with rfl | hi
    · exact ⟨h1, h2⟩
    · exact h3 i hi

theorem bounds_none (l : List Nat) : bounds l = none ↔ l = [] := by
  cases l <;> simp [bounds]

theorem mem_whereTrue (mask : List (List Bool)) (i j : Nat) :
    (i, j) ∈ whereTrue mask ↔ ∃ row, mask[i]? = some row ∧ row[j]? = some true := by
  unfold whereTrue
  rw [List.mem_flatMap]
  constructor
  · rintro ⟨⟨row, i'⟩, h1, h2⟩
    simp only [List.mem_map, List.mem_filter] at h2
    obtain ⟨⟨v, j'⟩, ⟨h3, h4⟩, h5⟩ := h2
    injection h5 with h5 h6
    subst h5 h6
    rw [List.mem_zipIdx_iff_getElem?] at h1 h3
    dsimp only at h4
    subst h4
    exact ⟨row, h1, h3⟩
  · rintro ⟨row, h1, h2⟩
    refine ⟨(row, i), ?_, ?_⟩
    · rw [List.mem_zipIdx_iff_getElem?]
      exact h1
    · simp only [List.mem_map, List.mem_filter]
      exact ⟨(true, j), ⟨by rw [List.mem_zipIdx_iff_getElem?]; exact h2, rfl⟩, rfl⟩

end boxes

section nullterms
variable {K : Type} [Field K] [LinearOrder K] [IsStrictOrderedRing K]

/-- neither NaN nor zero -/
def counts (x : Fl K) : Bool := decide (x ≠ Fl.nan) && decide (x ≠ Fl.fin 0)

theorem nansum_counts (l : List (Fl K)) : nansum l = fsum (l.filter counts) := by
  unfold nansum fsum
  generalize (PyFloat.ofInt 0 : Fl K) = c
  induction l generalizing c with
  | nil => rfl
  | cons x l ih =>
    by_cases hn : x = Fl.nan
    · subst hn
      rw [List.filter_cons_of_neg (by simp), List.filter_cons_of_neg (by simp [counts])]
      exact ih c
    · have hn' : isNaN x = false := by cases x <;> first | rfl | exact absurd rfl hn
      rw [List.filter_cons_of_pos (by simp [hn']), List.foldl_cons, ih]
      by_cases h0 : x = Fl.fin 0
      · subst h0
        rw [List.filter_cons_of_neg (by simp [counts])]
        have : c +ᶠ Fl.fin 0 = c := by
          cases c with
          | fin y => simp
          | _ => rfl
        rw [this]
      · rw [List.filter_cons_of_pos (by simp [counts, hn, h0]), List.foldl_cons]

theorem counts_mul (v w : Fl K) (hw : (w <ᶠ Fl.fin 0) = false) (h : counts (v *ᶠ w) = true) :
    (Fl.fin 0 <ᶠ w) = true := by
  cases w with
  | nan => simp [counts] at h
  | pinf => rfl
  | ninf => exact absurd hw (by simp [PyFloat.lt, Fl.lt])
  | fin y =>
    rw [Fl.pf_lt_fin] at hw ⊢
    simp only [decide_eq_false_iff_not, not_lt, decide_eq_true_eq] at hw ⊢
    rcases lt_or_eq_of_le hw with h' | h'
    · exact h'
    · subst h'
      exfalso
      cases v with
      | fin x => simp [counts] at h
      | nan => simp [counts] at h
      | pinf => simp [counts, PyFloat.mul, Fl.mul, Fl.infSign] at h
      | ninf => simp [counts, PyFloat.mul, Fl.mul, Fl.infSign] at h

/-- the sum over the bounding box of the positive weights is the sum over the grid -/
theorem box_sum (weights v : List (List (Fl K)))
    (hw : ∀ row ∈ weights, ∀ w ∈ row, (w <ᶠ Fl.fin 0) = false) (x0 x1 y0 y1 : Nat)
    (hbox : ∀ i j row w, weights[i]? = some row → row[j]? = some w → (Fl.fin 0 <ᶠ w) = true →
      (x0 ≤ j ∧ j ≤ x1) ∧ (y0 ≤ i ∧ i ≤ y1)) :
    nansum ((List.zipWith (fun vr wr => List.zipWith (fun v w => v *ᶠ w) vr wr)
      ((slice v y0 (y1 + 1)).map fun row => slice row x0 (x1 + 1))
      ((slice weights y0 (y1 + 1)).map fun row => slice row x0 (x1 + 1))).flatten) =
    nansum ((List.zipWith (fun vr wr => List.zipWith (fun v w => v *ᶠ w) vr wr) v weights).flatten) := by
  have e : ∀ (a b : List (List (Fl K))), List.zipWith (fun vr wr => List.zipWith (fun v w => v *ᶠ w) vr wr) a b =
      List.zipWith (List.zipWith fun v w => v *ᶠ w) a b := fun a b => rfl
  rw [e, e, zipWith_map_slice, slice_zipWith, nansum_counts, nansum_counts, List.filter_flatten,
    List.filter_flatten, List.map_map]
  have hpos : ∀ i j r x, (List.zipWith (List.zipWith fun v w => v *ᶠ w) v weights)[i]? = some r → r[j]? = some x →
      counts x = true → (x0 ≤ j ∧ j ≤ x1) ∧ (y0 ≤ i ∧ i ≤ y1) := by
    intro i j r x hr hx hc
    rw [List.getElem?_zipWith] at hr
    split at hr
    · rename_i vr wr hv hwr
      injection hr with hr
      subst hr
      rw [List.getElem?_zipWith] at hx
      split at hx
      · rename_i a b ha hb
        injection hx with hx
        subst hx
        exact hbox i j wr b hwr hb (counts_mul a b
          (hw wr (List.mem_of_getElem? hwr) b (List.mem_of_getElem? hb)) hc)
      · cases hx
    · cases hr
  have hrow : ∀ l : List (List (Fl K)), l.map (fun r => (slice r x0 (x1 + 1)).filter counts) =
      l.map (List.filter counts ∘ fun r => slice r x0 (x1 + 1)) := fun l => rfl
  rw [← hrow]
  have hmap : (slice (List.zipWith (List.zipWith fun v w => v *ᶠ w) v weights) y0 (y1 + 1)).map
      (fun r => (slice r x0 (x1 + 1)).filter counts) =
      slice ((List.zipWith (List.zipWith fun v w => v *ᶠ w) v weights).map (List.filter counts)) y0 (y1 + 1) := by
    have : (List.zipWith (List.zipWith fun v w => v *ᶠ w) v weights).map
        (fun r => (slice r x0 (x1 + 1)).filter counts) =
        (List.zipWith (List.zipWith fun v w => v *ᶠ w) v weights).map (List.filter counts) := by
      apply List.map_congr_left
      intro r hr
      obtain ⟨i, hi⟩ := List.mem_iff_getElem?.mp hr
      apply slice_filter
      intro j x hx hc
      have := (hpos i j r x hi hx hc).1
      omega
    rw [← this]
    unfold slice
    rw [List.map_drop, List.map_take]
  rw [hmap, slice_flatten]
  intro i r hi hne
  rw [List.getElem?_map, Option.map_eq_some_iff] at hi
  obtain ⟨r', hr', rfl⟩ := hi
  obtain ⟨x, hx⟩ := List.exists_mem_of_ne_nil _ hne
  obtain ⟨hx1, hx2⟩ := List.mem_filter.mp hx
  obtain ⟨j, hj⟩ := List.mem_iff_getElem?.mp hx1
  have := (hpos i j r' x hr' hj hx2).2
  omega

end nullterms

end Verif.Validator

namespace Verif.Props
open Verif Verif.Validator

variable {K : Type} [Field K] [LinearOrder K] [IsStrictOrderedRing K]

/-- **C62** For weights none of which is negative, and at least one positive, the weighted sum over the bounding box is the
weighted sum over the whole grid (NaN terms skipped), for every time strictly between start and end, in order. Values
and weights may be NaN or infinite. -/
theorem C62_full_grid (weights : List (List (Fl K))) (times : List Int) (values : List (List (List (Fl K))))
    (tStart tStop : Int) (hw : ∀ row ∈ weights, ∀ w ∈ row, (w <ᶠ Fl.fin 0) = false)
    (hpos : ∃ row ∈ weights, ∃ w ∈ row, (Fl.fin 0 <ᶠ w) = true) :
    getTimeSeries weights times values tStart tStop =
      .ok (((times.zip values).filter fun p => decide (tStart < p.1 ∧ p.1 < tStop)).map fun p =>
        (p.1, fsum (((List.zipWith (List.zipWith fun v w => v *ᶠ w) p.2 weights).flatten).filter
          fun x => decide (x ≠ Fl.nan)))) := by
  obtain ⟨row, hrow, w, hwr, hw0⟩ := hpos
  obtain ⟨i, hi⟩ := List.mem_iff_getElem?.mp hrow
  obtain ⟨j, hj⟩ := List.mem_iff_getElem?.mp hwr
  have hmem : ∀ i j row w, weights[i]? = some row → row[j]? = some w → (Fl.fin 0 <ᶠ w) = true →
      (i, j) ∈ whereTrue (weights.map fun row => row.map fun w => PyFloat.ofInt 0 <ᶠ w) := by
    intro i j row w hi hj h
    rw [mem_whereTrue]
    refine ⟨row.map fun w => PyFloat.ofInt 0 <ᶠ w, ?_, ?_⟩
    · rw [List.getElem?_map, hi]; rfl
    · rw [List.getElem?_map, hj, Option.map_some, Fl.pf_ofInt, Int.cast_zero, h]
  unfold getTimeSeries
  dsimp only
  generalize hix : whereTrue (weights.map fun row => row.map fun w => PyFloat.ofInt 0 <ᶠ w) = ix at *
  have hne : ix ≠ [] := List.ne_nil_of_mem (hmem i j row w hi hj hw0)
  cases hbx : bounds (ix.map Prod.snd) with
  | none =>
    rw [bounds_none, List.map_eq_nil_iff] at hbx
    exact absurd hbx hne
  | some bx =>
    cases hby : bounds (ix.map Prod.fst) with
    | none =>
      rw [bounds_none, List.map_eq_nil_iff] at hby
      exact absurd hby hne
    | some b =>
      obtain ⟨x0, x1⟩ := bx
      obtain ⟨y0, y1⟩ := b
      dsimp only
      have hf : (fun p : Int × List (List (Fl K)) => decide (tStart < p.1) && decide (p.1 < tStop)) =
          fun p => decide (tStart < p.1 ∧ p.1 < tStop) := by
        funext p
        rw [Bool.decide_and]
      rw [hf]
      congr 1
      apply List.map_congr_left
      intro p _
      rw [box_sum weights p.2 hw]
      · unfold nansum
        congr 3
        funext x
        cases x <;> simp
      · intro i j row w hi hj h
        have hm := hmem i j row w hi hj h
        exact ⟨bounds_spec _ x0 x1 hbx j (List.mem_map_of_mem (f := Prod.snd) hm),
          bounds_spec _ y0 y1 hby i (List.mem_map_of_mem (f := Prod.fst) hm)⟩

/-- **C62** The same for finite values and weights as a double sum over the grid. -/
theorem C62_weighted_sum (ny nx : Nat) (w : Fin ny → Fin nx → K) (hw : ∀ i j, 0 ≤ w i j)
    (hpos : ∃ i j, 0 < w i j) (times : List Int) (v : List (Fin ny → Fin nx → K)) (tStart tStop : Int) :
    getTimeSeries (List.ofFn fun i => List.ofFn fun j => Fl.fin (w i j)) times
      (v.map fun g => List.ofFn fun i => List.ofFn fun j => Fl.fin (g i j)) tStart tStop =
    .ok (((times.zip v).filter fun p => decide (tStart < p.1 ∧ p.1 < tStop)).map fun p =>
      (p.1, Fl.fin (∑ i, ∑ j, p.2 i j * w i j))) := by
  rw [C62_full_grid]
  · rw [List.zip_map_right, List.filter_map, List.map_map]
    congr 1
    apply List.map_congr_left
    intro p _
    show (p.1, _) = (p.1, _)
    congr 1
    have hz : List.zipWith (List.zipWith fun v w : Fl K => v *ᶠ w)
        (List.ofFn fun i => List.ofFn fun j => Fl.fin (p.2 i j))
        (List.ofFn fun i => List.ofFn fun j => Fl.fin (w i j)) =
        List.ofFn fun i => List.ofFn fun j => Fl.fin (p.2 i j * w i j) := by
      apply List.ext_getElem
      · simp
      · intro i h1 h2
        simp only [List.getElem_zipWith, List.getElem_ofFn]
        apply List.ext_getElem
        · simp
        · intro j h3 h4
          simp
    show fsum ((List.zipWith (List.zipWith fun v w : Fl K => v *ᶠ w)
        (List.ofFn fun i => List.ofFn fun j => Fl.fin (p.2 i j))
        (List.ofFn fun i => List.ofFn fun j => Fl.fin (w i j))).flatten.filter _) = _
    rw [hz]
    have hfl : (List.ofFn fun i => List.ofFn fun j => Fl.fin (p.2 i j * w i j)).flatten =
        ((List.ofFn fun i => List.ofFn fun j => p.2 i j * w i j).flatten).map Fl.fin := by
      rw [List.map_flatten, List.map_ofFn]
      congr 2
      funext i
      exact (List.map_ofFn ..).symm
    rw [hfl, List.filter_eq_self.mpr, fsum_map_fin, List.sum_flatten, List.map_ofFn, List.sum_ofFn]
    · congr 1
      apply Finset.sum_congr rfl
      intro i _
      exact List.sum_ofFn
    · intro x hx
      obtain ⟨y, _, rfl⟩ := List.mem_map.mp hx
      simp
  · intro row hrow x hx
    obtain ⟨i, rfl⟩ := (List.mem_ofFn' _ _).mp hrow
    obtain ⟨j, rfl⟩ := (List.mem_ofFn' _ _).mp hx
    rw [Fl.pf_lt_fin]
    simpa using hw i j
  · obtain ⟨i, j, h⟩ := hpos
    refine ⟨_, (List.mem_ofFn' _ _).mpr ⟨i, rfl⟩, _, (List.mem_ofFn' _ _).mpr ⟨j, rfl⟩, ?_⟩
    rw [Fl.pf_lt_fin]
    simpa using h

/-- **C62** Without any positive weight the call raises, whatever the values. -/
theorem C62_no_weight (weights : List (List (Fl K))) (times : List Int) (values : List (List (List (Fl K))))
    (tStart tStop : Int) (h : ∀ row ∈ weights, ∀ w ∈ row, (Fl.fin 0 <ᶠ w) = false) :
    getTimeSeries weights times values tStart tStop = .error .valueError := by
  have hix : whereTrue (weights.map fun row => row.map fun w => PyFloat.ofInt 0 <ᶠ w) = [] := by
    rw [List.eq_nil_iff_forall_not_mem]
    rintro ⟨i, j⟩ hm
    rw [mem_whereTrue] at hm
    obtain ⟨row, h1, h2⟩ := hm
    rw [List.getElem?_map, Option.map_eq_some_iff] at h1
    obtain ⟨row', h1, rfl⟩ := h1
    rw [List.getElem?_map, Option.map_eq_some_iff] at h2
    obtain ⟨w, h2, h3⟩ := h2
    rw [Fl.pf_ofInt, Int.cast_zero, h row' (List.mem_of_getElem? h1) w (List.mem_of_getElem? h2)] at h3
    cases h3
  unfold getTimeSeries
  dsimp only
  rw [hix]
  rfl

/-- **C74** `calc_wet_error_rates`: with `d` dry steps in the truth, of which `a` are classified wet, the false wet rate is
`a/d`, with `w` wet steps of which `b` are classified dry the missed wet rate is `b/w`; both are in [0, 1], and NaN if there
is no such step. NaN flags do not count. The deprecated `calc_wet_dry_error` returns the same two numbers in opposite
order. -/
theorem C74_rates (pairs : List (Fl K × Fl K)) :
    let d := pairs.countP fun p => decide (p.1 = Fl.fin 0)
    let a := pairs.countP fun p => decide (p.1 = Fl.fin 0 ∧ p.2 = Fl.fin 1)
    let w := pairs.countP fun p => decide (p.1 = Fl.fin 1)
    let b := pairs.countP fun p => decide (p.1 = Fl.fin 1 ∧ p.2 = Fl.fin 0)
    let r : Fl K × Fl K := Stats.calcWetErrorRates (pairs.map Prod.fst) (pairs.map Prod.snd)
    (d ≠ 0 → r.1 = Fl.fin ((a : K) / d) ∧ (0 : K) ≤ a / d ∧ (a / d : K) ≤ 1) ∧ (d = 0 → r.1 = Fl.nan) ∧
    (w ≠ 0 → r.2 = Fl.fin ((b : K) / w) ∧ (0 : K) ≤ b / w ∧ (b / w : K) ≤ 1) ∧ (w = 0 → r.2 = Fl.nan) ∧
    calcWetDryError (pairs.map Prod.fst) (pairs.map Prod.snd) = (r.2, r.1) := by
  have hT : ∀ x : Fl K, Stats.isTrue x = decide (x = Fl.fin 1) := by
    intro x
    unfold Stats.isTrue
    rw [Fl.pf_ofInt, Int.cast_one]
    cases x <;> simp [PyFloat.eq, Fl.eq]
  have hF : ∀ x : Fl K, Stats.isFalse x = decide (x = Fl.fin 0) := by
    intro x
    unfold Stats.isFalse
    rw [Fl.pf_ofInt, Int.cast_zero]
    cases x <;> simp [PyFloat.eq, Fl.eq]
  have hcount : ∀ f : Fl K → Bool, Stats.bsum ((pairs.map Prod.fst).map f) = pairs.countP fun p => f p.1 := by
    intro f
    unfold Stats.bsum
    rw [List.map_map, List.count_eq_countP, List.countP_map]
    congr 1
    funext p
    simp
  have hcount2 : ∀ f g : Fl K → Bool, Stats.bsum (Stats.band ((pairs.map Prod.fst).map f) ((pairs.map Prod.snd).map g)) =
      pairs.countP fun p => f p.1 && g p.2 := by
    intro f g
    unfold Stats.bsum Stats.band
    have : List.zipWith (· && ·) ((pairs.map Prod.fst).map f) ((pairs.map Prod.snd).map g) =
        pairs.map fun p => f p.1 && g p.2 := by
      clear hcount
      induction pairs with
      | nil => rfl
      | cons p ps ih => simp only [List.map_cons, List.zipWith_cons_cons, ih]
    rw [this, List.count_eq_countP, List.countP_map]
    congr 1
    funext p
    simp
  have hdiv : ∀ n m : Nat, n ≤ m → (m ≠ 0 → (Stats.divNat n m : Fl K) = Fl.fin ((n : K) / m) ∧
      (0 : K) ≤ (n : K) / m ∧ ((n : K) / m) ≤ 1) ∧ (m = 0 → (Stats.divNat n m : Fl K) = Fl.nan) := by
    intro n m hnm
    constructor
    · intro hm
      have hm' : (0 : K) < m := by exact_mod_cast Nat.pos_of_ne_zero hm
      refine ⟨?_, by positivity, ?_⟩
      · unfold Stats.divNat
        rw [Fl.pf_ofInt, Fl.pf_ofInt, Fl.pf_div_fin_ne]
        · simp
        · simpa using hm'.ne'
      · rw [div_le_one hm']
        exact_mod_cast hnm
    · intro hm
      subst hm
      have : n = 0 := by omega
      subst this
      unfold Stats.divNat
      rw [Fl.pf_ofInt]
      simp [PyFloat.div, Fl.div, Fl.infSign]
  have e1 : Stats.bsum (Stats.band ((pairs.map Prod.fst).map Stats.isFalse) ((pairs.map Prod.snd).map Stats.isTrue)) =
      pairs.countP fun p => decide (p.1 = Fl.fin 0 ∧ p.2 = Fl.fin 1) := by
    rw [hcount2]
    congr 1
    funext p
    rw [hT, hF, Bool.decide_and]
  have e2 : Stats.bsum (Stats.band ((pairs.map Prod.fst).map Stats.isTrue) ((pairs.map Prod.snd).map Stats.isFalse)) =
      pairs.countP fun p => decide (p.1 = Fl.fin 1 ∧ p.2 = Fl.fin 0) := by
    rw [hcount2]
    congr 1
    funext p
    rw [hT, hF, Bool.decide_and]
  have e3 : Stats.bsum ((pairs.map Prod.fst).map Stats.isFalse) = pairs.countP fun p => decide (p.1 = Fl.fin 0) := by
    rw [hcount]
    congr 1
    funext p
    rw [hF]
  have e4 : Stats.bsum ((pairs.map Prod.fst).map Stats.isTrue) = pairs.countP fun p => decide (p.1 = Fl.fin 1) := by
    rw [hcount]
    congr 1
    funext p
    rw [hT]
  intro d a w b r
  have had : a ≤ d := by
    apply List.countP_mono_left
    intro p _ h
    simp only [decide_eq_true_eq] at h ⊢
    exact h.1
  have hbw : b ≤ w := by
    apply List.countP_mono_left
    intro p _ h
    simp only [decide_eq_true_eq] at h ⊢
    exact h.1
  have hr1 : r.1 = Stats.divNat a d := by
    show Stats.divNat _ _ = _
    rw [e1, e3]
  have hr2 : r.2 = Stats.divNat b w := by
    show Stats.divNat _ _ = _
    rw [e2, e4]
  rw [hr1, hr2]
  refine ⟨(hdiv a d had).1, (hdiv a d had).2, (hdiv b w hbw).1, (hdiv b w hbw).2, ?_⟩
  unfold calcWetDryError
  dsimp only
  rw [e1, e2, e3, e4]

/-! ## Examples -/

section examples

-- positive weights in columns 1 and 2 only; a NaN value is skipped, an infinite value without weight does not matter
example : getTimeSeries ([[.fin 0, .fin 1, .fin 0], [.fin 0, .fin 0, .fin 2]] : List (List (Fl ℚ))) [0, 1, 2]
    [[[.fin 1, .fin 1, .fin 1], [.fin 1, .fin 1, .fin 1]],
     [[.pinf, .fin 5, .fin 7], [.pinf, .fin 9, .fin 11]],
     [[.fin 1, .nan, .fin 1], [.fin 1, .fin 1, .fin 3]]] 0 3 = .ok [(1, .fin 27), (2, .fin 6)] := by decide +kernel

example : getTimeSeries ([[.fin 0, .nan]] : List (List (Fl ℚ))) [0] [[[.fin 1, .fin 1]]] 0 3 = .error .valueError := by
  decide +kernel

-- with a negative weight outside the box the sums would differ
example : getTimeSeries ([[.fin (-1), .fin 1]] : List (List (Fl ℚ))) [1] [[[.fin 1, .fin 1]]] 0 3 =
    .ok [(1, .fin 1)] := by decide +kernel

example : (Stats.calcWetErrorRates ([.fin 0, .fin 0, .fin 1, .nan] : List (Fl ℚ)) [.fin 1, .fin 0, .fin 1, .fin 0]) =
    (.fin (1/2), .fin 0) := by decide +kernel

end examples

end Verif.Props
