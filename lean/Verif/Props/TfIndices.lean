import Verif.Props.TfInference

/-!
# Property C53, negative time indices
-/

namespace Verif.Props
open Verif Verif.Tf

variable {ι F : Type}

/-- **C53** Negative time indices down to minus the number of steps count from the end: they wrap around to late steps instead of being
dropped. -/
theorem C53_store_wraps [DecidableEq ι] [PyFloat F] (allIds : List ι) (n : Nat) (prob : List F) (ids : List ι) (tIdx : List Int)
    (use : Option (List ι)) (h : ∀ i ∈ tIdx, -(n : Int) ≤ i) :
    storePredictions allIds n prob ids tIdx use =
      storePredictions allIds n prob ids ((tIdx.map fun i => (if i < 0 then i + n else i : Int).toNat).map Int.ofNat) use := by
  unfold storePredictions
  simp only [List.length_map]
  split_ifs with hl
  · rfl
  have hE : ids.zip (((tIdx.map fun i => (if i < 0 then i + n else i : Int).toNat).map Int.ofNat).zip prob) =
      (ids.zip (tIdx.zip prob)).map fun e => (e.1, (((if e.2.1 < 0 then e.2.1 + n else e.2.1 : Int).toNat : ℕ) : Int), e.2.2) := by
    rw [List.map_map, List.zip_map_left, List.zip_map_right]
    rfl
  rw [hE]
  have hi : ∀ e ∈ ids.zip (tIdx.zip prob), -(n : Int) ≤ e.2.1 := fun e he => h _ (List.of_mem_zip (List.of_mem_zip he).2).1
  generalize ids.zip (tIdx.zip prob) = E at hi
  have key : ∀ g cml, storeOne allIds n E g cml =
      storeOne allIds n (E.map fun e => (e.1, (((if e.2.1 < 0 then e.2.1 + n else e.2.1 : Int).toNat : ℕ) : Int), e.2.2)) g cml := by
    intro g cml
    unfold storeOne
    simp only [List.filter_map, List.length_map, List.map_map]
    have e1 : ((fun e : ι × Int × F => decide (e.1 = cml)) ∘
        fun e : ι × Int × F => (e.1, (((if e.2.1 < 0 then e.2.1 + n else e.2.1 : Int).toNat : ℕ) : Int), e.2.2)) = fun e => decide (e.1 = cml) := rfl
    rw [e1]
    by_cases h0 : (E.filter fun e => decide (e.1 = cml)).length = 0
    · rw [if_pos h0, if_pos h0]
    rw [if_neg h0, if_neg h0]
    cases allIds.findIdx? (fun i => decide (i = cml)) with
    | none => rfl
    | some c =>
      dsimp only
      have hm : ∀ e ∈ E.filter (fun e => decide (e.1 = cml)), -(n : Int) ≤ e.2.1 := fun e he => hi e (List.mem_filter.mp he).1
      generalize E.filter (fun e => decide (e.1 = cml)) = m at hm
      have a1 : ∀ e ∈ m, ((fun e : Int × F => decide (e.1 < (n : Int))) ∘ Prod.snd) e = ((fun e : Int × F => decide (e.1 < (n : Int))) ∘
          (Prod.snd ∘ fun e : ι × Int × F => (e.1, (((if e.2.1 < 0 then e.2.1 + n else e.2.1 : Int).toNat : ℕ) : Int), e.2.2))) e := by
        intro e he
        have := hm e he
        simp only [Function.comp_apply, decide_eq_decide]
        split_ifs <;> omega
      rw [List.filter_congr a1]
      generalize hv : m.filter _ = v
      have hvm : ∀ e ∈ v, -(n : Int) ≤ e.2.1 := by
        intro e he
        rw [← hv] at he
        exact hm e (List.mem_filter.mp he).1
      rw [if_neg, if_neg]
      · congr 1
        rw [List.foldl_map, List.foldl_map]
        refine List.foldl_ext _ _ _ fun g e he => ?_
        have := hvm e he
        unfold storeCell
        simp only [Function.comp_apply]
        congr 1
      · simp only [List.any_map, List.any_eq_true, Function.comp_apply, decide_eq_true_eq, not_exists, not_and]
        intro e _
        omega
      · simp only [List.any_map, List.any_eq_true, Function.comp_apply, decide_eq_true_eq, not_exists, not_and]
        intro e he
        have := hvm e he
        omega
  congr 1
  funext g cml
  exact key g cml

/-- **C53** A time index below minus the number of steps, for a link of the dataset that is to be used, raises `IndexError`. -/
theorem C53_store_index_error [DecidableEq ι] [PyFloat F] (allIds : List ι) (n : Nat) (prob : List F) (ids : List ι) (tIdx : List Int)
    (use : Option (List ι)) (h1 : prob.length = ids.length) (h2 : prob.length = tIdx.length)
    (h : ∃ (k : ℕ) (x : ι) (i : Int), ids[k]? = some x ∧ tIdx[k]? = some i ∧ x ∈ allIds ∧ x ∈ use.getD ids ∧ i < -(n : Int)) :
    storePredictions allIds n prob ids tIdx use = .error .indexError := by
  obtain ⟨k, x, i, k1, k2, hx, hu, hi⟩ := h
  unfold storePredictions
  rw [if_neg (by omega)]
  have hk : k < prob.length := by rw [h1]; exact (List.getElem?_eq_some_iff.mp k1).1
  have hmem : (x, i, prob[k]) ∈ ids.zip (tIdx.zip prob) := by
    refine List.mem_of_getElem? (i := k) ?_
    rw [List.getElem?_zip_eq_some, List.getElem?_zip_eq_some]
    exact ⟨k1, k2, List.getElem?_eq_getElem hk⟩
  generalize ids.zip (tIdx.zip prob) = E at hmem
  have hu' : x ∈ use.getD ids.eraseDups := by
    cases use with
    | none => exact List.mem_eraseDups.mpr hu
    | some u => exact hu
  have hone : ∀ g, storeOne allIds n E g x = .error .indexError := by
    intro g
    unfold storeOne
    have hf : (x, i, prob[k]) ∈ E.filter fun e => decide (e.1 = x) := List.mem_filter.mpr ⟨hmem, by simp⟩
    dsimp only
    rw [if_neg (by
      intro h0
      rw [List.length_eq_zero_iff] at h0
      rw [h0] at hf
      cases hf)]
    cases hc : allIds.findIdx? (fun i => decide (i = x)) with
    | none =>
      rw [List.findIdx?_eq_none_iff] at hc
      simpa using hc x hx
    | some c =>
      dsimp only
      rw [if_pos]
      rw [List.any_eq_true]
      exact ⟨(i, prob[k]), List.mem_filter.mpr ⟨List.mem_map.mpr ⟨_, hf, rfl⟩, by simp; omega⟩, by simpa using hi⟩
  have hother : ∀ g cml, (∃ g', storeOne allIds n E g cml = .ok g') ∨ storeOne allIds n E g cml = .error .indexError := by
    intro g cml
    unfold storeOne
    dsimp only
    by_cases h0 : (E.filter fun e => decide (e.1 = cml)).length = 0
    · rw [if_pos h0]
      exact .inl ⟨_, rfl⟩
    · rw [if_neg h0]
      cases allIds.findIdx? (fun i => decide (i = cml)) with
      | none => exact .inl ⟨_, rfl⟩
      | some c =>
        dsimp only
        split_ifs
        · exact .inr rfl
        · exact .inl ⟨_, rfl⟩
  generalize List.replicate n (List.replicate allIds.length (PyFloat.nan : F)) = g
  generalize use.getD ids.eraseDups = U at hu'
  induction U generalizing g with
  | nil => cases hu'
  | cons u U ih =>
    rw [List.foldlM_cons]
    rcases hother g u with ⟨g', e⟩ | e
    · rw [e]
      rcases List.mem_cons.mp hu' with rfl | hm
      · rw [hone] at e
        cases e
      · exact ih g' hm
    · rw [e]
      rfl

/-- of two probabilities for one link of two steps, the second with time index -1: it is stored at the last step -/
example : storePredictions (F := Fl ℚ) ["a"] 2 [.fin (1 / 4), .fin (3 / 4)] ["a", "a"] [0, -1] none = .ok [[.fin (1 / 4)], [.fin (3 / 4)]] := by
  rw [C53_store_wraps _ _ _ _ _ _ (by simp)]
  rfl

/-- time index -3 with two steps -/
example : storePredictions (F := Fl ℚ) ["a"] 2 [.fin (1 / 4)] ["a"] [-3] none = .error .indexError :=
  C53_store_index_error _ _ _ _ _ _ rfl rfl ⟨0, "a", -3, rfl, rfl, by simp, by simp, by norm_num⟩

end Verif.Props
