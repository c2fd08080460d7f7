import Verif.Model.Baseline
import Verif.Lemmas.FlList

/-! Helper lemmas about the loop of `baseline_constant`. -/

namespace Verif.Baseline
open Verif

variable {F : Type} [PyFloat F]

/-- The value the loop writes at index `i`. -/
def constVal (trsl : List F) (wet : List Bool) (n i : Nat) (b : List F) : F :=
  if rdB wet i && !rdB wet (prevIdx wet.length i) then npMean (slice b (i - n) i)
  else if rdB wet i && rdB wet (prevIdx wet.length i) then rd b (prevIdx b.length i)
  else rd trsl i

theorem constBody_eq (trsl : List F) (wet : List Bool) (n i : Nat) (b : List F) :
    constBody trsl wet n i b = b.set i (constVal trsl wet n i b) := by
  unfold constBody constVal isNaNBool
  split_ifs <;> simp_all

/-- The array after the iterations `n .. m-1`. -/
def constArr (trsl : List F) (wet : List Bool) (n m : Nat) : List F :=
  forRange n m (setSlice (trsl.map fun _ => PyFloat.ofInt 0) 0 (trsl.take n))
    (constBody trsl wet n)

theorem constLoop_eq (trsl : List F) (wet : List Bool) (n : Nat) :
    constLoop trsl wet n = constArr trsl wet n trsl.length := rfl

theorem constArr_length (trsl : List F) (wet : List Bool) (n m : Nat) :
    (constArr trsl wet n m).length = trsl.length := by
  unfold constArr
  have h0 : (setSlice (trsl.map fun _ => (PyFloat.ofInt 0 : F)) 0 (trsl.take n)).length
      = trsl.length := by
    rw [length_setSlice] <;> simp
  rcases Nat.le_total m n with hle | hle
  · rw [forRange_empty _ _ hle, h0]
  · refine forRange_induct (fun _ (b : List F) => b.length = trsl.length) hle h0 ?_
    intro i s _ _ hs
    rw [constBody_eq, List.length_set, hs]

theorem constArr_succ (trsl : List F) (wet : List Bool) {n m : Nat} (h : n ≤ m) :
    constArr trsl wet n (m + 1) =
      (constArr trsl wet n m).set m (constVal trsl wet n m (constArr trsl wet n m)) := by
  unfold constArr
  rw [forRange_succ _ _ h, constBody_eq]

theorem constArr_take (trsl : List F) (wet : List Bool) {n m m' : Nat} (h : n ≤ m)
    (h' : m ≤ m') :
    (constArr trsl wet n m').take m = (constArr trsl wet n m).take m := by
  induction m', h' using Nat.le_induction with
  | base => rfl
  | succ k hk ih =>
    rw [constArr_succ _ _ (by omega), ← ih]
    apply List.ext_getElem?
    intro j
    simp only [List.getElem?_take, List.getElem?_set]
    split_ifs <;> first | rfl | omega

theorem rd_eq_of_take_eq {xs ys : List F} {m j : Nat} (h : xs.take m = ys.take m) (hj : j < m) :
    rd xs j = rd ys j := by
  have h1 : (xs.take m)[j]? = (ys.take m)[j]? := by rw [h]
  rw [List.getElem?_take_of_lt hj, List.getElem?_take_of_lt hj] at h1
  simp [rd, List.getD_eq_getElem?_getD, h1]

theorem constVal_congr (trsl : List F) (wet : List Bool) {n i : Nat} {b b' : List F}
    (hi : 0 < i) (h : b.take i = b'.take i) :
    constVal trsl wet n i b = constVal trsl wet n i b' := by
  unfold constVal
  have h1 : slice b (i - n) i = slice b' (i - n) i := by unfold slice; rw [h]
  have h2 : rd b (prevIdx b.length i) = rd b' (prevIdx b'.length i) := by
    unfold prevIdx
    rw [if_neg (by omega), if_neg (by omega)]
    exact rd_eq_of_take_eq h (by omega)
  rw [h1, h2]

/-- The final baseline satisfies the recursion expressed in terms of itself. -/
theorem constLoop_rec (trsl : List F) (wet : List Bool) {n i : Nat} (hn : 1 ≤ n) (h : n ≤ i)
    (hi : i < trsl.length) :
    rd (constLoop trsl wet n) i = constVal trsl wet n i (constLoop trsl wet n) := by
  rw [constLoop_eq]
  have h1 : (constArr trsl wet n trsl.length).take (i+1) = (constArr trsl wet n (i+1)).take (i+1) :=
    constArr_take _ _ (by omega) (by omega)
  rw [rd_eq_of_take_eq h1 (by omega), constArr_succ _ _ h,
    rd_set_self _ (by rw [constArr_length]; exact hi)]
  apply constVal_congr _ _ (by omega)
  exact (constArr_take trsl wet h (by omega)).symm

theorem constLoop_init (trsl : List F) (wet : List Bool) {n i : Nat} (h : i < n)
    (hi : i < trsl.length) :
    rd (constLoop trsl wet n) i = rd trsl i := by
  rw [constLoop_eq]
  have h0 : rd (setSlice (trsl.map fun _ => (PyFloat.ofInt 0 : F)) 0 (trsl.take n)) i
      = rd trsl i := by
    apply rd_of_getElem?
    rw [getElem?_setSlice (by simp), if_pos (by simp; omega)]
    simp [List.getElem?_take_of_lt h, getElem?_eq_rd hi]
  rcases Nat.le_total trsl.length n with hle | hle
  · unfold constArr; rw [forRange_empty _ _ hle, h0]
  · have h1 : (constArr trsl wet n trsl.length).take n = (constArr trsl wet n n).take n :=
      constArr_take _ _ (by omega) hle
    rw [rd_eq_of_take_eq h1 h]
    unfold constArr; rw [forRange_empty _ _ (Nat.le_refl n), h0]

theorem constLoop_length (trsl : List F) (wet : List Bool) (n : Nat) :
    (constLoop trsl wet n).length = trsl.length := constArr_length _ _ _ _

end Verif.Baseline

namespace Verif.Baseline
open Verif

variable {F F' : Type} [PyFloat F] [PyFloat F']

theorem slice_length {α : Type} {xs : List α} {n i : Nat} (h : n ≤ i) (hi : i ≤ xs.length) :
    (slice xs (i - n) i).length = n := by
  simp [slice]; omega

theorem rd_slice {xs : List F} {a b j : Nat} (h : a + j < b) :
    rd (slice xs a b) j = rd xs (a + j) := by
  simp [rd, slice, List.getD_eq_getElem?_getD, List.getElem?_drop, List.getElem?_take_of_lt h]

/-- Two runs on related prefixes stay related. -/
theorem constLoop_rel (R : F → F' → Prop) {n m : Nat} (hn : 1 ≤ n)
    {trsl : List F} {trsl' : List F'} {wet wet' : List Bool}
    (hm : m ≤ trsl.length) (hm' : m ≤ trsl'.length)
    (hw : ∀ i, i < m → rdB wet i = rdB wet' i)
    (ht : ∀ i, i < m → R (rd trsl i) (rd trsl' i))
    (hmean : ∀ (l : List F) (l' : List F'), l.length = n → l'.length = n →
      (∀ j, j < n → R (rd l j) (rd l' j)) → R (npMean l) (npMean l')) :
    ∀ i, i < m → R (rd (constLoop trsl wet n) i) (rd (constLoop trsl' wet' n) i) := by
  intro i
  induction i using Nat.strong_induction_on with
  | _ i ih =>
    intro hi
    by_cases hin : i < n
    · rw [constLoop_init _ _ hin (by omega), constLoop_init _ _ hin (by omega)]
      exact ht i hi
    · rw [constLoop_rec _ _ hn (by omega) (by omega), constLoop_rec _ _ hn (by omega) (by omega)]
      unfold constVal prevIdx
      rw [if_neg (by omega : ¬ i = 0), if_neg (by omega : ¬ i = 0), if_neg (by omega : ¬ i = 0),
        if_neg (by omega : ¬ i = 0), hw i hi, hw (i-1) (by omega)]
      split_ifs
      · apply hmean
        · exact slice_length (by omega) (by rw [constLoop_length]; omega)
        · exact slice_length (by omega) (by rw [constLoop_length]; omega)
        · intro j hj
          rw [rd_slice (by omega), rd_slice (by omega)]
          exact ih _ (by omega) (by omega)
      · exact ih _ (by omega) (by omega)
      · exact ht i hi


end Verif.Baseline
