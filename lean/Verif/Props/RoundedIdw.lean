import Verif.Props.RoundedRain
import Verif.Props.Idw

/-!
# Property C116: inverse distance weighting in floating point arithmetic
-/

namespace Verif.Props
open Verif Verif.Idw

/-- `s` is the sum of the numbers in `l`, added up in some order and with some bracketing (numpy and BLAS do not promise one). -/
inductive SumOf {F : Type} [PyFloat F] : List F → F → Prop
  | single (x : F) : SumOf [x] x
  | add {l m : List F} {x y : F} : SumOf l x → SumOf m y → SumOf (l ++ m) (x +ᶠ y)
  | perm {l m : List F} {x : F} : SumOf l x → l.Perm m → SumOf m x

/-- `np.sum` and `np.dot` compute sums in some order. -/
structure Adds {F : Type} [PyFloat F] (sum : List F → F) (dot : List F → List F → F) : Prop where
  sum : ∀ l, l ≠ [] → SumOf l (sum l)
  dot : ∀ w v, w.length = v.length → w ≠ [] → SumOf (List.zipWith (· *ᶠ ·) w v) (dot w v)

theorem SumOf.ne_nil {F : Type} [PyFloat F] {l : List F} {s : F} (h : SumOf l s) : l ≠ [] := by
  induction h with
  | single x => simp
  | add _ _ ih _ => simp [ih]
  | perm _ hp ih => intro e; subst e; exact ih hp.eq_nil

section rounded
variable {K : Type} [Field K] [LinearOrder K] [IsStrictOrderedRing K] {R : Rounding K}

theorem zero_add_rfl (x : RFl R) : (PyFloat.ofInt 0 : RFl R) +ᶠ x = x := by
  apply RFl.ext
  rw [RFl.val_add, RFl.val_zero]
  have : (Fl.fin (0 : K) +ᶠ x.val) = x.val := by
    cases x.val with
    | fin y => simp
    | _ => rfl
  rw [this]
  exact x.rep

/-- Adding in index order is one of the possible orders. -/
theorem sumOf_fsum (l : List (RFl R)) (h : l ≠ []) : SumOf l (fsum l) := by
  induction l using List.reverseRecOn with
  | nil => exact absurd rfl h
  | append_singleton l x ih =>
    have e : fsum (l ++ [x]) = fsum l +ᶠ x := by unfold fsum; rw [List.foldl_append]; rfl
    rw [e]
    by_cases hl : l = []
    · subst hl
      have : fsum ([] : List (RFl R)) = PyFloat.ofInt 0 := rfl
      rw [this, zero_add_rfl]
      exact .single x
    · exact .add (ih hl) (.single x)

theorem adds_fsum : Adds (F := RFl R) fsum (fun w v => fsum (List.zipWith (· *ᶠ ·) w v)) where
  sum := sumOf_fsum
  dot w v hl hw := sumOf_fsum _ (by
    cases w with
    | nil => exact absurd rfl hw
    | cons a w => cases v with
      | nil => simp at hl
      | cons b v => simp)

/-! ### Sign -/

/-- NaN or not negative -/
def NanOrNonneg (x : RFl R) : Prop := isNaN x = true ∨ (PyFloat.ofInt 0 : RFl R) ≤ᶠ x

theorem nonneg_iff_val {x : RFl R} : NanOrNonneg x ↔ x.val = .nan ∨ x.val = .pinf ∨ ∃ y, x.val = .fin y ∧ 0 ≤ y := by
  unfold NanOrNonneg
  rw [RFl.isNaN_def, RFl.le_def, RFl.val_zero]
  cases x.val with
  | nan => simp
  | ninf => simp; rfl
  | pinf => simp; rfl
  | fin y => simp

theorem nonneg_round {v : Fl K} (h : v = .nan ∨ v = .pinf ∨ ∃ y, v = .fin y ∧ 0 ≤ y) :
    R.round v = .nan ∨ R.round v = .pinf ∨ ∃ y, R.round v = .fin y ∧ 0 ≤ y := by
  rcases h with rfl | rfl | ⟨y, rfl, hy⟩
  · exact .inl rfl
  · exact .inr (.inl rfl)
  · right
    show R.rnd y = .pinf ∨ ∃ z, R.rnd y = .fin z ∧ 0 ≤ z
    have h0 := R.mono 0 y hy
    rw [R.zero] at h0
    have hn := R.not_nan y
    cases hr : R.rnd y with
    | nan => rw [hr] at hn; cases hn
    | ninf => rw [hr] at h0; cases h0
    | pinf => exact .inl rfl
    | fin z => rw [hr] at h0; exact .inr ⟨z, rfl, by simpa using h0⟩

theorem infSign_nonneg {a : K} (ha : 0 ≤ a) : Fl.infSign a = .nan ∨ Fl.infSign a = .pinf := by
  unfold Fl.infSign
  split_ifs <;> first | (left; rfl) | (right; rfl) | (exfalso; linarith)

theorem NanOrNonneg.add {x y : RFl R} (hx : NanOrNonneg x) (hy : NanOrNonneg y) : NanOrNonneg (x +ᶠ y) := by
  rw [nonneg_iff_val] at *
  rw [RFl.val_add]
  apply nonneg_round
  rcases hx with h | h | ⟨a, h, ha⟩ <;> rcases hy with h' | h' | ⟨b, h', hb⟩ <;> rw [h, h']
  · exact .inl rfl
  · exact .inl rfl
  · exact .inl rfl
  · exact .inl rfl
  · exact .inr (.inl rfl)
  · exact .inr (.inl rfl)
  · exact .inl rfl
  · exact .inr (.inl rfl)
  · exact .inr (.inr ⟨a + b, rfl, add_nonneg ha hb⟩)

theorem NanOrNonneg.mul {x y : RFl R} (hx : NanOrNonneg x) (hy : NanOrNonneg y) : NanOrNonneg (x *ᶠ y) := by
  rw [nonneg_iff_val] at *
  rw [RFl.val_mul]
  apply nonneg_round
  rcases hx with h | h | ⟨a, h, ha⟩ <;> rcases hy with h' | h' | ⟨b, h', hb⟩ <;> rw [h, h']
  · exact .inl rfl
  · exact .inl rfl
  · exact .inl rfl
  · exact .inl rfl
  · exact .inr (.inl rfl)
  · rw [Fl.pf_pinf_mul_fin]
    exact (infSign_nonneg hb).imp_right .inl
  · exact .inl rfl
  · rw [Fl.pf_fin_mul_pinf]
    exact (infSign_nonneg ha).imp_right .inl
  · exact .inr (.inr ⟨a * b, rfl, mul_nonneg ha hb⟩)

theorem NanOrNonneg.div {x y : RFl R} (hx : NanOrNonneg x) (hy : NanOrNonneg y) : NanOrNonneg (x /ᶠ y) := by
  rw [nonneg_iff_val] at *
  rw [RFl.val_div]
  apply nonneg_round
  rcases hx with h | h | ⟨a, h, ha⟩ <;> rcases hy with h' | h' | ⟨b, h', hb⟩ <;> rw [h, h']
  · exact .inl rfl
  · exact .inl rfl
  · exact .inl rfl
  · exact .inl rfl
  · exact .inl rfl
  · right; left
    show (if b < 0 then Fl.ninf else Fl.pinf : Fl K) = _
    rw [if_neg (not_lt.mpr hb)]
  · exact .inl rfl
  · exact .inr (.inr ⟨0, rfl, le_rfl⟩)
  · by_cases hb0 : b = 0
    · subst hb0
      rw [Fl.pf_div_fin, if_pos rfl]
      exact (infSign_nonneg ha).imp_right .inl
    · rw [Fl.pf_div_fin_ne _ _ hb0]
      exact .inr (.inr ⟨a / b, rfl, div_nonneg ha hb⟩)

theorem SumOf.nonneg {l : List (RFl R)} {s : RFl R} (h : SumOf l s) (hl : ∀ x ∈ l, NanOrNonneg x) : NanOrNonneg s := by
  induction h with
  | single x => exact hl x (by simp)
  | add _ _ ih1 ih2 =>
    exact (ih1 fun x hx => hl x (by simp [hx])).add (ih2 fun x hx => hl x (by simp [hx]))
  | perm _ hp ih => exact ih fun x hx => hl x (hp.subset hx)

/-- **C116** In floating point arithmetic, too, and in whatever order numpy adds: data that are not negative give interpolated
values that are NaN or not negative. -/
theorem C116_nonneg [PyPow (RFl R)] [PowLaws (RFl R)] {sum : List (RFl R) → RFl R} {dot : List (RFl R) → List (RFl R) → RFl R}
    (ha : Adds sum dot) (tiny p : RFl R) (z : List (RFl R)) (nb : List (RFl R × Nat))
    (hp : (PyFloat.ofInt 0 : RFl R) <ᶠ p) (hd : ∀ e ∈ nb, (PyFloat.ofInt 0 : RFl R) ≤ᶠ e.1)
    (hz : ∀ x ∈ z, (PyFloat.ofInt 0 : RFl R) ≤ᶠ x) :
    isNaN (idwVal sum dot tiny z p nb) = true ∨ (PyFloat.ofInt 0 : RFl R) ≤ᶠ idwVal sum dot tiny z p nb := by
  have hrd : ∀ i, i < z.length → NanOrNonneg (rd z i) := fun i hi =>
    .inr (hz _ (List.mem_of_getElem? (getElem?_eq_rd hi)))
  have hmem : ∀ e ∈ nb.filter (fun e => decide (e.2 < z.length)), e ∈ nb ∧ e.2 < z.length := by
    intro e he
    have := List.mem_filter.mp he
    exact ⟨this.1, by simpa using this.2⟩
  unfold idwVal
  dsimp only
  cases hu : nb.filter (fun e => decide (e.2 < z.length)) with
  | nil => exact .inl LawfulPyFloat.isNaN_nan
  | cons e es =>
    rw [hu] at hmem
    dsimp only
    by_cases ht : (e.1 <ᶠ tiny) = true
    · rw [if_pos ht]
      exact hrd _ (hmem e (by simp)).2
    · rw [if_neg ht]
      have hw : ∀ x ∈ (e :: es).map (fun e => (PyFloat.ofInt 1 : RFl R) /ᶠ PyPow.pow e.1 p), NanOrNonneg x := by
        intro x hx
        obtain ⟨f, hf, rfl⟩ := List.mem_map.mp hx
        refine NanOrNonneg.div (.inr (OrderedPyFloat.ofInt_mono 0 1 (by norm_num))) (.inr ?_)
        exact PowLaws.nonneg _ _ (hd f (hmem f hf).1) hp
      have hs := (ha.sum _ (show (e :: es).map (fun e => (PyFloat.ofInt 1 : RFl R) /ᶠ PyPow.pow e.1 p) ≠ [] by simp)).nonneg hw
      refine (ha.dot _ _ (by simp) (by simp)).nonneg fun x hx => ?_
      rw [List.zipWith_map, List.zipWith_map_left, List.zipWith_self] at hx
      obtain ⟨f, hf, rfl⟩ := List.mem_map.mp hx
      refine NanOrNonneg.mul (NanOrNonneg.div (hw _ (List.mem_map.mpr ⟨f, hf, rfl⟩)) hs) (hrd _ (hmem f hf).2)

/-! ### Overflow -/

theorem SumOf.isNaN {l : List (RFl R)} {s : RFl R} (h : SumOf l s) (hl : ∃ x ∈ l, PyFloat.isNaN x = true) :
    PyFloat.isNaN s = true := by
  induction h with
  | single x => obtain ⟨y, hy, h⟩ := hl; rw [List.mem_singleton] at hy; rwa [hy] at h
  | perm _ hp ih => obtain ⟨y, hy, h⟩ := hl; exact ih ⟨y, hp.symm.subset hy, h⟩
  | add _ _ ih1 ih2 =>
    obtain ⟨y, hy, h⟩ := hl
    rcases List.mem_append.mp hy with hy | hy
    · exact LawfulPyFloat.add_nan _ _ (by rw [Bool.or_eq_true]; exact .inl (ih1 ⟨y, hy, h⟩))
    · exact LawfulPyFloat.add_nan _ _ (by rw [Bool.or_eq_true]; exact .inr (ih2 ⟨y, hy, h⟩))

theorem SumOf.zero {l : List (RFl R)} {s : RFl R} (h : SumOf l s) (hl : ∀ x ∈ l, x = PyFloat.ofInt 0) : s = PyFloat.ofInt 0 := by
  induction h with
  | single x => exact hl x (by simp)
  | perm _ hp ih => exact ih fun x hx => hl x (hp.subset hx)
  | add _ _ ih1 ih2 =>
    rw [ih1 fun x hx => hl x (by simp [hx]), ih2 fun x hx => hl x (by simp [hx]), zero_add_rfl]

/-- **C116** Where C46 fails in floating point: if the power `d^p` overflows for all neighbours, the interpolated value is NaN,
although there are neighbours with data. -/
theorem C116_overflow [PyPow (RFl R)] {sum : List (RFl R) → RFl R} {dot : List (RFl R) → List (RFl R) → RFl R}
    (ha : Adds sum dot) (tiny p : RFl R) (z : List (RFl R)) (nb : List (RFl R × Nat))
    (hin : ∀ e ∈ nb, (e.1 <ᶠ tiny) = false) (hover : ∀ e ∈ nb, (PyPow.pow e.1 p).val = .pinf) :
    isNaN (idwVal sum dot tiny z p nb) = true := by
  unfold idwVal
  dsimp only
  have hmem : ∀ e ∈ nb.filter (fun e => decide (e.2 < z.length)), e ∈ nb := fun e he => (List.mem_filter.mp he).1
  cases hu : nb.filter (fun e => decide (e.2 < z.length)) with
  | nil => exact LawfulPyFloat.isNaN_nan
  | cons e es =>
    rw [hu] at hmem
    dsimp only
    rw [if_neg (by rw [hin e (hmem e (by simp))]; exact Bool.false_ne_true)]
    have hw : ∀ x ∈ (e :: es).map (fun e => (PyFloat.ofInt 1 : RFl R) /ᶠ PyPow.pow e.1 p), x = PyFloat.ofInt 0 := by
      intro x hx
      obtain ⟨f, hf, rfl⟩ := List.mem_map.mp hx
      apply RFl.ext
      rw [RFl.val_div, RFl.val_one, hover f (hmem f hf), RFl.val_zero]
      exact R.zero
    have hs := (ha.sum _ (show (e :: es).map (fun e => (PyFloat.ofInt 1 : RFl R) /ᶠ PyPow.pow e.1 p) ≠ [] by simp)).zero hw
    rw [hs]
    refine (ha.dot _ _ (by simp) (by simp)).isNaN ?_
    rw [List.map_cons, List.map_cons, List.map_cons, List.zipWith_cons_cons,
      hw (PyFloat.ofInt 1 /ᶠ PyPow.pow e.1 p) (by simp)]
    refine ⟨_, List.mem_cons_self, ?_⟩
    have h00 : ((PyFloat.ofInt 0 : RFl R) /ᶠ PyFloat.ofInt 0) = PyFloat.nan := by
      apply RFl.ext
      rw [RFl.val_div, RFl.val_zero, Fl.pf_div_fin, if_pos rfl]
      simp [Fl.infSign]
      rfl
    rw [h00, RFl.isNaN_def, RFl.val_mul, RFl.val_nan]
    simp
    rfl

/-! ### Accuracy -/

/-- the value of a float that is a number -/
def numOf (x : RFl R) : K :=
  match x.val with
  | .fin y => y
  | _ => 0

theorem numOf_fin {x : RFl R} {y : K} (h : x.val = .fin y) : numOf x = y := by
  unfold numOf; rw [h]

/-- sum of the absolute values -/
def absSum (l : List (RFl R)) : K := (l.map fun x => |numOf x|).sum

theorem absSum_nonneg (l : List (RFl R)) : 0 ≤ absSum l := List.sum_nonneg (by simp)

theorem abs_sum_le_absSum (l : List (RFl R)) : |(l.map numOf).sum| ≤ absSum l := by
  have := abs_list_sum_le (l.map numOf)
  rwa [List.map_map] at this

/-- Rounded summation in any order: relative error `(1+u)^(n-1) - 1` with respect to the sum of the absolute values. -/
theorem SumOf.error {u eta big imax : K} (hR : R.Precision u eta big imax) {l : List (RFl R)} {s : RFl R} (h : SumOf l s)
    (hl : ∀ x ∈ l, x.val = .fin (numOf x)) (hbig : (1 + u) ^ l.length * absSum l ≤ big) :
    s.val = .fin (numOf s) ∧ |numOf s - (l.map numOf).sum| ≤ ((1 + u) ^ (l.length - 1) - 1) * absSum l := by
  have hu := hR.u_nonneg
  have hu1 : (1 : K) ≤ 1 + u := by linarith
  induction h with
  | single x => exact ⟨hl x (by simp), by simp⟩
  | perm h hp ih =>
    rename_i l m s
    have e1 : absSum l = absSum m := (hp.map _).sum_eq
    have e2 : (l.map numOf).sum = (m.map numOf).sum := (hp.map _).sum_eq
    rw [← e1, ← hp.length_eq, ← e2]
    exact ih (fun x hx => hl x (hp.subset hx)) (by rw [e1, hp.length_eq]; exact hbig)
  | add h1 h2 ih1 ih2 =>
    rename_i l m x y
    have e1 : absSum (l ++ m) = absSum l + absSum m := by simp [absSum]
    have e2 : ((l ++ m).map numOf).sum = (l.map numOf).sum + (m.map numOf).sum := by simp
    have hn1 : 1 ≤ l.length := List.length_pos_iff.mpr h1.ne_nil
    have hn2 : 1 ≤ m.length := List.length_pos_iff.mpr h2.ne_nil
    have A1 := absSum_nonneg l
    have A2 := absSum_nonneg m
    rw [List.length_append, e1] at hbig
    have q1 : (1 + u) ^ l.length ≤ (1 + u) ^ (l.length + m.length) := pow_le_pow_right₀ hu1 (by omega)
    have q2 : (1 + u) ^ m.length ≤ (1 + u) ^ (l.length + m.length) := pow_le_pow_right₀ hu1 (by omega)
    have hpp : (0 : K) ≤ (1 + u) ^ (l.length + m.length) := by positivity
    obtain ⟨v1, b1⟩ := ih1 (fun x hx => hl x (by simp [hx])) (by
      refine le_trans ?_ hbig
      exact mul_le_mul q1 (by linarith) A1 hpp)
    obtain ⟨v2, b2⟩ := ih2 (fun x hx => hl x (by simp [hx])) (by
      refine le_trans ?_ hbig
      exact mul_le_mul q2 (by linarith) A2 hpp)
    set P := (1 + u) ^ (l.length - 1) with hP
    set Q := (1 + u) ^ (m.length - 1) with hQ
    have c1 : |numOf x| ≤ P * absSum l := by
      have := abs_sum_le_absSum l
      have h3 := abs_add_le (numOf x - (l.map numOf).sum) (l.map numOf).sum
      rw [sub_add_cancel] at h3
      linarith
    have c2 : |numOf y| ≤ Q * absSum m := by
      have := abs_sum_le_absSum m
      have h3 := abs_add_le (numOf y - (m.map numOf).sum) (m.map numOf).sum
      rw [sub_add_cancel] at h3
      linarith
    have hT : (1 + u) ^ (l.length + m.length - 1) = (1 + u) * P * Q := by
      rw [hP, hQ, mul_assoc, ← pow_add, ← pow_succ']; congr 1; omega
    have hT' : (1 + u) ^ (l.length + m.length) = (1 + u) * ((1 + u) * P * Q) := by
      rw [← hT, ← pow_succ']; congr 1; omega
    have hP1 : (1 : K) ≤ P := one_le_pow₀ hu1
    have hQ1 : (1 : K) ≤ Q := one_le_pow₀ hu1
    have hPQ : P ≤ P * Q := le_mul_of_one_le_right (by linarith) hQ1
    have hQP : Q ≤ P * Q := le_mul_of_one_le_left (by linarith) hP1
    have hs : |numOf x + numOf y| ≤ P * absSum l + Q * absSum m := (abs_add_le _ _).trans (by linarith)
    have hs2 : P * absSum l + Q * absSum m ≤ P * Q * (absSum l + absSum m) := by nlinarith
    obtain ⟨z, hz, hze⟩ := hR.add_err (numOf x) (numOf y) (RFl.rnd_of_val v1) (RFl.rnd_of_val v2) (by
      refine (hs.trans hs2).trans (le_trans ?_ hbig)
      refine mul_le_mul_of_nonneg_right ?_ (by linarith)
      rw [hT']
      have h8 : (0 : K) ≤ P * Q := by positivity
      have h9 : (1 : K) ≤ (1 + u) * (1 + u) := by nlinarith
      calc P * Q = 1 * (P * Q) := (one_mul _).symm
        _ ≤ (1 + u) * (1 + u) * (P * Q) := mul_le_mul_of_nonneg_right h9 h8
        _ = _ := by ring)
    have hval : (x +ᶠ y).val = .fin z := by
      rw [RFl.val_add, v1, v2, Fl.pf_add_fin]; exact hz
    rw [numOf_fin hval]
    refine ⟨hval, ?_⟩
    rw [e2, e1, List.length_append, hT]
    have h3 : |z - ((l.map numOf).sum + (m.map numOf).sum)| ≤ |z - (numOf x + numOf y)| +
        (|numOf x - (l.map numOf).sum| + |numOf y - (m.map numOf).sum|) := by
      have g1 := abs_add_le (z - (numOf x + numOf y)) ((numOf x - (l.map numOf).sum) + (numOf y - (m.map numOf).sum))
      have g2 := abs_add_le (numOf x - (l.map numOf).sum) (numOf y - (m.map numOf).sum)
      have e : z - (numOf x + numOf y) + ((numOf x - (l.map numOf).sum) + (numOf y - (m.map numOf).sum)) =
        z - ((l.map numOf).sum + (m.map numOf).sum) := by ring
      rw [e] at g1
      linarith
    have h4 : u * |numOf x + numOf y| ≤ u * (P * absSum l + Q * absSum m) := mul_le_mul_of_nonneg_left hs hu
    have g1 : (1 + u) * P * absSum l ≤ (1 + u) * (P * Q) * absSum l :=
      mul_le_mul_of_nonneg_right (mul_le_mul_of_nonneg_left hPQ (by linarith)) A1
    have g2 : (1 + u) * Q * absSum m ≤ (1 + u) * (P * Q) * absSum m :=
      mul_le_mul_of_nonneg_right (mul_le_mul_of_nonneg_left hQP (by linarith)) A2
    calc _ ≤ u * (P * absSum l + Q * absSum m) + ((P - 1) * absSum l + (Q - 1) * absSum m) := by linarith
      _ = (1 + u) * P * absSum l + (1 + u) * Q * absSum m - (absSum l + absSum m) := by ring
      _ ≤ (1 + u) * (P * Q) * absSum l + (1 + u) * (P * Q) * absSum m - (absSum l + absSum m) := by linarith
      _ = _ := by ring

theorem sum_map_bound {α : Type} (S : List α) (f g : α → K) (c d : K) (h : ∀ i ∈ S, f i ≤ c * g i + d) :
    (S.map f).sum ≤ c * (S.map g).sum + S.length * d := by
  induction S with
  | nil => simp
  | cons a S ih =>
    have h1 := h a (by simp)
    have h2 := ih fun i hi => h i (by simp [hi])
    simp only [List.map_cons, List.sum_cons, List.length_cons]
    push_cast
    linarith

theorem abs_sum_sub_le {α : Type} (S : List α) (f g : α → K) :
    |(S.map f).sum - (S.map g).sum| ≤ (S.map fun i => |f i - g i|).sum := by
  induction S with
  | nil => simp
  | cons a S ih =>
    simp only [List.map_cons, List.sum_cons]
    have := abs_add_le (f a - g a) ((S.map f).sum - (S.map g).sum)
    have e : f a - g a + ((S.map f).sum - (S.map g).sum) = f a + (S.map f).sum - (g a + (S.map g).sum) := by ring
    rw [e] at this
    linarith

set_option maxHeartbeats 1000000 in
/-- The computed weighted mean. `w` are the weights meant, `W` the computed ones with relative error `th`. -/
theorem weighted_mean_error {u eta big imax : K} (hR : R.Precision u eta big imax) {α : Type} (S : List α) (hS : S ≠ [])
    {sum : List (RFl R) → RFl R} {dot : List (RFl R) → List (RFl R) → RFl R} (ha : Adds sum dot)
    (W V : α → RFl R) (w : α → K) (th M : K) (hth : 0 ≤ th)
    (hw : ∀ i ∈ S, 0 < w i) (hW : ∀ i ∈ S, (W i).val = .fin (numOf (W i)) ∧ |numOf (W i) - w i| ≤ th * w i)
    (hV : ∀ i ∈ S, (V i).val = .fin (numOf (V i)) ∧ |numOf (V i)| ≤ M)
    (P rho B G : K) (hP : P = (1 + u) ^ (S.length - 1)) (hQ : P * (1 + th) < 2) (hrho : rho = 1 / (2 - P * (1 + th)))
    (hB : B = (1 + u) ^ 2 * (1 + th) * rho) (hG : G = eta * ((1 + u) * M + 1))
    (hb1 : (1 + u) ^ S.length * ((1 + th) * (S.map w).sum) ≤ big) (hb2 : (1 + th) * rho ≤ big)
    (hb3 : (1 + u) ^ S.length * (M * B + S.length * G) ≤ big) :
    ∃ r, (dot ((S.map W).map (· /ᶠ sum (S.map W))) (S.map V)).val = .fin r ∧
      |r - (S.map fun i => w i * numOf (V i)).sum / (S.map w).sum| ≤ M * (P * B - 1) + P * (S.length * G) := by
  have hu := hR.u_nonneg
  have he := hR.eta_nonneg
  have hu1 : (1 : K) ≤ 1 + u := by linarith
  have hP1 : (1 : K) ≤ P := hP ▸ one_le_pow₀ hu1
  set T := (S.map w).sum with hT
  obtain ⟨i0, hi0⟩ : ∃ i, i ∈ S := List.exists_mem_of_ne_nil S hS
  have hM : 0 ≤ M := (abs_nonneg _).trans (hV i0 hi0).2
  have hTpos : 0 < T := by
    obtain ⟨a, S', rfl⟩ := List.exists_cons_of_ne_nil hS
    rw [hT, List.map_cons, List.sum_cons]
    have h1 := hw a (by simp)
    have h2 : 0 ≤ (S'.map w).sum := List.sum_nonneg fun x hx => by
      obtain ⟨i, hi, rfl⟩ := List.mem_map.mp hx
      exact (hw i (by simp [hi])).le
    linarith
  have hQ' : 0 < 2 - P * (1 + th) := by linarith
  have hrho0 : 0 < rho := by rw [hrho]; positivity
  have hrhoe : rho * (2 - P * (1 + th)) = 1 := by rw [hrho]; field_simp
  -- the sum of the weights
  have habs : ∀ i ∈ S, |numOf (W i)| ≤ (1 + th) * w i := by
    intro i hi
    have h1 := abs_add_le (numOf (W i) - w i) (w i)
    rw [sub_add_cancel, abs_of_pos (hw i hi)] at h1
    linarith [(hW i hi).2]
  have hAS : absSum (S.map W) ≤ (1 + th) * T := by
    unfold absSum
    rw [List.map_map]
    have := sum_map_bound S (fun i => |numOf (W i)|) w (1 + th) 0 fun i hi => by linarith [habs i hi]
    rw [mul_zero, add_zero] at this
    exact this
  obtain ⟨hs, hse⟩ := SumOf.error hR (ha.sum (S.map W) (by simpa using hS)) (by
      intro x hx
      obtain ⟨i, hi, rfl⟩ := List.mem_map.mp hx
      exact (hW i hi).1) (by
      rw [List.length_map]
      exact (mul_le_mul_of_nonneg_left hAS (by positivity)).trans hb1)
  set s := sum (S.map W) with hsd
  set sv := numOf s with hsv
  have hsT : |sv - T| ≤ (P * (1 + th) - 1) * T := by
    have h1 : |((S.map W).map numOf).sum - T| ≤ th * T := by
      rw [List.map_map]
      refine (abs_sum_sub_le S _ w).trans ?_
      have := sum_map_bound S (fun i => |(numOf ∘ W) i - w i|) w th 0 fun i hi => by
        have := (hW i hi).2
        simp only [Function.comp] at *
        linarith
      rw [mul_zero, add_zero] at this
      exact this
    rw [List.length_map, ← hP] at hse
    have h2 : (P - 1) * absSum (S.map W) ≤ (P - 1) * ((1 + th) * T) := mul_le_mul_of_nonneg_left hAS (by linarith)
    have h3 := abs_add_le (sv - ((S.map W).map numOf).sum) (((S.map W).map numOf).sum - T)
    rw [sub_add_sub_cancel] at h3
    calc _ ≤ (P - 1) * ((1 + th) * T) + th * T := by linarith
      _ = _ := by ring
  have hsge : (2 - P * (1 + th)) * T ≤ sv := by
    have := (abs_le.mp hsT).1
    linarith
  have hspos : 0 < sv := lt_of_lt_of_le (by positivity) hsge
  -- the normalised weights
  have hlam : ∀ i ∈ S, 0 < w i / T := fun i hi => div_pos (hw i hi) hTpos
  have hc : ∀ i ∈ S, |numOf (W i) / sv - w i / T| ≤ w i / T * ((1 + th) * rho - 1) := by
    intro i hi
    have hwi := hw i hi
    have e1 : numOf (W i) / sv - w i / T = (numOf (W i) * T - w i * sv) / (sv * T) := by field_simp
    have h1 : |numOf (W i) * T - w i * sv| ≤ w i * T * (th + P * (1 + th) - 1) := by
      have e2 : numOf (W i) * T - w i * sv = (numOf (W i) - w i) * T + w i * (T - sv) := by ring
      rw [e2]
      refine (abs_add_le _ _).trans ?_
      rw [abs_mul, abs_mul, abs_of_pos hTpos, abs_of_pos hwi, abs_sub_comm T sv]
      have h2 := mul_le_mul_of_nonneg_right (hW i hi).2 hTpos.le
      have h3 := mul_le_mul_of_nonneg_left hsT hwi.le
      calc _ ≤ th * w i * T + w i * ((P * (1 + th) - 1) * T) := by linarith
        _ = _ := by ring
    rw [e1, abs_div, abs_of_pos (mul_pos hspos hTpos), div_le_iff₀ (mul_pos hspos hTpos)]
    have e3 : (1 + th) * rho - 1 = (th + P * (1 + th) - 1) * rho := by linear_combination hrhoe
    have h4 : w i * T * (th + P * (1 + th) - 1) * 1 ≤ w i * T * (th + P * (1 + th) - 1) * (rho * sv / T) := by
      have hnn : 0 ≤ th + P * (1 + th) - 1 := by nlinarith
      refine mul_le_mul_of_nonneg_left ?_ (by positivity)
      rw [le_div_iff₀ hTpos, one_mul]
      calc T = rho * ((2 - P * (1 + th)) * T) := by rw [← mul_assoc, hrhoe, one_mul]
        _ ≤ _ := mul_le_mul_of_nonneg_left hsge hrho0.le
    rw [e3]
    calc _ ≤ w i * T * (th + P * (1 + th) - 1) * 1 := by linarith
      _ ≤ _ := h4
      _ = _ := by field_simp
  have hcabs : ∀ i ∈ S, |numOf (W i) / sv| ≤ w i / T * ((1 + th) * rho) := by
    intro i hi
    have h1 := abs_add_le (numOf (W i) / sv - w i / T) (w i / T)
    rw [sub_add_cancel, abs_of_pos (hlam i hi)] at h1
    linarith [hc i hi]
  have hlam1 : ∀ i ∈ S, w i / T ≤ 1 := by
    intro i hi
    rw [div_le_one hTpos, hT]
    exact List.single_le_sum (fun x hx => by
      obtain ⟨j, hj, rfl⟩ := List.mem_map.mp hx
      exact (hw j hj).le) _ (List.mem_map.mpr ⟨i, hi, rfl⟩)
  have hX0 : 0 ≤ (1 + th) * rho := by positivity
  -- rounded normalised weights
  have hA : ∀ i ∈ S, ∃ a, (W i /ᶠ s).val = .fin a ∧ |a - w i / T| ≤ w i / T * ((1 + u) * ((1 + th) * rho) - 1) + eta := by
    intro i hi
    obtain ⟨a, h1, h2⟩ := hR.err (numOf (W i) / sv) (by
      refine (hcabs i hi).trans (le_trans ?_ hb2)
      exact mul_le_of_le_one_left hX0 (hlam1 i hi))
    refine ⟨a, ?_, ?_⟩
    · rw [RFl.val_div, (hW i hi).1, hs, Fl.pf_div_fin_ne _ _ hspos.ne']
      exact h1
    · have h3 := abs_add_le (a - numOf (W i) / sv) (numOf (W i) / sv - w i / T)
      rw [sub_add_sub_cancel] at h3
      have h4 := mul_le_mul_of_nonneg_left (hcabs i hi) hu
      calc _ ≤ u * (w i / T * ((1 + th) * rho)) + eta + w i / T * ((1 + th) * rho - 1) := by linarith [hc i hi]
        _ = _ := by ring
  -- rounded products
  have hG0 : 0 ≤ G := by rw [hG]; positivity
  have hB0 : 0 ≤ B := by rw [hB]; positivity
  have hB1 : B = (1 + u) * ((1 + u) * ((1 + th) * rho)) := by rw [hB]; ring
  have hlen1 : (1 : K) ≤ S.length := by
    have := List.length_pos_iff.mpr hS
    exact_mod_cast this
  have hD : ∀ i ∈ S, ((W i /ᶠ s) *ᶠ V i).val = .fin (numOf ((W i /ᶠ s) *ᶠ V i)) ∧
      |numOf ((W i /ᶠ s) *ᶠ V i) - w i / T * numOf (V i)| ≤ (M * (B - 1)) * (w i / T) + G := by
    intro i hi
    obtain ⟨a, h1, h2⟩ := hA i hi
    obtain ⟨v1, v2⟩ := hV i hi
    have hl0 := (hlam i hi).le
    set lam := w i / T with hlamd
    set X := (1 + u) * ((1 + th) * rho) with hX
    have hXnn : 0 ≤ X := by rw [hX]; positivity
    have ha1 : |a| ≤ lam * X + eta := by
      have h3 := abs_add_le (a - lam) lam
      rw [sub_add_cancel, abs_of_nonneg hl0] at h3
      linarith
    have hav : |a * numOf (V i)| ≤ (lam * X + eta) * M := by
      rw [abs_mul]
      exact mul_le_mul ha1 v2 (abs_nonneg _) (by positivity)
    obtain ⟨t, t1, t2⟩ := hR.err (a * numOf (V i)) (by
      refine hav.trans (le_trans ?_ hb3)
      have g1 : (lam * X + eta) * M ≤ M * B + S.length * G := by
        have g2 : lam * X ≤ B := by
          rw [hB1]
          exact (mul_le_of_le_one_left hXnn (hlam1 i hi)).trans (le_mul_of_one_le_left hXnn hu1)
        have g3 : eta * M ≤ G := by
          rw [hG]
          refine mul_le_mul_of_nonneg_left ?_ he
          have := le_mul_of_one_le_left hM hu1
          linarith
        have g4 : G ≤ S.length * G := le_mul_of_one_le_left hG0 hlen1
        have g7 := mul_le_mul_of_nonneg_right g2 hM
        calc (lam * X + eta) * M = lam * X * M + eta * M := by ring
          _ ≤ B * M + S.length * G := by linarith
          _ = _ := by ring
      have g5 : (1 : K) ≤ (1 + u) ^ S.length := one_le_pow₀ hu1
      have g6 : 0 ≤ M * B + S.length * G := by positivity
      exact g1.trans (le_mul_of_one_le_left g6 g5))
    have hval : ((W i /ᶠ s) *ᶠ V i).val = .fin t := by
      rw [RFl.val_mul, h1, v1, Fl.pf_mul_fin]; exact t1
    rw [numOf_fin hval]
    refine ⟨hval, ?_⟩
    have h3 := abs_add_le (t - a * numOf (V i)) (a * numOf (V i) - lam * numOf (V i))
    rw [sub_add_sub_cancel, ← sub_mul, abs_mul (a - lam)] at h3
    have h4 : |a - lam| * |numOf (V i)| ≤ (lam * (X - 1) + eta) * M :=
      mul_le_mul h2 v2 (abs_nonneg _) ((abs_nonneg _).trans h2)
    have h5 := mul_le_mul_of_nonneg_left hav hu
    calc _ ≤ u * ((lam * X + eta) * M) + eta + (lam * (X - 1) + eta) * M := by linarith
      _ = _ := by rw [hB1, hG]; ring
  -- the final sum
  have hl : List.zipWith (· *ᶠ ·) ((S.map W).map (· /ᶠ s)) (S.map V) = S.map fun i => (W i /ᶠ s) *ᶠ V i := by
    rw [List.map_map, List.zipWith_map, List.zipWith_self]; rfl
  have hdot := ha.dot ((S.map W).map (· /ᶠ s)) (S.map V) (by simp) (by simpa using hS)
  rw [hl] at hdot
  have hlamsum : (S.map fun i => w i / T).sum = 1 := by
    have e : (S.map fun i => w i / T) = (S.map w).map (· * T⁻¹) := by
      rw [List.map_map]; apply List.map_congr_left; intro i _; exact div_eq_mul_inv _ _
    rw [e, List.sum_map_mul_right, List.map_id', ← hT]
    exact mul_inv_cancel₀ hTpos.ne'
  have hsumabs : absSum (S.map fun i => (W i /ᶠ s) *ᶠ V i) ≤ M * B + S.length * G := by
    unfold absSum
    rw [List.map_map]
    have := sum_map_bound S (fun i => |numOf ((W i /ᶠ s) *ᶠ V i)|) (fun i => w i / T) (M * B) G fun i hi => by
      have h1 := abs_add_le (numOf ((W i /ᶠ s) *ᶠ V i) - w i / T * numOf (V i)) (w i / T * numOf (V i))
      rw [sub_add_cancel, abs_mul (w i / T), abs_of_pos (hlam i hi)] at h1
      have h2 := mul_le_mul_of_nonneg_left (hV i hi).2 (hlam i hi).le
      have h3 := (hD i hi).2
      calc _ ≤ (M * (B - 1)) * (w i / T) + G + w i / T * M := by linarith
        _ = _ := by ring
    rw [hlamsum, mul_one] at this
    exact this
  obtain ⟨hr, hre⟩ := SumOf.error hR hdot (by
      intro x hx
      obtain ⟨i, hi, rfl⟩ := List.mem_map.mp hx
      exact (hD i hi).1) (by
      rw [List.length_map]
      exact (mul_le_mul_of_nonneg_left hsumabs (by positivity)).trans hb3)
  refine ⟨_, hr, ?_⟩
  have hv : (S.map fun i => w i * numOf (V i)).sum / T = (S.map fun i => w i / T * numOf (V i)).sum := by
    have e : (S.map fun i => w i / T * numOf (V i)) = (S.map fun i => w i * numOf (V i)).map (· * T⁻¹) := by
      rw [List.map_map]; apply List.map_congr_left; intro i _; simp only [Function.comp]; ring
    rw [e, List.sum_map_mul_right, List.map_id', div_eq_mul_inv]
  have hfin : |((S.map fun i => (W i /ᶠ s) *ᶠ V i).map numOf).sum - (S.map fun i => w i / T * numOf (V i)).sum| ≤
      M * (B - 1) + S.length * G := by
    rw [List.map_map]
    refine (abs_sum_sub_le S _ _).trans ?_
    have := sum_map_bound S (fun i => |(numOf ∘ fun i => (W i /ᶠ s) *ᶠ V i) i - w i / T * numOf (V i)|) (fun i => w i / T)
      (M * (B - 1)) G fun i hi => (hD i hi).2
    rw [hlamsum, mul_one] at this
    exact this
  rw [List.length_map, ← hP] at hre
  rw [hv]
  have h1 := abs_add_le (numOf (dot ((S.map W).map (· /ᶠ s)) (S.map V)) - ((S.map fun i => (W i /ᶠ s) *ᶠ V i).map numOf).sum)
    (((S.map fun i => (W i /ᶠ s) *ᶠ V i).map numOf).sum - (S.map fun i => w i / T * numOf (V i)).sum)
  rw [sub_add_sub_cancel] at h1
  have h2 := mul_le_mul_of_nonneg_left hsumabs (show (0 : K) ≤ P - 1 by linarith)
  calc _ ≤ (P - 1) * (M * B + S.length * G) + (M * (B - 1) + S.length * G) := by linarith
    _ = _ := by ring

end rounded

section binary64
open Verif.Bin

/-- IEEE doubles with real numbers as exact values -/
abbrev DblR := RFl (binary64 (K := ℝ))

/-- `pow` has a relative error of at most `2^-51` (two units in the last place) where the result is far from overflow and
underflow. -/
def PowAccurate [PyPow DblR] : Prop :=
  ∀ (x y : DblR) (a b : ℝ), x.val = .fin a → y.val = .fin b → 0 < a → (2 : ℝ) ^ (-900 : ℤ) ≤ a ^ b → a ^ b ≤ 2 ^ (900 : ℤ) →
    ∃ c, (PyPow.pow x y).val = .fin c ∧ |c - a ^ b| ≤ 2 ^ (-51 : ℤ) * a ^ b

theorem one_add_pow_le {u : ℝ} (hu : 0 ≤ u) (n : ℕ) (h : n * u ≤ 1 / 2) : (1 + u) ^ n ≤ 1 + 2 * (n * u) := by
  have key : ∀ m : ℕ, m ≤ n → (1 + u) ^ m * (1 - m * u) ≤ 1 := by
    intro m
    induction m with
    | zero => intro _; simp
    | succ m ih =>
      intro hm
      have h1 := ih (by omega)
      have h2 : (0 : ℝ) ≤ (1 + u) ^ m := by positivity
      push_cast
      have e : (1 + u) ^ (m + 1) * (1 - (m + 1) * u) = (1 + u) ^ m * (1 - m * u) - (1 + u) ^ m * ((m + 1) * u ^ 2) := by
        ring
      rw [e]
      have h3 : 0 ≤ (1 + u) ^ m * ((m + 1) * u ^ 2) := by positivity
      linarith
  have h1 := key n le_rfl
  have h2 : (0 : ℝ) ≤ n * u := by positivity
  have h3 : 1 ≤ (1 + 2 * (n * u)) * (1 - n * u) := by nlinarith
  by_contra h4
  rw [not_le] at h4
  have h5 : 0 < 1 - n * u := by linarith
  nlinarith

/-- The computed weight `1 / d^p`. -/
theorem weight_error [PyPow DblR] (hacc : PowAccurate) {x p : DblR} {d b : ℝ} (hx : x.val = .fin d) (hp : p.val = .fin b)
    (hd : 0 < d) (h1 : (2 : ℝ) ^ (-900 : ℤ) ≤ d ^ b) (h2 : d ^ b ≤ 2 ^ (900 : ℤ)) :
    ((PyFloat.ofInt 1 : DblR) /ᶠ PyPow.pow x p).val = .fin (numOf ((PyFloat.ofInt 1 : DblR) /ᶠ PyPow.pow x p)) ∧
      |numOf ((PyFloat.ofInt 1 : DblR) /ᶠ PyPow.pow x p) - 1 / d ^ b| ≤ 2 ^ (-50 : ℤ) * (1 / d ^ b) := by
  obtain ⟨c, hc, hce⟩ := hacc x p d b hx hp hd h1 h2
  set D := d ^ b with hD
  have hDpos : 0 < D := Real.rpow_pos_of_pos hd b
  have hu : (2 : ℝ) ^ (-53 : ℤ) = 1 / 2 ^ 53 := by norm_num
  have hc1 : D * (1 - 2 ^ (-51 : ℤ)) ≤ c := by
    have := (abs_le.mp hce).1
    linarith
  have hcpos : 0 < c := lt_of_lt_of_le (by norm_num; exact hDpos) hc1
  have e1 : |1 / c - 1 / D| ≤ 5 * 2 ^ (-53 : ℤ) * (1 / D) := by
    have e : 1 / c - 1 / D = (D - c) / (c * D) := by field_simp
    rw [e, abs_div, abs_of_pos (mul_pos hcpos hDpos), abs_sub_comm, div_le_iff₀ (mul_pos hcpos hDpos)]
    have e2 : 5 * (2 : ℝ) ^ (-53 : ℤ) * (1 / D) * (c * D) = 5 * 2 ^ (-53 : ℤ) * c := by field_simp
    rw [e2]
    refine hce.trans ?_
    have := mul_le_mul_of_nonneg_left hc1 (show (0 : ℝ) ≤ 5 * 2 ^ (-53 : ℤ) by positivity)
    refine le_trans ?_ this
    have h3 : (2 : ℝ) ^ (-51 : ℤ) ≤ 5 * 2 ^ (-53 : ℤ) * (1 - 2 ^ (-51 : ℤ)) := by norm_num
    nlinarith [mul_le_mul_of_nonneg_right h3 hDpos.le]
  have hDinv : 1 / D ≤ 2 ^ (900 : ℤ) := by
    rw [div_le_iff₀ hDpos]
    calc (1 : ℝ) = 2 ^ (900 : ℤ) * 2 ^ (-900 : ℤ) := by rw [← zpow_add₀ (by norm_num)]; norm_num
      _ ≤ _ := mul_le_mul_of_nonneg_left h1 (by positivity)
  have hDinv' : (2 : ℝ) ^ (-900 : ℤ) ≤ 1 / D := by
    rw [le_div_iff₀ hDpos]
    calc (2 : ℝ) ^ (-900 : ℤ) * D ≤ 2 ^ (-900 : ℤ) * 2 ^ (900 : ℤ) := mul_le_mul_of_nonneg_left h2 (by positivity)
      _ = 1 := by rw [← zpow_add₀ (by norm_num)]; norm_num
  have hDi : 0 < 1 / D := by positivity
  have hcabs : |1 / c| ≤ (1 + 5 * 2 ^ (-53 : ℤ)) * (1 / D) := by
    have := abs_add_le (1 / c - 1 / D) (1 / D)
    rw [sub_add_cancel, abs_of_pos hDi] at this
    linarith
  obtain ⟨w, hw, hwe⟩ := (binary64_precision (K := ℝ)).err (1 / c) (by
    refine hcabs.trans ?_
    calc (1 + 5 * (2 : ℝ) ^ (-53 : ℤ)) * (1 / D) ≤ 2 * 2 ^ (900 : ℤ) := by
          refine mul_le_mul (by norm_num) hDinv hDi.le (by norm_num)
      _ = 2 ^ (901 : ℤ) := by rw [← zpow_one_add₀ (by norm_num)]; norm_num
      _ ≤ _ := zpow_le_zpow_right₀ (by norm_num) (by norm_num))
  have hval : ((PyFloat.ofInt 1 : DblR) /ᶠ PyPow.pow x p).val = .fin w := by
    rw [RFl.val_div, RFl.val_one, hc, Fl.pf_div_fin_ne _ _ hcpos.ne']
    exact hw
  rw [numOf_fin hval]
  refine ⟨hval, ?_⟩
  have h3 := abs_add_le (w - 1 / c) (1 / c - 1 / D)
  rw [sub_add_sub_cancel] at h3
  have h4 : (2 : ℝ) ^ (-1075 : ℤ) ≤ 2 ^ (-53 : ℤ) * (1 / D) := by
    calc (2 : ℝ) ^ (-1075 : ℤ) ≤ 2 ^ (-53 + -900 : ℤ) := zpow_le_zpow_right₀ (by norm_num) (by norm_num)
      _ = 2 ^ (-53 : ℤ) * 2 ^ (-900 : ℤ) := zpow_add₀ (by norm_num) _ _
      _ ≤ _ := mul_le_mul_of_nonneg_left hDinv' (by positivity)
  have h5 := mul_le_mul_of_nonneg_left hcabs (show (0 : ℝ) ≤ 2 ^ (-53 : ℤ) by positivity)
  have h6 : 2 ^ (-53 : ℤ) * ((1 + 5 * (2 : ℝ) ^ (-53 : ℤ)) * (1 / D)) + 2 ^ (-53 : ℤ) * (1 / D) + 5 * 2 ^ (-53 : ℤ) * (1 / D) ≤
      2 ^ (-50 : ℤ) * (1 / D) := by
    have : (2 : ℝ) ^ (-53 : ℤ) * (1 + 5 * (2 : ℝ) ^ (-53 : ℤ)) + 2 ^ (-53 : ℤ) + 5 * 2 ^ (-53 : ℤ) ≤ 2 ^ (-50 : ℤ) := by norm_num
    nlinarith [mul_le_mul_of_nonneg_right this hDi.le]
  linarith

/-- the factors of the error bound for doubles, `k` neighbours -/
theorem idw_constants {k : ℕ} (hk1 : 1 ≤ k) (hk : k ≤ 2 ^ 20) {u th : ℝ} (hu : u = 2 ^ (-53 : ℤ)) (hth : th = 2 ^ (-50 : ℤ)) :
    (1 + u) ^ (k - 1) * (1 + th) ≤ 1 + (2 * (k * u) + 9 * u) ∧ (1 + u) ^ k ≤ 2 ∧
      1 / (2 - (1 + u) ^ (k - 1) * (1 + th)) ≤ 1 + 2 * (2 * (k * u) + 9 * u) ∧ 2 * (k * u) + 9 * u ≤ 1 / 1000 ∧
      (1 + u) ^ (k - 1) * ((1 + u) ^ 2 * (1 + th) * (1 / (2 - (1 + u) ^ (k - 1) * (1 + th)))) ≤ 1 + (7 * (k * u) + 31 * u) := by
  have hu0 : 0 < u := by rw [hu]; positivity
  have hus : u ≤ 1 / 2 ^ 50 := by rw [hu]; norm_num
  have hthu : th = 8 * u := by rw [hth, hu]; norm_num
  have hkr : (k : ℝ) ≤ 2 ^ 20 := by exact_mod_cast hk
  have hk0 : (0 : ℝ) ≤ k := by positivity
  have hku : (k : ℝ) * u ≤ 1 / 2 ^ 30 := by
    calc (k : ℝ) * u ≤ 2 ^ 20 * (1 / 2 ^ 50) := mul_le_mul hkr hus hu0.le (by positivity)
      _ = _ := by norm_num
  have hx0 : 0 ≤ (k : ℝ) * u := by positivity
  have hm : ((k - 1 : ℕ) : ℝ) * u ≤ k * u := mul_le_mul_of_nonneg_right (by exact_mod_cast Nat.sub_le k 1) hu0.le
  have hp1 : (1 + u) ^ (k - 1) ≤ 1 + 2 * (k * u) := by
    have := one_add_pow_le hu0.le (k - 1) (by linarith)
    linarith
  have hp2 : (1 + u) ^ k ≤ 2 := by
    have := one_add_pow_le hu0.le k (by linarith)
    linarith
  set x := (k : ℝ) * u with hx
  have hq : (1 + u) ^ (k - 1) * (1 + th) ≤ 1 + (2 * x + 9 * u) := by
    have h1 : (1 + u) ^ (k - 1) * (1 + th) ≤ (1 + 2 * x) * (1 + th) := mul_le_mul_of_nonneg_right hp1 (by linarith)
    have h2 : x * u ≤ 1 / 2 ^ 30 * u := mul_le_mul_of_nonneg_right hku hu0.le
    rw [hthu] at h1 ⊢
    calc _ ≤ (1 + 2 * x) * (1 + 8 * u) := h1
      _ = 1 + 2 * x + 8 * u + 16 * (x * u) := by ring
      _ ≤ _ := by linarith
  set q := 2 * x + 9 * u with hqd
  have hq0 : 0 ≤ q := by rw [hqd]; positivity
  have hqs : q ≤ 1 / 1000 := by
    have : (1 : ℝ) / 2 ^ 30 * 2 + 9 * (1 / 2 ^ 50) ≤ 1 / 1000 := by norm_num
    linarith
  have hrho : 1 / (2 - (1 + u) ^ (k - 1) * (1 + th)) ≤ 1 + 2 * q := by
    rw [div_le_iff₀ (by linarith)]
    have h1 : (1 + 2 * q) * (1 - q) ≤ (1 + 2 * q) * (2 - (1 + u) ^ (k - 1) * (1 + th)) :=
      mul_le_mul_of_nonneg_left (by linarith) (by linarith)
    have h2 : 1 ≤ (1 + 2 * q) * (1 - q) := by nlinarith
    linarith
  refine ⟨hq, hp2, hrho, hqs, ?_⟩
  have h1 : (1 + u) ^ 2 ≤ 1 + 3 * u := by nlinarith
  have hrp : 0 ≤ 1 / (2 - (1 + u) ^ (k - 1) * (1 + th)) := by
    apply div_nonneg zero_le_one; linarith
  have e : (1 + u) ^ (k - 1) * ((1 + u) ^ 2 * (1 + th) * (1 / (2 - (1 + u) ^ (k - 1) * (1 + th)))) =
      (1 + u) ^ (k - 1) * (1 + th) * (1 + u) ^ 2 * (1 / (2 - (1 + u) ^ (k - 1) * (1 + th))) := by ring
  rw [e]
  calc _ ≤ (1 + q) * (1 + 3 * u) * (1 + 2 * q) := by
        refine mul_le_mul (mul_le_mul hq h1 (by positivity) (by linarith)) hrho hrp (by positivity)
    _ = 1 + 3 * q + 2 * (q * q) + 3 * u + 9 * (q * u) + 6 * (q * q * u) := by ring
    _ ≤ _ := by
      have g1 : q * q ≤ 1 / 1000 * q := mul_le_mul_of_nonneg_right hqs hq0
      have g2 : q * u ≤ 1 / 1000 * u := mul_le_mul_of_nonneg_right hqs hu0.le
      have g3 : q * q * u ≤ 1 / 1000 * u := by
        refine mul_le_mul_of_nonneg_right ?_ hu0.le
        nlinarith
      rw [hqd] at g1 ⊢
      linarith

/-- **C116** Accuracy for doubles, in whatever order numpy adds: if the powers `d^p` of the distances are between `2^-900` and
`2^900` and at most a million neighbours are used, the interpolated value differs from the exact weighted mean of the neighbours by at most
`(k + 4) 2^-50` times the largest absolute value of their data (`k` neighbours), about one unit in the fifteenth digit for usual `k`. -/
theorem C116_accuracy [PyPow DblR] (hacc : PowAccurate) {sum : List DblR → DblR} {dot : List DblR → List DblR → DblR} (ha : Adds sum dot)
    (tiny p : DblR) (z : List DblR) (nb S : List (DblR × Nat)) (b M : ℝ) (hp : p.val = .fin b)
    (hSd : S = nb.filter fun e => decide (e.2 < z.length)) (hS : S ≠ []) (hk : S.length ≤ 2 ^ 20)
    (hfar : ∀ e ∈ S, (e.1 <ᶠ tiny) = false)
    (hd : ∀ e ∈ S, ∃ d, e.1.val = .fin d ∧ 0 < d ∧ (2 : ℝ) ^ (-900 : ℤ) ≤ d ^ b ∧ d ^ b ≤ 2 ^ (900 : ℤ))
    (hz : ∀ e ∈ S, ∃ x y, z[e.2]? = some x ∧ x.val = .fin y ∧ |y| ≤ M) (hM : M ≤ 2 ^ (1000 : ℤ)) :
    ∃ r, (idwVal sum dot tiny z p nb).val = .fin r ∧
      |r - (S.map fun e => 1 / numOf e.1 ^ b * numOf (rd z e.2)).sum / (S.map fun e => 1 / numOf e.1 ^ b).sum| ≤
        (S.length + 4) * 2 ^ (-50 : ℤ) * M + 2 ^ (-1050 : ℤ) := by
  have hval : idwVal sum dot tiny z p nb =
      dot ((S.map fun e => (PyFloat.ofInt 1 : DblR) /ᶠ PyPow.pow e.1 p).map
        (· /ᶠ sum (S.map fun e => (PyFloat.ofInt 1 : DblR) /ᶠ PyPow.pow e.1 p))) (S.map fun e => rd z e.2) := by
    unfold idwVal
    dsimp only
    rw [← hSd]
    cases S with
    | nil => exact absurd rfl hS
    | cons e es =>
      dsimp only
      rw [if_neg (by rw [hfar e (by simp)]; exact Bool.false_ne_true)]
  rw [hval]
  have hk1 : 1 ≤ S.length := List.length_pos_iff.mpr hS
  obtain ⟨c1, c2, c3, c4, c5⟩ := idw_constants hk1 hk rfl rfl
  set u : ℝ := 2 ^ (-53 : ℤ) with hu
  set th : ℝ := 2 ^ (-50 : ℤ) with hth
  clear_value u th
  have hu0 : 0 < u := by rw [hu]; positivity
  have hus : u ≤ 1 := by rw [hu]; norm_num
  have hths : th ≤ 1 := by rw [hth]; norm_num
  have hth0 : 0 < th := by rw [hth]; positivity
  have hthu : th = 8 * u := by rw [hth, hu]; norm_num
  have hdn : ∀ e ∈ S, 0 < numOf e.1 ∧ (2 : ℝ) ^ (-900 : ℤ) ≤ numOf e.1 ^ b ∧ numOf e.1 ^ b ≤ 2 ^ (900 : ℤ) ∧
      e.1.val = .fin (numOf e.1) := by
    intro e he
    obtain ⟨d, h1, h2, h3, h4⟩ := hd e he
    rw [numOf_fin h1]
    exact ⟨h2, h3, h4, h1⟩
  have hzn : ∀ e ∈ S, (rd z e.2).val = .fin (numOf (rd z e.2)) ∧ |numOf (rd z e.2)| ≤ M := by
    intro e he
    obtain ⟨x, y, h1, h2, h3⟩ := hz e he
    rw [rd_of_getElem? h1, numOf_fin h2]
    exact ⟨h2, h3⟩
  obtain ⟨e0, he0⟩ := List.exists_mem_of_ne_nil S hS
  have hM0 : 0 ≤ M := (abs_nonneg _).trans (hzn e0 he0).2
  have hkr : (S.length : ℝ) ≤ 2 ^ 20 := by exact_mod_cast hk
  have hQ : (1 + u) ^ (S.length - 1) * (1 + th) < 2 := lt_of_le_of_lt c1 (by linarith only [c4])
  have hT : (S.map fun e => 1 / numOf e.1 ^ b).sum ≤ 2 ^ (920 : ℤ) := by
    have := sum_map_bound S (fun e => 1 / numOf e.1 ^ b) (fun _ => 0) 0 (2 ^ (900 : ℤ)) fun e he => by
      obtain ⟨h1, h2, h3, h4⟩ := hdn e he
      rw [zero_mul, zero_add, div_le_iff₀ (Real.rpow_pos_of_pos h1 b)]
      calc (1 : ℝ) = 2 ^ (900 : ℤ) * 2 ^ (-900 : ℤ) := by rw [← zpow_add₀ (by norm_num)]; norm_num
        _ ≤ _ := mul_le_mul_of_nonneg_left h2 (by positivity)
    refine this.trans ?_
    rw [zero_mul, zero_add]
    calc (S.length : ℝ) * 2 ^ (900 : ℤ) ≤ 2 ^ 20 * 2 ^ (900 : ℤ) := mul_le_mul_of_nonneg_right hkr (by positivity)
      _ = _ := by rw [show (920 : ℤ) = ((20 : ℕ) : ℤ) + 900 by norm_num, zpow_add₀ (by norm_num), zpow_natCast]
  have hT0 : 0 ≤ (S.map fun e => 1 / numOf e.1 ^ b).sum := List.sum_nonneg fun x hx => by
    obtain ⟨e, he, rfl⟩ := List.mem_map.mp hx
    have := (hdn e he).1
    positivity
  set rho := 1 / (2 - (1 + u) ^ (S.length - 1) * (1 + th)) with hrho
  have hrho0 : 0 ≤ rho := by rw [hrho]; apply div_nonneg zero_le_one; linarith
  have hrho2 : rho ≤ 2 := c3.trans (by linarith only [c4])
  set B := (1 + u) ^ 2 * (1 + th) * rho with hB
  have hB16 : B ≤ 16 := by
    have h1 : (1 + u) ^ 2 ≤ 4 := by nlinarith
    calc B ≤ 4 * 2 * 2 := mul_le_mul (mul_le_mul h1 (by linarith) (by linarith) (by norm_num)) hrho2 hrho0 (by norm_num)
      _ = 16 := by norm_num
  set eta : ℝ := 2 ^ (-1075 : ℤ) with heta
  have heta0 : 0 < eta := by rw [heta]; positivity
  set G := eta * ((1 + u) * M + 1) with hG
  have hG1 : S.length * G ≤ 2 ^ 20 * (eta * (2 * M + 1)) := by
    refine mul_le_mul hkr ?_ (by positivity) (by positivity)
    refine mul_le_mul_of_nonneg_left ?_ heta0.le
    have := mul_le_mul_of_nonneg_right hus hM0
    linarith
  have heta20 : 2 ^ 20 * eta = 2 ^ (-1055 : ℤ) := by
    rw [heta, show (-1055 : ℤ) = 20 + -1075 by norm_num, zpow_add₀ (by norm_num)]; norm_cast
  have hG2 : S.length * G ≤ 2 ^ (-1055 : ℤ) * (2 * M + 1) := by rw [← heta20]; linarith
  have heps : (2 : ℝ) ^ (-1055 : ℤ) ≤ u / 8 := by
    calc (2 : ℝ) ^ (-1055 : ℤ) ≤ 2 ^ (-56 : ℤ) := zpow_le_zpow_right₀ (by norm_num) (by norm_num)
      _ = u / 8 := by rw [hu]; norm_num
  have heps0 : (0 : ℝ) < 2 ^ (-1055 : ℤ) := by positivity
  have hP2 : (1 + u) ^ (S.length - 1) ≤ 2 := by
    refine le_trans ?_ c2
    exact pow_le_pow_right₀ (by linarith) (by omega)
  have hbigM : (2 : ℝ) ^ (1000 : ℤ) * 64 + 2 ≤ 2 ^ (1023 : ℤ) := by
    have h1 : (2 : ℝ) ^ (1023 : ℤ) = 2 ^ (1000 : ℤ) * 2 ^ 23 := by
      rw [show (1023 : ℤ) = 1000 + ((23 : ℕ) : ℤ) by norm_num, zpow_add₀ (by norm_num), zpow_natCast]
    have h2 : (1 : ℝ) ≤ 2 ^ (1000 : ℤ) := one_le_zpow₀ (by norm_num) (by norm_num)
    rw [h1]
    clear h1
    generalize (2 : ℝ) ^ (1000 : ℤ) = Z at h2 ⊢
    linarith only [h2]
  generalize (2 : ℝ) ^ (1000 : ℤ) = Z at hM hbigM
  have hprec : (binary64 (K := ℝ)).Precision u eta (2 ^ (1023 : ℤ)) (2 ^ (53 : ℕ)) := by
    rw [hu]; exact binary64_precision
  obtain ⟨r, hr, hre⟩ := weighted_mean_error hprec S hS ha
    (fun e => (PyFloat.ofInt 1 : DblR) /ᶠ PyPow.pow e.1 p) (fun e => rd z e.2) (fun e => 1 / numOf e.1 ^ b) th M hth0.le
    (fun e he => by have := (hdn e he).1; positivity)
    (fun e he => by
      obtain ⟨h1, h2, h3, h4⟩ := hdn e he
      rw [hth]
      exact weight_error hacc h4 hp h1 h2 h3)
    hzn ((1 + u) ^ (S.length - 1)) rho B G rfl hQ rfl rfl rfl
    (by
      calc (1 + u) ^ S.length * ((1 + th) * (S.map fun e => 1 / numOf e.1 ^ b).sum) ≤ 2 * (2 * 2 ^ (920 : ℤ)) :=
            mul_le_mul c2 (mul_le_mul (by linarith) hT hT0 (by norm_num)) (by positivity) (by norm_num)
        _ = 2 ^ (922 : ℤ) := by rw [show (922 : ℤ) = 1 + (1 + 920) by norm_num, zpow_add₀ (by norm_num), zpow_add₀ (by norm_num)]; norm_num
        _ ≤ _ := zpow_le_zpow_right₀ (by norm_num) (by norm_num))
    (by
      calc (1 + th) * rho ≤ 2 * 2 := mul_le_mul (by linarith) hrho2 hrho0 (by norm_num)
        _ = 2 ^ (2 : ℤ) := by norm_num
        _ ≤ _ := zpow_le_zpow_right₀ (by norm_num) (by norm_num))
    (by
      have h1 : M * B ≤ M * 16 := mul_le_mul_of_nonneg_left hB16 hM0
      have h2 : (2 : ℝ) ^ (-1055 : ℤ) * (2 * M + 1) ≤ 1 * (2 * M + 1) :=
        mul_le_mul_of_nonneg_right (by linarith) (by linarith)
      have h3 : 0 ≤ M * B + S.length * G := by positivity
      calc _ ≤ 2 * (M * B + S.length * G) := mul_le_mul_of_nonneg_right c2 h3
        _ ≤ Z * 64 + 2 := by linarith only [h1, h2, hG2, hM, hM0]
        _ ≤ _ := hbigM)
  refine ⟨r, hr, hre.trans ?_⟩
  have h1 : M * ((1 + u) ^ (S.length - 1) * B - 1) ≤ M * (7 * (S.length * u) + 31 * u) :=
    mul_le_mul_of_nonneg_left (by linarith) hM0
  have h2 : (1 + u) ^ (S.length - 1) * (S.length * G) ≤ 2 * (2 ^ (-1055 : ℤ) * (2 * M + 1)) :=
    mul_le_mul hP2 hG2 (by positivity) (by norm_num)
  have h3 : 2 ^ (-1055 : ℤ) * M ≤ u / 8 * M := mul_le_mul_of_nonneg_right heps hM0
  have h4 : 2 * (2 : ℝ) ^ (-1055 : ℤ) ≤ 2 ^ (-1050 : ℤ) := by
    calc 2 * (2 : ℝ) ^ (-1055 : ℤ) = 2 ^ (-1054 : ℤ) := by
          rw [show (-1054 : ℤ) = 1 + -1055 by norm_num, zpow_add₀ (by norm_num)]; norm_num
      _ ≤ _ := zpow_le_zpow_right₀ (by norm_num) (by norm_num)
  have h5 : 0 ≤ S.length * u * M := by positivity
  have h6 : 0 ≤ u * M := by positivity
  rw [hthu]
  calc _ ≤ M * (7 * (S.length * u) + 31 * u) + 2 * (2 ^ (-1055 : ℤ) * (2 * M + 1)) := by linarith
    _ = 7 * (S.length * u * M) + 31 * (u * M) + 4 * (2 ^ (-1055 : ℤ) * M) + 2 * 2 ^ (-1055 : ℤ) := by ring
    _ ≤ 8 * (S.length * u * M) + 32 * (u * M) + 2 ^ (-1050 : ℤ) := by linarith only [h3, h4, h5, h6]
    _ = _ := by ring

/-- **C116** The same in terms of the data: the interpolated value lies within the range of the neighbours' data up to the
rounding error, in particular constant data `c` give `c` up to the rounding error. -/
theorem C116_range [PyPow DblR] (hacc : PowAccurate) {sum : List DblR → DblR} {dot : List DblR → List DblR → DblR} (ha : Adds sum dot)
    (tiny p : DblR) (z : List DblR) (nb S : List (DblR × Nat)) (b M lo hi : ℝ) (hp : p.val = .fin b)
    (hSd : S = nb.filter fun e => decide (e.2 < z.length)) (hS : S ≠ []) (hk : S.length ≤ 2 ^ 20)
    (hfar : ∀ e ∈ S, (e.1 <ᶠ tiny) = false)
    (hd : ∀ e ∈ S, ∃ d, e.1.val = .fin d ∧ 0 < d ∧ (2 : ℝ) ^ (-900 : ℤ) ≤ d ^ b ∧ d ^ b ≤ 2 ^ (900 : ℤ))
    (hz : ∀ e ∈ S, ∃ x y, z[e.2]? = some x ∧ x.val = .fin y ∧ lo ≤ y ∧ y ≤ hi ∧ |y| ≤ M) (hM : M ≤ 2 ^ (1000 : ℤ)) :
    ∃ r, (idwVal sum dot tiny z p nb).val = .fin r ∧
      lo - ((S.length + 4) * 2 ^ (-50 : ℤ) * M + 2 ^ (-1050 : ℤ)) ≤ r ∧
      r ≤ hi + ((S.length + 4) * 2 ^ (-50 : ℤ) * M + 2 ^ (-1050 : ℤ)) := by
  obtain ⟨r, h1, h2⟩ := C116_accuracy hacc ha tiny p z nb S b M hp hSd hS hk hfar hd (fun e he => by
    obtain ⟨x, y, g1, g2, -, -, g3⟩ := hz e he
    exact ⟨x, y, g1, g2, g3⟩) hM
  refine ⟨r, h1, ?_⟩
  have hw : ∀ e ∈ S, 0 < 1 / numOf e.1 ^ b := by
    intro e he
    obtain ⟨d, g1, g2, -, -⟩ := hd e he
    rw [numOf_fin g1]
    have := Real.rpow_pos_of_pos g2 b
    positivity
  have hT : 0 < (S.map fun e => 1 / numOf e.1 ^ b).sum := by
    apply sum_pos_of_pos (by simpa using hS)
    intro x hx
    obtain ⟨e, he, rfl⟩ := List.mem_map.mp hx
    exact hw e he
  have hv : ∀ e ∈ S, lo ≤ numOf (rd z e.2) ∧ numOf (rd z e.2) ≤ hi := by
    intro e he
    obtain ⟨x, y, g1, g2, g3, g4, -⟩ := hz e he
    rw [rd_of_getElem? g1, numOf_fin g2]
    exact ⟨g3, g4⟩
  have hup := sum_map_bound S (fun e => 1 / numOf e.1 ^ b * numOf (rd z e.2)) (fun e => 1 / numOf e.1 ^ b) hi 0 fun e he => by
    have := mul_le_mul_of_nonneg_left (hv e he).2 (hw e he).le
    linarith
  have hlow := sum_map_bound S (fun e => lo * (1 / numOf e.1 ^ b)) (fun e => 1 / numOf e.1 ^ b * numOf (rd z e.2)) 1 0 fun e he => by
    have := mul_le_mul_of_nonneg_left (hv e he).1 (hw e he).le
    linarith
  rw [List.sum_map_mul_left, one_mul] at hlow
  rw [mul_zero, add_zero] at hup hlow
  generalize (S.map fun e => 1 / numOf e.1 ^ b).sum = T at *
  generalize (S.map fun e => 1 / numOf e.1 ^ b * numOf (rd z e.2)).sum = A at *
  have q1 : A / T ≤ hi := by rw [div_le_iff₀ hT]; exact hup
  have q2 : lo ≤ A / T := by rw [le_div_iff₀ hT]; exact hlow
  have q3 := abs_le.mp h2
  generalize ((S.length : ℝ) + 4) * 2 ^ (-50 : ℤ) * M + 2 ^ (-1050 : ℤ) = E at q3 ⊢
  constructor
  · linarith only [q3.1, q2]
  · linarith only [q3.2, q1]

/-- The correctly rounded power is accurate in the sense of `PowAccurate`. -/
theorem correctPow_accurate : @PowAccurate (correctPow (binary64 (K := ℝ))) := by
  letI := correctPow (binary64 (K := ℝ))
  intro x y a b hx hy ha h1 h2
  have hpos : 0 < a ^ b := Real.rpow_pos_of_pos ha b
  obtain ⟨c, hc, hce⟩ := (binary64_precision (K := ℝ)).err (a ^ b) (by
    rw [abs_of_pos hpos]
    exact h2.trans (zpow_le_zpow_right₀ (by norm_num) (by norm_num)))
  refine ⟨c, ?_, ?_⟩
  · show (binary64 (K := ℝ)).round (Fl.pow x.val y.val) = _
    rw [hx, hy, Fl.pow_fin_pos ha]
    exact hc
  · rw [abs_of_pos hpos] at hce
    have h4 : (2 : ℝ) ^ (-1075 : ℤ) ≤ 2 ^ (-53 : ℤ) * a ^ b := by
      calc (2 : ℝ) ^ (-1075 : ℤ) ≤ 2 ^ (-53 + -900 : ℤ) := zpow_le_zpow_right₀ (by norm_num) (by norm_num)
        _ = 2 ^ (-53 : ℤ) * 2 ^ (-900 : ℤ) := zpow_add₀ (by norm_num) _ _
        _ ≤ _ := mul_le_mul_of_nonneg_left h1 (by positivity)
    have h5 : 2 * (2 : ℝ) ^ (-53 : ℤ) ≤ 2 ^ (-51 : ℤ) := by norm_num
    have h6 := mul_le_mul_of_nonneg_right h5 hpos.le
    refine hce.trans ?_
    calc _ ≤ 2 ^ (-53 : ℤ) * a ^ b + 2 ^ (-53 : ℤ) * a ^ b := add_le_add_right h4 _
      _ = 2 * 2 ^ (-53 : ℤ) * a ^ b := by ring
      _ ≤ _ := h6

/-! ### Examples -/

/-- Two neighbours at distances 1 and 3 with data 4 and 8 and a third one beyond `max_distance`, `p = 2`: the value is 4.4 up to the
rounding error. -/
example : letI := correctPow (binary64 (K := ℝ))
    ∃ r, (idwVal fsum (fun w v => fsum (List.zipWith (· *ᶠ ·) w v)) (PyFloat.ofInt 0 : DblR)
        [PyFloat.ofInt (4 : ℕ), PyFloat.ofInt (8 : ℕ)] (PyFloat.ofInt (2 : ℕ))
        [(PyFloat.ofInt (1 : ℕ), 0), (PyFloat.ofInt (3 : ℕ), 1), (PyFloat.ofInt (9 : ℕ), 2)]).val = .fin r ∧
      |r - 4.4| ≤ 1 / 10 ^ 12 := by
  letI := correctPow (binary64 (K := ℝ))
  have v1 := val_ofNat_b64 1 (by norm_num)
  have v2 := val_ofNat_b64 2 (by norm_num)
  have v3 := val_ofNat_b64 3 (by norm_num)
  have v4 := val_ofNat_b64 4 (by norm_num)
  have v8 := val_ofNat_b64 8 (by norm_num)
  have big1 : (1 : ℝ) ≤ 2 ^ (900 : ℤ) := one_le_zpow₀ (by norm_num) (by norm_num)
  have small1 : (2 : ℝ) ^ (-900 : ℤ) ≤ 1 := zpow_le_one_of_nonpos₀ (by norm_num) (by norm_num)
  have big9 : (9 : ℝ) ≤ 2 ^ (900 : ℤ) := le_trans (by norm_num : (9 : ℝ) ≤ 2 ^ (4 : ℤ)) (zpow_le_zpow_right₀ (by norm_num) (by norm_num))
  obtain ⟨r, h1, h2⟩ := C116_accuracy correctPow_accurate adds_fsum (PyFloat.ofInt 0) (PyFloat.ofInt (2 : ℕ))
    [PyFloat.ofInt (4 : ℕ), PyFloat.ofInt (8 : ℕ)]
    [(PyFloat.ofInt (1 : ℕ), 0), (PyFloat.ofInt (3 : ℕ), 1), (PyFloat.ofInt (9 : ℕ), 2)]
    [(PyFloat.ofInt (1 : ℕ), 0), (PyFloat.ofInt (3 : ℕ), 1)] 2 8 (by simpa using v2) (by simp) (by simp) (by simp)
    (by
      intro e he
      simp only [List.mem_cons, List.not_mem_nil, or_false] at he
      rcases he with rfl | rfl
      · rw [RFl.lt_def, v1, RFl.val_zero]; simp
      · rw [RFl.lt_def, v3, RFl.val_zero]; simp)
    (by
      intro e he
      simp only [List.mem_cons, List.not_mem_nil, or_false] at he
      rcases he with rfl | rfl
      · exact ⟨1, by simpa using v1, one_pos, by simpa using small1, by simpa using big1⟩
      · refine ⟨3, by simpa using v3, by norm_num, ?_, ?_⟩
        · have : (3 : ℝ) ^ (2 : ℝ) = 9 := by norm_num
          rw [this]; exact small1.trans (by norm_num)
        · have : (3 : ℝ) ^ (2 : ℝ) = 9 := by norm_num
          rw [this]; exact big9)
    (by
      intro e he
      simp only [List.mem_cons, List.not_mem_nil, or_false] at he
      rcases he with rfl | rfl
      · exact ⟨_, 4, rfl, by simpa using v4, by norm_num⟩
      · exact ⟨_, 8, rfl, by simpa using v8, by norm_num⟩)
    (le_trans (by norm_num : (8 : ℝ) ≤ 2 ^ (3 : ℤ)) (zpow_le_zpow_right₀ (by norm_num) (by norm_num)))
  refine ⟨r, h1, ?_⟩
  have n1 : numOf (PyFloat.ofInt (1 : ℕ) : DblR) = 1 := by rw [numOf_fin v1]; norm_num
  have n3 : numOf (PyFloat.ofInt (3 : ℕ) : DblR) = 3 := by rw [numOf_fin v3]; norm_num
  have n4 : numOf (rd [PyFloat.ofInt (4 : ℕ), PyFloat.ofInt (8 : ℕ)] 0 : DblR) = 4 := by
    show numOf (PyFloat.ofInt (4 : ℕ) : DblR) = 4
    rw [numOf_fin v4]; norm_num
  have n8 : numOf (rd [PyFloat.ofInt (4 : ℕ), PyFloat.ofInt (8 : ℕ)] 1 : DblR) = 8 := by
    show numOf (PyFloat.ofInt (8 : ℕ) : DblR) = 8
    rw [numOf_fin v8]; norm_num
  simp only [List.map_cons, List.map_nil, List.sum_cons, List.sum_nil, n1, n3, n4, n8, List.length_cons, List.length_nil] at h2
  have e : (1 / (1 : ℝ) ^ (2 : ℝ) * 4 + (1 / (3 : ℝ) ^ (2 : ℝ) * 8 + 0)) / (1 / (1 : ℝ) ^ (2 : ℝ) + (1 / (3 : ℝ) ^ (2 : ℝ) + 0)) = 4.4 := by
    norm_num
  rw [e] at h2
  refine h2.trans ?_
  have h3 : (2 : ℝ) ^ (-1050 : ℤ) ≤ 2 ^ (-50 : ℤ) := zpow_le_zpow_right₀ (by norm_num) (by norm_num)
  refine (add_le_add_right h3 _).trans ?_
  norm_num

theorem binary64_overflow {x : ℝ} (h : (2 : ℝ) ^ (1024 : ℤ) ≤ x) : (binary64 (K := ℝ)).rnd x = .pinf := by
  have hx : 0 ≤ x := le_trans (by positivity) h
  show rndFmt 53 (-1074) 1024 x = _
  unfold rndFmt
  rw [if_pos hx, if_pos]
  have := rndPos_mono (p := 53) (emin := -1074) (by norm_num) (by positivity) h
  rwa [rndPos_two_zpow (by norm_num) (by norm_num)] at this

/-- Two neighbours at distance 4 with data 5 and 7 and `p = 600`: the value is NaN. -/
example : letI := correctPow (binary64 (K := ℝ))
    isNaN (idwVal fsum (fun w v => fsum (List.zipWith (· *ᶠ ·) w v)) (PyFloat.ofInt 0 : DblR)
      [PyFloat.ofInt (5 : ℕ), PyFloat.ofInt (7 : ℕ)] (PyFloat.ofInt (600 : ℕ))
      [(PyFloat.ofInt (4 : ℕ), 0), (PyFloat.ofInt (4 : ℕ), 1)]) = true := by
  letI := correctPow (binary64 (K := ℝ))
  have v4 := val_ofNat_b64 4 (by norm_num)
  have v600 := val_ofNat_b64 600 (by norm_num)
  have ho : (PyPow.pow (PyFloat.ofInt (4 : ℕ) : DblR) (PyFloat.ofInt (600 : ℕ))).val = .pinf := by
    show (binary64 (K := ℝ)).round (Fl.pow _ _) = _
    rw [v4, v600, Fl.pow_fin_pos (by norm_num)]
    apply binary64_overflow
    have : ((4 : ℕ) : ℝ) ^ ((600 : ℕ) : ℝ) = (2 : ℝ) ^ (1200 : ℤ) := by
      rw [Real.rpow_natCast, show ((4 : ℕ) : ℝ) = 2 ^ 2 by norm_num, ← pow_mul, ← zpow_natCast]
      norm_num
    rw [this]
    exact zpow_le_zpow_right₀ (by norm_num) (by norm_num)
  apply C116_overflow adds_fsum
  · intro e he
    simp only [List.mem_cons, List.not_mem_nil, or_false] at he
    rcases he with rfl | rfl <;> (rw [RFl.lt_def, v4, RFl.val_zero]; simp)
  · intro e he
    simp only [List.mem_cons, List.not_mem_nil, or_false] at he
    rcases he with rfl | rfl <;> exact ho

end binary64

end Verif.Props
