import Verif.Model.OrdinaryKriging
import Verif.Lemmas.Spherical
import Verif.Lemmas.FlList
import Mathlib.LinearAlgebra.Matrix.ToLinearEquiv

/-!
# The linear system of ordinary kriging
-/

namespace Verif.Kriging
open Verif Verif.Idw Matrix

variable {n : Nat} {γ : ℝ → ℝ} {p : Fin n → Pt}

/-- the system, row by row -/
theorem krSolve_row (h : IsUnit (krMatrix γ p).det) (q : Pt) (i : Fin n) :
    (∑ j, (if i = j then 0 else -γ (euclid (p i) (p j))) * krSolve γ p q (.inl j)) + krSolve γ p q (.inr ()) =
      krRhs γ p q (.inl i) := by
  have e : krMatrix γ p *ᵥ krSolve γ p q = krRhs γ p q := by
    unfold krSolve
    rw [Matrix.mulVec_mulVec, Matrix.mul_nonsing_inv _ h, Matrix.one_mulVec]
  have e2 := congrFun e (.inl i)
  rw [← e2]
  simp only [Matrix.mulVec, dotProduct, Fintype.sum_sum_type, krMatrix, Matrix.of_apply, Finset.univ_unique,
    Finset.sum_singleton, one_mul]

theorem krSolve_sum (h : IsUnit (krMatrix γ p).det) (q : Pt) : ∑ j, krSolve γ p q (.inl j) = 1 := by
  have e : krMatrix γ p *ᵥ krSolve γ p q = krRhs γ p q := by
    unfold krSolve
    rw [Matrix.mulVec_mulVec, Matrix.mul_nonsing_inv _ h, Matrix.one_mulVec]
  have e2 := congrFun e (.inr ())
  simp only [Matrix.mulVec, dotProduct, Fintype.sum_sum_type, krMatrix, Matrix.of_apply, Finset.univ_unique,
    Finset.sum_singleton, one_mul, zero_mul, add_zero] at e2
  exact e2

/-- the solution is unique -/
theorem krSolve_unique (h : IsUnit (krMatrix γ p).det) (q : Pt) (x : Fin n ⊕ Unit → ℝ)
    (h1 : ∀ i, (∑ j, (if i = j then 0 else -γ (euclid (p i) (p j))) * x (.inl j)) + x (.inr ()) = krRhs γ p q (.inl i))
    (h2 : ∑ j, x (.inl j) = 1) : krSolve γ p q = x := by
  have e : krMatrix γ p *ᵥ x = krRhs γ p q := by
    funext a
    cases a with
    | inl i =>
      rw [← h1 i]
      simp only [Matrix.mulVec, dotProduct, Fintype.sum_sum_type, krMatrix, Matrix.of_apply, Finset.univ_unique,
        Finset.sum_singleton, one_mul]
    | inr u =>
      simp only [Matrix.mulVec, dotProduct, Fintype.sum_sum_type, krMatrix, Matrix.of_apply, Finset.univ_unique,
        Finset.sum_singleton, one_mul, zero_mul, add_zero]
      exact h2
  unfold krSolve
  rw [← e, Matrix.mulVec_mulVec, Matrix.nonsing_inv_mul _ h, Matrix.one_mulVec]

/-- regular as soon as the homogeneous system has only the solution zero -/
theorem krRegular_of (h : ∀ x : Fin n ⊕ Unit → ℝ,
    (∀ i, (∑ j, (if i = j then 0 else -γ (euclid (p i) (p j))) * x (.inl j)) + x (.inr ()) = 0) →
    ∑ j, x (.inl j) = 0 → x = 0) : IsUnit (krMatrix γ p).det := by
  rw [isUnit_iff_ne_zero]
  intro h0
  obtain ⟨v, hv, hv0⟩ := Matrix.exists_mulVec_eq_zero_iff.2 h0
  apply hv
  apply h
  · intro i
    have := congrFun hv0 (.inl i)
    simp only [Matrix.mulVec, dotProduct, Fintype.sum_sum_type, krMatrix, Matrix.of_apply, Finset.univ_unique,
        Finset.sum_singleton, one_mul] at this
    exact this
  · have := congrFun hv0 (.inr ())
    simp only [Matrix.mulVec, dotProduct, Fintype.sum_sum_type, krMatrix, Matrix.of_apply, Finset.univ_unique,
        Finset.sum_singleton, one_mul, zero_mul, add_zero] at this
    exact this

/-! ### order of the points -/

theorem krMatrix_comp {m : Nat} (σ : Fin n ≃ Fin m) (p : Fin m → Pt) :
    krMatrix γ (p ∘ σ) = (krMatrix γ p).submatrix (Equiv.sumCongr σ (Equiv.refl Unit)) (Equiv.sumCongr σ (Equiv.refl Unit)) := by
  ext a b
  cases a <;> cases b <;> simp [krMatrix]

theorem krRhs_comp {m : Nat} (σ : Fin n ≃ Fin m) (p : Fin m → Pt) (q : Pt) :
    krRhs γ (p ∘ σ) q = krRhs γ p q ∘ Equiv.sumCongr σ (Equiv.refl Unit) := by
  funext a
  cases a <;> rfl

theorem krSolve_comp {m : Nat} (σ : Fin n ≃ Fin m) (p : Fin m → Pt) (q : Pt) :
    krSolve γ (p ∘ σ) q = krSolve γ p q ∘ Equiv.sumCongr σ (Equiv.refl Unit) := by
  unfold krSolve
  rw [krMatrix_comp, krRhs_comp, Matrix.inv_submatrix_equiv, Matrix.submatrix_mulVec_equiv]
  congr 1
  congr 1
  funext a
  simp

/-- two lists with the same entries: a renumbering of the positions -/
theorem perm_equiv {α : Type} {l l' : List α} (h : l.Perm l') :
    ∃ σ : Fin l.length ≃ Fin l'.length, ∀ i, l[i] = l'[σ i] := by
  induction h with
  | nil => exact ⟨Equiv.refl _, fun i => i.elim0⟩
  | @cons a l l' _ ih =>
    obtain ⟨σ, hσ⟩ := ih
    refine ⟨⟨Fin.cases 0 (fun i => (σ i).succ), Fin.cases 0 (fun i => (σ.symm i).succ), ?_, ?_⟩, ?_⟩
    · intro i
      refine Fin.cases ?_ (fun i => ?_) i
      · rfl
      · simp
    · intro i
      refine Fin.cases ?_ (fun i => ?_) i
      · rfl
      · simp
    · intro i
      refine Fin.cases ?_ (fun i => ?_) i
      · rfl
      · simpa using hσ i
  | swap a b l =>
    refine ⟨Equiv.swap (⟨0, by simp⟩ : Fin (l.length + 2)) ⟨1, by simp⟩, ?_⟩
    intro i
    refine Fin.cases ?_ (fun i => Fin.cases ?_ (fun i => ?_) i) i
    · rfl
    · rfl
    · have : Equiv.swap (⟨0, by simp⟩ : Fin (l.length + 2)) ⟨1, by simp⟩ i.succ.succ = i.succ.succ := by
        apply Equiv.swap_apply_of_ne_of_ne
        · intro h; simp [Fin.ext_iff] at h
        · intro h; simp [Fin.ext_iff] at h
      exact (congrArg (a :: b :: l).get this).symm
  | trans _ _ ih1 ih2 =>
    obtain ⟨σ, hσ⟩ := ih1
    obtain ⟨τ, hτ⟩ := ih2
    exact ⟨σ.trans τ, fun i => by rw [hσ, hτ]; rfl⟩

/-! ### the variance -/

/-- The variance of the estimate with weights `l` of the values at `p`, for the quantity at `q`, in terms of the variogram. -/
noncomputable def estVar (γ : ℝ → ℝ) {n : Nat} (p : Fin n → Pt) (q : Pt) (l : Fin n → ℝ) : ℝ :=
  2 * ∑ i, l i * γ (euclid q (p i)) - ∑ i, ∑ j, l i * l j * (if i = j then 0 else γ (euclid (p i) (p j)))

/-- conditionally negative: what makes a function a variogram -/
def IsVariogram (γ : ℝ → ℝ) : Prop :=
  ∀ (n : Nat) (p : Fin n → Pt) (c : Fin n → ℝ), ∑ i, c i = 0 →
    ∑ i, ∑ j, c i * c j * (if i = j then 0 else γ (euclid (p i) (p j))) ≤ 0

theorem euclid_comm (p q : Pt) : euclid p q = euclid q p := by
  unfold euclid
  congr 1
  ring

theorem krSolve_quad (h : IsUnit (krMatrix γ p).det) (q : Pt) (l : Fin n → ℝ) :
    ∑ i, l i * krRhs γ p q (.inl i) = - (∑ i, ∑ j, l i * krSolve γ p q (.inl j) *
      (if i = j then 0 else γ (euclid (p i) (p j)))) + krSolve γ p q (.inr ()) * ∑ i, l i := by
  rw [Finset.mul_sum, ← Finset.sum_neg_distrib, ← Finset.sum_add_distrib]
  refine Finset.sum_congr rfl fun i _ => ?_
  rw [← krSolve_row h q i, mul_add, Finset.mul_sum, ← Finset.sum_neg_distrib]
  congr 1
  · refine Finset.sum_congr rfl fun j _ => ?_
    split <;> ring
  · ring

theorem krSigma_eq (h : IsUnit (krMatrix γ p).det) (q : Pt) (hq : ∀ i, ¬ euclid q (p i) ≤ 1 / 10 ^ 10) :
    ∑ a, krSolve γ p q a * -(krRhs γ p q a) = estVar γ p q fun i => krSolve γ p q (.inl i) := by
  have hb : ∀ i, krRhs γ p q (.inl i) = - γ (euclid q (p i)) := fun i => if_neg (hq i)
  have e := krSolve_quad h q fun i => krSolve γ p q (.inl i)
  rw [krSolve_sum h q, mul_one] at e
  simp only [hb] at e
  rw [Fintype.sum_sum_type]
  simp only [hb, Finset.univ_unique, Finset.sum_singleton]
  unfold estVar
  have hl : krRhs γ p q (.inr default) = 1 := rfl
  have hu : (default : Unit) = () := rfl
  rw [hl, hu]
  have e3 : ∑ i, krSolve γ p q (.inl i) * - -γ (euclid q (p i)) = ∑ i, krSolve γ p q (.inl i) * γ (euclid q (p i)) :=
    Finset.sum_congr rfl fun i _ => by ring
  have e4 : ∑ i, krSolve γ p q (.inl i) * -γ (euclid q (p i)) = - ∑ i, krSolve γ p q (.inl i) * γ (euclid q (p i)) := by
    rw [← Finset.sum_neg_distrib]
    exact Finset.sum_congr rfl fun i _ => by ring
  rw [e3]
  rw [e4] at e
  linarith

theorem krOptimal (hγ : IsVariogram γ) (h : IsUnit (krMatrix γ p).det) (q : Pt)
    (hq : ∀ i, ¬ euclid q (p i) ≤ 1 / 10 ^ 10) (l : Fin n → ℝ) (hl : ∑ i, l i = 1) :
    estVar γ p q (fun i => krSolve γ p q (.inl i)) ≤ estVar γ p q l := by
  set s : Fin n → ℝ := fun i => krSolve γ p q (.inl i) with hs
  set G : Fin n → Fin n → ℝ := fun i j => if i = j then 0 else γ (euclid (p i) (p j)) with hG
  have hGs : ∀ i j, G i j = G j i := by
    intro i j
    simp only [hG]
    by_cases hij : i = j
    · rw [if_pos hij, if_pos hij.symm]
    · rw [if_neg hij, if_neg (Ne.symm hij), euclid_comm]
  have hb : ∀ i, krRhs γ p q (.inl i) = - γ (euclid q (p i)) := fun i => if_neg (hq i)
  have hsum : ∑ i, s i = 1 := krSolve_sum h q
  have hc := hγ n p (fun i => l i - s i) (by rw [Finset.sum_sub_distrib, hl, hsum, sub_self])
  have e1 := krSolve_quad h q s
  have e2 := krSolve_quad h q l
  rw [hl] at e2
  rw [hsum] at e1
  simp only [hb] at e1 e2
  have n1 : ∀ m : Fin n → ℝ, ∑ i, m i * -γ (euclid q (p i)) = - ∑ i, m i * γ (euclid q (p i)) := by
    intro m
    rw [← Finset.sum_neg_distrib]
    exact Finset.sum_congr rfl fun i _ => by ring
  rw [n1] at e1 e2
  have expand : ∑ i, ∑ j, (l i - s i) * (l j - s j) * G i j =
      (∑ i, ∑ j, l i * l j * G i j) - 2 * (∑ i, ∑ j, l i * s j * G i j) + ∑ i, ∑ j, s i * s j * G i j := by
    have sym : ∑ i, ∑ j, s i * l j * G i j = ∑ i, ∑ j, l i * s j * G i j := by
      rw [Finset.sum_comm]
      refine Finset.sum_congr rfl fun i _ => Finset.sum_congr rfl fun j _ => ?_
      rw [hGs j i]; ring
    rw [two_mul]
    nth_rewrite 2 [← sym]
    rw [← sub_sub]
    simp only [← Finset.sum_sub_distrib, ← Finset.sum_add_distrib]
    refine Finset.sum_congr rfl fun i _ => Finset.sum_congr rfl fun j _ => by ring
  unfold estVar
  change _ ≤ (0:ℝ) at hc
  have hc' : ∑ i, ∑ j, (l i - s i) * (l j - s j) * G i j ≤ 0 := hc
  rw [expand] at hc'
  change 2 * (∑ i, s i * γ (euclid q (p i))) - ∑ i, ∑ j, s i * s j * G i j ≤
    2 * (∑ i, l i * γ (euclid q (p i))) - ∑ i, ∑ j, l i * l j * G i j
  have e1' : -∑ i, s i * γ (euclid q (p i)) = -(∑ i, ∑ j, s i * s j * G i j) + krSolve γ p q (.inr ()) * 1 := e1
  have e2' : -∑ i, l i * γ (euclid q (p i)) = -(∑ i, ∑ j, l i * s j * G i j) + krSolve γ p q (.inr ()) * 1 := e2
  linarith

/-- the variance of any weighted mean is not negative -/
theorem estVar_nonneg (hγ : IsVariogram γ) (q : Pt) (l : Fin n → ℝ) (hl : ∑ i, l i = 1) : 0 ≤ estVar γ p q l := by
  have hc := hγ (n + 1) (Fin.cons q p) (Fin.cons (-1) l) (by rw [Fin.sum_univ_succ]; simp [hl])
  simp only [Fin.sum_univ_succ, Fin.cons_zero, Fin.cons_succ, if_true, Fin.succ_inj] at hc
  have e0 : ∀ i : Fin n, ((0 : Fin (n + 1)) = i.succ) = False := by
    intro i; simp [Fin.ext_iff]
  have e1 : ∀ i : Fin n, (i.succ = (0 : Fin (n + 1))) = False := by
    intro i; simp [Fin.ext_iff]
  simp only [e0, e1, if_false, mul_zero, zero_add, Finset.sum_add_distrib] at hc
  unfold estVar
  have a1 : ∑ x, -1 * l x * γ (euclid q (p x)) = - ∑ i, l i * γ (euclid q (p i)) := by
    rw [← Finset.sum_neg_distrib]
    exact Finset.sum_congr rfl fun i _ => by ring
  have a2 : ∑ x, l x * -1 * γ (euclid (p x) q) = - ∑ i, l i * γ (euclid q (p i)) := by
    rw [← Finset.sum_neg_distrib]
    exact Finset.sum_congr rfl fun i _ => by rw [euclid_comm]; ring
  rw [a1, a2] at hc
  linarith

/-! ### the spherical variogram -/

theorem spherical_quad {psill range nugget : ℝ} (h1 : 0 ≤ psill) (h2 : 0 < range) (c : Fin n → ℝ)
    (hc : ∑ i, c i = 0) :
    ∑ i, ∑ j, c i * c j * (if i = j then 0 else sphericalVariogram psill range nugget (euclid (p i) (p j))) ≤
      - (nugget * ∑ i, c i ^ 2) := by
  have hpd := Spherical.cov3_posdef c fun i => ((p i).1 / range, (p i).2 / range)
  have hd : ∀ i j, Real.sqrt (((p i).1 / range - (p j).1 / range) ^ 2 + ((p i).2 / range - (p j).2 / range) ^ 2) =
      euclid (p i) (p j) / range := by
    intro i j
    unfold euclid
    rw [← sub_div, ← sub_div, div_pow, div_pow, ← add_div, Real.sqrt_div' _ (sq_nonneg _), Real.sqrt_sq h2.le]
  simp only [hd] at hpd
  have hG : ∀ i j, (if i = j then 0 else sphericalVariogram psill range nugget (euclid (p i) (p j))) =
      psill * (1 - Spherical.cov3 (euclid (p i) (p j) / range)) + nugget * (1 - if i = j then 1 else 0) := by
    intro i j
    by_cases hij : i = j
    · subst hij
      have : euclid (p i) (p i) = 0 := by unfold euclid; simp
      rw [this]
      simp [Spherical.cov3]
    · rw [if_neg hij, if_neg hij]
      unfold sphericalVariogram Spherical.cov3
      by_cases hr : euclid (p i) (p j) ≤ range
      · rw [if_pos hr, if_pos ((div_le_one h2).2 hr)]
        field_simp
        ring
      · rw [if_neg hr, if_neg (by rw [div_le_one h2]; exact hr)]
        ring
  simp only [hG]
  have expand : ∑ i, ∑ j, c i * c j * (psill * (1 - Spherical.cov3 (euclid (p i) (p j) / range)) +
      nugget * (1 - if i = j then 1 else 0)) =
      (psill + nugget) * ((∑ i, c i) * ∑ j, c j) -
      psill * (∑ i, ∑ j, c i * c j * Spherical.cov3 (euclid (p i) (p j) / range)) -
      nugget * ∑ i, c i ^ 2 := by
    have d : ∑ i, c i ^ 2 = ∑ i, ∑ j, c i * c j * (if i = j then 1 else 0) := by
      refine Finset.sum_congr rfl fun i _ => ?_
      simp [sq]
    rw [d, Finset.sum_mul_sum]
    simp only [Finset.mul_sum, ← Finset.sum_sub_distrib]
    refine Finset.sum_congr rfl fun i _ => Finset.sum_congr rfl fun j _ => by ring
  rw [expand, hc]
  have := mul_nonneg h1 hpd
  linarith

theorem spherical_isVariogram {psill range nugget : ℝ} (h1 : 0 ≤ psill) (h2 : 0 < range) (h3 : 0 ≤ nugget) :
    IsVariogram (sphericalVariogram psill range nugget) := by
  intro n p c hc
  refine le_trans (spherical_quad h1 h2 c hc) ?_
  have : 0 ≤ nugget * ∑ i, c i ^ 2 := mul_nonneg h3 (Finset.sum_nonneg fun i _ => sq_nonneg _)
  linarith

theorem spherical_regular {psill range nugget : ℝ} (h1 : 0 ≤ psill) (h2 : 0 < range) (h3 : 0 < nugget) (hn : 0 < n) :
    IsUnit (krMatrix (sphericalVariogram psill range nugget) p).det := by
  apply krRegular_of
  intro x hx hsum
  have hq := spherical_quad (p := p) (nugget := nugget) h1 h2 (fun i => x (.inl i)) hsum
  have hzero : ∑ i, ∑ j, x (.inl i) * x (.inl j) *
      (if i = j then 0 else sphericalVariogram psill range nugget (euclid (p i) (p j))) = 0 := by
    have e : ∑ i, x (.inl i) * ((∑ j, (if i = j then 0 else -sphericalVariogram psill range nugget (euclid (p i) (p j))) * x (.inl j)) +
        x (.inr ())) = 0 := Finset.sum_eq_zero fun i _ => by rw [hx i, mul_zero]
    simp only [mul_add, Finset.sum_add_distrib] at e
    rw [← Finset.sum_mul, hsum, zero_mul, add_zero] at e
    rw [← neg_eq_zero, ← Finset.sum_neg_distrib]
    refine Eq.trans ?_ e
    refine Finset.sum_congr rfl fun i _ => ?_
    rw [Finset.mul_sum, ← Finset.sum_neg_distrib]
    refine Finset.sum_congr rfl fun j _ => ?_
    split <;> ring
  rw [hzero] at hq
  have hs : ∑ i, x (.inl i) ^ 2 = 0 := by
    have a : 0 ≤ ∑ i, x (.inl i) ^ 2 := Finset.sum_nonneg fun i _ => sq_nonneg _
    have b : nugget * ∑ i, x (.inl i) ^ 2 ≤ 0 := by linarith
    by_contra hne
    have : 0 < ∑ i, x (.inl i) ^ 2 := lt_of_le_of_ne a (Ne.symm hne)
    have := mul_pos h3 this
    linarith
  have hc : ∀ i, x (.inl i) = 0 := by
    intro i
    have := (Finset.sum_eq_zero_iff_of_nonneg fun i _ => sq_nonneg _).1 hs i (Finset.mem_univ i)
    exact pow_eq_zero_iff (two_ne_zero) |>.1 this
  funext a
  cases a with
  | inl i => exact hc i
  | inr u =>
    have := hx ⟨0, hn⟩
    simp only [hc, mul_zero, Finset.sum_const_zero, zero_add] at this
    exact this

end Verif.Kriging
