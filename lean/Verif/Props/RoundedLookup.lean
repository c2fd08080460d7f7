import Verif.Props.LookupLin

/-!
# Property C163: the look-up of the wet antenna attenuation in double arithmetic
-/

namespace Verif.Props
open Verif Verif.KR Verif.Bin Verif.WaaModels

/-- The grid `np.logspace(-10, 3, 100)` with entry 0 set to 0 in doubles: every entry has a relative error of at most `2^-45`
(the exponents, up to 10 in size, are rounded before the power is taken). -/
structure DoubleGrid (grid : List DblR) (a : ℕ → ℝ) : Prop where
  len : grid.length = 100
  val : ∀ k, k < 100 → ∃ x, grid[k]? = some x ∧ x.val = .fin (a k)
  close : ∀ k, k < 100 → |a k - gridA k| ≤ 2 ^ (-45 : ℤ) * gridA k

theorem ten_root : (1.3 : ℝ) ≤ (10 : ℝ) ^ (13 / 99 : ℝ) := by
  have h : (1.3 : ℝ) ^ (99 : ℕ) ≤ ((10 : ℝ) ^ (13 / 99 : ℝ)) ^ (99 : ℕ) := by
    rw [← Real.rpow_natCast ((10 : ℝ) ^ (13 / 99 : ℝ)) 99, ← Real.rpow_mul (by norm_num)]
    have : ((13 : ℝ) / 99 * ((99 : ℕ) : ℝ)) = ((13 : ℕ) : ℝ) := by norm_num
    rw [this, Real.rpow_natCast]
    norm_num
  exact le_of_pow_le_pow_left₀ (by norm_num) (by positivity) h

theorem grid_ratio_ge (k : ℕ) : 1.3 * gridA k ≤ gridA (k + 1) := by
  unfold gridA
  rw [if_neg (by omega : ¬ k + 1 = 0)]
  split_ifs with h
  · rw [mul_zero]; positivity
  · have e : (-10 + 13 * ((k + 1 : ℕ) : ℝ) / 99) = 13 / 99 + (-10 + 13 * (k : ℝ) / 99) := by
      push_cast; ring
    rw [e, Real.rpow_add (by norm_num) (13 / 99)]
    exact mul_le_mul_of_nonneg_right ten_root (Real.rpow_nonneg (by norm_num : (0 : ℝ) ≤ 10) _)

theorem grid_first_ge : (1.3e-10 : ℝ) ≤ gridA 1 := by
  unfold gridA
  rw [if_neg (by norm_num)]
  have e : (-10 + 13 * ((1 : ℕ) : ℝ) / 99) = 13 / 99 + ((-10 : ℤ) : ℝ) := by push_cast; ring
  rw [e, Real.rpow_add (by norm_num), Real.rpow_intCast]
  calc (1.3e-10 : ℝ) ≤ 1.3 * (10 : ℝ) ^ (-10 : ℤ) := by norm_num
    _ ≤ _ := mul_le_mul_of_nonneg_right ten_root (by positivity)

theorem grid_le_1000 {k : ℕ} (hk : k < 100) : gridA k ≤ 1000 := by
  rw [← gridA_last]
  exact gridA_strictMono.monotone (by omega)

section
variable {grid : List DblR} {a : ℕ → ℝ}

theorem DoubleGrid.bounds (h : DoubleGrid grid a) {k : ℕ} (hk : k < 100) :
    gridA k * (1 - 1 / 1000000) ≤ a k ∧ a k ≤ gridA k * (1 + 1 / 1000000) := by
  obtain ⟨h1, h2⟩ := abs_le.mp (h.close k hk)
  have e : (2 : ℝ) ^ (-45 : ℤ) * gridA k ≤ 1 / 1000000 * gridA k := mul_le_mul_of_nonneg_right (by norm_num) (gridA_nonneg k)
  generalize (2 : ℝ) ^ (-45 : ℤ) * gridA k = t at *
  constructor <;> linarith

theorem DoubleGrid.nonneg (h : DoubleGrid grid a) {k : ℕ} (hk : k < 100) : 0 ≤ a k := by
  have := (h.bounds hk).1
  have := gridA_nonneg k
  linarith

theorem DoubleGrid.zero (h : DoubleGrid grid a) : a 0 = 0 := by
  have := h.bounds (k := 0) (by norm_num)
  rw [show gridA 0 = 0 from rfl] at this
  linarith

theorem DoubleGrid.step (h : DoubleGrid grid a) {k : ℕ} (hk : k + 1 < 100) :
    (1.2e-10 : ℝ) ≤ a (k + 1) ∧ a k ≤ 0.8 * a (k + 1) ∧ a (k + 1) ≤ 1001 := by
  obtain ⟨b1, b2⟩ := h.bounds hk
  obtain ⟨b3, b4⟩ := h.bounds (k := k) (by omega)
  have r := grid_ratio_ge k
  have f : gridA 1 ≤ gridA (k + 1) := gridA_strictMono.monotone (by omega)
  have f1 := grid_first_ge
  have g0 := gridA_nonneg k
  have g1 := grid_le_1000 hk
  norm_num at f1 r ⊢
  refine ⟨by linarith, by linarith, by linarith⟩

/-- The nodes of the table in doubles. -/
theorem nodes_double (h : DoubleGrid grid a) {waa : List DblR} {w : ℕ → ℝ} {α : ℝ}
    (hw : ∀ k, k < 100 → ∃ x, waa[k]? = some x ∧ x.val = .fin (w k)) (w0 : ∀ k, k < 100 → 0 ≤ w k)
    (wm : ∀ i j, i < j → j < 100 → w i ≤ w j) (wα : ∀ k, k < 100 → w k ≤ α) (hα : α ≤ 2 ^ (14 : ℤ)) :
    ∃ X : ℕ → ℝ, (∀ k, k < 100 → |X k - (a k + w k)| ≤ 2 ^ (-53 : ℤ) * (a k + w k)) ∧
      (∀ k, k < 100 → w k ≤ X k) ∧
      (∀ k, k < 100 → ∃ x, (List.zipWith (· +ᶠ ·) grid waa)[k]? = some x ∧ x.val = .fin (X k)) ∧
      ∀ k, k + 1 < 100 → SegOk (X k, w k) (X (k + 1), w (k + 1)) := by
  have pr := binary64_precision (K := ℝ)
  have ex : ∀ k, ∃ z : ℝ, k < 100 → |z - (a k + w k)| ≤ 2 ^ (-53 : ℤ) * (a k + w k) ∧ w k ≤ z ∧
      ∃ x, (List.zipWith (· +ᶠ ·) grid waa)[k]? = some x ∧ x.val = .fin z := by
    intro k
    by_cases hk : k < 100
    · obtain ⟨x, hx, hxv⟩ := h.val k hk
      obtain ⟨y, hy, hyv⟩ := hw k hk
      have a0 := h.nonneg hk
      have s0 : 0 ≤ a k + w k := add_nonneg a0 (w0 k hk)
      have sb : a k + w k ≤ 2 ^ (1023 : ℤ) := by
        have b := (h.bounds hk).2
        have g := grid_le_1000 hk
        have c := (wα k hk).trans hα
        have d : (2 : ℝ) ^ (14 : ℤ) ≤ 2 ^ (20 : ℤ) - 2000 := by norm_num
        have e : (2 : ℝ) ^ (20 : ℤ) ≤ 2 ^ (1023 : ℤ) := zpow_le_zpow_right₀ (by norm_num) (by norm_num)
        refine le_trans ?_ e
        generalize (2 : ℝ) ^ (14 : ℤ) = u at *
        generalize (2 : ℝ) ^ (20 : ℤ) = v at *
        linarith only [b, g, c, d]
      obtain ⟨z, hz, hze⟩ := pr.add_err _ _ (rep_fin hxv) (rep_fin hyv) (by rw [abs_of_nonneg s0]; exact sb)
      rw [abs_of_nonneg s0] at hze
      refine ⟨z, fun _ => ⟨hze, ?_, x +ᶠ y, ?_, ?_⟩⟩
      · have := (binary64 (K := ℝ)).mono _ _ (le_add_of_nonneg_left a0 : w k ≤ a k + w k)
        rw [rep_fin hyv, hz] at this
        simpa using this
      · rw [List.getElem?_zipWith, hx, hy]
      · rw [RFl.val_add, hxv, hyv, Fl.pf_add_fin]
        exact hz
    · exact ⟨0, fun h => absurd h hk⟩
  choose X hX using ex
  refine ⟨X, fun k hk => (hX k hk).1, fun k hk => (hX k hk).2.1, fun k hk => (hX k hk).2.2, ?_⟩
  intro k hk
  obtain ⟨s1, s2, s3⟩ := h.step hk
  obtain ⟨e1, l1, _⟩ := hX k (by omega)
  obtain ⟨e2, l2, _⟩ := hX (k + 1) hk
  have a0 := h.nonneg (k := k) (by omega)
  have c0 := w0 k (by omega)
  have c1 := wm k (k + 1) (by omega) hk
  have c2 := (wα (k + 1) hk).trans hα
  have key : (w (k + 1) - w k) + 0.1 * a (k + 1) ≤ X (k + 1) - X k := by
    have f1 := (abs_le.mp e1).2
    have f2 := (abs_le.mp e2).1
    have u1 : (2 : ℝ) ^ (-53 : ℤ) * (a k + w k) ≤ 2 ^ (-53 : ℤ) * (a (k + 1) + 2 ^ (14 : ℤ)) :=
      mul_le_mul_of_nonneg_left (by linarith) (by positivity)
    have u2 : (2 : ℝ) ^ (-53 : ℤ) * (a (k + 1) + w (k + 1)) ≤ 2 ^ (-53 : ℤ) * (a (k + 1) + 2 ^ (14 : ℤ)) :=
      mul_le_mul_of_nonneg_left (by linarith) (by positivity)
    have u3 : (2 : ℝ) ^ (-53 : ℤ) * (a (k + 1) + 2 ^ (14 : ℤ)) ≤ 0.04 * a (k + 1) := by
      have e : (2 : ℝ) ^ (-53 : ℤ) * 2 ^ (14 : ℤ) ≤ 0.03 * 1.2e-10 := by norm_num
      have e' : (2 : ℝ) ^ (-53 : ℤ) * a (k + 1) ≤ 0.01 * a (k + 1) := mul_le_mul_of_nonneg_right (by norm_num) (by norm_num at s1; linarith)
      rw [mul_add]
      generalize (2 : ℝ) ^ (-53 : ℤ) * 2 ^ (14 : ℤ) = t at *
      generalize (2 : ℝ) ^ (-53 : ℤ) * a (k + 1) = t' at *
      norm_num at s1 e e' ⊢
      linarith
    generalize (2 : ℝ) ^ (-53 : ℤ) * (a (k + 1) + 2 ^ (14 : ℤ)) = t at *
    generalize (2 : ℝ) ^ (-53 : ℤ) * (a k + w k) = t1 at *
    generalize (2 : ℝ) ^ (-53 : ℤ) * (a (k + 1) + w (k + 1)) = t2 at *
    norm_num at s1 s2 u3 ⊢
    linarith
  have g : (2 : ℝ) ^ (-40 : ℤ) ≤ 0.1 * a (k + 1) := by
    have : (2 : ℝ) ^ (-40 : ℤ) ≤ 0.1 * 1.2e-10 := by norm_num
    norm_num at this s1 ⊢
    linarith
  refine ⟨c0, l1, c1, ?_, ?_, ?_⟩
  · show w (k + 1) - w k ≤ X (k + 1) - X k
    norm_num at s1 key; linarith
  · show (2 : ℝ) ^ (-40 : ℤ) ≤ X (k + 1) - X k
    generalize (2 : ℝ) ^ (-40 : ℤ) = t at *
    linarith
  · show X (k + 1) ≤ 2 ^ (20 : ℤ)
    have f2 := (abs_le.mp e2).2
    have u2 : (2 : ℝ) ^ (-53 : ℤ) * (a (k + 1) + w (k + 1)) ≤ 1 * (a (k + 1) + w (k + 1)) :=
      mul_le_mul_of_nonneg_right (by norm_num) (by norm_num at s1; linarith)
    have d : 4 * (2 : ℝ) ^ (14 : ℤ) ≤ 2 ^ (20 : ℤ) - 4000 := by norm_num
    generalize (2 : ℝ) ^ (-53 : ℤ) * (a (k + 1) + w (k + 1)) = t at *
    generalize (2 : ℝ) ^ (14 : ℤ) = u at *
    generalize (2 : ℝ) ^ (20 : ℤ) = v at *
    linarith

/-- a query of the table in doubles -/
theorem query_double (h : DoubleGrid grid a) {waa : List DblR} {w : ℕ → ℝ} {α : ℝ} (hl : waa.length = 100)
    (hw : ∀ k, k < 100 → ∃ x, waa[k]? = some x ∧ x.val = .fin (w k)) (w0 : ∀ k, k < 100 → 0 ≤ w k) (w00 : w 0 = 0)
    (wm : ∀ i j, i < j → j < 100 → w i ≤ w j) (wα : ∀ k, k < 100 → w k ≤ α) (hα : α ≤ 2 ^ (14 : ℤ)) :
    ∃ X : ℕ → ℝ, X 0 = 0 ∧ (∀ k, k < 100 → |X k - (a k + w k)| ≤ 2 ^ (-53 : ℤ) * (a k + w k)) ∧
      (∀ i j, i < j → j < 100 → X i < X j) ∧ (∀ i j, i < j → j < 100 → w j - w i ≤ X j - X i) ∧
      (∀ z : DblR, interp1dLinear (List.zipWith (· +ᶠ ·) grid waa) waa z =
        if isNaN z then .ok z
        else if (Fl.fin 0 ≤ᶠ z.val) && (z.val ≤ᶠ Fl.fin (X 99)) then .ok (npInterp ((List.zipWith (· +ᶠ ·) grid waa).zip waa) z)
        else .error .valueError) ∧
      ∀ (z : DblR) (x : ℝ), z.val = .fin x → 0 ≤ x →
        ∃ v, (npInterp ((List.zipWith (· +ᶠ ·) grid waa).zip waa) z).val = .fin v ∧ 0 ≤ v ∧
          (∀ k, k < 100 → x = X k → v = w k) ∧
          |v - linI ((List.range 100).map fun k => (X k, w k)) x| ≤
            2 ^ (-49 : ℤ) * linI ((List.range 100).map fun k => (X k, w k)) x + 2 ^ (-1000 : ℤ) := by
  obtain ⟨X, e, lw, nv, sg⟩ := nodes_double h hw w0 wm wα hα
  have g40 : (0 : ℝ) < 2 ^ (-40 : ℤ) := by positivity
  have X0 : X 0 = 0 := by
    have := e 0 (by norm_num)
    rw [h.zero, w00, add_zero, mul_zero] at this
    have := abs_nonpos_iff.mp this
    linarith
  have both : ∀ i j, i < j → j < 100 → X i < X j ∧ w j - w i ≤ X j - X i := by
    intro i j hij
    induction j with
    | zero => omega
    | succ j ih =>
      intro hj
      have s := sg j hj
      have s1 := s.gap
      have s2 := s.slope
      dsimp only at s1 s2
      rcases Nat.lt_or_ge i j with h | h
      · obtain ⟨i1, i2⟩ := ih h (by omega)
        exact ⟨by linarith, by linarith⟩
      · have : i = j := by omega
        subst this
        exact ⟨by linarith, s2⟩
  have lenZ : (List.zipWith (· +ᶠ ·) grid waa).length = 100 := by rw [List.length_zipWith, h.len, hl, Nat.min_self]
  refine ⟨X, X0, e, fun i j hi hj => (both i j hi hj).1, fun i j hi hj => (both i j hi hj).2, ?_, ?_⟩
  · intro z
    obtain ⟨lo, hlo, hlov⟩ := nv 0 (by norm_num)
    obtain ⟨hi, hhi, hhiv⟩ := nv 99 (by norm_num)
    unfold interp1dLinear
    by_cases hn : isNaN z = true
    · rw [if_pos hn, if_pos hn]
    rw [if_neg hn, if_neg hn, List.head?_eq_getElem?, List.getLast?_eq_getElem?, lenZ, hlo, hhi]
    dsimp only
    rw [X0] at hlov
    have e1 : ((z <ᶠ lo) || (hi <ᶠ z)) = !((Fl.fin 0 ≤ᶠ z.val) && (z.val ≤ᶠ Fl.fin (X 99))) := by
      rw [RFl.lt_def, RFl.lt_def, hlov, hhiv]
      rw [RFl.isNaN_def] at hn
      cases hz : z.val with
      | nan => rw [hz] at hn; exact absurd rfl hn
      | ninf => rfl
      | pinf => rfl
      | fin x =>
        simp only [Fl.pf_lt_fin, Fl.pf_le_fin, Bool.not_and, ← decide_not, not_le]
    rw [e1]
    cases ((Fl.fin 0 ≤ᶠ z.val) && (z.val ≤ᶠ Fl.fin (X 99))) <;> rfl
  · intro z x hz hx
    set ns : List (ℝ × ℝ) := (List.range 100).map fun k => (X k, w k) with hns
    have get_n : ∀ k, k < 100 → ns[k]? = some (X k, w k) := by
      intro k hk; rw [hns, List.getElem?_map, List.getElem?_range hk]; rfl
    have hF : List.Forall₂ (fun (z : DblR × DblR) (n : ℝ × ℝ) => z.1.val = .fin n.1 ∧ z.2.val = .fin n.2)
        ((List.zipWith (· +ᶠ ·) grid waa).zip waa) ns := by
      rw [List.forall₂_iff_get]
      refine ⟨by simp [lenZ, hl, hns], ?_⟩
      intro k h1 h2
      have hk : k < 100 := by simpa [hns] using h2
      obtain ⟨p, hp, hpv⟩ := nv k hk
      obtain ⟨q, hq, hqv⟩ := hw k hk
      have ez : ((List.zipWith (· +ᶠ ·) grid waa).zip waa)[k]? = some (p, q) := by
        rw [List.getElem?_zip_eq_some]; exact ⟨hp, hq⟩
      have en := get_n k hk
      obtain ⟨_, ez⟩ := List.getElem?_eq_some_iff.mp ez
      obtain ⟨_, en⟩ := List.getElem?_eq_some_iff.mp en
      rw [List.get_eq_getElem, List.get_eq_getElem]
      dsimp only
      rw [ez, en]
      exact ⟨hpv, hqv⟩
    have hc : ns.IsChain SegOk := by
      rw [List.isChain_iff_getElem]
      intro i hi
      have hi' : i + 1 < 100 := by simpa [hns] using hi
      simp only [hns, List.getElem_map, List.getElem_range]
      exact sg i hi'
    have hI : Inc ns := by
      rw [Inc, List.pairwise_iff_getElem]
      intro i j hi hj hij
      have hj' : j < 100 := by simpa [hns] using hj
      simp only [hns, List.getElem_map, List.getElem_range]
      exact (both i j hij hj').1
    obtain ⟨v, v1, v2, v3, v4⟩ := npInterp_close _ ns hF hc hI (X 0, w 0) (X 99, w 99)
      (by rw [List.head?_eq_getElem?]; exact get_n 0 (by norm_num))
      (by rw [List.getLast?_eq_getElem?, show ns.length - 1 = 99 by simp [hns]]; exact get_n 99 (by norm_num))
      (w0 99 (by norm_num)) hz (by rw [X0]; exact hx)
    refine ⟨v, v1, v2, ?_, v4⟩
    intro k hk hxk
    exact v3 (X k, w k) (List.mem_of_getElem? (get_n k hk)) hxk

end

/-- with the two parameters of one link -/
theorem calcR_freq {F : Type} [PyFloat F] [PyPow F] {ab : List F → List String → String → Except Err (List F × List F)}
    (A : List F) (L : F) {f : List F} {pol : List String} {a b : F} {approx : String} (R_min : F)
    (hab : ab f pol approx = .ok ([a], [b])) :
    calcR ab A L (some f) (some pol) none none approx R_min = .ok (A.map (rateF a b L R_min)) := by
  rw [← calcR_scalar ab A L a b R_min approx]
  unfold calcR
  dsimp only
  rw [hab]

theorem rateF_mono [PyPow DblR] [MonoPow DblR] {a b L R_min x y : DblR} (h : RainParams a b L) (hR : isNaN R_min = false)
    (hxy : x ≤ᶠ y) : rateF a b L R_min x ≤ᶠ rateF a b L R_min y := by
  have := C112_monotone (fun _ _ _ => .error .valueError) [x] [y] _ _ L a b R_min "" h hR (calcR_scalar _ _ _ _ _ _ _)
    (calcR_scalar _ _ _ _ _ _ _) (.cons hxy .nil)
  cases this with
  | cons h _ => exact h

theorem rateF_zero_le [PyPow DblR] [MonoPow DblR] {a b L R_min x : DblR} (h : RainParams a b L) (hR : isNaN R_min = false)
    (hx : (PyFloat.ofInt 0 : DblR) ≤ᶠ x) : (PyFloat.ofInt 0 : DblR) ≤ᶠ rateF a b L R_min x := by
  have := rateF_mono h hR hx
  rwa [rateF_zero h] at this

/-- the table of wet antenna attenuations in doubles -/
theorem table_double [PyPow DblR] [MonoPow DblR] [PyExp DblR] (he : ExpRange) (hm : ExpMono) {grid : List DblR} {a : ℕ → ℝ}
    (hg : DoubleGrid grid a) {A_max zeta d u v L : DblR} {α δ : ℝ} (h : PastorekParams A_max zeta d α δ) (hr : RainParams u v L) :
    ∃ w : ℕ → ℝ, (∀ k, k < 100 → ∃ x, grid[k]? = some x ∧ x.val = .fin (a k) ∧
        (pastorekElem A_max zeta d (rateF u v L (PyFloat.ofInt 0) x)).val = .fin (w k)) ∧
      (∀ k, k < 100 → 0 ≤ w k) ∧ w 0 = 0 ∧ (∀ i j, i < j → j < 100 → w i ≤ w j) ∧ ∀ k, k < 100 → w k ≤ α := by
  have nn : isNaN (PyFloat.ofInt 0 : DblR) = false := LawfulPyFloat.isNaN_ofInt 0
  have ex : ∀ k, ∃ z : ℝ, k < 100 → (∃ x, grid[k]? = some x ∧ x.val = .fin (a k) ∧
      (pastorekElem A_max zeta d (rateF u v L (PyFloat.ofInt 0) x)).val = .fin z) ∧ 0 ≤ z ∧ z ≤ α := by
    intro k
    by_cases hk : k < 100
    · obtain ⟨x, hx, hxv⟩ := hg.val k hk
      have x0 : (PyFloat.ofInt 0 : DblR) ≤ᶠ x := by
        rw [RFl.le_def, RFl.val_zero, hxv, Fl.pf_le_fin, decide_eq_true_eq]
        exact hg.nonneg hk
      obtain ⟨z, z1, z2, z3⟩ := pastorek_elem_range he h (rateF_zero_le hr nn x0)
      exact ⟨z, fun _ => ⟨⟨x, hx, hxv, z1⟩, z2, z3⟩⟩
    · exact ⟨0, fun h => absurd h hk⟩
  choose w hw using ex
  refine ⟨w, fun k hk => (hw k hk).1, fun k hk => (hw k hk).2.1, ?_, ?_, fun k hk => (hw k hk).2.2⟩
  · obtain ⟨x, hx, hxv, hp⟩ := (hw 0 (by norm_num)).1
    rw [hg.zero] at hxv
    have : x = PyFloat.ofInt 0 := RFl.ext (hxv.trans RFl.val_zero.symm)
    subst this
    rw [rateF_zero hr, pastorek_elem_zero (by rw [RFl.eq_def, RFl.val_zero]; simp), RFl.val_zero] at hp
    exact (Fl.fin.inj hp).symm
  · intro i j hij hj
    obtain ⟨x, hx, hxv, hp⟩ := (hw i (by omega)).1
    obtain ⟨y, hy, hyv, hq⟩ := (hw j hj).1
    have x0 : (PyFloat.ofInt 0 : DblR) ≤ᶠ x := by
      rw [RFl.le_def, RFl.val_zero, hxv, Fl.pf_le_fin, decide_eq_true_eq]
      exact hg.nonneg (by omega)
    have am : a i ≤ a j := by
      clear hx hxv hp hy hyv hq x0
      induction j with
      | zero => omega
      | succ j ih =>
        obtain ⟨s1, s2, _⟩ := hg.step hj
        have a1 : a j ≤ a (j + 1) := by norm_num at s1 s2; linarith
        rcases Nat.lt_or_ge i j with h | h
        · exact (ih h (by omega)).trans a1
        · have : i = j := by omega
          rw [this]; exact a1
    have xy : x ≤ᶠ y := by
      rw [RFl.le_def, hxv, hyv, Fl.pf_le_fin, decide_eq_true_eq]
      exact am
    have := pastorek_elem_mono he hm h (rateF_zero_le hr nn x0) (rateF_mono hr nn xy)
    rw [RFl.le_def, hp, hq, Fl.pf_le_fin, decide_eq_true_eq] at this
    exact this

/-- what the function computes, in terms of queries -/
theorem from_A_obs_double [PyPow DblR] [PyExp DblR] {ab : List DblR → List String → String → Except Err (List DblR × List DblR)}
    (grid A_obs : List DblR) {f L A_max zeta d u v : DblR} {pol : String}
    (hab : ab [f /ᶠ PyFloat.ofInt 1000000000] [pol] "ITU_2005" = .ok ([u], [v])) :
    pastorekFromAObs ab grid A_obs f pol L A_max zeta d =
      if A_obs.any (fun x => x <ᶠ PyFloat.ofInt 0) then .error .valueError
      else lookupOn grid A_obs (grid.map fun x => pastorekElem A_max zeta d (rateF u v L (PyFloat.ofInt 0) x)) := by
  unfold pastorekFromAObs
  rw [calcR_freq grid L _ hab]
  simp only [bind, Except.bind, waa_pastorek_2021, List.map_map]
  rfl

/-- **C163** `waa_pastorek_2021_from_A_obs` in double arithmetic, for `A_max` up to `2^14` dB: for values from zero to the end of
the table (at least 999 dB) the wet antenna attenuation is finite, not negative, at most `A_max` and at most the observed
attenuation up to a relative `2^-49`, exactly zero where nothing is observed, NaN where the observation is NaN; any other value raises
`ValueError`. -/
theorem C163_range [PyPow DblR] [MonoPow DblR] [PyExp DblR] (he : ExpRange) (hm : ExpMono)
    (ab : List DblR → List String → String → Except Err (List DblR × List DblR)) {grid : List DblR} {a : ℕ → ℝ}
    (hg : DoubleGrid grid a) {f L A_max zeta d u v : DblR} {pol : String} {α δ : ℝ} (h : PastorekParams A_max zeta d α δ)
    (hα : α ≤ 2 ^ (14 : ℤ)) (hab : ab [f /ᶠ PyFloat.ofInt 1000000000] [pol] "ITU_2005" = .ok ([u], [v])) (hr : RainParams u v L) :
    ∃ top : ℝ, 999 ≤ top ∧ top ≤ 1001 + α ∧
      (∀ A_obs : List DblR, (∀ z ∈ A_obs, isNaN z = true ∨ ∃ x, z.val = .fin x ∧ 0 ≤ x ∧ x ≤ top) →
        ∃ out, pastorekFromAObs ab grid A_obs f pol L A_max zeta d = .ok out ∧ out.length = A_obs.length ∧
          ∀ (i : ℕ) (z : DblR), A_obs[i]? = some z → ∃ w, out[i]? = some w ∧ isNaN w = isNaN z ∧
            ∀ x, z.val = .fin x → ∃ y, w.val = .fin y ∧ 0 ≤ y ∧ y ≤ (1 + 2 ^ (-49 : ℤ)) * α + 2 ^ (-1000 : ℤ) ∧
              y ≤ (1 + 2 ^ (-49 : ℤ)) * x + 2 ^ (-1000 : ℤ) ∧ (x = 0 → y = 0)) ∧
      (∀ A_obs : List DblR, (∃ z ∈ A_obs, isNaN z = false ∧ ∀ x, z.val = .fin x → x < 0 ∨ top < x) →
        pastorekFromAObs ab grid A_obs f pol L A_max zeta d = .error .valueError) := by
  obtain ⟨w, hw, w0, w00, wm, wα⟩ := table_double he hm hg h hr
  set waa := grid.map fun x => pastorekElem A_max zeta d (rateF u v L (PyFloat.ofInt 0) x) with hwaa
  have hwl : waa.length = 100 := by rw [hwaa, List.length_map, hg.len]
  have hwv : ∀ k, k < 100 → ∃ x, waa[k]? = some x ∧ x.val = .fin (w k) := by
    intro k hk
    obtain ⟨x, hx, _, hp⟩ := hw k hk
    exact ⟨_, by rw [hwaa, List.getElem?_map, hx]; rfl, hp⟩
  obtain ⟨X, X0, Xe, Xm, Xs, hq, hv⟩ := query_double hg hwl hwv w0 w00 wm wα hα
  have b99 := hg.bounds (k := 99) (by norm_num)
  rw [gridA_last] at b99
  have e99 := Xe 99 (by norm_num)
  have w99 := w0 99 (by norm_num)
  have wα99 := wα 99 (by norm_num)
  have s0 : 0 ≤ a 99 + w 99 := by linarith
  have r : (2 : ℝ) ^ (-53 : ℤ) * (a 99 + w 99) ≤ 1 / 1000000000 * (a 99 + w 99) := mul_le_mul_of_nonneg_right (by norm_num) s0
  obtain ⟨e1, e2⟩ := abs_le.mp e99
  have α0 := h.α0
  have top1 : 999 ≤ X 99 := by
    generalize (2 : ℝ) ^ (-53 : ℤ) * (a 99 + w 99) = t at *
    linarith
  have hzero : ∀ z : DblR, (z <ᶠ (PyFloat.ofInt 0 : DblR)) = (z.val <ᶠ Fl.fin 0) := by
    intro z; rw [RFl.lt_def, RFl.val_zero]
  -- the exact interpolation between rounded nodes
  set ns : List (ℝ × ℝ) := (List.range 100).map fun k => (X k, w k) with hns
  have get_n : ∀ k, k < 100 → ns[k]? = some (X k, w k) := by
    intro k hk; rw [hns, List.getElem?_map, List.getElem?_range hk]; rfl
  have hI : Inc ns := by
    rw [Inc, List.pairwise_iff_getElem]
    intro i j hi hj hij
    have hj' : j < 100 := by simpa [hns] using hj
    simp only [hns, List.getElem_map, List.getElem_range]
    exact Xm i j hij hj'
  have hG : Gentle ns := by
    rw [Gentle, List.pairwise_iff_getElem]
    intro i j hi hj hij
    have hj' : j < 100 := by simpa [hns] using hj
    simp only [hns, List.getElem_map, List.getElem_range]
    exact ⟨wm i j hij hj', Xs i j hij hj'⟩
  have hd : ns.head? = some (X 0, w 0) := by rw [List.head?_eq_getElem?]; exact get_n 0 (by norm_num)
  have lb : ∀ x, 0 ≤ x → 0 ≤ linI ns x ∧ linI ns x ≤ α ∧ linI ns x ≤ x := by
    intro x hx
    have b := linI_bounds ns hI (lo := 0) (hi := α) (by
      intro p hp
      rw [hns, List.mem_map] at hp
      obtain ⟨k, hk, rfl⟩ := hp
      exact w0 k (List.mem_range.mp hk)) (by
      intro p hp
      rw [hns, List.mem_map] at hp
      obtain ⟨k, hk, rfl⟩ := hp
      exact wα k (List.mem_range.mp hk)) _ hd x (by rw [X0]; exact hx)
    have c := linI_lip ns hI hG _ hd 0 x (by rw [X0]) hx
    have e := linI_node ns hI (X 0, w 0) (List.mem_of_getElem? (get_n 0 (by norm_num)))
    dsimp only at e
    rw [X0, w00] at e
    rw [e] at c
    exact ⟨b.1, b.2, by linarith⟩
  refine ⟨X 99, top1, ?_, ?_, ?_⟩
  · have : (2 : ℝ) ^ (14 : ℤ) ≤ 20000 := by norm_num
    generalize (2 : ℝ) ^ (-53 : ℤ) * (a 99 + w 99) = t at *
    generalize (2 : ℝ) ^ (14 : ℤ) = t' at *
    linarith
  · intro A_obs hA
    have hneg : A_obs.any (fun x => x <ᶠ PyFloat.ofInt 0) = false := by
      rw [List.any_eq_false]
      intro z hz
      rw [hzero]
      rcases hA z hz with hn | ⟨x, hx, x0, _⟩
      · rw [RFl.isNaN_def] at hn
        cases hv : z.val <;> rw [hv] at hn <;> first | exact Bool.false_ne_true | cases hn
      · rw [hx, Fl.pf_lt_fin, decide_eq_true_eq]
        linarith
    rw [from_A_obs_double grid A_obs hab, hneg]
    refine ⟨A_obs.map fun z => if isNaN z then z else npInterp ((List.zipWith (· +ᶠ ·) grid waa).zip waa) z, ?_, by simp, ?_⟩
    · rw [if_neg Bool.false_ne_true]
      refine mapM_ok _ _ _ ?_
      intro z hz
      rw [hq z]
      rcases hA z hz with hn | ⟨x, hx, x0, x1⟩
      · rw [if_pos hn, if_pos hn]
      · have hn : ¬ isNaN z = true := by rw [RFl.isNaN_def, hx]; exact Bool.false_ne_true
        rw [if_neg hn, if_neg hn, if_pos]
        rw [hx]; simp [x0, x1]
    · intro i z hi
      refine ⟨_, by rw [List.getElem?_map, hi]; rfl, ?_, ?_⟩
      · dsimp only
        split_ifs with hn
        · rfl
        · have hz := List.mem_of_getElem? hi
          rcases hA z hz with hn' | ⟨x, hx, x0, x1⟩
          · exact absurd hn' hn
          · obtain ⟨y, y1, _⟩ := hv z x hx x0
            rw [RFl.isNaN_def, RFl.isNaN_def, y1, hx]
            rfl
      · intro x hx
        have hn : ¬ isNaN z = true := by rw [RFl.isNaN_def, hx]; exact Bool.false_ne_true
        dsimp only
        rw [if_neg hn]
        have hz := List.mem_of_getElem? hi
        rcases hA z hz with hn' | ⟨x', hx', x0, x1⟩
        · exact absurd hn' hn
        rw [hx] at hx'
        cases hx'
        obtain ⟨y, y1, y2, y3, y4⟩ := hv z x hx x0
        obtain ⟨l1, l2, l3⟩ := lb x x0
        refine ⟨y, y1, y2, ?_, ?_, ?_⟩
        · have b1 := (abs_le.mp y4).2
          have b2 : (2 : ℝ) ^ (-49 : ℤ) * linI ns x ≤ 2 ^ (-49 : ℤ) * α := mul_le_mul_of_nonneg_left l2 (by positivity)
          rw [add_mul, one_mul]
          generalize (2 : ℝ) ^ (-49 : ℤ) * linI ns x = t1 at *
          generalize (2 : ℝ) ^ (-49 : ℤ) * α = t2 at *
          linarith
        · have b1 := (abs_le.mp y4).2
          have b2 : (2 : ℝ) ^ (-49 : ℤ) * linI ns x ≤ 2 ^ (-49 : ℤ) * x := mul_le_mul_of_nonneg_left l3 (by positivity)
          rw [add_mul, one_mul]
          generalize (2 : ℝ) ^ (-49 : ℤ) * linI ns x = t1 at *
          generalize (2 : ℝ) ^ (-49 : ℤ) * x = t2 at *
          linarith
        · intro hx0
          have := y3 0 (by norm_num) (by rw [X0]; exact hx0)
          rw [this, w00]
  · rintro A_obs ⟨z, hz, hn, hbad⟩
    rw [from_A_obs_double grid A_obs hab]
    split_ifs with hneg
    · rfl
    · have hnn : ¬ isNaN z = true := by rw [hn]; exact Bool.false_ne_true
      refine mapM_error _ _ _ ?_ z hz ?_
      · intro y _
        rw [hq y]
        split_ifs
        · exact .inl ⟨_, rfl⟩
        · exact .inl ⟨_, rfl⟩
        · exact .inr rfl
      · rw [hq z, if_neg hnn, if_neg]
        rw [RFl.isNaN_def] at hn
        cases hzv : z.val with
        | nan => rw [hzv] at hn; cases hn
        | ninf => exact Bool.false_ne_true
        | pinf => exact Bool.false_ne_true
        | fin x =>
          rcases hbad x hzv with hb | hb
          · simp [hb]
          · simp [hb]

end Verif.Props
