import Verif.Props.LookupAccuracy
import Verif.Props.NearbyDoubles
import Verif.Model.LogSpace

/-!
# Property C163: the grid which the code makes by `np.logspace`
-/

namespace Verif.Props
open Verif Verif.KR Verif.Bin Verif.WaaModels

theorem rainGrid_getElem {F : Type} [PyFloat F] [PyPow F] (k : ℕ) (hk : k < 100) :
    (rainGrid : List F)[k]? = some (if k = 0 then PyFloat.ofInt 0 else PyPow.pow (PyFloat.ofInt 10)
      (if k = 99 then PyFloat.ofInt 3 else PyFloat.ofInt k *ᶠ ((PyFloat.ofInt 3 -ᶠ PyFloat.ofInt (-10)) /ᶠ PyFloat.ofInt 99) +ᶠ
        PyFloat.ofInt (-10))) := by
  unfold rainGrid npLogspace npLinspace
  dsimp only
  rcases Nat.eq_zero_or_pos k with rfl | h0
  · rw [List.getElem?_set_self (by simp), if_pos rfl]
  · rw [List.getElem?_set_ne (by omega), if_neg (by omega), List.getElem?_map, List.getElem?_map, List.getElem?_range hk]
    rfl

/-- in exact arithmetic this is the grid of the exact model -/
theorem rainGrid_exact : (rainGrid : List (Fl ℝ)) = aRain := by
  apply List.ext_getElem?
  intro k
  rcases Nat.lt_or_ge k 100 with hk | hk
  · rw [rainGrid_getElem k hk, aRain, List.getElem?_map, List.getElem?_range hk, Option.map_some]
    congr 1
    by_cases h0 : k = 0
    · rw [if_pos h0, if_pos h0, Fl.pf_ofInt]; simp
    · rw [if_neg h0, if_neg h0]
      simp only [Fl.pf_ofInt]
      rw [Fl.pf_sub_fin, Fl.pf_div_fin_ne _ _ (by norm_num), Fl.pf_mul_fin, Fl.pf_add_fin]
      split_ifs with h
      · refine (Fl.pow_fin_pos (by norm_num)).trans ?_
        subst h
        norm_num
      · refine (Fl.pow_fin_pos (by norm_num)).trans ?_
        push_cast
        congr 2
        ring
  · rw [List.getElem?_eq_none (by unfold rainGrid npLogspace npLinspace; simpa using hk), List.getElem?_eq_none (by unfold aRain; simpa using hk)]

/-- the exponents of the grid in doubles -/
theorem grid_exponent {k : ℕ} (hk : k < 100) :
    ∃ y : ℝ, (PyFloat.ofInt k *ᶠ ((PyFloat.ofInt 3 -ᶠ PyFloat.ofInt (-10)) /ᶠ PyFloat.ofInt 99) +ᶠ PyFloat.ofInt (-10) : DblR).val = .fin y ∧
      |y - (-10 + 13 * (k : ℝ) / 99)| ≤ 2 ^ (-47 : ℤ) := by
  have P := binary64_precision (K := ℝ)
  have vn : ∀ n : ℕ, n ≤ 2 ^ 53 → (PyFloat.ofInt n : DblR).val = .fin (n : ℝ) := val_ofNat_b64
  have v3 : (PyFloat.ofInt 3 : DblR).val = .fin 3 := by simpa using vn 3 (by norm_num)
  have v99 : (PyFloat.ofInt 99 : DblR).val = .fin 99 := by simpa using vn 99 (by norm_num)
  have vk := vn k (by omega)
  have vm : (PyFloat.ofInt (-10) : DblR).val = .fin (-10) := by
    have := val_neg_b64 10 (by norm_num)
    norm_num at this ⊢
    exact this
  have h13 : (PyFloat.ofInt 3 -ᶠ PyFloat.ofInt (-10) : DblR).val = .fin 13 := by
    rw [RFl.val_sub, v3, vm, Fl.pf_sub_fin]
    have := P.int_exact 13 (by norm_num)
    norm_num at this ⊢
    exact this
  obtain ⟨s, hs, hse⟩ := round_rel (z := 13 / 99) (le_trans (zpow_le_zpow_right₀ (by norm_num) (by norm_num) : (2 : ℝ) ^ (-1000 : ℤ) ≤ 2 ^ (-10 : ℤ)) (by norm_num))
    (le_trans (by norm_num) (one_le_zpow₀ (by norm_num) (by norm_num)))
  have vs : ((PyFloat.ofInt 3 -ᶠ PyFloat.ofInt (-10)) /ᶠ PyFloat.ofInt 99 : DblR).val = .fin s := by
    rw [RFl.val_div, h13, v99, Fl.pf_div_fin_ne _ _ (by norm_num)]
    exact hs
  have k0 : (0 : ℝ) ≤ k := Nat.cast_nonneg k
  have k99 : (k : ℝ) ≤ 99 := by exact_mod_cast (by omega : k ≤ 99)
  obtain ⟨s1, s2⟩ := abs_le.mp hse
  have e52 : (2 : ℝ) ^ (-52 : ℤ) ≤ 1 / 1000 := by norm_num
  have sp : 0 ≤ s ∧ s ≤ 1 := by constructor <;> (norm_num at *; linarith)
  have ks : 0 ≤ (k : ℝ) * s ∧ (k : ℝ) * s ≤ 14 := by
    refine ⟨mul_nonneg k0 sp.1, ?_⟩
    have : s ≤ 14 / 99 := by norm_num at *; linarith
    nlinarith
  have big : ∀ x : ℝ, x ≤ 16 → x ≤ (2 : ℝ) ^ (1023 : ℤ) := fun x hx =>
    le_trans hx (le_trans (by norm_num : (16 : ℝ) ≤ 2 ^ (4 : ℤ)) (zpow_le_zpow_right₀ (by norm_num) (by norm_num)))
  obtain ⟨p, hp, hpe⟩ := P.err ((k : ℝ) * s) (by rw [abs_of_nonneg ks.1]; exact big _ (by linarith))
  rw [abs_of_nonneg ks.1] at hpe
  have eta : (2 : ℝ) ^ (-1075 : ℤ) ≤ 2 ^ (-60 : ℤ) := zpow_le_zpow_right₀ (by norm_num) (by norm_num)
  have pe : |p - k * s| ≤ 15 * 2 ^ (-53 : ℤ) := by
    refine hpe.trans ?_
    have := mul_le_mul_of_nonneg_left ks.2 (by positivity : (0 : ℝ) ≤ 2 ^ (-53 : ℤ))
    have e : (2 : ℝ) ^ (-60 : ℤ) ≤ 2 ^ (-53 : ℤ) := zpow_le_zpow_right₀ (by norm_num) (by norm_num)
    generalize (2 : ℝ) ^ (-53 : ℤ) = t at *
    generalize (2 : ℝ) ^ (-60 : ℤ) = t1 at *
    generalize (2 : ℝ) ^ (-1075 : ℤ) = t2 at *
    linarith
  have se : |(k : ℝ) * s - 13 * k / 99| ≤ 14 * 2 ^ (-52 : ℤ) := by
    rw [show (k : ℝ) * s - 13 * k / 99 = k * (s - 13 / 99) by ring, abs_mul, abs_of_nonneg k0]
    have := mul_le_mul k99 hse (abs_nonneg _) (by norm_num)
    refine this.trans ?_
    norm_num
  have pb : |p - 13 * k / 99| ≤ 15 * 2 ^ (-53 : ℤ) + 14 * 2 ^ (-52 : ℤ) := (abs_sub_le _ _ _).trans (add_le_add pe se)
  have q1 : 0 ≤ 13 * (k : ℝ) / 99 := by positivity
  have q2 : 13 * (k : ℝ) / 99 ≤ 13 := by rw [div_le_iff₀ (by norm_num)]; linarith
  have pb' : |p + -10| ≤ 11 := by
    have c : (15 * 2 ^ (-53 : ℤ) + 14 * 2 ^ (-52 : ℤ) : ℝ) ≤ 1 := by norm_num
    obtain ⟨a, b⟩ := abs_le.mp (pb.trans c)
    rw [abs_le]; constructor <;> linarith
  obtain ⟨y, hy, hye⟩ := P.err (p + -10) (pb'.trans (big _ (by norm_num)))
  refine ⟨y, ?_, ?_⟩
  · rw [RFl.val_add, RFl.val_mul, vk, vs, vm, Fl.pf_mul_fin]
    have : (binary64 (K := ℝ)).round (.fin (k * s)) = .fin p := hp
    rw [this, Fl.pf_add_fin]
    exact hy
  · have ye : |y - (p + -10)| ≤ 12 * 2 ^ (-53 : ℤ) := by
      refine hye.trans ?_
      have := mul_le_mul_of_nonneg_left pb' (by positivity : (0 : ℝ) ≤ 2 ^ (-53 : ℤ))
      have e : (2 : ℝ) ^ (-60 : ℤ) ≤ 2 ^ (-53 : ℤ) := zpow_le_zpow_right₀ (by norm_num) (by norm_num)
      generalize (2 : ℝ) ^ (-53 : ℤ) = t at *
      generalize (2 : ℝ) ^ (-60 : ℤ) = t1 at *
      generalize (2 : ℝ) ^ (-1075 : ℤ) = t2 at *
      linarith
    have : |y - (-10 + 13 * (k : ℝ) / 99)| ≤ |y - (p + -10)| + |p - 13 * k / 99| := by
      refine le_trans (le_of_eq ?_) (abs_add_le _ _)
      congr 1
      ring
    refine this.trans ((add_le_add ye pb).trans ?_)
    norm_num

/-- **C163** The grid of the code: with a power function accurate to the last bits, every entry of `np.logspace(-10, 3, 100)` (entry 0
replaced by 0) in doubles is within the fraction `2^-45` of its exact value. -/
theorem C163_grid [PyPow DblR] (hacc : PowAccurate) : ∃ a : ℕ → ℝ, DoubleGrid (rainGrid : List DblR) a := by
  have P := binary64_precision (K := ℝ)
  have v10 : (PyFloat.ofInt 10 : DblR).val = .fin 10 := by simpa using val_ofNat_b64 10 (by norm_num)
  have v3 : (PyFloat.ofInt 3 : DblR).val = .fin 3 := by simpa using val_ofNat_b64 3 (by norm_num)
  have key : ∀ k, ∃ r : ℝ, k < 100 → ∃ x : DblR, (rainGrid : List DblR)[k]? = some x ∧ x.val = .fin r ∧
      |r - gridA k| ≤ 2 ^ (-45 : ℤ) * gridA k := by
    intro k
    by_cases hk : k < 100
    swap
    · exact ⟨0, fun h => absurd h hk⟩
    rcases Nat.eq_zero_or_pos k with rfl | h0
    · exact ⟨0, fun _ => ⟨_, rainGrid_getElem 0 hk, by rw [if_pos rfl]; exact RFl.val_zero, by simp [gridA]⟩⟩
    -- the exponent
    obtain ⟨e, y, he, hev, hye⟩ : ∃ (e : DblR) (y : ℝ), (rainGrid : List DblR)[k]? = some (PyPow.pow (PyFloat.ofInt 10) e) ∧
        e.val = .fin y ∧ |y - (-10 + 13 * (k : ℝ) / 99)| ≤ 2 ^ (-47 : ℤ) := by
      by_cases h99 : k = 99
      · refine ⟨_, 3, by rw [rainGrid_getElem k hk, if_neg (by omega), if_pos h99], v3, ?_⟩
        subst h99
        norm_num
      · obtain ⟨y, hy, hye⟩ := grid_exponent hk
        exact ⟨_, y, by rw [rainGrid_getElem k hk, if_neg (by omega), if_neg h99], hy, hye⟩
    have hg : gridA k = (10 : ℝ) ^ (-10 + 13 * (k : ℝ) / 99) := by unfold gridA; rw [if_neg (by omega)]
    have g0 : 0 < gridA k := by rw [hg]; positivity
    have p0 : (0 : ℝ) < 10 ^ y := by positivity
    have l10 : Real.log 10 ≤ 28 / 10 := by
      have h1 : Real.log 10 ≤ Real.log (2 ^ (4 : ℕ)) := Real.log_le_log (by norm_num) (by norm_num)
      rw [Real.log_pow] at h1
      have := Real.log_two_lt_d9
      push_cast at h1
      linarith
    have l0 : 0 ≤ Real.log 10 := Real.log_nonneg (by norm_num)
    have hl : |Real.log (10 ^ y) - Real.log (gridA k)| ≤ 28 / 10 * 2 ^ (-47 : ℤ) := by
      rw [hg, Real.log_rpow (by norm_num), Real.log_rpow (by norm_num), ← sub_mul, abs_mul, abs_of_nonneg l0, mul_comm]
      exact mul_le_mul l10 hye (abs_nonneg _) (by norm_num)
    have d1 := exp_log_close p0 g0 (by norm_num) hl
    have g1 : (1.3e-10 : ℝ) ≤ gridA k := grid_first_ge.trans (gridA_strictMono.monotone h0)
    have g2 := grid_le_1000 hk
    have half : |(10 : ℝ) ^ y - gridA k| ≤ 1 / 2 * gridA k := d1.trans (mul_le_mul_of_nonneg_right (by norm_num) g0.le)
    obtain ⟨a1, a2⟩ := abs_le.mp half
    obtain ⟨c, hc, hce⟩ := hacc (PyFloat.ofInt 10) e 10 y v10 hev (by norm_num)
      (le_trans (le_trans (zpow_le_zpow_right₀ (by norm_num) (by norm_num) : (2 : ℝ) ^ (-900 : ℤ) ≤ 2 ^ (-40 : ℤ)) (by norm_num)) (by linarith : (1.3e-10 : ℝ) / 2 ≤ 10 ^ y))
      (le_trans (by linarith : (10 : ℝ) ^ y ≤ 2000) (le_trans (by norm_num : (2000 : ℝ) ≤ 2 ^ (11 : ℤ)) (zpow_le_zpow_right₀ (by norm_num) (by norm_num))))
    refine ⟨c, fun _ => ⟨_, he, hc, ?_⟩⟩
    have d2 : (2 : ℝ) ^ (-51 : ℤ) * 10 ^ y ≤ 2 ^ (-51 : ℤ) * (2 * gridA k) := mul_le_mul_of_nonneg_left (by linarith) (by positivity)
    refine (abs_sub_le _ _ _).trans ((add_le_add (hce.trans d2) d1).trans ?_)
    rw [← mul_assoc, ← add_mul]
    exact mul_le_mul_of_nonneg_right (by norm_num) g0.le
  choose r hr using key
  refine ⟨r, by unfold rainGrid npLogspace npLinspace; simp, fun k hk => ?_, fun k hk => ?_⟩
  · obtain ⟨x, h1, h2, _⟩ := hr k hk
    exact ⟨x, h1, h2⟩
  · obtain ⟨x, _, _, h3⟩ := hr k hk
    exact h3

/-- a correctly rounded power function meets the hypothesis -/
example : ∃ a : ℕ → ℝ, @DoubleGrid (@rainGrid DblR _ (correctPow _)) a :=
  let _ := correctPow (binary64 (K := ℝ))
  C163_grid correctPow_accurate

end Verif.Props
