import Verif.RoundingReal
import Verif.Props.Rounding
import Verif.Props.StatsWetDry

/-!
# C92, C93: the wet/dry performance metrics in IEEE doubles
-/

namespace Verif.Props
open Verif Verif.Stats Verif.Bin

section rates
variable {K : Type} [Field K] [LinearOrder K] [IsStrictOrderedRing K] [FloorRing K]

theorem val_natCast_b64 {n : ℕ} (h : n ≤ 2 ^ 53) :
    (PyFloat.ofInt n : RFl (binary64 (K := K))).val = .fin n := by
  rw [RFl.val_ofInt, Int.cast_natCast]
  exact (binary64_precision (K := K)).int_exact n (by exact_mod_cast h)

theorem divNat_val {a n : ℕ} (ha : a ≤ n) (hn : 0 < n) (hb : n ≤ 2 ^ 53) :
    (divNat a n : RFl (binary64 (K := K))).val = binary64.rnd ((a : K) / n) := by
  unfold divNat
  rw [RFl.val_div, val_natCast_b64 (ha.trans hb), val_natCast_b64 hb,
    Fl.pf_div_fin_ne _ _ (by exact_mod_cast hn.ne')]
  rfl

/-- A rate of counts as a double. -/
theorem rate_value {a n : ℕ} (ha : a ≤ n) (hn : 0 < n) (hb : n ≤ 2 ^ 53) :
    ∃ x : K, (divNat a n : RFl (binary64 (K := K))).val = .fin x ∧ 0 ≤ x ∧ x ≤ 1 ∧
      (x = 0 ↔ a = 0) ∧ (x = 1 ↔ a = n) := by
  have hnK : (0 : K) < n := by exact_mod_cast hn
  have hbK : (n : K) ≤ 2 ^ 53 := by exact_mod_cast hb
  have h0 : (binary64 (K := K)).rnd 0 = .fin 0 := binary64.zero
  have h1 : (binary64 (K := K)).rnd 1 = .fin 1 := binary64.one
  have haK : (a : K) ≤ n := by exact_mod_cast ha
  have e0 : (0 : K) ≤ (a : K) / n := by positivity
  have e1 : (a : K) / n ≤ 1 := (div_le_one hnK).mpr haK
  obtain ⟨x, hx, hx0, hx1⟩ := rnd_between h0 h1 e0 e1
  have hi : (1 : K) / 2 ^ 53 ≤ 1 / n := one_div_le_one_div_of_le hnK hbK
  refine ⟨x, (divNat_val ha hn hb).trans hx, hx0, hx1, ?_, ?_⟩
  · constructor
    · intro h
      by_contra hc
      have ha1 : (1 : K) ≤ a := by exact_mod_cast Nat.pos_of_ne_zero hc
      have hq : (1 : K) / 2 ^ 53 ≤ (a : K) / n :=
        hi.trans (div_le_div_of_nonneg_right ha1 hnK.le)
      have hd := binary64_dyadic (K := K) (m := 1) (e := -53) (by norm_num) (by norm_num) (by norm_num)
        (by norm_num)
      have := binary64.mono _ _ (show ((1 : ℤ) : K) * 2 ^ (-53 : ℤ) ≤ (a : K) / n by
        refine le_trans (le_of_eq ?_) hq; norm_num)
      rw [hd, hx, h] at this
      simp only [Fl.pf_le_fin, decide_eq_true_eq] at this
      norm_num at this
    · rintro rfl
      rw [Nat.cast_zero, zero_div, h0] at hx
      exact (Fl.fin.inj hx).symm
  · constructor
    · intro h
      by_contra hc
      have ha1 : (a : K) + 1 ≤ n := by
        have : a + 1 ≤ n := by omega
        exact_mod_cast this
      have hq : (a : K) / n ≤ 1 - 1 / 2 ^ 53 := by
        have : (a : K) / n ≤ 1 - 1 / n := by
          rw [div_le_iff₀ hnK, sub_mul, one_mul, div_mul_cancel₀ _ hnK.ne']
          linarith
        linarith
      have hd := binary64_dyadic (K := K) (m := 2 ^ 53 - 1) (e := -53) (by norm_num) (by norm_num)
        (by norm_num) (by norm_num)
      have := binary64.mono _ _ (show (a : K) / n ≤ ((2 ^ 53 - 1 : ℤ) : K) * 2 ^ (-53 : ℤ) by
        refine le_trans hq (le_of_eq ?_); norm_num)
      rw [hd, hx, h] at this
      simp only [Fl.pf_le_fin, decide_eq_true_eq] at this
      norm_num at this
    · rintro rfl
      rw [div_self hnK.ne', h1] at hx
      exact (Fl.fin.inj hx).symm

/-- Rounded complementary numbers have the rounded sum 1. -/
theorem rnd_complement {a b x y : K} (ha : 1 / 2 ≤ a) (hb : 0 ≤ b) (hab : a + b = 1)
    (hx : (binary64 (K := K)).rnd a = .fin x) (hy : (binary64 (K := K)).rnd b = .fin y) :
    (binary64 (K := K)).rnd (x + y) = .fin 1 := by
  obtain ⟨m, hm, herr⟩ := binary64_half_one ha (by linarith)
  obtain rfl : x = (m : K) * 2 ^ (-53 : ℤ) := Fl.fin.inj (hx.symm.trans hm)
  set q : K := 2 ^ (-53 : ℤ) with hq
  have hq0 : 0 < q := two_zpow_pos _
  have hq2 : (2 : K) ^ (-54 : ℤ) = q / 2 := by rw [hq]; norm_num
  have hq1 : ((2 ^ 53 : ℤ) : K) * q = 1 := by rw [hq]; norm_num
  clear_value q
  rw [hq2] at herr
  have he := abs_le.mp herr
  obtain ⟨x', hx', hx0, hx1⟩ := rnd_between (binary64_half : (binary64 (K := K)).rnd (1 / 2) = _)
    binary64.one ha (by linarith : a ≤ 1)
  rw [hm] at hx'
  obtain rfl := Fl.fin.inj hx'
  have hm53 : m ≤ 2 ^ 53 := by
    have : (m : K) ≤ ((2 ^ 53 : ℤ) : K) := by
      rw [← hq1] at hx1
      exact le_of_mul_le_mul_right hx1 hq0
    exact_mod_cast this
  have hm52 : 2 ^ 52 ≤ m := by
    have : ((2 ^ 52 : ℤ) : K) ≤ m := by
      have h : ((2 ^ 52 : ℤ) : K) * q ≤ m * q := by
        have : ((2 ^ 52 : ℤ) : K) * q = 1 / 2 := by rw [hq]; norm_num
        rw [this]; exact hx0
      exact le_of_mul_le_mul_right h hq0
    exact_mod_cast this
  refine binary64_one_of_near ?_ ?_
  · -- b ≥ 1 - m q - q/2
    rw [hq2]
    rcases hm53.lt_or_eq with hlt | heq
    · have hd := binary64_dyadic (K := K) (m := 2 * (2 ^ 53 - m) - 1) (e := -54) (by omega)
        (by omega) (by norm_num) (by norm_num)
      rw [hq2] at hd
      have e : ((2 * (2 ^ 53 - m) - 1 : ℤ) : K) * (q / 2) = 1 - m * q - q / 2 := by
        rw [← hq1]; push_cast; ring
      rw [e] at hd
      have := binary64.mono _ _ (show 1 - m * q - q / 2 ≤ b by linarith only [he.1, he.2, hab, hq0])
      rw [hd, hy] at this
      simp only [Fl.pf_le_fin, decide_eq_true_eq] at this
      linarith
    · have := rnd_nonneg hy hb
      rw [heq, hq1]
      linarith
  · have hd := binary64_dyadic (K := K) (m := 2 ^ 53 - m + 1) (e := -53) (by omega)
      (by omega) (by norm_num) (by norm_num)
    have e : ((2 ^ 53 - m + 1 : ℤ) : K) * q = 1 - m * q + q := by
      rw [← hq1]; push_cast; ring
    rw [← hq, e] at hd
    have hle : b ≤ 1 - (m : K) * q + q := by
      have h1 := he.1
      linarith only [h1, hab, hq0]
    have := (binary64 (K := K)).mono _ _ hle
    rw [hd, hy] at this
    simp only [Fl.pf_le_fin, decide_eq_true_eq] at this
    linarith

/-- Two complementary rates add up to exactly 1. -/
theorem rates_sum {a b n : ℕ} (h : a + b = n) (hn : 0 < n) (hb : n ≤ 2 ^ 53) :
    ((divNat a n : RFl (binary64 (K := K))) +ᶠ divNat b n).val = .fin 1 := by
  have hnK : (0 : K) < n := by exact_mod_cast hn
  obtain ⟨x, hx, -⟩ := rate_value (K := K) (a := a) (n := n) (by omega) hn hb
  obtain ⟨y, hy, -⟩ := rate_value (K := K) (a := b) (n := n) (by omega) hn hb
  rw [RFl.val_add, hx, hy, Fl.pf_add_fin]
  rw [divNat_val (by omega) hn hb] at hx hy
  have hs : (a : K) / n + b / n = 1 := by
    rw [← add_div, ← Nat.cast_add, h, div_self hnK.ne']
  have ha0 : (0 : K) ≤ a / n := by positivity
  have hb0 : (0 : K) ≤ b / n := by positivity
  rcases le_total (1 / 2) ((a : K) / n) with h1 | h1
  · exact rnd_complement h1 hb0 hs hx hy
  · have := rnd_complement (by linarith : 1 / 2 ≤ (b : K) / n) ha0 (by linarith) hy hx
    rw [add_comm] at this
    exact this

theorem rates_nan : isNaN (divNat 0 0 : RFl (binary64 (K := K))) = true := by
  unfold divNat
  rw [RFl.isNaN_def, RFl.val_div, Rounding.isNaN_round]
  have : (PyFloat.ofInt ((0 : ℕ) : ℤ) : RFl (binary64 (K := K))).val = .fin 0 := RFl.val_zero
  rw [this]
  simp [Fl.pf_div_fin, Fl.infSign]

/-- A pair of complementary rates, as computed. -/
def RatePair (x y : RFl (binary64 (K := K))) (a b : ℕ) : Prop :=
  (∃ u v : K, x.val = .fin u ∧ y.val = .fin v ∧ 0 ≤ u ∧ u ≤ 1 ∧ 0 ≤ v ∧ v ≤ 1 ∧
    (u = 0 ↔ a = 0) ∧ (u = 1 ↔ b = 0) ∧ (v = 0 ↔ b = 0) ∧ (v = 1 ↔ a = 0)) ∧
  (x +ᶠ y).val = .fin 1

theorem ratePair {a b n : ℕ} (h : a + b = n) (hn : 0 < n) (hb : n ≤ 2 ^ 53) :
    RatePair (K := K) (divNat a n) (divNat b n) a b := by
  refine ⟨?_, rates_sum h hn hb⟩
  obtain ⟨x, hx, x0, x1, x2, x3⟩ := rate_value (K := K) (a := a) (n := n) (by omega) hn hb
  obtain ⟨y, hy, y0, y1, y2, y3⟩ := rate_value (K := K) (a := b) (n := n) (by omega) hn hb
  exact ⟨x, y, hx, hy, x0, x1, y0, y1, x2, x3.trans (by omega), y2, y3.trans (by omega)⟩

/-- **C92** In IEEE doubles, for at most `2^53` pairs: if a valid pair has a wet reference, the true and the missed
wet rate are numbers in `[0, 1]`, zero exactly if no pair is counted, one exactly if all pairs with wet
reference are counted, and their floating point sum is exactly 1; else both are NaN. Likewise for
the pairs with dry reference. -/
theorem C92_rates_binary64 [PySqrt (RFl (binary64 (K := K)))] (r p : List (RFl (binary64 (K := K))))
    (e : WetDryError (RFl (binary64 (K := K)))) (hlen : r.length ≤ 2 ^ 53)
    (he : calcWetDryPerformanceMetrics RFl.isInf r p = .ok e) :
    ((∃ z ∈ r.zip p, okPair z.1 z.2 ∧ pos z.1) →
      RatePair e.trueWetRate e.missedWetRate
        (nPairs r p (fun a b => okPair a b && (pos a && pos b)))
        (nPairs r p (fun a b => okPair a b && (pos a && !pos b)))) ∧
    ((¬ ∃ z ∈ r.zip p, okPair z.1 z.2 ∧ pos z.1) →
      isNaN e.trueWetRate ∧ isNaN e.missedWetRate) ∧
    ((∃ z ∈ r.zip p, okPair z.1 z.2 ∧ pos z.1 = false) →
      RatePair e.trueDryRate e.falseWetRate
        (nPairs r p (fun a b => okPair a b && (!pos a && !pos b)))
        (nPairs r p (fun a b => okPair a b && (!pos a && pos b)))) ∧
    ((¬ ∃ z ∈ r.zip p, okPair z.1 z.2 ∧ pos z.1 = false) →
      isNaN e.trueDryRate ∧ isNaN e.falseWetRate) := by
  obtain ⟨hp1, hp2, hp3, -⟩ := C40_counts_partition RFl.isInf r p e he
  have h : r.length = p.length := by
    by_contra hc
    rw [C40_length_mismatch RFl.isInf r p hc] at he
    cases he
  obtain ⟨e', he', h1, h2, h3, h4, h5, h6, h7, h8, h9, h10⟩ :=
    C40_counts_are_counts RFl.isInf r p h
  rw [he] at he'
  obtain rfl : e = e' := by injection he'
  have hw : e.counts.nWetReference = 0 ↔ ¬ ∃ z ∈ r.zip p, okPair z.1 z.2 ∧ pos z.1 := by
    rw [h9, nPairs, List.countP_eq_zero]
    simp
  have hd : e.counts.nDryReference = 0 ↔
      ¬ ∃ z ∈ r.zip p, okPair z.1 z.2 ∧ pos z.1 = false := by
    rw [h10, nPairs, List.countP_eq_zero]
    simp
  obtain ⟨f1, f2, f3, f4⟩ : e.trueWetRate = divNat e.counts.nTp e.counts.nWetReference ∧
      e.missedWetRate = divNat e.counts.nFn e.counts.nWetReference ∧
      e.trueDryRate = divNat e.counts.nTn e.counts.nDryReference ∧
      e.falseWetRate = divNat e.counts.nFp e.counts.nDryReference := by
    rw [calcWetDry_eq] at he
    cases hc : wetDryCounts r p with
    | error x => rw [hc] at he; cases he
    | ok c =>
      rw [hc] at he
      injection he with he
      subst he
      exact ⟨rfl, rfl, rfl, rfl⟩
  rw [f1, f2, f3, f4, ← hw, ← hd, ← h5, ← h6, ← h7, ← h8]
  refine ⟨fun hx => ratePair hp1 ?_ (by omega), fun hx => ?_, fun hx => ratePair hp2 ?_ (by omega),
    fun hx => ?_⟩
  · exact Nat.pos_of_ne_zero fun h0 => (hw.mp h0) hx
  · rw [hx, show e.counts.nTp = 0 by omega, show e.counts.nFn = 0 by omega]
    exact ⟨rates_nan, rates_nan⟩
  · exact Nat.pos_of_ne_zero fun h0 => (hd.mp h0) hx
  · rw [hx, show e.counts.nTn = 0 by omega, show e.counts.nFp = 0 by omega]
    exact ⟨rates_nan, rates_nan⟩

end rates

/-- Three wet references, one of them missed, and a dry one: the hypotheses can be met. -/
example [PySqrt (RFl (binary64 (K := ℚ)))] :
    let one : RFl (binary64 (K := ℚ)) := PyFloat.ofInt 1
    let zero : RFl (binary64 (K := ℚ)) := PyFloat.ofInt 0
    ∃ e, calcWetDryPerformanceMetrics RFl.isInf [one, one, one, zero] [one, zero, one, zero] = .ok e ∧
      (e.trueWetRate +ᶠ e.missedWetRate).val = .fin 1 ∧
      ∃ u, e.trueDryRate.val = .fin u ∧ u = 1 := by
  intro one zero
  have i1 : isNaN one = false := LawfulPyFloat.isNaN_ofInt _
  have i0 : isNaN zero = false := LawfulPyFloat.isNaN_ofInt _
  have p1 : pos one = true := OrderedPyFloat.ofInt_zero_lt_one
  have p0 : pos zero = false := LawfulPyFloat.lt_irrefl _
  obtain ⟨e, he, -⟩ := C40_counts_are_counts RFl.isInf [one, one, one, zero]
    [one, zero, one, zero] rfl
  obtain ⟨h1, -, h3, -⟩ := C92_rates_binary64 _ _ e (by norm_num) he
  have a := h1 ⟨(one, one), by simp, by simp [okPair, i1], p1⟩
  obtain ⟨⟨u, v, hu, -, -, -, -, -, -, hu1, -⟩, -⟩ :=
    h3 ⟨(zero, zero), by simp, by simp [okPair, i0], p0⟩
  refine ⟨e, he, a.2, u, hu, hu1.mpr ?_⟩
  simp [nPairs, okPair, i1, i0, p1, p0]

/-! ### C93: the Matthews correlation -/

section mcc

/-- IEEE doubles as a subset of the reals -/
abbrev Dbl := RFl (binary64 (K := ℝ))

/-- relative error of a rounding away from the underflow range -/
theorem rnd_rel {x : ℝ} (h1 : 2 ^ (-60 : ℤ) ≤ |x|) (h2 : |x| ≤ 2 ^ (1023 : ℤ)) :
    ∃ z, (binary64 (K := ℝ)).rnd x = .fin z ∧ |z - x| ≤ 2 ^ (-52 : ℤ) * |x| := by
  obtain ⟨z, hz, he⟩ := (binary64_precision (K := ℝ)).err x h2
  refine ⟨z, hz, he.trans ?_⟩
  have e1 : (2 : ℝ) ^ (-1075 : ℤ) ≤ 2 ^ (-113 : ℤ) := zpow_le_zpow_right₀ one_le_two (by norm_num)
  have e2 : (2 : ℝ) ^ (-113 : ℤ) = 2 ^ (-53 : ℤ) * 2 ^ (-60 : ℤ) := by
    rw [← zpow_add₀ two_ne_zero]; norm_num
  have e3 : (2 : ℝ) ^ (-53 : ℤ) * 2 ^ (-60 : ℤ) ≤ 2 ^ (-53 : ℤ) * |x| :=
    mul_le_mul_of_nonneg_left h1 (two_zpow_pos _).le
  have e4 : (2 : ℝ) ^ (-52 : ℤ) = 2 ^ (-53 : ℤ) + 2 ^ (-53 : ℤ) := by norm_num
  rw [e4, add_mul]
  linarith

theorem le_big {x : ℝ} (h : x ≤ 2 ^ 100) : x ≤ 2 ^ (1023 : ℤ) := by
  have : (2 : ℝ) ^ (100 : ℤ) ≤ 2 ^ (1023 : ℤ) := zpow_le_zpow_right₀ one_le_two (by norm_num)
  refine h.trans (le_trans (le_of_eq ?_) this)
  norm_num

/-- A number `≥ 1` is rounded to a number `≥ 1` with small relative error. -/
theorem rnd_ge_one {x : ℝ} (h1 : 1 ≤ x) (h2 : x ≤ 2 ^ 100) :
    ∃ z, (binary64 (K := ℝ)).rnd x = .fin z ∧ 1 ≤ z ∧ (1 - 2 ^ (-52 : ℤ)) * x ≤ z ∧
      z ≤ (1 + 2 ^ (-52 : ℤ)) * x := by
  have hx : |x| = x := abs_of_pos (by linarith)
  obtain ⟨z, hz, he⟩ := rnd_rel (x := x) (by
    rw [hx]
    have : (2 : ℝ) ^ (-60 : ℤ) ≤ 1 := by norm_num
    linarith) (by rw [hx]; exact le_big h2)
  rw [hx] at he
  have := abs_le.mp he
  refine ⟨z, hz, ?_, by linarith, by linarith⟩
  have m := (binary64 (K := ℝ)).mono _ _ h1
  rw [binary64.one, hz] at m
  simpa using m

/-- The rounded square root of a count. -/
theorem sqrt_count {a b : ℕ} (h : 0 < a + b) (hb : a + b ≤ 2 ^ 26) :
    ∃ z, (PySqrt.sqrt (PyFloat.ofInt ((a : ℤ) + (b : ℤ)) : Dbl)).val = .fin z ∧ 1 ≤ z ∧
      z ≤ 2 ^ 14 ∧ (1 - 2 ^ (-52 : ℤ)) * Real.sqrt ((a : ℝ) + b) ≤ z ∧
      z ≤ (1 + 2 ^ (-52 : ℤ)) * Real.sqrt ((a : ℝ) + b) := by
  have e : (PyFloat.ofInt ((a : ℤ) + (b : ℤ)) : Dbl).val = .fin ((a : ℝ) + b) := by
    have := val_natCast_b64 (K := ℝ) (n := a + b) (by omega)
    push_cast at this
    exact this
  have h1 : (1 : ℝ) ≤ (a : ℝ) + b := by exact_mod_cast h
  have h2 : (a : ℝ) + b ≤ 2 ^ 26 := by exact_mod_cast hb
  have s1 : 1 ≤ Real.sqrt ((a : ℝ) + b) := by rw [Real.one_le_sqrt]; exact h1
  have s2 : Real.sqrt ((a : ℝ) + b) ≤ 2 ^ 13 := by
    rw [Real.sqrt_le_left (by norm_num)]
    refine h2.trans (by norm_num)
  obtain ⟨z, hz, z1, z2, z3⟩ := rnd_ge_one s1 (s2.trans (by norm_num))
  refine ⟨z, ?_, z1, ?_, z2, z3⟩
  · rw [RFl.val_sqrt, e]
    have : Fl.sqrt (.fin ((a : ℝ) + b)) = .fin (Real.sqrt ((a : ℝ) + b)) :=
      Fl.sqrt_fin (by linarith)
    rw [this]
    exact hz
  · refine z3.trans ?_
    have : (1 + 2 ^ (-52 : ℤ) : ℝ) ≤ 2 := by norm_num
    calc (1 + 2 ^ (-52 : ℤ) : ℝ) * Real.sqrt ((a : ℝ) + b) ≤ 2 * 2 ^ 13 := by gcongr
      _ = 2 ^ 14 := by norm_num

/-- product of two approximated numbers -/
theorem mul_approx {x y X Y l1 l2 u1 u2 : ℝ} (hx1 : 1 ≤ x) (hy1 : 1 ≤ y) (hX : 0 ≤ X) (hY : 0 ≤ Y)
    (hl1 : 0 ≤ l1) (hl2 : 0 ≤ l2) (hu1 : 0 ≤ u1) (hu2 : 0 ≤ u2)
    (h1 : l1 * X ≤ x) (h2 : x ≤ u1 * X) (h3 : l2 * Y ≤ y) (h4 : y ≤ u2 * Y)
    (hb : x * y ≤ 2 ^ 100) :
    ∃ z, (binary64 (K := ℝ)).rnd (x * y) = .fin z ∧ 1 ≤ z ∧
      (1 - 2 ^ (-52 : ℤ)) * (l1 * l2) * (X * Y) ≤ z ∧
      z ≤ (1 + 2 ^ (-52 : ℤ)) * (u1 * u2) * (X * Y) ∧ z ≤ 2 * (x * y) := by
  obtain ⟨z, hz, z1, z2, z3⟩ := rnd_ge_one (x := x * y) (by nlinarith) hb
  have lo : (l1 * X) * (l2 * Y) ≤ x * y :=
    mul_le_mul h1 h3 (by positivity) (by linarith)
  have hi : x * y ≤ (u1 * X) * (u2 * Y) :=
    mul_le_mul h2 h4 (by linarith) (by positivity)
  have e1 : (0 : ℝ) ≤ 1 - 2 ^ (-52 : ℤ) := by norm_num
  have e2 : (1 + 2 ^ (-52 : ℤ) : ℝ) ≤ 2 := by norm_num
  refine ⟨z, hz, z1, le_trans ?_ z2, z3.trans ?_, z3.trans ?_⟩
  · have := mul_le_mul_of_nonneg_left lo e1
    refine le_trans (le_of_eq ?_) this
    ring
  · have := mul_le_mul_of_nonneg_left hi (show (0 : ℝ) ≤ 1 + 2 ^ (-52 : ℤ) by norm_num)
    refine le_trans this (le_of_eq ?_)
    ring
  · exact mul_le_mul_of_nonneg_right e2 (by nlinarith)

theorem val_intCast_b64 {n : ℤ} (h : |n| ≤ 2 ^ 53) :
    (PyFloat.ofInt n : Dbl).val = .fin n := by
  rcases le_total 0 n with h0 | h0
  · lift n to ℕ using h0
    have := val_natCast_b64 (K := ℝ) (n := n) (by
      rw [abs_of_nonneg (by positivity)] at h
      exact_mod_cast h)
    rw [this]
    simp
  · obtain ⟨k, hk⟩ : ∃ k : ℕ, n = -k := ⟨n.natAbs, by omega⟩
    subst hk
    rw [RFl.val_ofInt]
    rcases Nat.eq_zero_or_pos k with rfl | hk
    · simpa using binary64.zero
    have hkK : ((-(k : ℤ) : ℤ) : ℝ) = -(k : ℝ) := by push_cast; ring
    have := val_natCast_b64 (K := ℝ) (n := k) (by
      rw [abs_neg, abs_of_nonneg (by positivity)] at h
      exact_mod_cast h)
    rw [RFl.val_ofInt, Int.cast_natCast] at this
    rw [hkK]
    have hneg := rndFmt_neg (p := 53) (emin := -1074) (K := ℝ) 1024 (x := (k : ℝ))
      (by exact_mod_cast hk.ne')
    show rndFmt 53 (-1074) 1024 _ = _
    rw [hneg]
    have this' : rndFmt 53 (-1074) 1024 (k : ℝ) = .fin k := this
    rw [this']
    rfl

/-- The rounded Matthews correlation of counts. -/
theorem matthews_b64 (c : WetDryCounts) (hw : c.nPredictedWet ≠ 0) (h1 : 0 < c.nTp + c.nFp)
    (h2 : 0 < c.nTp + c.nFn) (h3 : 0 < c.nTn + c.nFp) (h4 : 0 < c.nTn + c.nFn)
    (hN : c.nTp + c.nTn + c.nFp + c.nFn ≤ 2 ^ 26) :
    ∃ m : ℝ, (matthews (F := Dbl) RFl.isInf c).val = .fin m ∧
      |m - ((c.nTp : ℝ) * c.nTn - c.nFp * c.nFn) / mccDen c.nTp c.nTn c.nFp c.nFn| ≤
        2 ^ (-48 : ℤ) * |((c.nTp : ℝ) * c.nTn - c.nFp * c.nFn) / mccDen c.nTp c.nTn c.nFp c.nFn| := by
  obtain ⟨a, va, a1, a2, a3, a4⟩ := sqrt_count h1 (by omega)
  obtain ⟨b, vb, b1, b2, b3, b4⟩ := sqrt_count h2 (by omega)
  obtain ⟨d, vd, d1, d2, d3, d4⟩ := sqrt_count h3 (by omega)
  obtain ⟨f, vf, f1, f2, f3, f4⟩ := sqrt_count h4 (by omega)
  set lo : ℝ := 1 - 2 ^ (-52 : ℤ) with hlo
  set up : ℝ := 1 + 2 ^ (-52 : ℤ) with hup
  have lo0 : 0 ≤ lo := by rw [hlo]; norm_num
  have up0 : 0 ≤ up := by rw [hup]; norm_num
  obtain ⟨p, vp, p1, p2, p3, p4⟩ := mul_approx a1 b1 (Real.sqrt_nonneg _) (Real.sqrt_nonneg _) lo0 lo0
    up0 up0 a3 a4 b3 b4 (by
      calc a * b ≤ 2 ^ 14 * 2 ^ 14 := mul_le_mul a2 b2 (by linarith) (by norm_num)
        _ ≤ 2 ^ 100 := by norm_num)
  have pb : p ≤ 2 ^ 29 := by
    refine p4.trans ?_
    calc 2 * (a * b) ≤ 2 * (2 ^ 14 * 2 ^ 14) :=
          mul_le_mul_of_nonneg_left (mul_le_mul a2 b2 (by linarith) (by norm_num)) (by norm_num)
      _ = 2 ^ 29 := by norm_num
  obtain ⟨q, vq, q1, q2, q3, q4⟩ := mul_approx p1 d1 (by positivity) (Real.sqrt_nonneg _)
    (by positivity) lo0 (by positivity) up0 p2 p3 d3 d4 (by
      calc p * d ≤ 2 ^ 29 * 2 ^ 14 := mul_le_mul pb d2 (by linarith) (by norm_num)
        _ ≤ 2 ^ 100 := by norm_num)
  have qb : q ≤ 2 ^ 44 := by
    refine q4.trans ?_
    calc 2 * (p * d) ≤ 2 * (2 ^ 29 * 2 ^ 14) :=
          mul_le_mul_of_nonneg_left (mul_le_mul pb d2 (by linarith) (by norm_num)) (by norm_num)
      _ = 2 ^ 44 := by norm_num
  obtain ⟨s, vs, s1, s2, s3, s4⟩ := mul_approx q1 f1 (by positivity) (Real.sqrt_nonneg _)
    (by positivity) lo0 (by positivity) up0 q2 q3 f3 f4 (by
      calc q * f ≤ 2 ^ 44 * 2 ^ 14 := mul_le_mul qb f2 (by linarith) (by norm_num)
        _ ≤ 2 ^ 100 := by norm_num)
  have sb : s ≤ 2 ^ 59 := by
    refine s4.trans ?_
    calc 2 * (q * f) ≤ 2 * (2 ^ 44 * 2 ^ 14) :=
          mul_le_mul_of_nonneg_left (mul_le_mul qb f2 (by linarith) (by norm_num)) (by norm_num)
      _ = 2 ^ 59 := by norm_num
  have hden : Real.sqrt ((c.nTp : ℝ) + c.nFp) * Real.sqrt ((c.nTp : ℝ) + c.nFn) *
      Real.sqrt ((c.nTn : ℝ) + c.nFp) * Real.sqrt ((c.nTn : ℝ) + c.nFn) =
      mccDen c.nTp c.nTn c.nFp c.nFn := by
    unfold mccDen
    rw [Real.sqrt_mul (by positivity), Real.sqrt_mul (by positivity),
      Real.sqrt_mul (by positivity)]
  rw [hden] at s2 s3
  set D := mccDen c.nTp c.nTn c.nFp c.nFn with hD
  have hD0 : 0 < D := by
    have : 0 ≤ D := Real.sqrt_nonneg _
    rcases this.lt_or_eq with h | h
    · exact h
    · rw [← h] at s3; linarith
  -- the numerator
  have htp : (c.nTp : ℤ) * c.nTn ≤ 2 ^ 26 * 2 ^ 26 := by
    refine mul_le_mul ?_ ?_ (by positivity) (by norm_num) <;> omega
  have hfp : (c.nFp : ℤ) * c.nFn ≤ 2 ^ 26 * 2 ^ 26 := by
    refine mul_le_mul ?_ ?_ (by positivity) (by norm_num) <;> omega
  have tp0 : 0 ≤ (c.nTp : ℤ) * c.nTn := by positivity
  have fp0 : 0 ≤ (c.nFp : ℤ) * c.nFn := by positivity
  set nI : ℤ := (c.nTp * c.nTn : ℤ) - c.nFp * c.nFn with hnI
  have habs : |nI| ≤ 2 ^ 52 := by
    rw [abs_le]
    constructor <;> · norm_num at htp hfp ⊢; omega
  have vn := val_intCast_b64 (n := nI) (habs.trans (by norm_num))
  have hnR : ((nI : ℤ) : ℝ) = (c.nTp : ℝ) * c.nTn - c.nFp * c.nFn := by
    rw [hnI]; push_cast; ring
  rw [← hnR]
  -- the quotient
  have hs0 : s ≠ 0 := by linarith
  obtain ⟨m, hm, herr⟩ : ∃ m, (binary64 (K := ℝ)).rnd ((nI : ℝ) / s) = .fin m ∧
      |m - (nI : ℝ) / s| ≤ 2 ^ (-52 : ℤ) * |(nI : ℝ) / s| := by
    rcases eq_or_ne nI 0 with h0 | h0
    · refine ⟨0, ?_, by rw [h0]; simp⟩
      rw [h0, Int.cast_zero, zero_div]; exact binary64.zero
    · have hn1 : (1 : ℝ) ≤ |(nI : ℝ)| := by
        exact_mod_cast Int.one_le_abs h0
      have hn2 : |(nI : ℝ)| ≤ 2 ^ 52 := by exact_mod_cast habs
      have hsp : 0 < s := by linarith
      refine rnd_rel ?_ (le_big ?_)
      · rw [abs_div, abs_of_pos hsp, le_div_iff₀ hsp]
        calc (2 : ℝ) ^ (-60 : ℤ) * s ≤ 2 ^ (-60 : ℤ) * 2 ^ 59 :=
              mul_le_mul_of_nonneg_left sb (two_zpow_pos _).le
          _ ≤ 1 := by norm_num
          _ ≤ _ := hn1
      · rw [abs_div, abs_of_pos hsp, div_le_iff₀ hsp]
        calc |(nI : ℝ)| ≤ 2 ^ 52 := hn2
          _ ≤ 2 ^ 100 * 1 := by norm_num
          _ ≤ 2 ^ 100 * s := mul_le_mul_of_nonneg_left s1 (by norm_num)
  refine ⟨m, ?_, ?_⟩
  · have hval : ((PyFloat.ofInt nI : Dbl) /ᶠ
        (PySqrt.sqrt (PyFloat.ofInt ((c.nTp : ℤ) + c.nFp)) *ᶠ
          PySqrt.sqrt (PyFloat.ofInt ((c.nTp : ℤ) + c.nFn)) *ᶠ
          PySqrt.sqrt (PyFloat.ofInt ((c.nTn : ℤ) + c.nFp)) *ᶠ
          PySqrt.sqrt (PyFloat.ofInt ((c.nTn : ℤ) + c.nFn)))).val = .fin m := by
      rw [RFl.val_div, vn, RFl.val_mul, RFl.val_mul, RFl.val_mul, va, vb, vd, vf, Fl.pf_mul_fin]
      show (binary64 (K := ℝ)).round (Fl.fin (nI : ℝ) /ᶠ binary64.round (binary64.round
        (binary64.rnd (a * b) *ᶠ Fl.fin d) *ᶠ Fl.fin f)) = _
      rw [vp, Fl.pf_mul_fin]
      show (binary64 (K := ℝ)).round (Fl.fin (nI : ℝ) /ᶠ binary64.round
        (binary64.rnd (p * d) *ᶠ Fl.fin f)) = _
      rw [vq, Fl.pf_mul_fin]
      show (binary64 (K := ℝ)).round (Fl.fin (nI : ℝ) /ᶠ binary64.rnd (q * f)) = _
      rw [vs, Fl.pf_div_fin_ne _ _ hs0]
      exact hm
    unfold matthews
    dsimp only
    rw [if_neg hw, ← hnI]
    generalize ((PyFloat.ofInt nI : Dbl) /ᶠ _) = v at hval ⊢
    rw [if_neg]
    · exact hval
    · unfold RFl.isInf
      rw [hval]
      simp [Fl.isInf]
  · -- error analysis
    have hsp : 0 < s := by linarith
    have hx : (nI : ℝ) / s = (nI : ℝ) / D * (D / s) := by field_simp
    have r1 : D / s ≤ 1 / (lo * (lo * (lo * (lo * lo) * lo) * lo)) := by
      have hp : 0 < lo * (lo * (lo * (lo * lo) * lo) * lo) := by rw [hlo]; norm_num
      rw [div_le_div_iff₀ hsp hp]
      linarith
    have r2 : 1 / (up * (up * (up * (up * up) * up) * up)) ≤ D / s := by
      have hp : 0 < up * (up * (up * (up * up) * up) * up) := by rw [hup]; norm_num
      rw [div_le_div_iff₀ hp hsp]
      linarith
    have k1 : (1 : ℝ) / (lo * (lo * (lo * (lo * lo) * lo) * lo)) ≤ 1 + 8 * 2 ^ (-52 : ℤ) := by
      rw [hlo]; norm_num
    have k2 : 1 - 8 * 2 ^ (-52 : ℤ) ≤ (1 : ℝ) / (up * (up * (up * (up * up) * up) * up)) := by
      rw [hup]; norm_num
    have hd : |D / s - 1| ≤ 8 * 2 ^ (-52 : ℤ) := by
      rw [abs_le]
      constructor <;> linarith
    have hq : |D / s| ≤ 2 := by
      rw [abs_of_pos (by positivity)]
      have : (1 + 8 * 2 ^ (-52 : ℤ) : ℝ) ≤ 2 := by norm_num
      linarith
    set M := (nI : ℝ) / D
    rw [hx] at herr
    have t1 : m - M = (m - M * (D / s)) + M * (D / s - 1) := by ring
    have t2 : |M * (D / s - 1)| ≤ |M| * (8 * 2 ^ (-52 : ℤ)) := by
      rw [abs_mul]
      exact mul_le_mul_of_nonneg_left hd (abs_nonneg _)
    have t3 : |M * (D / s)| ≤ |M| * 2 := by
      rw [abs_mul]
      exact mul_le_mul_of_nonneg_left hq (abs_nonneg _)
    have t4 : (2 : ℝ) ^ (-52 : ℤ) * |M * (D / s)| ≤ 2 ^ (-52 : ℤ) * (|M| * 2) :=
      mul_le_mul_of_nonneg_left t3 (two_zpow_pos _).le
    have t5 : (2 : ℝ) ^ (-48 : ℤ) = 16 * 2 ^ (-52 : ℤ) := by norm_num
    rw [t1, t5]
    have t6 : 0 ≤ (2 : ℝ) ^ (-52 : ℤ) * |M| := mul_nonneg (two_zpow_pos _).le (abs_nonneg _)
    calc _ ≤ |m - M * (D / s)| + |M * (D / s - 1)| := abs_add_le _ _
      _ ≤ 16 * 2 ^ (-52 : ℤ) * |M| := by
        generalize (2 : ℝ) ^ (-52 : ℤ) = ε at herr t2 t4 t6 ⊢
        linarith only [herr, t2, t4, t6]

/-- Pairs without NaN. -/
def usedPairs {F : Type} [PyFloat F] (r p : List F) : List (F × F) :=
  (r.zip p).filter fun z => okPair z.1 z.2

/-- Number of used pairs whose reference is wet/dry and whose prediction is wet/dry. -/
def nClass {F : Type} [PyFloat F] (r p : List F) (refWet predWet : Bool) : ℕ :=
  (usedPairs r p).countP fun z => pos z.1 == refWet && pos z.2 == predWet

/-- Matthews correlation coefficient of the four class counts, in real arithmetic. -/
noncomputable def mccReal (tp tn fp fn : ℝ) : ℝ :=
  (tp * tn - fp * fn) / Real.sqrt ((tp + fp) * (tp + fn) * (tn + fp) * (tn + fn))

/-- **C93** In IEEE doubles the Matthews correlation of at most `2^26` pairs, both values taken by reference and
by prediction, has a relative error of at most `2^-48`. So its sign is right and it exceeds 1 by at
most `2^-48`. -/
theorem C93_mcc_accuracy (r p : List Dbl) (e : WetDryError Dbl) (hlen : r.length ≤ 2 ^ 26)
    (he : calcWetDryPerformanceMetrics RFl.isInf r p = .ok e)
    (h1 : ∃ z ∈ usedPairs r p, pos z.1 = true) (h2 : ∃ z ∈ usedPairs r p, pos z.1 = false)
    (h3 : ∃ z ∈ usedPairs r p, pos z.2 = true) (h4 : ∃ z ∈ usedPairs r p, pos z.2 = false) :
    let M := mccReal (nClass r p true true) (nClass r p false false) (nClass r p false true)
      (nClass r p true false)
    ∃ m : ℝ, e.matthewsCorrelation.val = .fin m ∧ |m - M| ≤ 2 ^ (-48 : ℤ) * |M| ∧
      |m| ≤ 1 + 2 ^ (-48 : ℤ) ∧ (0 < m ↔ 0 < M) ∧ (m < 0 ↔ M < 0) := by
  have h : r.length = p.length := by
    by_contra hc
    rw [C40_length_mismatch RFl.isInf r p hc] at he
    cases he
  have hpart := C40_counts_partition RFl.isInf r p e he
  obtain ⟨hr, hp⟩ := exists_pairs h
  have hl : (usedPairs r p) = (r.zip p).filter validPair := by
    unfold usedPairs
    congr 1
    funext z
    simp only [validPair, okPair]
    cases isNaN z.1 <;> cases isNaN z.2 <;> rfl
  have hc : e.counts.nAllPairs = r.length ∧ e.counts.nTp = nClass r p true true ∧
      e.counts.nTn = nClass r p false false ∧
      e.counts.nFp = nClass r p false true ∧ e.counts.nFn = nClass r p true false ∧
      e.counts.nPredictedWet = (usedPairs r p).countP (fun z => pos z.2) ∧
      e.matthewsCorrelation = matthews RFl.isInf e.counts := by
    unfold nClass
    rw [hl]
    have hwc := wetDryCounts_pairs (r.zip p)
    rw [← hr, ← hp] at hwc
    rw [calcWetDry_eq] at he
    rw [hwc] at he
    injection he with he
    subst he
    dsimp only
    have : r.length = (r.zip p).length := by simp [h]
    refine ⟨this.symm, ?_, ?_, ?_, ?_, rfl, rfl⟩ <;> (congr 1; funext z; simp)
  obtain ⟨hall, c1, c2, c3, c4, c5, c6⟩ := hc
  have hpos : ∀ (P Q : Dbl × Dbl → Bool), (∃ z ∈ usedPairs r p, P z || Q z) →
      0 < (usedPairs r p).countP P + (usedPairs r p).countP Q := by
    rintro P Q ⟨z, hz, hh⟩
    rcases Bool.or_eq_true_iff.mp hh with h' | h'
    · have := List.countP_pos_iff.mpr ⟨z, hz, h'⟩
      omega
    · have := List.countP_pos_iff.mpr ⟨z, hz, h'⟩
      omega
  obtain ⟨m, hm, herr⟩ := matthews_b64 e.counts
    (by
      rw [c5]
      obtain ⟨z, hz, hh⟩ := h3
      exact (List.countP_pos_iff.mpr ⟨z, hz, hh⟩).ne')
    (by
      rw [c1, c3]
      obtain ⟨z, hz, hh⟩ := h3
      exact hpos _ _ ⟨z, hz, by rw [hh]; cases pos z.1 <;> rfl⟩)
    (by
      rw [c1, c4]
      obtain ⟨z, hz, hh⟩ := h1
      exact hpos _ _ ⟨z, hz, by rw [hh]; cases pos z.2 <;> rfl⟩)
    (by
      rw [c2, c3]
      obtain ⟨z, hz, hh⟩ := h2
      exact hpos _ _ ⟨z, hz, by rw [hh]; cases pos z.2 <;> rfl⟩)
    (by
      rw [c2, c4]
      obtain ⟨z, hz, hh⟩ := h4
      exact hpos _ _ ⟨z, hz, by rw [hh]; cases pos z.1 <;> rfl⟩)
    (by omega)
  intro M
  have hM : ((e.counts.nTp : ℝ) * e.counts.nTn - e.counts.nFp * e.counts.nFn) /
      mccDen e.counts.nTp e.counts.nTn e.counts.nFp e.counts.nFn = M := by
    rw [c1, c2, c3, c4]
    rfl
  rw [hM] at herr
  have hM1 : |M| ≤ 1 := by
    have hsq := mcc_sq_le (e.counts.nTp) (e.counts.nTn) (e.counts.nFp) (e.counts.nFn)
      (Nat.cast_nonneg _) (Nat.cast_nonneg _) (Nat.cast_nonneg _) (Nat.cast_nonneg _)
    have habs := Real.abs_le_sqrt hsq
    rw [← hM, abs_div]
    unfold mccDen
    rw [abs_of_nonneg (Real.sqrt_nonneg _)]
    exact div_le_one_of_le₀ habs (Real.sqrt_nonneg _)
  refine ⟨m, by rw [c6]; exact hm, herr, ?_, ?_⟩
  · have t : |m| ≤ |m - M| + |M| := by
      have := abs_add_le (m - M) M
      rwa [sub_add_cancel] at this
    have t2 : (2 : ℝ) ^ (-48 : ℤ) * |M| ≤ 2 ^ (-48 : ℤ) * 1 :=
      mul_le_mul_of_nonneg_left hM1 (two_zpow_pos _).le
    linarith
  · have hlt : (2 : ℝ) ^ (-48 : ℤ) < 1 := by norm_num
    have hp0 : (0 : ℝ) < 2 ^ (-48 : ℤ) := two_zpow_pos _
    generalize (2 : ℝ) ^ (-48 : ℤ) = ε at herr hlt hp0
    have ha := abs_le.mp herr
    rcases lt_trichotomy M 0 with hs | hs | hs
    · rw [abs_of_neg hs] at ha
      have : m < 0 := by nlinarith [ha.2]
      constructor <;> constructor <;> intro <;> linarith
    · rw [hs, abs_zero, mul_zero] at ha
      constructor <;> constructor <;> intro <;> linarith [ha.1, ha.2]
    · rw [abs_of_pos hs] at ha
      have : 0 < m := by nlinarith [ha.1]
      constructor <;> constructor <;> intro <;> linarith

/-- Both classes on both sides: the hypotheses can be met. -/
example : let r : List Dbl := [PyFloat.ofInt 1, PyFloat.ofInt 0, PyFloat.ofInt 1]
    let p : List Dbl := [PyFloat.ofInt 1, PyFloat.ofInt 0, PyFloat.ofInt 0]
    (∃ z ∈ usedPairs r p, pos z.1 = true) ∧ (∃ z ∈ usedPairs r p, pos z.1 = false) ∧
    (∃ z ∈ usedPairs r p, pos z.2 = true) ∧ (∃ z ∈ usedPairs r p, pos z.2 = false) := by
  have i1 : isNaN (PyFloat.ofInt 1 : Dbl) = false := LawfulPyFloat.isNaN_ofInt _
  have i0 : isNaN (PyFloat.ofInt 0 : Dbl) = false := LawfulPyFloat.isNaN_ofInt _
  have p1 : pos (PyFloat.ofInt 1 : Dbl) = true := OrderedPyFloat.ofInt_zero_lt_one
  have p0 : pos (PyFloat.ofInt 0 : Dbl) = false := LawfulPyFloat.lt_irrefl _
  intro r p
  refine ⟨⟨(PyFloat.ofInt 1, PyFloat.ofInt 1), ?_, p1⟩, ⟨(PyFloat.ofInt 0, PyFloat.ofInt 0), ?_, p0⟩,
    ⟨(PyFloat.ofInt 1, PyFloat.ofInt 1), ?_, p1⟩, ⟨(PyFloat.ofInt 1, PyFloat.ofInt 0), ?_, p0⟩⟩ <;>
  simp [usedPairs, r, p, okPair, i1, i0]

theorem sqrt_three_b64 : (PySqrt.sqrt (PyFloat.ofInt 3 : Dbl)).val
    = .fin (((7800463371553962 : ℤ) : ℝ) * 2 ^ ((0 : ℤ) - 52)) := by
  have e : (PyFloat.ofInt 3 : Dbl).val = .fin 3 := by
    have := val_natCast_b64 (K := ℝ) (n := 3) (by norm_num)
    exact_mod_cast this
  rw [RFl.val_sqrt, e]
  have : Fl.sqrt (.fin (3 : ℝ)) = .fin (Real.sqrt 3) := Fl.sqrt_fin (by norm_num)
  rw [this]
  have l : ((7800463371553962 : ℝ) - 1 / 2) / 2 ^ 52 < Real.sqrt 3 :=
    Real.lt_sqrt_of_sq_lt (by norm_num)
  have u : Real.sqrt 3 < ((7800463371553962 : ℝ) + 1 / 2) / 2 ^ 52 := by
    rw [Real.sqrt_lt' (by norm_num)]
    norm_num
  refine binary64_rnd (by norm_num) (by norm_num) ?_ ?_ (rintK_eq ?_)
  · rw [zpow_zero, Real.one_le_sqrt]; norm_num
  · norm_num at u ⊢; linarith
  · rw [abs_lt]
    norm_num at l u ⊢
    constructor <;> linarith

/-- **C93** A perfect prediction of three wet and one dry value has the Matthews correlation
`1 + 2^-52`, greater than 1, in IEEE doubles. -/
theorem C93_mcc_exceeds_one :
    ∃ e, calcWetDryPerformanceMetrics (F := Dbl) RFl.isInf
        [PyFloat.ofInt 1, PyFloat.ofInt 1, PyFloat.ofInt 1, PyFloat.ofInt 0]
        [PyFloat.ofInt 1, PyFloat.ofInt 1, PyFloat.ofInt 1, PyFloat.ofInt 0] = .ok e ∧
      e.matthewsCorrelation.val = .fin (1 + 2 ^ (-52 : ℤ)) ∧
      PyFloat.ofInt 1 <ᶠ e.matthewsCorrelation := by
  have i1 : isNaN (PyFloat.ofInt 1 : Dbl) = false := LawfulPyFloat.isNaN_ofInt _
  have i0 : isNaN (PyFloat.ofInt 0 : Dbl) = false := LawfulPyFloat.isNaN_ofInt _
  have p1 : pos (PyFloat.ofInt 1 : Dbl) = true := OrderedPyFloat.ofInt_zero_lt_one
  have p0 : pos (PyFloat.ofInt 0 : Dbl) = false := LawfulPyFloat.lt_irrefl _
  have hc : wetDryCounts (F := Dbl)
        [PyFloat.ofInt 1, PyFloat.ofInt 1, PyFloat.ofInt 1, PyFloat.ofInt 0]
        [PyFloat.ofInt 1, PyFloat.ofInt 1, PyFloat.ofInt 1, PyFloat.ofInt 0]
      = .ok ⟨0, 4, 0, 0, 3, 1, 0, 0, 3, 1, 3⟩ := by
    have hz := wetDryCounts_pairs (F := Dbl) [(PyFloat.ofInt 1, PyFloat.ofInt 1),
      (PyFloat.ofInt 1, PyFloat.ofInt 1), (PyFloat.ofInt 1, PyFloat.ofInt 1),
      (PyFloat.ofInt 0, PyFloat.ofInt 0)]
    have v1 : validPair ((PyFloat.ofInt 1, PyFloat.ofInt 1) : Dbl × Dbl) = true := by
      simp [validPair, i1]
    have v0 : validPair ((PyFloat.ofInt 0, PyFloat.ofInt 0) : Dbl × Dbl) = true := by
      simp [validPair, i0]
    simp only [List.map_cons, List.map_nil, List.filter_cons, List.filter_nil, v1, v0, if_true,
      List.countP_cons, List.countP_nil, i1, i0, p1, p0] at hz
    exact hz
  refine ⟨_, by rw [calcWetDry_eq]; rw [hc]; rfl, ?_⟩
  dsimp only
  have v1 : (PyFloat.ofInt 1 : Dbl).val = .fin 1 := RFl.val_one
  have v3 : (PyFloat.ofInt 3 : Dbl).val = .fin 3 := by
    have := val_natCast_b64 (K := ℝ) (n := 3) (by norm_num)
    exact_mod_cast this
  have s1 : (PySqrt.sqrt (PyFloat.ofInt 1 : Dbl)).val = .fin 1 := by
    rw [RFl.val_sqrt, v1]
    have : Fl.sqrt (.fin (1 : ℝ)) = .fin (Real.sqrt 1) := Fl.sqrt_fin (by norm_num)
    rw [this, Real.sqrt_one]
    exact binary64.one
  set P : ℝ := ((6755399441055743 : ℤ) : ℝ) * 2 ^ ((1 : ℤ) - 52) with hP
  have sq : (binary64 (K := ℝ)).rnd ((((7800463371553962 : ℤ) : ℝ) * 2 ^ ((0 : ℤ) - 52)) *
      (((7800463371553962 : ℤ) : ℝ) * 2 ^ ((0 : ℤ) - 52))) = .fin P :=
    binary64_rnd (by norm_num) (by norm_num) (by norm_num) (by norm_num)
      (rintK_eq (by norm_num [abs_lt]))
  have hPr : (binary64 (K := ℝ)).rnd P = .fin P := binary64.idem _ _ sq
  have q : (binary64 (K := ℝ)).rnd (3 / P)
      = .fin (((4503599627370497 : ℤ) : ℝ) * 2 ^ ((0 : ℤ) - 52)) :=
    binary64_rnd (by norm_num) (by norm_num) (by rw [hP]; norm_num) (by rw [hP]; norm_num)
      (rintK_eq (by rw [hP]; norm_num [abs_lt]))
  have hval : ((PyFloat.ofInt 3 : Dbl) /ᶠ (PySqrt.sqrt (PyFloat.ofInt 3) *ᶠ
      PySqrt.sqrt (PyFloat.ofInt 3) *ᶠ PySqrt.sqrt (PyFloat.ofInt 1) *ᶠ
      PySqrt.sqrt (PyFloat.ofInt 1))).val = .fin (1 + 2 ^ (-52 : ℤ)) := by
    rw [RFl.val_div, v3, RFl.val_mul, RFl.val_mul, RFl.val_mul, s1, sqrt_three_b64, Fl.pf_mul_fin]
    show (binary64 (K := ℝ)).round (Fl.fin 3 /ᶠ binary64.round (binary64.round
      (binary64.rnd _ *ᶠ Fl.fin 1) *ᶠ Fl.fin 1)) = _
    rw [sq, Fl.pf_mul_fin, mul_one]
    show (binary64 (K := ℝ)).round (Fl.fin 3 /ᶠ binary64.round
      (binary64.rnd P *ᶠ Fl.fin 1)) = _
    rw [hPr, Fl.pf_mul_fin, mul_one]
    show (binary64 (K := ℝ)).round (Fl.fin 3 /ᶠ binary64.rnd P) = _
    rw [hPr, Fl.pf_div_fin_ne _ _ (by rw [hP]; norm_num)]
    show (binary64 (K := ℝ)).rnd (3 / P) = _
    rw [q]
    norm_num
  have hm : (matthews (F := Dbl) RFl.isInf ⟨0, 4, 0, 0, 3, 1, 0, 0, 3, 1, 3⟩).val
      = .fin (1 + 2 ^ (-52 : ℤ)) := by
    unfold matthews
    dsimp only
    rw [if_neg (by norm_num)]
    norm_num only [Nat.cast_zero, Nat.cast_one, Nat.cast_ofNat, add_zero, mul_one, mul_zero, sub_zero]
    generalize ((PyFloat.ofInt 3 : Dbl) /ᶠ _) = v at hval ⊢
    rw [if_neg]
    · norm_num at hval ⊢; exact hval
    · unfold RFl.isInf
      rw [hval]
      simp [Fl.isInf]
  refine ⟨hm, ?_⟩
  rw [RFl.lt_def, hm, v1, Fl.pf_lt_fin, decide_eq_true_eq]
  norm_num

end mcc
end Verif.Props
