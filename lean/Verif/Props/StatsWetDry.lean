import Verif.Lemmas.Stats
import Mathlib.Tactic.Positivity
import Mathlib.Tactic.Linarith
import Mathlib.Algebra.Order.Ring.Rat
import Mathlib.Data.Rat.Cast.Order

/-!
# C40 - C43 (wet/dry part): `calc_wet_dry_performance_metrics`
-/

namespace Verif.Props

open Verif.Stats

section counts
variable {F : Type} [PyFloat F] [PySqrt F]

/-- number of pairs at the same position of `r` and `p` with property `P` -/
def nPairs (r p : List F) (P : F → F → Bool) : Nat :=
  (r.zip p).countP fun z => P z.1 z.2

/-- The pair is used: no NaN. -/
def okPair (a b : F) : Bool := !isNaN a && !isNaN b

omit [PySqrt F] in
theorem countP_filter_pairs (zs : List (F × F)) (P : F × F → Bool) :
    (zs.filter validPair).countP P =
      zs.countP fun z => okPair z.1 z.2 && P z := by
  rw [List.countP_filter]
  congr 1
  funext z
  simp only [validPair, okPair]
  cases isNaN z.1 <;> cases isNaN z.2 <;> cases P z <;> rfl

/-- C40: every count of `WetDryError` is the number of pairs it claims to count. -/
theorem C40_counts_are_counts (isInf : F → Bool) (r p : List F) (h : r.length = p.length) :
    ∃ e, calcWetDryPerformanceMetrics isInf r p = .ok e ∧
      e.counts.nAllPairs = r.length ∧
      e.counts.nNanPairs = nPairs r p (fun a b => isNaN a || isNaN b) ∧
      e.counts.nNanReferenceOnly = r.countP isNaN ∧
      e.counts.nNanPredictedOnly = p.countP isNaN ∧
      e.counts.nTp = nPairs r p (fun a b => okPair a b && (pos a && pos b)) ∧
      e.counts.nTn = nPairs r p (fun a b => okPair a b && (!pos a && !pos b)) ∧
      e.counts.nFp = nPairs r p (fun a b => okPair a b && (!pos a && pos b)) ∧
      e.counts.nFn = nPairs r p (fun a b => okPair a b && (pos a && !pos b)) ∧
      e.counts.nWetReference = nPairs r p (fun a b => okPair a b && pos a) ∧
      e.counts.nDryReference = nPairs r p (fun a b => okPair a b && !pos a) := by
  obtain ⟨hr, hp⟩ := exists_pairs h
  generalize hz : r.zip p = zs at hr hp
  refine ⟨_, by rw [calcWetDry_eq]; rw [hr, hp, wetDryCounts_pairs]; rfl, ?_⟩
  dsimp only [nPairs]
  rw [hz]
  refine ⟨by rw [hr, List.length_map], rfl, ?_, ?_, ?_, ?_, ?_, ?_, ?_, ?_⟩
  · rw [hr, List.countP_map]; rfl
  · rw [hp, List.countP_map]; rfl
  all_goals exact countP_filter_pairs _ _

theorem countP_and_add {α : Type} (l : List α) (P Q : α → Bool) :
    l.countP (fun z => P z && Q z) + l.countP (fun z => P z && !Q z) = l.countP P := by
  induction l with
  | nil => rfl
  | cons a l ih =>
    simp only [List.countP_cons]
    cases P a <;> cases Q a <;> simp <;> omega

theorem countP_or_le {α : Type} (l : List α) (P Q : α → Bool) :
    l.countP P ≤ l.countP (fun z => P z || Q z) ∧ l.countP Q ≤ l.countP (fun z => P z || Q z) ∧
    l.countP (fun z => P z || Q z) ≤ l.countP P + l.countP Q := by
  induction l with
  | nil => simp
  | cons a l ih =>
    simp only [List.countP_cons]
    cases P a <;> cases Q a <;> simp <;> omega

/-- C40: the counts partition the pairs. -/
theorem C40_counts_partition (isInf : F → Bool) (r p : List F) (e : WetDryError F)
    (he : calcWetDryPerformanceMetrics isInf r p = .ok e) :
    e.counts.nTp + e.counts.nFn = e.counts.nWetReference ∧
    e.counts.nTn + e.counts.nFp = e.counts.nDryReference ∧
    e.counts.nTp + e.counts.nFn + e.counts.nTn + e.counts.nFp + e.counts.nNanPairs =
      e.counts.nAllPairs ∧
    max e.counts.nNanReferenceOnly e.counts.nNanPredictedOnly ≤ e.counts.nNanPairs ∧
    e.counts.nNanPairs ≤ e.counts.nNanReferenceOnly + e.counts.nNanPredictedOnly := by
  have h : r.length = p.length := by
    by_contra hc
    rw [calcWetDry_eq] at he
    unfold wetDryCounts wetDryCountsArr at he
    rw [if_pos (by simpa [Arr.of] using hc)] at he
    cases he
  obtain ⟨e', he', h1, h2, h3, h4, h5, h6, h7, h8, h9, h10⟩ := C40_counts_are_counts isInf r p h
  rw [he] at he'
  obtain rfl : e = e' := by injection he'
  dsimp only [nPairs] at h2 h5 h6 h7 h8 h9 h10
  obtain ⟨hr, hp⟩ := exists_pairs h
  generalize hz : r.zip p = zs at *
  have w := countP_and_add zs (fun z => okPair z.1 z.2 && pos z.1) (fun z => pos z.2)
  have d := countP_and_add zs (fun z => okPair z.1 z.2 && !pos z.1) (fun z => pos z.2)
  have a := countP_and_add zs (fun z => okPair z.1 z.2) (fun z => pos z.1)
  have b := List.length_eq_countP_add_countP (fun z : F × F => okPair z.1 z.2) (l := zs)
  have hb : zs.countP (fun z => decide ¬(okPair z.1 z.2) = true) =
      zs.countP (fun z => isNaN z.1 || isNaN z.2) := by
    congr 1
    funext z
    rw [Bool.eq_iff_iff]
    cases h1 : isNaN z.1 <;> cases h2 : isNaN z.2 <;> simp [okPair, h1, h2]
  have o := countP_or_le zs (fun z => isNaN z.1) (fun z => isNaN z.2)
  have hr' : r.countP isNaN = zs.countP (fun z => isNaN z.1) := by
    rw [hr, List.countP_map]; rfl
  have hp' : p.countP isNaN = zs.countP (fun z => isNaN z.2) := by
    rw [hp, List.countP_map]; rfl
  have hl : zs.length = r.length := by rw [hr, List.length_map]
  simp only [Bool.and_assoc] at w d a
  rw [hr'] at h3
  rw [hp'] at h4
  omega

/-- Series of different length raise. -/
theorem C40_length_mismatch (isInf : F → Bool) (r p : List F) (h : r.length ≠ p.length) :
    calcWetDryPerformanceMetrics isInf r p = .error .assertionError := by
  rw [calcWetDry_eq]
  unfold wetDryCounts wetDryCountsArr
  rw [if_pos (by simpa [Arr.of] using h)]
  rfl

end counts

/-- Concrete case: two true wets, one missed wet, one false wet, one true dry, one NaN pair. -/
example : wetDryCounts (F := Fl ℚ)
    [.fin 1, .fin 1, .fin 1, .fin 0, .fin 0, .nan, .fin 1]
    [.fin 1, .fin 0, .fin 1, .fin 1, .fin 0, .fin 1, .nan] =
    .ok ⟨2, 7, 1, 1, 2, 1, 1, 1, 3, 2, 3⟩ := by decide +kernel

/-! ### C41 rates -/

section rates

theorem divNat_pos (a b : Nat) (hb : b ≠ 0) :
    (divNat a b : Fl ℝ) = .fin ((a : ℝ) / b) := by
  unfold divNat
  rw [Fl.pf_ofInt, Fl.pf_ofInt, Fl.pf_div_fin_ne]
  · simp
  · exact_mod_cast hb

theorem divNat_zero_zero : (divNat 0 0 : Fl ℝ) = .nan := by
  unfold divNat
  simp [Fl.pf_div_fin, Fl.infSign]

theorem rates_add {a b n : Nat} (h : a + b = n) :
    (n ≠ 0 → ∃ x y : ℝ, (divNat a n : Fl ℝ) = .fin x ∧ (divNat b n : Fl ℝ) = .fin y ∧
      x * n = a ∧ y * n = b ∧ x + y = 1 ∧ 0 ≤ x ∧ x ≤ 1 ∧ 0 ≤ y ∧ y ≤ 1) ∧
    (n = 0 → (divNat a n : Fl ℝ) = .nan ∧ (divNat b n : Fl ℝ) = .nan) := by
  constructor
  · intro hn
    refine ⟨_, _, divNat_pos a n hn, divNat_pos b n hn, ?_⟩
    have hpos : (0 : ℝ) < n := by exact_mod_cast Nat.pos_of_ne_zero hn
    have ha : (0 : ℝ) ≤ a / n := by positivity
    have hb : (0 : ℝ) ≤ b / n := by positivity
    have hs : (a : ℝ) / n + b / n = 1 := by
      rw [← add_div, ← Nat.cast_add, h, div_self hpos.ne']
    exact ⟨div_mul_cancel₀ _ hpos.ne', div_mul_cancel₀ _ hpos.ne', hs, ha, by linarith, hb, by linarith⟩
  · intro hn
    obtain ⟨rfl, rfl⟩ : a = 0 ∧ b = 0 := by omega
    subst hn
    exact ⟨divNat_zero_zero, divNat_zero_zero⟩

/-- C41: of the pairs with wet reference the fraction with wet (dry) prediction is the true (missed) wet
rate; both are complementary and in [0, 1], NaN if there is no such pair; likewise for dry
reference. -/
theorem C41_rates (r p : List (Fl ℝ)) (e : WetDryError (Fl ℝ))
    (he : calcWetDryPerformanceMetrics Fl.isInf r p = .ok e) :
    ((∃ z ∈ r.zip p, okPair z.1 z.2 ∧ pos z.1) →
      ∃ x y : ℝ, e.trueWetRate = .fin x ∧ e.missedWetRate = .fin y ∧
        x * nPairs r p (fun a b => okPair a b && pos a) =
          nPairs r p (fun a b => okPair a b && (pos a && pos b)) ∧
        y * nPairs r p (fun a b => okPair a b && pos a) =
          nPairs r p (fun a b => okPair a b && (pos a && !pos b)) ∧
        x + y = 1 ∧ 0 ≤ x ∧ x ≤ 1 ∧ 0 ≤ y ∧ y ≤ 1) ∧
    ((¬ ∃ z ∈ r.zip p, okPair z.1 z.2 ∧ pos z.1) →
      e.trueWetRate = .nan ∧ e.missedWetRate = .nan) ∧
    ((∃ z ∈ r.zip p, okPair z.1 z.2 ∧ pos z.1 = false) →
      ∃ x y : ℝ, e.trueDryRate = .fin x ∧ e.falseWetRate = .fin y ∧
        x * nPairs r p (fun a b => okPair a b && !pos a) =
          nPairs r p (fun a b => okPair a b && (!pos a && !pos b)) ∧
        y * nPairs r p (fun a b => okPair a b && !pos a) =
          nPairs r p (fun a b => okPair a b && (!pos a && pos b)) ∧
        x + y = 1 ∧ 0 ≤ x ∧ x ≤ 1 ∧ 0 ≤ y ∧ y ≤ 1) ∧
    ((¬ ∃ z ∈ r.zip p, okPair z.1 z.2 ∧ pos z.1 = false) →
      e.trueDryRate = .nan ∧ e.falseWetRate = .nan) := by
  have hpart := C40_counts_partition Fl.isInf r p e he
  have h : r.length = p.length := by
    by_contra hc
    rw [C40_length_mismatch Fl.isInf r p hc] at he
    cases he
  obtain ⟨e', he', h1, h2, h3, h4, h5, h6, h7, h8, h9, h10⟩ :=
    C40_counts_are_counts Fl.isInf r p h
  rw [he] at he'
  obtain rfl : e = e' := by injection he'
  have hw : e.counts.nWetReference = 0 ↔ ¬ ∃ z ∈ r.zip p, okPair z.1 z.2 ∧ pos z.1 := by
    rw [h9, nPairs, List.countP_eq_zero]
    simp
  have hd : e.counts.nDryReference = 0 ↔
      ¬ ∃ z ∈ r.zip p, okPair z.1 z.2 ∧ pos z.1 = false := by
    rw [h10, nPairs, List.countP_eq_zero]
    simp
  have hfields : e.trueWetRate = divNat e.counts.nTp e.counts.nWetReference ∧
      e.missedWetRate = divNat e.counts.nFn e.counts.nWetReference ∧
      e.trueDryRate = divNat e.counts.nTn e.counts.nDryReference ∧
      e.falseWetRate = divNat e.counts.nFp e.counts.nDryReference := by
    rw [calcWetDry_eq] at he
    cases hc : wetDryCounts r p with
    | error x => rw [hc] at he; cases he
    | ok c =>
      rw [hc] at he
      injection he with he
      subst he
      exact ⟨rfl, rfl, rfl, rfl⟩
  obtain ⟨f1, f2, f3, f4⟩ := hfields
  rw [f1, f2, f3, f4]
  have W := rates_add hpart.1
  have D := rates_add hpart.2.1
  rw [h9, h5, h8] at W
  rw [h10, h6, h7] at D
  rw [h9] at hw
  rw [h10] at hd
  rw [h5, h6, h7, h8, h9, h10]
  exact ⟨fun hx => W.1 fun h0 => (hw.mp h0) hx, fun hx => W.2 (hw.mpr hx),
    fun hx => D.1 fun h0 => (hd.mp h0) hx, fun hx => D.2 (hd.mpr hx)⟩

end rates

/-! ### C42 Matthews correlation -/

section mcc

/-- the textbook denominator -/
noncomputable def mccDen (tp tn fp fn : Nat) : ℝ :=
  Real.sqrt (((tp : ℝ) + fp) * (tp + fn) * (tn + fp) * (tn + fn))

theorem matthews_eq (c : WetDryCounts) (hc : c.nPredictedWet = c.nTp + c.nFp) :
    matthews (F := Fl ℝ) Fl.isInf c =
      if c.nTp + c.nFp = 0 then .fin 0
      else if c.nTp + c.nFn = 0 ∨ c.nTn + c.nFp = 0 ∨ c.nTn + c.nFn = 0 then .nan
      else .fin (((c.nTp : ℝ) * c.nTn - c.nFp * c.nFn) / mccDen c.nTp c.nTn c.nFp c.nFn) := by
  unfold matthews
  rw [hc]
  by_cases h1 : c.nTp + c.nFp = 0
  · simp [h1]
  have sq : ∀ a b : Nat, (PySqrt.sqrt (PyFloat.ofInt ((a : Int) + (b : Int))) : Fl ℝ) =
      .fin (Real.sqrt ((a : ℝ) + b)) := by
    intro a b
    rw [Fl.pf_ofInt, Fl.sqrt_fin (by push_cast; positivity)]
    push_cast
    rfl
  dsimp only
  rw [sq, sq, sq, sq, if_neg h1, if_neg h1]
  generalize hm : ((PyFloat.ofInt _ : Fl ℝ) /ᶠ _) = m
  simp only [Fl.pf_mul_fin, Fl.pf_ofInt] at hm ⊢
  have hden : Real.sqrt ((c.nTp : ℝ) + c.nFp) * Real.sqrt ((c.nTp : ℝ) + c.nFn) *
      Real.sqrt ((c.nTn : ℝ) + c.nFp) * Real.sqrt ((c.nTn : ℝ) + c.nFn) =
      mccDen c.nTp c.nTn c.nFp c.nFn := by
    unfold mccDen
    rw [Real.sqrt_mul (by positivity), Real.sqrt_mul (by positivity),
      Real.sqrt_mul (by positivity)]
  rw [hden] at hm
  have hnum : (((c.nTp * c.nTn : Int) - c.nFp * c.nFn : Int) : ℝ) =
      (c.nTp : ℝ) * c.nTn - c.nFp * c.nFn := by push_cast; ring
  rw [hnum] at hm
  by_cases h2 : c.nTp + c.nFn = 0 ∨ c.nTn + c.nFp = 0 ∨ c.nTn + c.nFn = 0
  · rw [if_pos h2]
    have hz : mccDen c.nTp c.nTn c.nFp c.nFn = 0 := by
      unfold mccDen
      rw [Real.sqrt_eq_zero (by positivity)]
      rcases h2 with h | h | h
      · have : (c.nTp : ℝ) + c.nFn = 0 := by exact_mod_cast h
        rw [this]; ring
      · have : (c.nTn : ℝ) + c.nFp = 0 := by exact_mod_cast h
        rw [this]; ring
      · have : (c.nTn : ℝ) + c.nFn = 0 := by exact_mod_cast h
        rw [this]; ring
    have hn : (c.nTp : ℝ) * c.nTn - c.nFp * c.nFn = 0 := by
      rcases h2 with h | h | h
      · obtain ⟨a, b⟩ : c.nTp = 0 ∧ c.nFn = 0 := by omega
        simp [a, b]
      · obtain ⟨a, b⟩ : c.nTn = 0 ∧ c.nFp = 0 := by omega
        simp [a, b]
      · obtain ⟨a, b⟩ : c.nTn = 0 ∧ c.nFn = 0 := by omega
        simp [a, b]
    rw [hz, hn] at hm
    have : m = .nan := by rw [← hm]; simp [Fl.pf_div_fin, Fl.infSign]
    rw [this]
    simp [Fl.isInf]
  · rw [if_neg h2]
    push Not at h2
    have hpos : 0 < mccDen c.nTp c.nTn c.nFp c.nFn := by
      unfold mccDen
      apply Real.sqrt_pos.mpr
      have h1' : (0 : ℝ) < c.nTp + c.nFp := by exact_mod_cast Nat.pos_of_ne_zero h1
      have h2' : (0 : ℝ) < c.nTp + c.nFn := by exact_mod_cast Nat.pos_of_ne_zero h2.1
      have h3' : (0 : ℝ) < c.nTn + c.nFp := by exact_mod_cast Nat.pos_of_ne_zero h2.2.1
      have h4' : (0 : ℝ) < c.nTn + c.nFn := by exact_mod_cast Nat.pos_of_ne_zero h2.2.2
      positivity
    rw [Fl.pf_div_fin_ne _ _ hpos.ne'] at hm
    rw [← hm]
    simp [Fl.isInf]

theorem mcc_sq_le (tp tn fp fn : ℝ) (h1 : 0 ≤ tp) (h2 : 0 ≤ tn) (h3 : 0 ≤ fp) (h4 : 0 ≤ fn) :
    (tp * tn - fp * fn) ^ 2 ≤ (tp + fp) * (tp + fn) * (tn + fp) * (tn + fn) := by
  have a : tp * tn + fp * fn ≤ (tp + fp) * (tn + fn) := by
    have := mul_nonneg h1 h4
    have := mul_nonneg h3 h2
    nlinarith
  have b : tp * tn + fp * fn ≤ (tp + fn) * (tn + fp) := by
    have := mul_nonneg h1 h3
    have := mul_nonneg h4 h2
    nlinarith
  have x := mul_nonneg h1 h2
  have y := mul_nonneg h3 h4
  calc (tp * tn - fp * fn) ^ 2 ≤ (tp * tn + fp * fn) * (tp * tn + fp * fn) := by nlinarith
    _ ≤ ((tp + fp) * (tn + fn)) * ((tp + fn) * (tn + fp)) :=
        mul_le_mul a b (by positivity) (by positivity)
    _ = _ := by ring

/-- The relation between result and pairs used below: shape of counts. -/
theorem metrics_counts (r p : List (Fl ℝ)) (e : WetDryError (Fl ℝ))
    (he : calcWetDryPerformanceMetrics Fl.isInf r p = .ok e) :
    r.length = p.length ∧
    e.matthewsCorrelation = (if e.counts.nTp + e.counts.nFp = 0 then .fin 0
      else if e.counts.nTp + e.counts.nFn = 0 ∨ e.counts.nTn + e.counts.nFp = 0 ∨
        e.counts.nTn + e.counts.nFn = 0 then .nan
      else .fin (((e.counts.nTp : ℝ) * e.counts.nTn - e.counts.nFp * e.counts.nFn) /
        mccDen e.counts.nTp e.counts.nTn e.counts.nFp e.counts.nFn)) := by
  have h : r.length = p.length := by
    by_contra hc
    rw [C40_length_mismatch Fl.isInf r p hc] at he
    cases he
  refine ⟨h, ?_⟩
  obtain ⟨hr, hp⟩ := exists_pairs h
  generalize hz : r.zip p = zs at hr hp
  rw [calcWetDry_eq] at he
  rw [hr, hp, wetDryCounts_pairs] at he
  injection he with he
  subst he
  dsimp only
  rw [matthews_eq]
  dsimp only
  have := countP_and_add (zs.filter validPair) (fun z => pos z.2) (fun z => pos z.1)
  rw [← this]
  congr 2
  · funext z; exact Bool.and_comm _ _
  · funext z; exact Bool.and_comm _ _

/-- C42: the MCC is NaN or within [-1, 1]. -/
theorem C42_mcc_range (r p : List (Fl ℝ)) (e : WetDryError (Fl ℝ))
    (he : calcWetDryPerformanceMetrics Fl.isInf r p = .ok e) :
    e.matthewsCorrelation = .nan ∨
      ∃ m : ℝ, e.matthewsCorrelation = .fin m ∧ -1 ≤ m ∧ m ≤ 1 := by
  rw [(metrics_counts r p e he).2]
  split_ifs with h1 h2
  · exact Or.inr ⟨0, rfl, by norm_num, by norm_num⟩
  · exact Or.inl rfl
  · refine Or.inr ⟨_, rfl, ?_⟩
    have hsq := mcc_sq_le (e.counts.nTp) (e.counts.nTn) (e.counts.nFp) (e.counts.nFn)
      (Nat.cast_nonneg _) (Nat.cast_nonneg _) (Nat.cast_nonneg _) (Nat.cast_nonneg _)
    have habs := Real.abs_le_sqrt hsq
    have h0 : 0 ≤ mccDen e.counts.nTp e.counts.nTn e.counts.nFp e.counts.nFn :=
      Real.sqrt_nonneg _
    have := abs_le.mp habs
    rcases h0.lt_or_eq with hpos | hz
    · constructor
      · rw [le_div_iff₀ hpos]; unfold mccDen; linarith [this.1]
      · rw [div_le_one hpos]; exact this.2
    · rw [← hz]; simp

/-- the pairs that are used -/
noncomputable def validPairs (r p : List (Fl ℝ)) : List (Fl ℝ × Fl ℝ) :=
  (r.zip p).filter fun z => okPair z.1 z.2

theorem counts_zero_iff (r p : List (Fl ℝ)) (e : WetDryError (Fl ℝ))
    (he : calcWetDryPerformanceMetrics Fl.isInf r p = .ok e) :
    e.counts.nTp = (validPairs r p).countP (fun z => pos z.1 && pos z.2) ∧
    e.counts.nTn = (validPairs r p).countP (fun z => !pos z.1 && !pos z.2) ∧
    e.counts.nFp = (validPairs r p).countP (fun z => !pos z.1 && pos z.2) ∧
    e.counts.nFn = (validPairs r p).countP (fun z => pos z.1 && !pos z.2) := by
  have h := (metrics_counts r p e he).1
  obtain ⟨e', he', h1, h2, h3, h4, h5, h6, h7, h8, h9, h10⟩ :=
    C40_counts_are_counts Fl.isInf r p h
  rw [he] at he'
  obtain rfl : e = e' := by injection he'
  unfold validPairs
  simp only [List.countP_filter]
  rw [h5, h6, h7, h8]
  unfold nPairs
  refine ⟨?_, ?_, ?_, ?_⟩ <;> (congr 1; funext z; exact Bool.and_comm _ _)

/-- C42: 0 if no valid pair is predicted wet. -/
theorem C42_mcc_no_wet_predicted (r p : List (Fl ℝ)) (e : WetDryError (Fl ℝ))
    (he : calcWetDryPerformanceMetrics Fl.isInf r p = .ok e)
    (hdry : ∀ z ∈ validPairs r p, pos z.2 = false) : e.matthewsCorrelation = .fin 0 := by
  obtain ⟨h1, h2, h3, h4⟩ := counts_zero_iff r p e he
  rw [(metrics_counts r p e he).2, if_pos]
  rw [h1, h3]
  have a : (validPairs r p).countP (fun z => pos z.1 && pos z.2) = 0 := by
    rw [List.countP_eq_zero]; intro z hz; simp [hdry z hz]
  have b : (validPairs r p).countP (fun z => !pos z.1 && pos z.2) = 0 := by
    rw [List.countP_eq_zero]; intro z hz; simp [hdry z hz]
  omega

theorem countP_pair_zero {l : List (Fl ℝ × Fl ℝ)} {P Q R : Fl ℝ × Fl ℝ → Bool}
    (h : ∀ z, (P z || Q z) = R z) :
    l.countP P + l.countP Q = 0 ↔ ∀ z ∈ l, R z = false := by
  rw [Nat.add_eq_zero_iff, List.countP_eq_zero, List.countP_eq_zero]
  constructor
  · rintro ⟨a, b⟩ z hz
    rw [← h z]
    simp [a z hz, b z hz]
  · intro a
    refine ⟨fun z hz => ?_, fun z hz => ?_⟩ <;>
    · have := a z hz
      rw [← h z, Bool.or_eq_false_iff] at this
      simp [this]

theorem tpfp_zero (r p : List (Fl ℝ)) (e : WetDryError (Fl ℝ))
    (he : calcWetDryPerformanceMetrics Fl.isInf r p = .ok e) :
    (e.counts.nTp + e.counts.nFp = 0 ↔ ∀ z ∈ validPairs r p, pos z.2 = false) ∧
    (e.counts.nTp + e.counts.nFn = 0 ↔ ∀ z ∈ validPairs r p, pos z.1 = false) ∧
    (e.counts.nTn + e.counts.nFp = 0 ↔ ∀ z ∈ validPairs r p, pos z.1 = true) ∧
    (e.counts.nTn + e.counts.nFn = 0 ↔ ∀ z ∈ validPairs r p, pos z.2 = true) := by
  obtain ⟨h1, h2, h3, h4⟩ := counts_zero_iff r p e he
  rw [h1, h2, h3, h4]
  refine ⟨?_, ?_, ?_, ?_⟩
  · exact countP_pair_zero fun z => by cases pos z.1 <;> cases pos z.2 <;> rfl
  · exact countP_pair_zero fun z => by cases pos z.1 <;> cases pos z.2 <;> rfl
  · rw [countP_pair_zero (R := fun z => !pos z.1) fun z => by
      cases pos z.1 <;> cases pos z.2 <;> rfl]
    simp
  · rw [countP_pair_zero (R := fun z => !pos z.2) fun z => by
      cases pos z.1 <;> cases pos z.2 <;> rfl]
    simp

/-- C42: NaN exactly if something is predicted wet, and the reference or the prediction takes
only one value. -/
theorem C42_mcc_nan_iff (r p : List (Fl ℝ)) (e : WetDryError (Fl ℝ))
    (he : calcWetDryPerformanceMetrics Fl.isInf r p = .ok e) :
    e.matthewsCorrelation = .nan ↔
      (∃ z ∈ validPairs r p, pos z.2 = true) ∧
      ((∀ z ∈ validPairs r p, pos z.1 = false) ∨ (∀ z ∈ validPairs r p, pos z.1 = true) ∨
        (∀ z ∈ validPairs r p, pos z.2 = true)) := by
  obtain ⟨a, b, c, d⟩ := tpfp_zero r p e he
  rw [(metrics_counts r p e he).2, ← b, ← c, ← d]
  by_cases h1 : e.counts.nTp + e.counts.nFp = 0
  · rw [if_pos h1]
    have := a.mp h1
    constructor
    · intro h; cases h
    · rintro ⟨⟨z, hz, hp⟩, -⟩
      rw [this z hz] at hp; cases hp
  · rw [if_neg h1]
    have hex : ∃ z ∈ validPairs r p, pos z.2 = true := by
      by_contra hc
      push Not at hc
      exact h1 (a.mpr fun z hz => by simpa using hc z hz)
    split_ifs with h2
    · exact ⟨fun _ => ⟨hex, h2⟩, fun _ => rfl⟩
    · exact ⟨fun h => (by cases h), fun h => absurd h.2 h2⟩

/-- C42: the value is the textbook formula when reference and prediction both take both values. -/
theorem C42_mcc_formula (r p : List (Fl ℝ)) (e : WetDryError (Fl ℝ))
    (he : calcWetDryPerformanceMetrics Fl.isInf r p = .ok e)
    (h1 : ∃ z ∈ validPairs r p, pos z.1 = true) (h2 : ∃ z ∈ validPairs r p, pos z.1 = false)
    (h3 : ∃ z ∈ validPairs r p, pos z.2 = true) (h4 : ∃ z ∈ validPairs r p, pos z.2 = false) :
    let tp : ℝ := (validPairs r p).countP fun z => pos z.1 && pos z.2
    let tn : ℝ := (validPairs r p).countP fun z => !pos z.1 && !pos z.2
    let fp : ℝ := (validPairs r p).countP fun z => !pos z.1 && pos z.2
    let fn : ℝ := (validPairs r p).countP fun z => pos z.1 && !pos z.2
    e.matthewsCorrelation =
      .fin ((tp * tn - fp * fn) / Real.sqrt ((tp + fp) * (tp + fn) * (tn + fp) * (tn + fn))) := by
  obtain ⟨a, b, c, d⟩ := tpfp_zero r p e he
  obtain ⟨k1, k2, k3, k4⟩ := counts_zero_iff r p e he
  dsimp only
  rw [(metrics_counts r p e he).2, if_neg, if_neg, k1, k2, k3, k4]
  · rfl
  · rw [b, c, d]
    rintro (h | h | h)
    · obtain ⟨z, hz, hh⟩ := h1; rw [h z hz] at hh; cases hh
    · obtain ⟨z, hz, hh⟩ := h2; rw [h z hz] at hh; cases hh
    · obtain ⟨z, hz, hh⟩ := h4; rw [h z hz] at hh; cases hh
  · rw [a]
    intro h
    obtain ⟨z, hz, hh⟩ := h3; rw [h z hz] at hh; cases hh

theorem mcc_eq_one {tp tn fp fn : ℝ} (h1 : 0 ≤ tp) (h2 : 0 ≤ tn) (h3 : 0 ≤ fp) (h4 : 0 ≤ fn)
    (hpos : 0 < (tp + fp) * (tp + fn) * (tn + fp) * (tn + fn))
    (h : tp * tn - fp * fn = Real.sqrt ((tp + fp) * (tp + fn) * (tn + fp) * (tn + fn))) :
    fp = 0 ∧ fn = 0 := by
  have hsq : (tp * tn - fp * fn) ^ 2 = (tp + fp) * (tp + fn) * (tn + fp) * (tn + fn) := by
    rw [h, Real.sq_sqrt hpos.le]
  have hnum : 0 < tp * tn - fp * fn := by rw [h]; exact Real.sqrt_pos.mpr hpos
  have hff := mul_nonneg h3 h4
  have htt : 0 < tp * tn := by linarith
  have htp : 0 < tp := by
    rcases h1.lt_or_eq with h | h
    · exact h
    · rw [← h] at htt; simp at htt
  have htn : 0 < tn := by
    rcases h2.lt_or_eq with h | h
    · exact h
    · rw [← h] at htt; simp at htt
  have e : (tp + fp) * (tp + fn) * (tn + fp) * (tn + fn) - (tp * tn - fp * fn) ^ 2 ≥
      tp * tn * (tp * fn + tp * fp + tn * fp + tn * fn) := by
    have : (tp + fp) * (tp + fn) * (tn + fp) * (tn + fn) - (tp * tn - fp * fn) ^ 2 =
      tp * tn * (tp * fn + tp * fp + tn * fp + tn * fn) +
      (tp * tn * (fp * fp) + tp * tn * (fn * fn) + tp * fp * fp * fn + tp * fp * fn * fn +
        tn * fp * fp * fn + tn * fp * fn * fn + tp ^ 2 * fp * fn + tn ^ 2 * fp * fn
        + 4 * (tp * tn * fp * fn)) := by ring
    rw [this]
    have : 0 ≤ (tp * tn * (fp * fp) + tp * tn * (fn * fn) + tp * fp * fp * fn +
        tp * fp * fn * fn + tn * fp * fp * fn + tn * fp * fn * fn + tp ^ 2 * fp * fn +
        tn ^ 2 * fp * fn + 4 * (tp * tn * fp * fn)) := by positivity
    linarith
  rw [hsq, sub_self] at e
  have hle : tp * fn + tp * fp + tn * fp + tn * fn ≤ 0 := by
    by_contra hc
    push Not at hc
    have := mul_pos htt hc
    linarith
  have a1 : 0 ≤ tp * fn := by positivity
  have a2 : 0 ≤ tp * fp := by positivity
  have a3 : 0 ≤ tn * fp := by positivity
  have a4 : 0 ≤ tn * fn := by positivity
  have b1 : tp * fp = 0 := by linarith
  have b2 : tp * fn = 0 := by linarith
  exact ⟨(mul_eq_zero.mp b1).resolve_left htp.ne', (mul_eq_zero.mp b2).resolve_left htp.ne'⟩

/-- C42: 1 exactly for perfect agreement with both classes present. -/
theorem C42_mcc_one_iff (r p : List (Fl ℝ)) (e : WetDryError (Fl ℝ))
    (he : calcWetDryPerformanceMetrics Fl.isInf r p = .ok e) :
    e.matthewsCorrelation = .fin 1 ↔
      (∀ z ∈ validPairs r p, pos z.1 = pos z.2) ∧
      (∃ z ∈ validPairs r p, pos z.1 = true) ∧ (∃ z ∈ validPairs r p, pos z.1 = false) := by
  obtain ⟨a, b, c, d⟩ := tpfp_zero r p e he
  obtain ⟨k1, k2, k3, k4⟩ := counts_zero_iff r p e he
  constructor
  · intro h
    rw [(metrics_counts r p e he).2] at h
    split_ifs at h with h1 h2
    · simp at h
    injection h with h
    push Not at h2
    have q1 : (0 : ℝ) < e.counts.nTp + e.counts.nFp := by exact_mod_cast Nat.pos_of_ne_zero h1
    have q2 : (0 : ℝ) < e.counts.nTp + e.counts.nFn := by exact_mod_cast Nat.pos_of_ne_zero h2.1
    have q3 : (0 : ℝ) < e.counts.nTn + e.counts.nFp := by exact_mod_cast Nat.pos_of_ne_zero h2.2.1
    have q4 : (0 : ℝ) < e.counts.nTn + e.counts.nFn := by exact_mod_cast Nat.pos_of_ne_zero h2.2.2
    have hpos : (0 : ℝ) < (e.counts.nTp + e.counts.nFp) * (e.counts.nTp + e.counts.nFn) *
        (e.counts.nTn + e.counts.nFp) * (e.counts.nTn + e.counts.nFn) := by positivity
    have hd : 0 < mccDen e.counts.nTp e.counts.nTn e.counts.nFp e.counts.nFn :=
      Real.sqrt_pos.mpr hpos
    rw [div_eq_one_iff_eq hd.ne'] at h
    obtain ⟨f1, f2⟩ := mcc_eq_one (Nat.cast_nonneg _) (Nat.cast_nonneg _) (Nat.cast_nonneg _)
      (Nat.cast_nonneg _) hpos h
    have f1' : e.counts.nFp = 0 := by exact_mod_cast f1
    have f2' : e.counts.nFn = 0 := by exact_mod_cast f2
    refine ⟨?_, ?_, ?_⟩
    · intro z hz
      rw [k3, List.countP_eq_zero] at f1'
      rw [k4, List.countP_eq_zero] at f2'
      have x := f1' z hz
      have y := f2' z hz
      revert x y
      cases pos z.1 <;> cases pos z.2 <;> simp
    · by_contra hc
      push Not at hc
      exact h2.1 (b.mpr fun z hz => by simpa using hc z hz)
    · by_contra hc
      push Not at hc
      exact h2.2.1 (c.mpr fun z hz => by simpa using hc z hz)
  · rintro ⟨hall, hw, hdry⟩
    have f1 : e.counts.nFp = 0 := by
      rw [k3, List.countP_eq_zero]; intro z hz; rw [hall z hz]; cases pos z.2 <;> simp
    have f2 : e.counts.nFn = 0 := by
      rw [k4, List.countP_eq_zero]; intro z hz; rw [hall z hz]; cases pos z.2 <;> simp
    have t1 : e.counts.nTp ≠ 0 := by
      intro h0
      obtain ⟨z, hz, hh⟩ := hw
      have := b.mp (by omega) z hz
      rw [this] at hh; cases hh
    have t2 : e.counts.nTn ≠ 0 := by
      intro h0
      obtain ⟨z, hz, hh⟩ := hdry
      have := c.mp (by omega) z hz
      rw [this] at hh; cases hh
    rw [(metrics_counts r p e he).2, if_neg (by omega), if_neg (by omega), f1, f2]
    unfold mccDen
    have t1' : (e.counts.nTp : ℝ) ≠ 0 := by exact_mod_cast t1
    have t2' : (e.counts.nTn : ℝ) ≠ 0 := by exact_mod_cast t2
    have : ((e.counts.nTp : ℝ) + (0 : Nat)) * (e.counts.nTp + (0 : Nat)) *
        (e.counts.nTn + (0 : Nat)) * (e.counts.nTn + (0 : Nat)) =
        (e.counts.nTp * e.counts.nTn) ^ 2 := by push_cast; ring
    rw [this, Real.sqrt_sq (by positivity)]
    congr 1
    push_cast
    rw [mul_zero, sub_zero, div_self (mul_ne_zero t1' t2')]

/-- C42: swapping reference and prediction does not change the MCC, if both contain a wet
pair. -/
theorem C42_mcc_symmetric (r p : List (Fl ℝ)) (e e' : WetDryError (Fl ℝ))
    (he : calcWetDryPerformanceMetrics Fl.isInf r p = .ok e)
    (he' : calcWetDryPerformanceMetrics Fl.isInf p r = .ok e')
    (h1 : ∃ z ∈ validPairs r p, pos z.1 = true) (h2 : ∃ z ∈ validPairs r p, pos z.2 = true) :
    e.matthewsCorrelation = e'.matthewsCorrelation := by
  obtain ⟨a, b, -, -⟩ := tpfp_zero r p e he
  have hlen := (metrics_counts r p e he).1
  obtain ⟨e1, x1, -, -, -, -, g5, g6, g7, g8, -, -⟩ :=
    C40_counts_are_counts Fl.isInf r p hlen
  obtain ⟨e2, x2, -, -, -, -, i5, i6, i7, i8, -, -⟩ :=
    C40_counts_are_counts Fl.isInf p r hlen.symm
  rw [he] at x1
  rw [he'] at x2
  obtain rfl : e = e1 := by injection x1
  obtain rfl : e' = e2 := by injection x2
  have sw : ∀ P : Fl ℝ → Fl ℝ → Bool, nPairs p r P = nPairs r p fun a b => P b a := by
    intro P
    unfold nPairs
    rw [← List.zip_swap r p, List.countP_map]
    rfl
  have cm : ∀ x y : Fl ℝ, okPair x y = okPair y x := fun x y => Bool.and_comm _ _
  have j1 : e'.counts.nTp = e.counts.nTp := by
    rw [i5, g5, sw]; congr 1; funext x y; rw [cm, Bool.and_comm (pos y)]
  have j2 : e'.counts.nTn = e.counts.nTn := by
    rw [i6, g6, sw]; congr 1; funext x y; rw [cm, Bool.and_comm (!pos y)]
  have j3 : e'.counts.nFp = e.counts.nFn := by
    rw [i7, g8, sw]; congr 1; funext x y; rw [cm, Bool.and_comm (!pos y)]
  have j4 : e'.counts.nFn = e.counts.nFp := by
    rw [i8, g7, sw]; congr 1; funext x y; rw [cm, Bool.and_comm (pos y)]
  have n1 : ¬ e.counts.nTp + e.counts.nFp = 0 := by
    rw [a]; intro h; obtain ⟨z, hz, hh⟩ := h2; rw [h z hz] at hh; cases hh
  have n2 : ¬ e.counts.nTp + e.counts.nFn = 0 := by
    rw [b]; intro h; obtain ⟨z, hz, hh⟩ := h1; rw [h z hz] at hh; cases hh
  rw [(metrics_counts r p e he).2, (metrics_counts p r e' he').2, j1, j2, j3, j4,
    if_neg n1, if_neg n2]
  have hd : mccDen e.counts.nTp e.counts.nTn e.counts.nFn e.counts.nFp =
      mccDen e.counts.nTp e.counts.nTn e.counts.nFp e.counts.nFn := by
    unfold mccDen; congr 1; ring
  rw [hd, mul_comm (e.counts.nFn : ℝ)]
  by_cases q : e.counts.nTn + e.counts.nFp = 0 ∨ e.counts.nTn + e.counts.nFn = 0
  · rw [if_pos (by tauto), if_pos (by tauto)]
  · rw [if_neg (by tauto), if_neg (by tauto)]

/-- The symmetry fails without the wet pairs: predicting nothing wet scores 0, while with
exchanged arguments it is NaN. -/
theorem C42_mcc_not_symmetric :
    ∃ r p e e', calcWetDryPerformanceMetrics Fl.isInf r p = .ok e ∧
      calcWetDryPerformanceMetrics Fl.isInf p r = .ok e' ∧
      e.matthewsCorrelation = (.fin 0 : Fl ℝ) ∧ e'.matthewsCorrelation = .nan := by
  refine ⟨[.fin 1, .fin 0], [.fin 0, .fin 0], _, _, rfl, rfl, ?_, ?_⟩
  · refine C42_mcc_no_wet_predicted [.fin 1, .fin 0] [.fin 0, .fin 0] _ rfl ?_
    intro z hz
    simp only [validPairs, List.zip_cons_cons, List.zip_nil_left, List.mem_filter,
      List.mem_cons, List.not_mem_nil, or_false] at hz
    rcases hz with ⟨rfl | rfl, -⟩ <;> simp [pos]
  · rw [C42_mcc_nan_iff [.fin 0, .fin 0] [.fin 1, .fin 0] _ rfl]
    refine ⟨⟨(.fin 0, .fin 1), by simp [validPairs, okPair], by simp [pos]⟩, Or.inl ?_⟩
    intro z hz
    simp only [validPairs, List.zip_cons_cons, List.zip_nil_left, List.mem_filter,
      List.mem_cons, List.not_mem_nil, or_false] at hz
    rcases hz with ⟨rfl | rfl, -⟩ <;> simp [pos]

/-- Concrete case for the theorems of this section: both classes on both sides. -/
example : let r : List (Fl ℝ) := [.fin 1, .fin 0, .fin 1]
    let p : List (Fl ℝ) := [.fin 1, .fin 0, .fin 0]
    (∃ z ∈ validPairs r p, pos z.1 = true) ∧ (∃ z ∈ validPairs r p, pos z.1 = false) ∧
    (∃ z ∈ validPairs r p, pos z.2 = true) ∧ (∃ z ∈ validPairs r p, pos z.2 = false) := by
  refine ⟨⟨(.fin 1, .fin 1), ?_, ?_⟩, ⟨(.fin 0, .fin 0), ?_, ?_⟩, ⟨(.fin 1, .fin 1), ?_, ?_⟩,
    ⟨(.fin 1, .fin 0), ?_, ?_⟩⟩ <;> simp [validPairs, okPair, pos]

end mcc

/-! ### C43 (wet/dry) -/

section multiset
variable {F : Type} [PyFloat F] [PySqrt F]

/-- C43: rates, MCC and class counts only depend on the multiset of valid pairs. -/
theorem C43_wetdry_multiset (isInf : F → Bool) (r p r' p' : List F) (e e' : WetDryError F)
    (he : calcWetDryPerformanceMetrics isInf r p = .ok e)
    (he' : calcWetDryPerformanceMetrics isInf r' p' = .ok e')
    (h : ((r.zip p).filter fun z => okPair z.1 z.2).Perm
      ((r'.zip p').filter fun z => okPair z.1 z.2)) :
    e.falseWetRate = e'.falseWetRate ∧ e.missedWetRate = e'.missedWetRate ∧
    e.matthewsCorrelation = e'.matthewsCorrelation ∧ e.trueWetRate = e'.trueWetRate ∧
    e.trueDryRate = e'.trueDryRate ∧ e.counts.nTp = e'.counts.nTp ∧
    e.counts.nTn = e'.counts.nTn ∧ e.counts.nFp = e'.counts.nFp ∧
    e.counts.nFn = e'.counts.nFn ∧ e.counts.nWetReference = e'.counts.nWetReference ∧
    e.counts.nDryReference = e'.counts.nDryReference := by
  have key : ∀ (r p : List F) (e : WetDryError F),
      calcWetDryPerformanceMetrics isInf r p = .ok e →
      ∃ zs : List (F × F), r = zs.map (·.1) ∧ p = zs.map (·.2) ∧ r.zip p = zs := by
    intro r p e he
    have hl : r.length = p.length := by
      by_contra hc
      rw [C40_length_mismatch isInf r p hc] at he
      cases he
    exact ⟨r.zip p, (exists_pairs hl).1, (exists_pairs hl).2, rfl⟩
  obtain ⟨zs, hr, hp, hz⟩ := key r p e he
  obtain ⟨zs', hr', hp', hz'⟩ := key r' p' e' he'
  rw [hz, hz'] at h
  have hv : (fun z : F × F => okPair z.1 z.2) = validPair := by
    funext z
    simp only [okPair, validPair]
    cases isNaN z.1 <;> cases isNaN z.2 <;> rfl
  rw [hv] at h
  rw [calcWetDry_eq] at he he'
  rw [hr, hp, wetDryCounts_pairs] at he
  rw [hr', hp', wetDryCounts_pairs] at he'
  injection he with he
  injection he' with he'
  subst he
  subst he'
  have hc : ∀ P : F × F → Bool, (zs.filter validPair).countP P =
      (zs'.filter validPair).countP P := fun P => h.countP_eq P
  simp only [hc, matthews, and_self]

/-- C43: permuting the pairs jointly changes nothing at all. -/
theorem C43_wetdry_perm (isInf : F → Bool) (r p r' p' : List F) (hl : r.length = p.length)
    (hl' : r'.length = p'.length) (h : (r.zip p).Perm (r'.zip p')) :
    calcWetDryPerformanceMetrics isInf r p = calcWetDryPerformanceMetrics isInf r' p' := by
  obtain ⟨hr, hp⟩ := exists_pairs hl
  obtain ⟨hr', hp'⟩ := exists_pairs hl'
  generalize r.zip p = zs at *
  generalize r'.zip p' = zs' at *
  subst hr hp hr' hp'
  rw [calcWetDry_eq, calcWetDry_eq]
  rw [wetDryCounts_pairs, wetDryCounts_pairs]
  have hc : ∀ P : F × F → Bool, zs.countP P = zs'.countP P := fun P => h.countP_eq P
  have hf : ∀ P : F × F → Bool, (zs.filter validPair).countP P =
      (zs'.filter validPair).countP P := fun P => (h.filter _).countP_eq P
  simp only [hc, hf, h.length_eq]

end multiset

/-- Concrete case for `C43_wetdry_multiset`: a NaN pair appended and the others swapped. -/
example : (([.fin 1, .fin 0] : List (Fl ℚ)).zip [.fin 0, .fin 3]).filter
      (fun z => okPair z.1 z.2) =
    [(.fin 1, .fin 0), (.fin 0, .fin 3)] ∧
    (([.fin 0, .nan, .fin 1] : List (Fl ℚ)).zip [.fin 3, .fin 1, .fin 0]).filter
      (fun z => okPair z.1 z.2) = [(.fin 0, .fin 3), (.fin 1, .fin 0)] := by decide +kernel

end Verif.Props
