import Verif.Lemmas.Stats
import Verif.Lemmas.FlList
import Mathlib.Tactic.Positivity
import Mathlib.Algebra.BigOperators.Group.List.Basic
import Mathlib.Algebra.BigOperators.Ring.List
import Mathlib.Algebra.Order.BigOperators.Group.List

/-! # Lemmas: rain metrics of `stats.py` -/

namespace Verif.Stats

theorem meanBy_fsum {F : Type} [PyFloat F] (xs : List F) : meanBy fsum xs = npMean xs := rfl

theorem npCov_def {F : Type} [PyFloat F] [PySqrt F] (xs ys : List F) :
    npCovBy fsum (fun xs ys => fsum (vmul xs ys)) xs ys = npCov xs ys := rfl

section pairs
variable {F : Type} [PyFloat F] [PySqrt F]

theorem rain_pairs (zs : List (F × F)) (thr : F) :
    calcRainErrorPerformanceMetrics (zs.map (·.1)) (zs.map (·.2)) thr = .ok
      (let vs := zs.filter validPair
      { pearsonCorrelation := npCorrcoef (vs.map (·.1)) (vs.map (·.2))
        coefficientOfVariation := npStd (vs.map fun z => z.2 -ᶠ z.1) /ᶠ npMean (vs.map (·.1))
        rootMeanSquareError :=
          PySqrt.sqrt (npMean (vs.map fun z => (z.2 -ᶠ z.1) *ᶠ (z.2 -ᶠ z.1)))
        meanAbsoluteError := npMean (vs.map fun z => fabs (z.2 -ᶠ z.1))
        rSumReference := fsum (vs.map (·.1))
        rSumPredicted := fsum (vs.map (·.2))
        rMeanReference := npMean (vs.map (·.1))
        rMeanPredicted := npMean (vs.map (·.2))
        falseWetRate := divNat (vs.countP fun z => !(thr <ᶠ z.1) && (thr <ᶠ z.2))
          (vs.countP fun z => !(thr <ᶠ z.1))
        missedWetRate := divNat (vs.countP fun z => (thr <ᶠ z.1) && !(thr <ᶠ z.2))
          (vs.countP fun z => thr <ᶠ z.1)
        falseWetPrecipitationRate :=
          npMean ((vs.filter fun z => !(thr <ᶠ z.1) && (thr <ᶠ z.2)).map (·.2))
        missedWetPrecipitationRate :=
          npMean ((vs.filter fun z => (thr <ᶠ z.1) && !(thr <ᶠ z.2)).map (·.1))
        rainfallThresholdWet := thr
        nAllPairs := zs.length
        nNanPairs := zs.countP fun z => isNaN z.1 || isNaN z.2
        nNanReferenceOnly := zs.countP fun z => isNaN z.1
        nNanPredictedOnly := zs.countP fun z => isNaN z.2 }) := by
  unfold calcRainErrorPerformanceMetrics rainErrorArr
  rw [if_neg (by simp [Arr.of])]
  show Except.ok _ = _
  congr 1
  dsimp only [Arr.of]
  rw [nanIndex_map, bnot_map, boolIndex_map, boolIndex_map]
  have hd : vsub ((zs.filter fun z => !(isNaN z.1 || isNaN z.2)).map (·.2))
      ((zs.filter fun z => !(isNaN z.1 || isNaN z.2)).map (·.1)) =
      (zs.filter fun z => !(isNaN z.1 || isNaN z.2)).map fun z => z.2 -ᶠ z.1 := by
    unfold vsub
    rw [List.zipWith_map, List.zipWith_self]
  rw [hd]
  simp only [List.map_map, bnot_map, band_map, bsum_map, boolIndex_map, List.length_map,
    Function.comp_def]
  rfl

end pairs

section perm
variable {K : Type} [Field K] [LinearOrder K]

theorem fl_add_right_comm (a b c : Fl K) : (a +ᶠ b) +ᶠ c = (a +ᶠ c) +ᶠ b := by
  cases a <;> cases b <;> cases c <;> first
    | rfl
    | (simp only [Fl.pf_add_fin]; rw [add_right_comm])

theorem fsum_perm {l l' : List (Fl K)} (h : l.Perm l') : fsum l = fsum l' := by
  unfold fsum
  exact h.foldl_eq' (fun a _ b _ z => fl_add_right_comm z a b) _

theorem npMean_perm {l l' : List (Fl K)} (h : l.Perm l') : npMean l = npMean l' := by
  unfold npMean
  rw [fsum_perm h, h.length_eq]

variable [PySqrt (Fl K)]

theorem npStd_perm {l l' : List (Fl K)} (h : l.Perm l') : npStd l = npStd l' := by
  unfold npStd npStdBy
  simp only [meanBy_fsum]
  rw [npMean_perm h, npMean_perm (h.map _)]

omit [PySqrt (Fl K)] in
theorem npCov_perm {α : Type} {l l' : List α} (h : l.Perm l') (f g : α → Fl K) :
    npCov (l.map f) (l.map g) = npCov (l'.map f) (l'.map g) := by
  unfold npCov npCovBy vmul
  simp only [meanBy_fsum]
  rw [npMean_perm (h.map f), npMean_perm (h.map g)]
  simp only [List.map_map, List.zipWith_map, List.zipWith_self, List.length_map, h.length_eq]
  rw [fsum_perm (h.map _)]

theorem npCorrcoef_perm {α : Type} {l l' : List α} (h : l.Perm l') (f g : α → Fl K) :
    npCorrcoef (l.map f) (l.map g) = npCorrcoef (l'.map f) (l'.map g) := by
  unfold npCorrcoef npCorrcoefBy
  simp only [npCov_def]
  rw [npCov_perm h f g, npCov_perm h f f, npCov_perm h g g]

end perm

section sums

/-- sum of `f` over the list -/
def S {α : Type} (l : List α) (f : α → ℝ) : ℝ := (l.map f).sum

variable {α : Type}

theorem S_cons (a : α) (l : List α) (f : α → ℝ) : S (a :: l) f = f a + S l f := by
  simp [S]

theorem S_nil (f : α → ℝ) : S ([] : List α) f = 0 := rfl

theorem S_add (l : List α) (f g : α → ℝ) : S l (fun x => f x + g x) = S l f + S l g := by
  induction l with
  | nil => simp [S_nil]
  | cons a l ih => simp only [S_cons, ih]; ring

theorem S_sub (l : List α) (f g : α → ℝ) : S l (fun x => f x - g x) = S l f - S l g := by
  induction l with
  | nil => simp [S_nil]
  | cons a l ih => simp only [S_cons, ih]; ring

theorem S_mul (l : List α) (c : ℝ) (f : α → ℝ) : S l (fun x => c * f x) = c * S l f := by
  induction l with
  | nil => simp [S_nil]
  | cons a l ih => simp only [S_cons, ih]; ring

theorem S_const (l : List α) (c : ℝ) : S l (fun _ => c) = l.length * c := by
  induction l with
  | nil => simp [S_nil]
  | cons a l ih => simp only [S_cons, ih, List.length_cons]; push_cast; ring

theorem S_nonneg (l : List α) (f : α → ℝ) (h : ∀ x ∈ l, 0 ≤ f x) : 0 ≤ S l f := by
  induction l with
  | nil => simp [S_nil]
  | cons a l ih =>
    rw [S_cons]
    exact add_nonneg (h a (by simp)) (ih fun x hx => h x (by simp [hx]))

theorem S_mono (l : List α) (f g : α → ℝ) (h : ∀ x ∈ l, f x ≤ g x) : S l f ≤ S l g := by
  have := S_nonneg l (fun x => g x - f x) fun x hx => sub_nonneg.mpr (h x hx)
  rw [S_sub] at this
  linarith

theorem S_eq_zero (l : List α) (f : α → ℝ) (h : ∀ x ∈ l, 0 ≤ f x) :
    S l f = 0 ↔ ∀ x ∈ l, f x = 0 := by
  induction l with
  | nil => simp [S_nil]
  | cons a l ih =>
    rw [S_cons]
    have h1 := h a (by simp)
    have h2 := S_nonneg l f fun x hx => h x (by simp [hx])
    have ih' := ih fun x hx => h x (by simp [hx])
    constructor
    · intro h0
      have e1 : f a = 0 := by linarith
      have e2 : S l f = 0 := by linarith
      intro x hx
      rcases List.mem_cons.mp hx with rfl | hx
      · exact e1
      · exact ih'.mp e2 x hx
    · intro hall
      rw [hall a (by simp), ih'.mpr fun x hx => hall x (by simp [hx]), add_zero]

theorem S_abs_le (l : List α) (f : α → ℝ) : |S l f| ≤ S l fun x => |f x| := by
  induction l with
  | nil => simp [S_nil]
  | cons a l ih =>
    rw [S_cons, S_cons]
    exact (abs_add_le _ _).trans (by linarith)

/-- mean deviation identity: `Σ (f - m)² = Σ f² - n m²` for `m` the mean -/
theorem S_var (l : List α) (hl : l ≠ []) (f : α → ℝ) :
    S l (fun x => (f x - S l f / l.length) * (f x - S l f / l.length)) =
      S l (fun x => f x * f x) - l.length * (S l f / l.length) ^ 2 := by
  have hn : (l.length : ℝ) ≠ 0 := by
    simpa using hl
  set m := S l f / l.length with hm
  have e : (fun x => (f x - m) * (f x - m)) =
      fun x => (f x * f x - (2 * m) * f x) + m * m := by funext x; ring
  rw [e, S_add, S_sub, S_mul, S_const]
  have : S l f = l.length * m := by rw [hm]; field_simp
  rw [this]
  ring

theorem S_sq_le (l : List α) (hl : l ≠ []) (f : α → ℝ) :
    (S l f / l.length) ^ 2 ≤ S l (fun x => f x * f x) / l.length := by
  have h := S_nonneg l (fun x => (f x - S l f / l.length) * (f x - S l f / l.length))
    fun x _ => mul_self_nonneg _
  rw [S_var l hl] at h
  have hn : (0 : ℝ) < l.length := by
    have := List.length_pos_of_ne_nil hl
    exact_mod_cast this
  rw [le_div_iff₀ hn]
  linarith

/-- Cauchy-Schwarz -/
theorem S_cs (l : List α) (f g : α → ℝ) :
    (S l fun x => f x * g x) ^ 2 ≤ (S l fun x => f x * f x) * (S l fun x => g x * g x) := by
  have key : ∀ t : ℝ, 0 ≤ (S l fun x => f x * f x) * (t * t) +
      (-2 * S l fun x => f x * g x) * t + S l fun x => g x * g x := by
    intro t
    have h := S_nonneg l (fun x => (t * f x - g x) * (t * f x - g x)) fun x _ => mul_self_nonneg _
    have e : (fun x => (t * f x - g x) * (t * f x - g x)) =
        fun x => ((t * t) * (f x * f x) - (2 * t) * (f x * g x)) + g x * g x := by
      funext x; ring
    rw [e, S_add, S_sub, S_mul, S_mul] at h
    linarith
  rcases (S_nonneg l (fun x => f x * f x) fun x _ => mul_self_nonneg _).lt_or_eq with h | h
  · generalize (S l fun x => f x * f x) = A at *
    generalize (S l fun x => f x * g x) = B at *
    generalize (S l fun x => g x * g x) = C at *
    have h1 := mul_nonneg h.le (key (B / A))
    have e : A * (A * (B / A * (B / A)) + -2 * B * (B / A) + C) = A * C - B ^ 2 := by
      field_simp
      ring
    rw [e] at h1
    linarith
  · have hz := (S_eq_zero l (fun x => f x * f x) fun x _ => mul_self_nonneg _).mp h.symm
    have : (S l fun x => f x * g x) = 0 := by
      have e : ∀ x ∈ l, f x * g x = 0 := fun x hx => by
        have := mul_self_eq_zero.mp (hz x hx)
        rw [this, zero_mul]
      unfold S
      rw [List.map_congr_left e]
      simp
    rw [this, ← h]
    simp

end sums

section fin
variable {α : Type}

theorem fsum_fin (l : List α) (f : α → ℝ) :
    fsum (l.map fun x => (Fl.fin (f x) : Fl ℝ)) = .fin (S l f) := by
  have := fsum_map_fin (K := ℝ) (l.map f)
  rw [List.map_map] at this
  exact this

theorem npMean_fin (l : List α) (hl : l ≠ []) (f : α → ℝ) :
    npMean (l.map fun x => (Fl.fin (f x) : Fl ℝ)) = .fin (S l f / l.length) := by
  unfold npMean
  rw [fsum_fin, Fl.pf_ofInt, Fl.pf_div_fin_ne]
  · simp
  · simpa using hl

theorem npMean_nil : npMean ([] : List (Fl ℝ)) = .nan := by
  unfold npMean fsum
  simp [Fl.pf_div_fin, Fl.infSign]

end fin

end Verif.Stats
