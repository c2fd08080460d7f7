import Verif.RoundingReal
import Verif.Props.RoundedIdw
import Verif.Props.StatsRain

/-!
# Property C118: rain error metrics in floating point arithmetic
-/

namespace Verif.Props
open Verif Verif.Stats Verif.Bin

/-- `np.sum`: the empty sum is 0, other sums are computed in some order. -/
structure Sums {F : Type} [PyFloat F] (sum : List F → F) : Prop where
  nil : sum [] = PyFloat.ofInt 0
  ne : ∀ l, l ≠ [] → SumOf l (sum l)

/-- Adding in index order is one possibility. -/
theorem sums_fsum {K : Type} [Field K] [LinearOrder K] [IsStrictOrderedRing K] {R : Rounding K} :
    Sums (F := RFl R) fsum := ⟨rfl, sumOf_fsum⟩

/-- the pairs without NaN -/
def rainPairs {F : Type} [PyFloat F] (r p : List F) : List (F × F) := (r.zip p).filter fun z => okPair z.1 z.2

theorem rainPairs_eq {F : Type} [PyFloat F] (r p : List F) : rainPairs r p = (r.zip p).filter validPair := by
  unfold rainPairs
  congr 1
  funext z
  simp only [okPair, validPair]
  cases isNaN z.1 <;> cases isNaN z.2 <;> rfl

theorem rain_fields {F : Type} [PyFloat F] [PySqrt F] (sum : List F → F) (dot : List F → List F → F) (r p : List F) (thr : F)
    (e : RainError F) (he : rainErrorArr sum dot (.of r) (.of p) thr = .ok e) :
    r.length = p.length ∧
    (∃ x, e.pearsonCorrelation = clip1 x) ∧
    e.coefficientOfVariation = npStdBy sum ((rainPairs r p).map fun z => z.2 -ᶠ z.1) /ᶠ e.rMeanReference ∧
    e.rootMeanSquareError = PySqrt.sqrt (meanBy sum ((rainPairs r p).map fun z => (z.2 -ᶠ z.1) *ᶠ (z.2 -ᶠ z.1))) ∧
    e.meanAbsoluteError = meanBy sum ((rainPairs r p).map fun z => fabs (z.2 -ᶠ z.1)) ∧
    e.rSumReference = sum ((rainPairs r p).map (·.1)) ∧ e.rSumPredicted = sum ((rainPairs r p).map (·.2)) ∧
    e.rMeanReference = meanBy sum ((rainPairs r p).map (·.1)) ∧ e.rMeanPredicted = meanBy sum ((rainPairs r p).map (·.2)) := by
  have hl : r.length = p.length := by
    by_contra hc
    unfold rainErrorArr at he
    rw [if_pos (by simpa [Arr.of] using hc)] at he
    cases he
  refine ⟨hl, ?_⟩
  rw [rainPairs_eq]
  obtain ⟨hr, hp⟩ := exists_pairs hl
  generalize r.zip p = zs at hr hp
  subst hr hp
  unfold rainErrorArr at he
  rw [if_neg (by simp [Arr.of])] at he
  obtain rfl := Except.ok.inj he
  dsimp only [Arr.of]
  rw [nanIndex_map, bnot_map, boolIndex_map, boolIndex_map]
  have hd : vsub ((zs.filter fun z => !(isNaN z.1 || isNaN z.2)).map (·.2))
      ((zs.filter fun z => !(isNaN z.1 || isNaN z.2)).map (·.1)) =
      (zs.filter fun z => !(isNaN z.1 || isNaN z.2)).map fun z => z.2 -ᶠ z.1 := by
    unfold vsub
    rw [List.zipWith_map, List.zipWith_self]
  rw [hd]
  refine ⟨⟨_, rfl⟩, rfl, ?_, ?_, rfl, rfl, rfl, rfl⟩
  · rw [List.map_map]; rfl
  · rw [List.map_map]; rfl

section signs
variable {R : Rounding ℝ}

theorem NanOrNonneg.ofNat (n : ℕ) : NanOrNonneg (PyFloat.ofInt n : RFl R) :=
  .inr (OrderedPyFloat.ofInt_mono 0 n (by exact_mod_cast n.zero_le))

theorem Sums.nonneg {sum : List (RFl R) → RFl R} (hs : Sums sum) {l : List (RFl R)} (h : ∀ x ∈ l, NanOrNonneg x) :
    NanOrNonneg (sum l) := by
  by_cases hl : l = []
  · rw [hl, hs.nil]; exact NanOrNonneg.ofNat 0
  · exact (hs.ne l hl).nonneg h

theorem meanBy_nonneg {sum : List (RFl R) → RFl R} (hs : Sums sum) {l : List (RFl R)} (h : ∀ x ∈ l, NanOrNonneg x) :
    NanOrNonneg (meanBy sum l) := (hs.nonneg h).div (NanOrNonneg.ofNat _)

theorem sqrt_nonneg_rfl {x : RFl R} (h : NanOrNonneg x) : NanOrNonneg (PySqrt.sqrt x) := by
  rw [nonneg_iff_val] at *
  rw [RFl.val_sqrt]
  apply nonneg_round
  rcases h with h | h | ⟨y, h, hy⟩ <;> rw [h]
  · exact .inl rfl
  · exact .inr (.inl rfl)
  · exact .inr (.inr ⟨_, Fl.sqrt_fin hy, Real.sqrt_nonneg y⟩)

theorem square_nonneg_rfl (x : RFl R) : NanOrNonneg (x *ᶠ x) := by
  rw [nonneg_iff_val, RFl.val_mul]
  apply nonneg_round
  cases x.val with
  | nan => exact .inl rfl
  | ninf => exact .inr (.inl rfl)
  | pinf => exact .inr (.inl rfl)
  | fin y => exact .inr (.inr ⟨y * y, rfl, mul_self_nonneg y⟩)

theorem fabs_nonneg_rfl (x : RFl R) : NanOrNonneg (fabs x) := by
  unfold fabs
  split_ifs with h
  · rw [RFl.lt_def, RFl.val_zero] at h
    rw [nonneg_iff_val, RFl.val_sub, RFl.val_zero]
    apply nonneg_round
    cases hx : x.val with
    | nan => exact .inl rfl
    | ninf => exact .inr (.inl rfl)
    | pinf => rw [hx] at h; cases h
    | fin y =>
      rw [hx] at h
      simp only [Fl.pf_lt_fin, decide_eq_true_eq] at h
      exact .inr (.inr ⟨0 - y, rfl, by linarith⟩)
  · rw [nonneg_iff_val]
    rw [RFl.lt_def, RFl.val_zero] at h
    cases hx : x.val with
    | nan => exact .inl rfl
    | ninf => rw [hx] at h; exact absurd rfl h
    | pinf => exact .inr (.inl rfl)
    | fin y =>
      rw [hx] at h
      simp only [Fl.pf_lt_fin, decide_eq_true_eq] at h
      exact .inr (.inr ⟨y, rfl, by linarith⟩)

/-- **C118** In floating point arithmetic, whatever the data and the order in which numpy adds: RMSE and MAE are NaN or not
negative, the Pearson correlation is NaN or in [-1, 1]; for data that are NaN or not negative, so are the sums, the means and the
coefficient of variation. -/
theorem C118_range {sum : List (RFl R) → RFl R} (hs : Sums sum) (dot : List (RFl R) → List (RFl R) → RFl R)
    (r p : List (RFl R)) (thr : RFl R) (e : RainError (RFl R)) (he : rainErrorArr sum dot (.of r) (.of p) thr = .ok e) :
    (isNaN e.rootMeanSquareError = true ∨ (PyFloat.ofInt 0 : RFl R) ≤ᶠ e.rootMeanSquareError) ∧
    (isNaN e.meanAbsoluteError = true ∨ (PyFloat.ofInt 0 : RFl R) ≤ᶠ e.meanAbsoluteError) ∧
    (isNaN e.pearsonCorrelation = true ∨
      ((PyFloat.ofInt (-1) : RFl R) ≤ᶠ e.pearsonCorrelation) = true ∧ (e.pearsonCorrelation ≤ᶠ PyFloat.ofInt 1) = true) ∧
    ((∀ x ∈ r, isNaN x = true ∨ (PyFloat.ofInt 0 : RFl R) ≤ᶠ x) → (∀ x ∈ p, isNaN x = true ∨ (PyFloat.ofInt 0 : RFl R) ≤ᶠ x) →
      ∀ v ∈ [e.rSumReference, e.rSumPredicted, e.rMeanReference, e.rMeanPredicted, e.coefficientOfVariation],
        isNaN v = true ∨ (PyFloat.ofInt 0 : RFl R) ≤ᶠ v) := by
  obtain ⟨hl, ⟨x, hx⟩, h1, h2, h3, h4, h5, h6, h7⟩ := rain_fields sum dot r p thr e he
  refine ⟨?_, ?_, ?_, ?_⟩
  · rw [h2]
    refine sqrt_nonneg_rfl (meanBy_nonneg hs fun y hy => ?_)
    obtain ⟨z, -, rfl⟩ := List.mem_map.mp hy
    exact square_nonneg_rfl _
  · rw [h3]
    refine meanBy_nonneg hs fun y hy => ?_
    obtain ⟨z, -, rfl⟩ := List.mem_map.mp hy
    exact fabs_nonneg_rfl _
  · rw [hx]
    by_cases hn : isNaN x = true
    · left
      unfold clip1
      have f1 : (x <ᶠ (PyFloat.ofInt (-1) : RFl R)) = false := by
        by_contra hc
        have := (LawfulPyFloat.lt_not_nan _ _ (by simpa using hc)).1
        rw [hn] at this; cases this
      have f2 : ((PyFloat.ofInt 1 : RFl R) <ᶠ x) = false := by
        by_contra hc
        have := (LawfulPyFloat.lt_not_nan _ _ (by simpa using hc)).2
        rw [hn] at this; cases this
      rw [f1, f2]
      exact hn
    · right
      rw [Bool.not_eq_true] at hn
      have m1 : ((PyFloat.ofInt (-1) : RFl R) ≤ᶠ PyFloat.ofInt 1) = true := OrderedPyFloat.ofInt_mono _ _ (by norm_num)
      have m2 : ((PyFloat.ofInt (-1) : RFl R) ≤ᶠ PyFloat.ofInt (-1)) = true := OrderedPyFloat.ofInt_mono _ _ le_rfl
      have m3 : ((PyFloat.ofInt 1 : RFl R) ≤ᶠ PyFloat.ofInt 1) = true := OrderedPyFloat.ofInt_mono _ _ le_rfl
      unfold clip1
      split_ifs with c1 c2
      · exact ⟨m2, m1⟩
      · exact ⟨m1, m3⟩
      · rw [LawfulPyFloat.le_iff _ _ (LawfulPyFloat.isNaN_ofInt _) hn, LawfulPyFloat.le_iff _ _ hn (LawfulPyFloat.isNaN_ofInt _)]
        exact ⟨by simpa using c1, by simpa using c2⟩
  · intro hr hp
    have hr' : ∀ y ∈ (rainPairs r p).map (·.1), NanOrNonneg y := by
      intro y hy
      obtain ⟨z, hz, rfl⟩ := List.mem_map.mp hy
      exact hr _ (List.of_mem_zip (List.mem_filter.mp hz).1).1
    have hp' : ∀ y ∈ (rainPairs r p).map (·.2), NanOrNonneg y := by
      intro y hy
      obtain ⟨z, hz, rfl⟩ := List.mem_map.mp hy
      exact hp _ (List.of_mem_zip (List.mem_filter.mp hz).1).2
    have hm : NanOrNonneg e.rMeanReference := h6 ▸ meanBy_nonneg hs hr'
    intro v hv
    simp only [List.mem_cons, List.not_mem_nil, or_false] at hv
    rcases hv with rfl | rfl | rfl | rfl | rfl
    · rw [h4]; exact hs.nonneg hr'
    · rw [h5]; exact hs.nonneg hp'
    · exact hm
    · rw [h7]; exact meanBy_nonneg hs hp'
    · rw [h1]
      refine NanOrNonneg.div (sqrt_nonneg_rfl (meanBy_nonneg hs fun y hy => ?_)) hm
      obtain ⟨z, -, rfl⟩ := List.mem_map.mp hy
      exact square_nonneg_rfl _

/-! ### Perfect prediction -/

theorem sub_self_rfl {x : RFl R} {y : ℝ} (h : x.val = .fin y) : x -ᶠ x = PyFloat.ofInt 0 := by
  apply RFl.ext
  rw [RFl.val_sub, h, Fl.pf_sub_fin, sub_self, RFl.val_zero]
  exact R.zero

theorem zero_mul_zero_rfl : (PyFloat.ofInt 0 : RFl R) *ᶠ PyFloat.ofInt 0 = PyFloat.ofInt 0 := by
  apply RFl.ext
  rw [RFl.val_mul, RFl.val_zero, Fl.pf_mul_fin, mul_zero]
  exact R.zero

theorem zero_div_rfl {x : RFl R} (hn : isNaN x = false) (h0 : (x ==ᶠ PyFloat.ofInt 0) = false) :
    (PyFloat.ofInt 0 : RFl R) /ᶠ x = PyFloat.ofInt 0 := by
  apply RFl.ext
  rw [RFl.val_div, RFl.val_zero]
  rw [RFl.isNaN_def] at hn
  rw [RFl.eq_def, RFl.val_zero] at h0
  cases hx : x.val with
  | nan => rw [hx] at hn; cases hn
  | ninf => exact R.zero
  | pinf => exact R.zero
  | fin y =>
    rw [hx] at h0
    simp only [Fl.pf_eq_fin, decide_eq_false_iff_not] at h0
    rw [Fl.pf_div_fin_ne _ _ h0, zero_div]
    exact R.zero

theorem meanBy_zero {sum : List (RFl R) → RFl R} (hs : Sums sum) {l : List (RFl R)} (hl : l ≠ [])
    (h : ∀ x ∈ l, x = PyFloat.ofInt 0) : meanBy sum l = PyFloat.ofInt 0 := by
  unfold meanBy
  rw [(hs.ne l hl).zero h]
  refine zero_div_rfl (LawfulPyFloat.isNaN_ofInt _) ?_
  have h1 : (PyFloat.ofInt 0 : RFl R) <ᶠ PyFloat.ofInt l.length :=
    ofInt_pos (by exact_mod_cast List.length_pos_iff.mpr hl)
  exact not_eq_zero_of_pos h1

theorem sqrt_zero_rfl : PySqrt.sqrt (PyFloat.ofInt 0 : RFl R) = PyFloat.ofInt 0 := by
  apply RFl.ext
  rw [RFl.val_sqrt, RFl.val_zero]
  have : Fl.sqrt (.fin 0) = .fin 0 := by
    have := Fl.sqrt_fin (le_refl (0 : ℝ))
    rwa [Real.sqrt_zero] at this
  rw [this]
  exact R.zero

theorem fabs_zero_rfl : fabs (PyFloat.ofInt 0 : RFl R) = PyFloat.ofInt 0 := by
  unfold fabs
  rw [LawfulPyFloat.lt_irrefl]
  rfl

/-- **C118** If every prediction without NaN partner equals the finite reference value and there is such a pair, RMSE and MAE are exactly 0 also in
floating point arithmetic, and so is the coefficient of variation unless the computed mean of the reference is 0 or NaN. -/
theorem C118_perfect {sum : List (RFl R) → RFl R} (hs : Sums sum) (dot : List (RFl R) → List (RFl R) → RFl R)
    (r p : List (RFl R)) (thr : RFl R) (e : RainError (RFl R)) (he : rainErrorArr sum dot (.of r) (.of p) thr = .ok e)
    (hsome : ∃ z ∈ r.zip p, okPair z.1 z.2 = true)
    (heq : ∀ z ∈ r.zip p, okPair z.1 z.2 = true → z.2 = z.1 ∧ ∃ y, z.1.val = .fin y) :
    e.rootMeanSquareError = PyFloat.ofInt 0 ∧ e.meanAbsoluteError = PyFloat.ofInt 0 ∧
    (isNaN e.rMeanReference = false → (e.rMeanReference ==ᶠ PyFloat.ofInt 0) = false →
      e.coefficientOfVariation = PyFloat.ofInt 0) := by
  obtain ⟨hl, -, h1, h2, h3, h4, h5, h6, h7⟩ := rain_fields sum dot r p thr e he
  have hne : rainPairs r p ≠ [] := by
    obtain ⟨z, hz, ho⟩ := hsome
    exact List.ne_nil_of_mem (List.mem_filter.mpr ⟨hz, ho⟩)
  have hd : ∀ z ∈ rainPairs r p, z.2 -ᶠ z.1 = PyFloat.ofInt 0 := by
    intro z hz
    obtain ⟨hz, ho⟩ := List.mem_filter.mp hz
    obtain ⟨e1, y, hy⟩ := heq z hz ho
    rw [e1]; exact sub_self_rfl hy
  have hmap : (rainPairs r p).map (fun z => z.2 -ᶠ z.1) = (rainPairs r p).map fun _ => (PyFloat.ofInt 0 : RFl R) :=
    List.map_congr_left hd
  refine ⟨?_, ?_, fun hn h0 => ?_⟩
  · rw [h2, meanBy_zero hs (by simpa using hne), sqrt_zero_rfl]
    intro x hx
    obtain ⟨z, hz, rfl⟩ := List.mem_map.mp hx
    rw [hd z hz, zero_mul_zero_rfl]
  · rw [h3, meanBy_zero hs (by simpa using hne)]
    intro x hx
    obtain ⟨z, hz, rfl⟩ := List.mem_map.mp hx
    rw [hd z hz, fabs_zero_rfl]
  · rw [h1]
    have : npStdBy sum ((rainPairs r p).map fun z => z.2 -ᶠ z.1) = PyFloat.ofInt 0 := by
      unfold npStdBy
      dsimp only
      have hm0 : meanBy sum ((rainPairs r p).map fun _ => (PyFloat.ofInt 0 : RFl R)) = PyFloat.ofInt 0 :=
        meanBy_zero hs (by simpa using hne) (by simp)
      rw [hmap, hm0, meanBy_zero hs (by simpa using hne), sqrt_zero_rfl]
      intro x hx
      simp only [List.mem_map] at hx
      obtain ⟨_, ⟨_, _, rfl⟩, rfl⟩ := hx
      rw [sub_self_rfl RFl.val_zero, zero_mul_zero_rfl]
    rw [this]
    exact zero_div_rfl hn h0

/-! ### Accuracy -/

/-- The computed mean of terms `D` that are meant to be the non-negative numbers `d`. -/
theorem meanBy_error {u eta big imax : ℝ} (hR : R.Precision u eta big imax) {sum : List (RFl R) → RFl R} (hs : Sums sum)
    {α : Type} (S : List α) (hS : S ≠ []) (D : α → RFl R) (d : α → ℝ) (t g : ℝ) (ht : 0 ≤ t) (hg : 0 ≤ g)
    (hd : ∀ i ∈ S, 0 ≤ d i) (hD : ∀ i ∈ S, (D i).val = .fin (numOf (D i)) ∧ |numOf (D i) - d i| ≤ t * d i + g)
    (hi : (S.length : ℝ) ≤ imax) (hb : (1 + u) ^ S.length * ((1 + t) * (S.map d).sum + S.length * g) ≤ big) :
    ∃ m, (meanBy sum (S.map D)).val = .fin m ∧
      |m - (S.map d).sum / S.length| ≤ ((1 + u) ^ S.length * (1 + t) - 1) * ((S.map d).sum / S.length) +
        (1 + u) ^ S.length * g + eta := by
  have hu := hR.u_nonneg
  have hu1 : (1 : ℝ) ≤ 1 + u := by linarith
  have hlen : 1 ≤ S.length := List.length_pos_iff.mpr hS
  set n : ℝ := (S.length : ℝ) with hn
  have hn1 : 1 ≤ n := by rw [hn]; exact_mod_cast hlen
  set T := (S.map d).sum with hT
  have hT0 : 0 ≤ T := List.sum_nonneg fun x hx => by
    obtain ⟨i, hi, rfl⟩ := List.mem_map.mp hx
    exact hd i hi
  set P := (1 + u) ^ (S.length - 1) with hP
  have hP1 : 1 ≤ P := one_le_pow₀ hu1
  have hPs : (1 + u) ^ S.length = (1 + u) * P := by rw [hP, ← pow_succ']; congr 1; omega
  have hA : absSum (S.map D) ≤ (1 + t) * T + n * g := by
    unfold absSum
    rw [List.map_map]
    refine sum_map_bound S (fun i => |numOf (D i)|) d (1 + t) g fun i hi => ?_
    have h1 := abs_add_le (numOf (D i) - d i) (d i)
    rw [sub_add_cancel, abs_of_nonneg (hd i hi)] at h1
    linarith [(hD i hi).2]
  have hB : |((S.map D).map numOf).sum - T| ≤ t * T + n * g := by
    rw [List.map_map]
    refine (abs_sum_sub_le S _ d).trans ?_
    exact sum_map_bound S (fun i => |(numOf ∘ D) i - d i|) d t g fun i hi => (hD i hi).2
  obtain ⟨hsv, hse⟩ := SumOf.error hR (hs.ne (S.map D) (by simpa using hS)) (by
      intro x hx
      obtain ⟨i, hi, rfl⟩ := List.mem_map.mp hx
      exact (hD i hi).1) (by
      rw [List.length_map]
      exact (mul_le_mul_of_nonneg_left hA (by positivity)).trans hb)
  rw [List.length_map, ← hP] at hse
  set s := numOf (sum (S.map D)) with hsd
  have hsT : |s - T| ≤ (P * (1 + t) - 1) * T + P * (n * g) := by
    have h2 : (P - 1) * absSum (S.map D) ≤ (P - 1) * ((1 + t) * T + n * g) := mul_le_mul_of_nonneg_left hA (by linarith)
    have h3 := abs_add_le (s - ((S.map D).map numOf).sum) (((S.map D).map numOf).sum - T)
    rw [sub_add_sub_cancel] at h3
    calc _ ≤ (P - 1) * ((1 + t) * T + n * g) + (t * T + n * g) := by linarith
      _ = _ := by ring
  have hsabs : |s| ≤ P * (1 + t) * T + P * (n * g) := by
    have h3 := abs_add_le (s - T) T
    rw [sub_add_cancel, abs_of_nonneg hT0] at h3
    calc _ ≤ (P * (1 + t) - 1) * T + P * (n * g) + T := by linarith
      _ = _ := by ring
  have hbig : P * (1 + t) * T + P * (n * g) ≤ big := by
    refine le_trans ?_ hb
    rw [hPs]
    have h8 : 0 ≤ (1 + t) * T + n * g := by positivity
    calc _ = 1 * (P * ((1 + t) * T + n * g)) := by ring
      _ ≤ (1 + u) * (P * ((1 + t) * T + n * g)) := mul_le_mul_of_nonneg_right hu1 (by positivity)
      _ = _ := by ring
  obtain ⟨m, hm, hme⟩ := hR.err (s / n) (by
    rw [abs_div, abs_of_pos (by linarith : 0 < n)]
    exact (div_le_self (abs_nonneg s) hn1).trans (hsabs.trans hbig))
  refine ⟨m, ?_, ?_⟩
  · have hnv : (PyFloat.ofInt ((S.map D).length : Int) : RFl R).val = .fin n := by
      rw [RFl.val_ofInt, Int.cast_natCast, List.length_map]
      exact hR.int_exact _ hi
    unfold meanBy
    rw [RFl.val_div, hnv, hsv, Fl.pf_div_fin_ne _ _ (by linarith : n ≠ 0)]
    exact hm
  · have hn0 : 0 < n := by linarith
    rw [abs_div, abs_of_pos hn0] at hme
    have h1 : |s / n - T / n| ≤ ((P * (1 + t) - 1) * T + P * (n * g)) / n := by
      rw [← sub_div, abs_div, abs_of_pos hn0]
      exact div_le_div_of_nonneg_right hsT hn0.le
    have h2 : u * (|s| / n) ≤ u * ((P * (1 + t) * T + P * (n * g)) / n) :=
      mul_le_mul_of_nonneg_left (div_le_div_of_nonneg_right hsabs hn0.le) hu
    have h3 := abs_add_le (m - s / n) (s / n - T / n)
    rw [sub_add_sub_cancel] at h3
    calc _ ≤ u * ((P * (1 + t) * T + P * (n * g)) / n) + eta + ((P * (1 + t) - 1) * T + P * (n * g)) / n := by linarith
      _ = _ := by rw [hPs]; field_simp; ring

theorem sqrt_diff_le {a b g e : ℝ} (ha : 0 ≤ a) (hb : 0 ≤ b) (hg : 0 ≤ g) (he : 0 ≤ e) (h : |a - b| ≤ g * b + e) :
    |Real.sqrt a - Real.sqrt b| ≤ g * Real.sqrt b + Real.sqrt e := by
  have sa := Real.sqrt_nonneg a
  have sb := Real.sqrt_nonneg b
  have se := Real.sqrt_nonneg e
  have qa := Real.mul_self_sqrt ha
  have qb := Real.mul_self_sqrt hb
  have qe := Real.mul_self_sqrt he
  set x := Real.sqrt a
  set y := Real.sqrt b
  set z := Real.sqrt e
  clear_value x y z
  by_contra hc
  push Not at hc
  have h1 : |x - y| * (x + y) = |a - b| := by
    rw [← qa, ← qb]
    have : x * x - y * y = (x - y) * (x + y) := by ring
    rw [this, abs_mul, abs_of_nonneg (by linarith : 0 ≤ x + y)]
  have h2 : |x - y| ≤ x + y := abs_le.mpr ⟨by linarith, by linarith⟩
  have hgy : 0 ≤ g * y := mul_nonneg hg sb
  have h3 : z < |x - y| := by linarith
  have hw : 0 < x + y := by linarith
  have h4 : (g * y + z) * (x + y) < |x - y| * (x + y) := mul_lt_mul_of_pos_right hc hw
  have h5 : g * y * y ≤ g * y * (x + y) := mul_le_mul_of_nonneg_left (by linarith) hgy
  have h6 : z * z ≤ z * (x + y) := mul_le_mul_of_nonneg_left (by linarith) se
  have h7 : g * y * y = g * b := by rw [mul_assoc, qb]
  rw [h1] at h4
  linarith [add_mul (g * y) z (x + y)]

/-- absolute differences of the used pairs -/
noncomputable def absDiff (z : RFl R × RFl R) : ℝ := |numOf z.2 - numOf z.1|

theorem fabs_err {u eta big imax : ℝ} (hR : R.Precision u eta big imax) (x y : RFl R) (hx : x.val = .fin (numOf x))
    (hy : y.val = .fin (numOf y)) (hb : (1 + u) * |numOf y - numOf x| ≤ big) :
    (y -ᶠ x).val = .fin (numOf (y -ᶠ x)) ∧ |numOf (y -ᶠ x) - (numOf y - numOf x)| ≤ u * |numOf y - numOf x| ∧
    (fabs (y -ᶠ x)).val = .fin (numOf (fabs (y -ᶠ x))) ∧
    |numOf (fabs (y -ᶠ x)) - (|numOf y - numOf x|)| ≤ ((1 + u) ^ 2 - 1) * |numOf y - numOf x| + 0 := by
  have hu := hR.u_nonneg
  have hA := abs_nonneg (numOf y - numOf x)
  obtain ⟨d, h1, h2⟩ := hR.sub_err (numOf y) (numOf x) (RFl.rnd_of_val hy) (RFl.rnd_of_val hx) (by nlinarith)
  have hv : (y -ᶠ x).val = .fin d := by
    rw [RFl.val_sub, hx, hy, Fl.pf_sub_fin]; exact h1
  have hda : |d| ≤ (1 + u) * |numOf y - numOf x| := by
    have := abs_add_le (d - (numOf y - numOf x)) (numOf y - numOf x)
    rw [sub_add_cancel] at this
    linarith
  have hdd : |(|d|) - (|numOf y - numOf x|)| ≤ u * |numOf y - numOf x| := (abs_abs_sub_abs_le_abs_sub _ _).trans h2
  rw [numOf_fin hv]
  refine ⟨hv, h2, ?_⟩
  by_cases hneg : d < 0
  · obtain ⟨z, h3, h4⟩ := hR.sub_err 0 d R.zero (RFl.rnd_of_val hv) (by
      rw [zero_sub, abs_neg]; linarith)
    have hf : (fabs (y -ᶠ x)).val = .fin z := by
      unfold fabs
      have : ((y -ᶠ x) <ᶠ (PyFloat.ofInt 0 : RFl R)) = true := by
        rw [RFl.lt_def, hv, RFl.val_zero]; simpa using hneg
      rw [if_pos this, RFl.val_sub, RFl.val_zero, hv, Fl.pf_sub_fin]
      exact h3
    rw [numOf_fin hf]
    refine ⟨hf, ?_⟩
    rw [zero_sub, abs_neg, ← abs_of_neg hneg] at h4
    have h5 := abs_add_le (z - |d|) (|d| - |numOf y - numOf x|)
    rw [sub_add_sub_cancel] at h5
    have h6 := mul_le_mul_of_nonneg_left hda hu
    calc _ ≤ u * ((1 + u) * |numOf y - numOf x|) + u * |numOf y - numOf x| := by linarith
      _ = _ := by ring
  · have hf : (fabs (y -ᶠ x)).val = .fin d := by
      unfold fabs
      have : ((y -ᶠ x) <ᶠ (PyFloat.ofInt 0 : RFl R)) = false := by
        rw [RFl.lt_def, hv, RFl.val_zero]; simpa using hneg
      rw [this]
      exact hv
    rw [numOf_fin hf]
    refine ⟨hf, ?_⟩
    rw [abs_of_nonneg (not_lt.mp hneg)] at hdd
    have : 0 ≤ u * (1 + u) * |numOf y - numOf x| := by positivity
    calc _ ≤ u * |numOf y - numOf x| := hdd
      _ ≤ u * |numOf y - numOf x| + u * (1 + u) * |numOf y - numOf x| := by linarith
      _ = _ := by ring

/-- The computed mean absolute error. -/
theorem mae_error {u eta big imax : ℝ} (hR : R.Precision u eta big imax) {sum : List (RFl R) → RFl R} (hs : Sums sum)
    (S : List (RFl R × RFl R)) (hS : S ≠ []) (hfin : ∀ z ∈ S, z.1.val = .fin (numOf z.1) ∧ z.2.val = .fin (numOf z.2))
    (hi : (S.length : ℝ) ≤ imax) (hb : (1 + u) ^ (S.length + 2) * (S.map absDiff).sum ≤ big) :
    ∃ m, (meanBy sum (S.map fun z => fabs (z.2 -ᶠ z.1))).val = .fin m ∧
      |m - (S.map absDiff).sum / S.length| ≤ ((1 + u) ^ (S.length + 2) - 1) * ((S.map absDiff).sum / S.length) + eta := by
  have hu := hR.u_nonneg
  have hu1 : (1 : ℝ) ≤ 1 + u := by linarith
  have hnn : ∀ z ∈ S, 0 ≤ absDiff z := fun z _ => abs_nonneg _
  have hone : ∀ z ∈ S, absDiff z ≤ (S.map absDiff).sum := fun z hz =>
    List.single_le_sum (fun x hx => by
      obtain ⟨j, hj, rfl⟩ := List.mem_map.mp hx
      exact hnn j hj) _ (List.mem_map.mpr ⟨z, hz, rfl⟩)
  have hT0 : 0 ≤ (S.map absDiff).sum := List.sum_nonneg fun x hx => by
    obtain ⟨i, hi, rfl⟩ := List.mem_map.mp hx
    exact hnn i hi
  have hpw : (1 + u) ^ S.length * (1 + u) ^ 2 = (1 + u) ^ (S.length + 2) := (pow_add _ _ _).symm
  have e1 : (1 : ℝ) + ((1 + u) ^ 2 - 1) = (1 + u) ^ 2 := by ring
  obtain ⟨m, h1, h2⟩ := meanBy_error hR hs S hS (fun z => fabs (z.2 -ᶠ z.1)) absDiff ((1 + u) ^ 2 - 1) 0
    (by nlinarith) le_rfl hnn (fun z hz => by
      have hb' : (1 + u) * |numOf z.2 - numOf z.1| ≤ big := by
        refine le_trans ?_ hb
        refine mul_le_mul ?_ (hone z hz) (abs_nonneg _) (by positivity)
        calc 1 + u = (1 + u) ^ 1 := (pow_one _).symm
          _ ≤ _ := pow_le_pow_right₀ hu1 (by omega)
      exact (fabs_err hR z.1 z.2 (hfin z hz).1 (hfin z hz).2 hb').2.2) hi (by
      rw [e1, mul_zero, add_zero, ← mul_assoc, hpw]; exact hb)
  refine ⟨m, h1, ?_⟩
  rw [e1, hpw, mul_zero, add_zero] at h2
  exact h2

/-- The computed root mean square error. -/
theorem rmse_error {u eta big imax : ℝ} (hR : R.Precision u eta big imax) (hbig1 : 1 ≤ big) {sum : List (RFl R) → RFl R} (hs : Sums sum)
    (S : List (RFl R × RFl R)) (hS : S ≠ []) (hfin : ∀ z ∈ S, z.1.val = .fin (numOf z.1) ∧ z.2.val = .fin (numOf z.2))
    (hi : (S.length : ℝ) ≤ imax) (hb0 : ∀ z ∈ S, (1 + u) * absDiff z ≤ big)
    (hb : (1 + u) ^ S.length * ((1 + u) ^ 3 * (S.map fun z => absDiff z ^ 2).sum + S.length * eta) + eta ≤ big) :
    ∃ m, (PySqrt.sqrt (meanBy sum (S.map fun z => (z.2 -ᶠ z.1) *ᶠ (z.2 -ᶠ z.1)))).val = .fin m ∧
      |m - Real.sqrt ((S.map fun z => absDiff z ^ 2).sum / S.length)| ≤
        ((1 + u) ^ (S.length + 4) - 1) * Real.sqrt ((S.map fun z => absDiff z ^ 2).sum / S.length) +
        (1 + u) * Real.sqrt ((1 + u) ^ S.length * eta + eta) + eta := by
  have hu := hR.u_nonneg
  have he := hR.eta_nonneg
  have hu1 : (1 : ℝ) ≤ 1 + u := by linarith
  set f : RFl R × RFl R → ℝ := fun z => absDiff z ^ 2 with hf
  have hnn : ∀ z ∈ S, 0 ≤ f z := fun z _ => sq_nonneg _
  have hT0 : 0 ≤ (S.map f).sum := List.sum_nonneg fun x hx => by
    obtain ⟨i, hi, rfl⟩ := List.mem_map.mp hx
    exact hnn i hi
  have hone : ∀ z ∈ S, f z ≤ (S.map f).sum := fun z hz =>
    List.single_le_sum (fun x hx => by
      obtain ⟨j, hj, rfl⟩ := List.mem_map.mp hx
      exact hnn j hj) _ (List.mem_map.mpr ⟨z, hz, rfl⟩)
  have hp1 : (1 : ℝ) ≤ (1 + u) ^ S.length := one_le_pow₀ hu1
  have hlen : 1 ≤ S.length := List.length_pos_iff.mpr hS
  have hn1 : (1 : ℝ) ≤ S.length := by exact_mod_cast hlen
  have hbA : (1 + u) ^ S.length * ((1 + u) ^ 3 * (S.map f).sum + S.length * eta) ≤ big := by linarith
  have h3 : (1 + u) ^ 3 * (S.map f).sum ≤ big := by
    refine le_trans ?_ hbA
    have : 0 ≤ (S.length : ℝ) * eta := by positivity
    have h8 : 0 ≤ (1 + u) ^ 3 * (S.map f).sum := by positivity
    calc _ ≤ 1 * ((1 + u) ^ 3 * (S.map f).sum + S.length * eta) := by linarith
      _ ≤ _ := mul_le_mul_of_nonneg_right hp1 (by linarith)
  have e1 : (1 : ℝ) + ((1 + u) ^ 3 - 1) = (1 + u) ^ 3 := by ring
  have ht0 : (0 : ℝ) ≤ (1 + u) ^ 3 - 1 := by linarith [one_le_pow₀ hu1 (n := 3)]
  have hD : ∀ z ∈ S, ((z.2 -ᶠ z.1) *ᶠ (z.2 -ᶠ z.1)).val = .fin (numOf ((z.2 -ᶠ z.1) *ᶠ (z.2 -ᶠ z.1))) ∧
      |numOf ((z.2 -ᶠ z.1) *ᶠ (z.2 -ᶠ z.1)) - f z| ≤ ((1 + u) ^ 3 - 1) * f z + eta := by
    intro z hz
    obtain ⟨v, v1, -, -⟩ := fabs_err hR z.1 z.2 (hfin z hz).1 (hfin z hz).2 (hb0 z hz)
    set d := numOf (z.2 -ᶠ z.1) with hd
    have hA : 0 ≤ absDiff z := abs_nonneg _
    have hfz : f z = absDiff z ^ 2 := rfl
    have hdd : |d * d - f z| ≤ ((1 + u) ^ 2 - 1) * f z := by
      have e2 : f z = (numOf z.2 - numOf z.1) * (numOf z.2 - numOf z.1) := by
        rw [hfz, absDiff, sq_abs]; ring
      have e3 : d * d - f z = (d - (numOf z.2 - numOf z.1)) * (d - (numOf z.2 - numOf z.1)) +
          2 * ((numOf z.2 - numOf z.1) * (d - (numOf z.2 - numOf z.1))) := by rw [e2]; ring
      rw [e3]
      refine (abs_add_le _ _).trans ?_
      rw [abs_mul, abs_mul, abs_mul, abs_two]
      have q : |d - (numOf z.2 - numOf z.1)| ≤ u * absDiff z := v1
      have q0 := abs_nonneg (d - (numOf z.2 - numOf z.1))
      have q1 : |d - (numOf z.2 - numOf z.1)| * |d - (numOf z.2 - numOf z.1)| ≤ (u * absDiff z) * (u * absDiff z) :=
        mul_le_mul q q q0 (by positivity)
      have q2 : |numOf z.2 - numOf z.1| * |d - (numOf z.2 - numOf z.1)| ≤ absDiff z * (u * absDiff z) :=
        mul_le_mul_of_nonneg_left q hA
      calc _ ≤ (u * absDiff z) * (u * absDiff z) + 2 * (absDiff z * (u * absDiff z)) := by linarith
        _ = _ := by rw [hfz]; ring
    have hdabs : |d * d| ≤ (1 + u) ^ 2 * f z := by
      have h8 := abs_add_le (d * d - f z) (f z)
      rw [sub_add_cancel, abs_of_nonneg (hnn z hz)] at h8
      linarith
    obtain ⟨q, hq, hqe⟩ := hR.err (d * d) (by
      refine hdabs.trans (le_trans ?_ h3)
      refine mul_le_mul (pow_le_pow_right₀ hu1 (by norm_num)) (hone z hz) (hnn z hz) (by positivity))
    have hv : ((z.2 -ᶠ z.1) *ᶠ (z.2 -ᶠ z.1)).val = .fin q := by
      rw [RFl.val_mul, v, Fl.pf_mul_fin]; exact hq
    rw [numOf_fin hv]
    refine ⟨hv, ?_⟩
    have h8 := abs_add_le (q - d * d) (d * d - f z)
    rw [sub_add_sub_cancel] at h8
    have h9 := mul_le_mul_of_nonneg_left hdabs hu
    calc _ ≤ u * ((1 + u) ^ 2 * f z) + eta + ((1 + u) ^ 2 - 1) * f z := by linarith
      _ = _ := by ring
  obtain ⟨M, hM, hMe⟩ := meanBy_error hR hs S hS (fun z => (z.2 -ᶠ z.1) *ᶠ (z.2 -ᶠ z.1)) f ((1 + u) ^ 3 - 1) eta
    ht0 he hnn hD hi (by rw [e1]; exact hbA)
  set B := (S.map f).sum / S.length with hB
  have hB0 : 0 ≤ B := by rw [hB]; positivity
  have hM0 : 0 ≤ M := by
    have := meanBy_nonneg hs (l := S.map fun z => (z.2 -ᶠ z.1) *ᶠ (z.2 -ᶠ z.1)) (by
      intro y hy
      obtain ⟨z, -, rfl⟩ := List.mem_map.mp hy
      exact square_nonneg_rfl _)
    rw [nonneg_iff_val, hM] at this
    rcases this with h | h | ⟨y, h, hy⟩
    · cases h
    · cases h
    · obtain rfl := Fl.fin.inj h; exact hy
  have hpw : (1 + u) ^ S.length * (1 + u) ^ 3 = (1 + u) ^ (S.length + 3) := (pow_add _ _ _).symm
  rw [e1, hpw, add_assoc] at hMe
  have hg0 : 0 ≤ (1 + u) ^ (S.length + 3) - 1 := by linarith [one_le_pow₀ hu1 (n := S.length + 3)]
  have he0 : 0 ≤ (1 + u) ^ S.length * eta + eta := by positivity
  have hsq := sqrt_diff_le hM0 hB0 hg0 he0 hMe
  have hMbig : M ≤ big := by
    have h1 := (abs_le.mp hMe).2
    refine le_trans ?_ hb
    have hBT : (S.length : ℝ) * B = (S.map f).sum := by rw [hB]; field_simp
    rw [← hBT]
    have hx : (1 + u) ^ (S.length + 3) * B ≤ (1 + u) ^ (S.length + 3) * (S.length * B) :=
      mul_le_mul_of_nonneg_left (le_mul_of_one_le_left hB0 hn1) (by positivity)
    have hy : (1 + u) ^ S.length * eta ≤ (1 + u) ^ S.length * (S.length * eta) :=
      mul_le_mul_of_nonneg_left (le_mul_of_one_le_left he hn1) (by positivity)
    rw [← hpw] at h1 hx
    calc M ≤ (1 + u) ^ S.length * (1 + u) ^ 3 * B + ((1 + u) ^ S.length * eta + eta) := by linarith
      _ ≤ (1 + u) ^ S.length * (1 + u) ^ 3 * (S.length * B) + ((1 + u) ^ S.length * (S.length * eta) + eta) := by linarith
      _ = _ := by ring
  have hsM : Real.sqrt M ≤ big := by
    rcases le_total M 1 with h | h
    · exact (Real.sqrt_le_one.mpr h).trans hbig1
    · refine le_trans ?_ hMbig
      rw [Real.sqrt_le_left hM0]
      nlinarith
  obtain ⟨m, h1, h2⟩ := hR.err (Real.sqrt M) (by rwa [abs_of_nonneg (Real.sqrt_nonneg _)])
  refine ⟨m, ?_, ?_⟩
  · rw [RFl.val_sqrt, hM]
    have : Fl.sqrt (.fin M) = .fin (Real.sqrt M) := Fl.sqrt_fin hM0
    rw [this]
    exact h1
  · rw [abs_of_nonneg (Real.sqrt_nonneg _)] at h2
    set x := Real.sqrt M
    set y := Real.sqrt B
    set w := Real.sqrt ((1 + u) ^ S.length * eta + eta)
    have h4 := abs_add_le (m - x) (x - y)
    rw [sub_add_sub_cancel] at h4
    have h5 := (abs_le.mp hsq).2
    have h6 : x ≤ (1 + u) ^ (S.length + 3) * y + w := by linarith
    have h7 := mul_le_mul_of_nonneg_left h6 hu
    have e4 : (1 + u) ^ (S.length + 4) = (1 + u) * (1 + u) ^ (S.length + 3) := by rw [← pow_succ']
    rw [e4]
    calc _ ≤ u * ((1 + u) ^ (S.length + 3) * y + w) + eta + (((1 + u) ^ (S.length + 3) - 1) * y + w) := by linarith
      _ = _ := by ring

end signs

/-- **C118** Accuracy in IEEE doubles. For `n` used pairs (`1 ≤ n ≤ 2^40`) with finite values of at most `2^400` the computed MAE and
RMSE are finite and have relative errors of at most `(n+2)·2^-52` and `(n+4)·2^-52`, up to underflow errors, in whatever order numpy
adds. -/
theorem C118_accuracy {sum : List DblR → DblR} (hs : Sums sum) (dot : List DblR → List DblR → DblR)
    (r p : List DblR) (thr : DblR) (e : RainError DblR) (he : rainErrorArr sum dot (.of r) (.of p) thr = .ok e)
    (S : List (ℝ × ℝ)) (hS : S = ((r.zip p).filter fun z => okPair z.1 z.2).map fun z => (numOf z.1, numOf z.2)) (hne : S ≠ [])
    (hn : S.length ≤ 2 ^ 40)
    (hfin : ∀ x ∈ r ++ p, isNaN x = true ∨ ∃ y, x.val = .fin y ∧ |y| ≤ (2 : ℝ) ^ (400 : ℤ)) :
    ∃ m q, e.meanAbsoluteError.val = .fin m ∧ e.rootMeanSquareError.val = .fin q ∧
      |m - (S.map fun z => |z.2 - z.1|).sum / S.length| ≤
        (S.length + 2) * 2 ^ (-52 : ℤ) * ((S.map fun z => |z.2 - z.1|).sum / S.length) + 2 ^ (-1075 : ℤ) ∧
      |q - Real.sqrt ((S.map fun z => (z.2 - z.1) ^ 2).sum / S.length)| ≤
        (S.length + 4) * 2 ^ (-52 : ℤ) * Real.sqrt ((S.map fun z => (z.2 - z.1) ^ 2).sum / S.length) + 2 ^ (-536 : ℤ) := by
  obtain ⟨hl, -, -, h2, h3, -⟩ := rain_fields sum dot r p thr e he
  rw [h2, h3]
  change S = (rainPairs r p).map _ at hS
  have hvals : ∀ z ∈ rainPairs r p, (z.1.val = .fin (numOf z.1) ∧ z.2.val = .fin (numOf z.2)) ∧
      absDiff z ≤ (2 : ℝ) ^ (401 : ℤ) := by
    intro z hz
    obtain ⟨hz, ho⟩ := List.mem_filter.mp hz
    simp only [okPair, Bool.and_eq_true, Bool.not_eq_true'] at ho
    have m1 := hfin z.1 (List.mem_append_left _ (List.of_mem_zip hz).1)
    have m2 := hfin z.2 (List.mem_append_right _ (List.of_mem_zip hz).2)
    rw [ho.1] at m1
    rw [ho.2] at m2
    obtain ⟨y1, v1, b1⟩ := m1.resolve_left Bool.false_ne_true
    obtain ⟨y2, v2, b2⟩ := m2.resolve_left Bool.false_ne_true
    unfold absDiff
    rw [numOf_fin v1, numOf_fin v2]
    refine ⟨⟨v1, v2⟩, ?_⟩
    have e1 : (2 : ℝ) ^ (401 : ℤ) = 2 ^ (400 : ℤ) + 2 ^ (400 : ℤ) := by
      rw [show (401 : ℤ) = 400 + 1 by norm_num, zpow_add₀ (by norm_num)]; ring
    rw [e1]
    exact (abs_sub _ _).trans (by linarith only [b1, b2])
  generalize rainPairs r p = U at hS hvals
  have hUS : U.length = S.length := by rw [hS, List.length_map]
  have hU : U ≠ [] := by rintro rfl; exact hne (by simpa using hS)
  have e1 : (S.map fun z => |z.2 - z.1|).sum = (U.map absDiff).sum := by rw [hS, List.map_map]; rfl
  have e2 : (S.map fun z => (z.2 - z.1) ^ 2).sum = (U.map fun z => absDiff z ^ 2).sum := by
    rw [hS, List.map_map]
    refine congrArg List.sum (List.map_congr_left fun z _ => ?_)
    simp only [Function.comp, absDiff, sq_abs]
  rw [e1, e2, ← hUS]
  rw [← hUS] at hn
  have hR := binary64_precision (K := ℝ)
  set n := U.length with hnd
  have hnr : (n : ℝ) ≤ 2 ^ 40 := by exact_mod_cast hn
  have hn0 : (0 : ℝ) ≤ n := n.cast_nonneg
  set u : ℝ := 2 ^ (-53 : ℤ) with hu
  have hu0 : 0 < u := by rw [hu]; positivity
  have hu40 : (2 : ℝ) ^ 40 * u = 1 / 2 ^ 13 := by rw [hu]; norm_num
  have hu8 : u ≤ 1 / 2 ^ 20 := by rw [hu]; norm_num
  have h52 : (2 : ℝ) ^ (-52 : ℤ) = 2 * u := by rw [hu]; norm_num
  clear_value u
  have hnu : n * u ≤ 1 / 2 ^ 13 := by rw [← hu40]; exact mul_le_mul_of_nonneg_right hnr hu0.le
  have hpow : ∀ k : ℕ, k ≤ 4 → (1 + u) ^ (n + k) ≤ 1 + (n + k) * (2 * u) := by
    intro k hk
    have hk' : (k : ℝ) ≤ 4 := by exact_mod_cast hk
    have hku : k * u ≤ 4 * u := mul_le_mul_of_nonneg_right hk' hu0.le
    have := one_add_pow_le hu0.le (n + k) (by push_cast; linarith)
    push_cast at this
    linarith
  have hpow2 : ∀ k : ℕ, k ≤ 4 → (1 + u) ^ (n + k) ≤ 2 := by
    intro k hk
    have hk' : (k : ℝ) ≤ 4 := by exact_mod_cast hk
    have hku : k * u ≤ 4 * u := mul_le_mul_of_nonneg_right hk' hu0.le
    have := hpow k hk
    linarith
  have hone : (1 : ℝ) ≤ 1 + u := by linarith
  have hsum1 : (U.map absDiff).sum ≤ 2 ^ 40 * 2 ^ (401 : ℤ) := by
    have := sum_map_bound U absDiff (fun _ => 0) 0 (2 ^ (401 : ℤ)) fun z hz => by
      rw [zero_mul, zero_add]; exact (hvals z hz).2
    rw [zero_mul, zero_add] at this
    exact this.trans (mul_le_mul_of_nonneg_right hnr (by positivity))
  have hsum2 : (U.map fun z => absDiff z ^ 2).sum ≤ 2 ^ 40 * 2 ^ (802 : ℤ) := by
    have := sum_map_bound U (fun z => absDiff z ^ 2) (fun _ => 0) 0 (2 ^ (802 : ℤ)) fun z hz => by
      rw [zero_mul, zero_add]
      have e3 : (2 : ℝ) ^ (802 : ℤ) = (2 ^ (401 : ℤ)) ^ 2 := by
        rw [← zpow_natCast, ← zpow_mul]; norm_num
      rw [e3]
      exact pow_le_pow_left₀ (abs_nonneg _) (hvals z hz).2 2
    rw [zero_mul, zero_add] at this
    exact this.trans (mul_le_mul_of_nonneg_right hnr (by positivity))
  have hT1 : 0 ≤ (U.map absDiff).sum := List.sum_nonneg fun x hx => by
    obtain ⟨i, hi, rfl⟩ := List.mem_map.mp hx
    exact abs_nonneg _
  have hT2 : 0 ≤ (U.map fun z => absDiff z ^ 2).sum := List.sum_nonneg fun x hx => by
    obtain ⟨i, hi, rfl⟩ := List.mem_map.mp hx
    exact sq_nonneg _
  set eta : ℝ := 2 ^ (-1075 : ℤ) with heta
  have heta0 : 0 < eta := by rw [heta]; positivity
  have heta1 : eta ≤ 1 / 2 ^ 50 := by
    rw [heta]
    calc (2 : ℝ) ^ (-1075 : ℤ) ≤ 2 ^ (-50 : ℤ) := zpow_le_zpow_right₀ (by norm_num) (by norm_num)
      _ = _ := by norm_num
  have heta8 : 8 * eta = (2 ^ (-536 : ℤ)) ^ 2 := by
    rw [heta, ← zpow_natCast, ← zpow_mul, show (8 : ℝ) = 2 ^ (3 : ℤ) by norm_num, ← zpow_add₀ (by norm_num)]; norm_num
  clear_value eta
  have hbig1 : (1 : ℝ) ≤ 2 ^ (1023 : ℤ) := one_le_zpow₀ (by norm_num) (by norm_num)
  have hb441 : 2 * (2 ^ 40 * (2 : ℝ) ^ (401 : ℤ)) ≤ 2 ^ (1023 : ℤ) := by
    have : 2 * (2 ^ 40 * (2 : ℝ) ^ (401 : ℤ)) = 2 ^ (442 : ℤ) := by
      rw [show (442 : ℤ) = ((41 : ℕ) : ℤ) + 401 by norm_num, zpow_add₀ (by norm_num), zpow_natCast]; ring
    rw [this]
    exact zpow_le_zpow_right₀ (by norm_num) (by norm_num)
  have hb845 : 8 * (2 ^ 40 * (2 : ℝ) ^ (802 : ℤ)) ≤ 2 ^ (1023 : ℤ) := by
    have : 8 * (2 ^ 40 * (2 : ℝ) ^ (802 : ℤ)) = 2 ^ (845 : ℤ) := by
      rw [show (845 : ℤ) = ((43 : ℕ) : ℤ) + 802 by norm_num, zpow_add₀ (by norm_num), zpow_natCast]; ring
    rw [this]
    exact zpow_le_zpow_right₀ (by norm_num) (by norm_num)
  have h802 : (1 : ℝ) ≤ 2 ^ 40 * 2 ^ (802 : ℤ) := by
    exact one_le_mul_of_one_le_of_one_le (by norm_num) (one_le_zpow₀ (by norm_num) (by norm_num))
  have himax : (n : ℝ) ≤ 2 ^ 53 := hnr.trans (by norm_num)
  have h401 : (2 : ℝ) ^ (401 : ℤ) ≤ 2 ^ 40 * 2 ^ (401 : ℤ) := le_mul_of_one_le_left (by positivity) (by norm_num)
  generalize hX : (2 : ℝ) ^ (1023 : ℤ) = big at *
  generalize hY : (2 : ℝ) ^ 40 * (2 : ℝ) ^ (802 : ℤ) = Y at *
  obtain ⟨m, m1, m2⟩ := mae_error hR hs U hU (fun z hz => (hvals z hz).1) himax (by
    refine le_trans ?_ hb441
    exact mul_le_mul (hpow2 2 (by norm_num)) hsum1 hT1 (by norm_num))
  obtain ⟨q, q1, q2⟩ := rmse_error hR hbig1 hs U hU (fun z hz => (hvals z hz).1) himax (by
    intro z hz
    refine le_trans ?_ hb441
    refine mul_le_mul (by linarith) ((hvals z hz).2.trans h401) (abs_nonneg _) (by norm_num)) (by
    have g1 : (1 + u) ^ 3 ≤ 2 := by
      have := hpow2 3 (by norm_num)
      exact (pow_le_pow_right₀ hone (by omega)).trans this
    have g2 : (1 + u) ^ U.length ≤ 2 := hpow2 0 (by norm_num)
    have g3 : (1 + u) ^ 3 * (U.map fun z => absDiff z ^ 2).sum ≤ 2 * Y := mul_le_mul g1 hsum2 hT2 (by norm_num)
    have g4 : (n : ℝ) * eta ≤ 2 ^ 40 * (1 / 2 ^ 50) := mul_le_mul hnr heta1 heta0.le (by norm_num)
    have g5 : (1 + u) ^ U.length * ((1 + u) ^ 3 * (U.map fun z => absDiff z ^ 2).sum + n * eta) ≤ 2 * (2 * Y + 1) := by
      refine mul_le_mul g2 ?_ ?_ (by norm_num)
      · refine add_le_add g3 (g4.trans (by norm_num))
      · exact add_nonneg (mul_nonneg (by positivity) hT2) (by positivity)
    refine le_trans (add_le_add g5 (heta1.trans (by norm_num : (1 : ℝ) / 2 ^ 50 ≤ 1))) ?_
    linarith only [hb845, h802])
  refine ⟨m, q, m1, q1, ?_, ?_⟩
  · refine m2.trans ?_
    rw [h52]
    have h8 : 0 ≤ (U.map absDiff).sum / n := div_nonneg hT1 hn0
    have h9 : (1 + u) ^ (n + 2) - 1 ≤ (n + 2) * (2 * u) := by
      have := hpow 2 (by norm_num)
      push_cast at this
      linarith only [this]
    exact add_le_add_left (mul_le_mul_of_nonneg_right h9 h8) eta
  · refine q2.trans ?_
    rw [h52]
    have h8 := Real.sqrt_nonneg ((U.map fun z => absDiff z ^ 2).sum / n)
    have h9 : (1 + u) ^ (n + 4) - 1 ≤ (n + 4) * (2 * u) := by
      have := hpow 4 (by norm_num)
      push_cast at this
      linarith only [this]
    have h10 : (1 + u) * Real.sqrt ((1 + u) ^ n * eta + eta) + eta ≤ 2 ^ (-536 : ℤ) := by
      set c : ℝ := 2 ^ (-536 : ℤ) with hc
      have hc0 : 0 < c := by rw [hc]; positivity
      have ec : 8 * eta = c ^ 2 := heta8
      have hc1 : c ≤ 1 := by rw [hc]; exact zpow_le_one_of_nonpos₀ (by norm_num) (by norm_num)
      clear_value c
      have hc2 : eta ≤ c / 8 := by
        have : c ^ 2 ≤ c := by rw [pow_two]; exact mul_le_of_le_one_left hc0.le hc1
        linarith only [this, ec]
      have hw : Real.sqrt ((1 + u) ^ n * eta + eta) ≤ 3 / 4 * c := by
        rw [Real.sqrt_le_left (by positivity)]
        have g2 : (1 + u) ^ n * eta ≤ 2 * eta := mul_le_mul_of_nonneg_right (hpow2 0 (by norm_num)) heta0.le
        have : (3 / 4 * c) ^ 2 = 9 / 16 * (8 * eta) := by rw [ec]; ring
        rw [this]
        linarith only [g2, heta0]
      have hw2 : (1 + u) * Real.sqrt ((1 + u) ^ n * eta + eta) ≤ (1 + 1 / 2 ^ 20) * (3 / 4 * c) :=
        mul_le_mul (by linarith only [hu8]) hw (Real.sqrt_nonneg _) (by norm_num)
      linarith only [hw2, hc2, hc0]
    have h11 := mul_le_mul_of_nonneg_right h9 h8
    linarith only [h10, h11]

/-- A case of C118: references 1 and 4, predictions 3 and 4 and a NaN pair. MAE 1, RMSE about 1.41. -/
example : ∃ e : RainError DblR, rainErrorArr fsum (fun x y => fsum (vmul x y))
      (.of [PyFloat.ofInt (1 : ℕ), PyFloat.nan, PyFloat.ofInt (4 : ℕ)])
      (.of [PyFloat.ofInt (3 : ℕ), PyFloat.ofInt (2 : ℕ), PyFloat.ofInt (4 : ℕ)]) (PyFloat.ofInt 0) = .ok e ∧
    ∃ m q, e.meanAbsoluteError.val = .fin m ∧ e.rootMeanSquareError.val = .fin q ∧
      |m - 1| ≤ 1 / 10 ^ 14 ∧ |q - Real.sqrt 2| ≤ 1 / 10 ^ 14 := by
  have v1 := val_ofNat_b64 1 (by norm_num)
  have v2 := val_ofNat_b64 2 (by norm_num)
  have v3 := val_ofNat_b64 3 (by norm_num)
  have v4 := val_ofNat_b64 4 (by norm_num)
  have n1 : isNaN (PyFloat.ofInt (1 : ℕ) : DblR) = false := LawfulPyFloat.isNaN_ofInt _
  have n2 : isNaN (PyFloat.ofInt (2 : ℕ) : DblR) = false := LawfulPyFloat.isNaN_ofInt _
  have n3 : isNaN (PyFloat.ofInt (3 : ℕ) : DblR) = false := LawfulPyFloat.isNaN_ofInt _
  have n4 : isNaN (PyFloat.ofInt (4 : ℕ) : DblR) = false := LawfulPyFloat.isNaN_ofInt _
  have nn : isNaN (PyFloat.nan : DblR) = true := LawfulPyFloat.isNaN_nan
  have hb : (4 : ℝ) ≤ 2 ^ (400 : ℤ) :=
    le_trans (by norm_num : (4 : ℝ) ≤ 2 ^ (2 : ℤ)) (zpow_le_zpow_right₀ (by norm_num) (by norm_num))
  refine ⟨_, rfl, ?_⟩
  obtain ⟨m, q, h1, h2, h3, h4⟩ := C118_accuracy sums_fsum (fun x y => fsum (vmul x y))
    [PyFloat.ofInt (1 : ℕ), PyFloat.nan, PyFloat.ofInt (4 : ℕ)]
    [PyFloat.ofInt (3 : ℕ), PyFloat.ofInt (2 : ℕ), PyFloat.ofInt (4 : ℕ)] (PyFloat.ofInt 0) _ rfl [(1, 3), (4, 4)]
    (by
      have k1 : okPair (PyFloat.ofInt (1 : ℕ) : DblR) (PyFloat.ofInt (3 : ℕ)) = true := by unfold okPair; rw [n1, n3]; rfl
      have k2 : okPair (PyFloat.nan : DblR) (PyFloat.ofInt (2 : ℕ)) = false := by unfold okPair; rw [nn]; rfl
      have k3 : okPair (PyFloat.ofInt (4 : ℕ) : DblR) (PyFloat.ofInt (4 : ℕ)) = true := by unfold okPair; rw [n4]; rfl
      rw [List.zip_cons_cons, List.zip_cons_cons, List.zip_cons_cons, List.zip_nil_left,
        List.filter_cons, List.filter_cons, List.filter_cons, List.filter_nil]
      rw [if_pos k1, if_neg (by rw [k2]; exact Bool.false_ne_true), if_pos k3, List.map_cons, List.map_cons, List.map_nil]
      rw [numOf_fin v1, numOf_fin v3, numOf_fin v4]
      norm_num)
    (by simp) (by simp) (by
      intro x hx
      simp only [List.mem_append, List.mem_cons, List.not_mem_nil, or_false] at hx
      rcases hx with (rfl | rfl | rfl) | (rfl | rfl | rfl)
      · exact .inr ⟨_, v1, by rw [Nat.abs_cast]; exact le_trans (by norm_num) hb⟩
      · exact .inl nn
      · exact .inr ⟨_, v4, by rw [Nat.abs_cast]; exact le_trans (by norm_num) hb⟩
      · exact .inr ⟨_, v3, by rw [Nat.abs_cast]; exact le_trans (by norm_num) hb⟩
      · exact .inr ⟨_, v2, by rw [Nat.abs_cast]; exact le_trans (by norm_num) hb⟩
      · exact .inr ⟨_, v4, by rw [Nat.abs_cast]; exact le_trans (by norm_num) hb⟩)
  refine ⟨m, q, h1, h2, ?_, ?_⟩
  · have e1 : (([(1, 3), (4, 4)] : List (ℝ × ℝ)).map fun z => |z.2 - z.1|).sum / ([(1, 3), (4, 4)] : List (ℝ × ℝ)).length = 1 := by
      norm_num
    rw [e1] at h3
    have small : (2 : ℝ) ^ (-1075 : ℤ) ≤ 2 ^ (-60 : ℤ) := zpow_le_zpow_right₀ (by norm_num) (by norm_num)
    refine h3.trans (le_trans (add_le_add_right small _) ?_)
    norm_num
  · have e1 : (([(1, 3), (4, 4)] : List (ℝ × ℝ)).map fun z => (z.2 - z.1) ^ 2).sum / (([(1, 3), (4, 4)] : List (ℝ × ℝ)).length : ℝ) = 2 := by
      norm_num
    rw [e1] at h4
    have small : (2 : ℝ) ^ (-536 : ℤ) ≤ 2 ^ (-60 : ℤ) := zpow_le_zpow_right₀ (by norm_num) (by norm_num)
    have hsq : Real.sqrt 2 ≤ 2 := by rw [Real.sqrt_le_left (by norm_num)]; norm_num
    refine h4.trans (le_trans (add_le_add_right small _) ?_)
    have h8 : (([(1, 3), (4, 4)] : List (ℝ × ℝ)).length + 4 : ℝ) * 2 ^ (-52 : ℤ) * Real.sqrt 2 ≤
        (([(1, 3), (4, 4)] : List (ℝ × ℝ)).length + 4 : ℝ) * 2 ^ (-52 : ℤ) * 2 :=
      mul_le_mul_of_nonneg_left hsq (by positivity)
    refine le_trans (add_le_add_left h8 _) ?_
    norm_num

/-- Cases of `C118_perfect` and `C118_range`: reference 1 and 4, the same predicted, and a pair with NaN. -/
example : ∃ e : RainError DblR, rainErrorArr fsum (fun x y => fsum (vmul x y))
      (.of [PyFloat.ofInt (1 : ℕ), PyFloat.nan, PyFloat.ofInt (4 : ℕ)])
      (.of [PyFloat.ofInt (1 : ℕ), PyFloat.ofInt (2 : ℕ), PyFloat.ofInt (4 : ℕ)]) (PyFloat.ofInt 0) = .ok e ∧
    e.rootMeanSquareError = PyFloat.ofInt 0 ∧ e.meanAbsoluteError = PyFloat.ofInt 0 ∧
    (isNaN e.rMeanReference = true ∨ (PyFloat.ofInt 0 : DblR) ≤ᶠ e.rMeanReference) := by
  have v1 := val_ofNat_b64 1 (by norm_num)
  have v4 := val_ofNat_b64 4 (by norm_num)
  have n1 : isNaN (PyFloat.ofInt (1 : ℕ) : DblR) = false := LawfulPyFloat.isNaN_ofInt _
  have nn : isNaN (PyFloat.nan : DblR) = true := LawfulPyFloat.isNaN_nan
  have h0 : ∀ n : ℕ, n ≤ 2 ^ 53 → (PyFloat.ofInt 0 : DblR) ≤ᶠ PyFloat.ofInt (n : ℕ) := fun n hn => by
    have h := val_ofNat_b64 n hn
    have hz := val_ofNat_b64 0 (by norm_num)
    rw [RFl.le_def, h]
    have : (PyFloat.ofInt 0 : DblR).val = .fin 0 := by simpa using hz
    rw [this]
    simp [Fl.le]
  refine ⟨_, rfl, ?_⟩
  obtain ⟨h1, h2, -⟩ := C118_perfect sums_fsum (fun x y => fsum (vmul x y))
    [PyFloat.ofInt (1 : ℕ), PyFloat.nan, PyFloat.ofInt (4 : ℕ)]
    [PyFloat.ofInt (1 : ℕ), PyFloat.ofInt (2 : ℕ), PyFloat.ofInt (4 : ℕ)] (PyFloat.ofInt 0 : DblR) _ rfl
    ⟨(PyFloat.ofInt (1 : ℕ), PyFloat.ofInt (1 : ℕ)), by simp, by unfold okPair; rw [n1]; rfl⟩ (by
      intro z hz ho
      simp only [List.zip_cons_cons, List.zip_nil_left, List.mem_cons, List.not_mem_nil, or_false] at hz
      rcases hz with rfl | rfl | rfl
      · exact ⟨rfl, _, v1⟩
      · unfold okPair at ho; rw [nn] at ho; exact absurd ho (by simp)
      · exact ⟨rfl, _, v4⟩)
  refine ⟨h1, h2, ?_⟩
  refine (C118_range sums_fsum (fun x y => fsum (vmul x y))
    [PyFloat.ofInt (1 : ℕ), PyFloat.nan, PyFloat.ofInt (4 : ℕ)]
    [PyFloat.ofInt (1 : ℕ), PyFloat.ofInt (2 : ℕ), PyFloat.ofInt (4 : ℕ)] (PyFloat.ofInt 0 : DblR) _ rfl).2.2.2 ?_ ?_ _ (by simp)
  · intro x hx
    simp only [List.mem_cons, List.not_mem_nil, or_false] at hx
    rcases hx with rfl | rfl | rfl
    · exact .inr (h0 1 (by norm_num))
    · exact .inl nn
    · exact .inr (h0 4 (by norm_num))
  · intro x hx
    simp only [List.mem_cons, List.not_mem_nil, or_false] at hx
    rcases hx with rfl | rfl | rfl
    · exact .inr (h0 1 (by norm_num))
    · exact .inr (h0 2 (by norm_num))
    · exact .inr (h0 4 (by norm_num))

end Verif.Props
