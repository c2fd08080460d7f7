import Verif.Props.Stability
import Verif.Props.RoundedIdw
import Verif.Props.NearbyRain
import Mathlib.Algebra.Order.BigOperators.Group.Finset

/-!
# Property C126: accuracy of the two baselines in floating point arithmetic
-/

namespace Verif.Props
open Verif Verif.Baseline Verif.Bin

variable {K : Type} [Field K] [LinearOrder K] [IsStrictOrderedRing K] {R : Rounding K}

/-! ### Linear baseline -/

/-- one value of the straight line -/
theorem line_error {u eta big imax : K} (hR : R.Precision u eta big imax) {a b : RFl R} {x y B : K} (ha : a.val = .fin x) (hb : b.val = .fin y)
    (bx : |x| ≤ B) (bb : |y| ≤ B) (hu : u ≤ 1 / 100) (hbig : 4 * B ≤ big) (N i : ℕ) (hN0 : 0 < N) (hN : (N : K) ≤ imax) (hi : i ≤ N)
    (heta : eta * N ≤ u * B) :
    ∃ z, (a +ᶠ ((PyFloat.ofInt i : RFl R) *ᶠ ((b -ᶠ a) /ᶠ (PyFloat.ofInt N : RFl R)))).val = .fin z ∧
      |z - (x + i * ((y - x) / N))| ≤ 12 * (u * B) := by
  have hu0 := hR.u_nonneg
  have he0 := hR.eta_nonneg
  have hB : 0 ≤ B := (abs_nonneg x).trans bx
  set w := u * B with hw
  have hw0 : 0 ≤ w := mul_nonneg hu0 hB
  have hwB : w ≤ B / 100 := by
    have := mul_le_mul_of_nonneg_right hu hB
    linarith
  have uB : ∀ x c : K, x ≤ c * B → u * x ≤ c * w := by
    intro x c h
    have := mul_le_mul_of_nonneg_left h hu0
    rw [hw]; linarith
  have hNp : (0 : K) < N := by exact_mod_cast hN0
  have hN1 : (1 : K) ≤ N := by exact_mod_cast hN0
  have hiN : (i : K) ≤ N := by exact_mod_cast hi
  have hi0 : (0 : K) ≤ i := Nat.cast_nonneg i
  have he1 : eta ≤ w := by nlinarith
  have vN : (PyFloat.ofInt N : RFl R).val = .fin (N : K) := by
    rw [RFl.val_ofInt]
    simpa using hR.int_exact N hN
  have vi : (PyFloat.ofInt i : RFl R).val = .fin (i : K) := by
    rw [RFl.val_ofInt]
    simpa using hR.int_exact i (hiN.trans hN)
  have b1 : |y - x| ≤ 2 * B := (abs_sub _ _).trans (by linarith)
  obtain ⟨d, hd, e1⟩ := hR.sub_err y x (RFl.rnd_of_val hb) (RFl.rnd_of_val ha) (by linarith)
  have v1 : (b -ᶠ a).val = .fin d := by rw [RFl.val_sub, hb, ha, Fl.pf_sub_fin]; exact hd
  have e1' : |d - (y - x)| ≤ 2 * w := e1.trans (uB _ _ b1)
  have bd : |d| ≤ 202 / 100 * B := by
    have := abs_add_le (d - (y - x)) (y - x)
    rw [sub_add_cancel] at this
    linarith
  have adN : |d / N| = |d| / N := by rw [abs_div, abs_of_pos hNp]
  have dN : |d| / N ≤ |d| := div_le_self (abs_nonneg d) hN1
  obtain ⟨s, hs, e2⟩ := hR.err (d / N) (by rw [adN]; linarith)
  have v2 : ((b -ᶠ a) /ᶠ (PyFloat.ofInt N : RFl R)).val = .fin s := by
    rw [RFl.val_div, v1, vN, Fl.pf_div_fin_ne _ _ hNp.ne']; exact hs
  rw [adN] at e2
  -- i * (s - d/N)
  have e2' : |i * s - i * (d / N)| ≤ 303 / 100 * w := by
    rw [← mul_sub, abs_mul, abs_of_nonneg hi0]
    have h1 : (i : K) * |s - d / N| ≤ N * (u * (|d| / N) + eta) := mul_le_mul hiN e2 (abs_nonneg _) hNp.le
    have h2 : (N : K) * (u * (|d| / N) + eta) = u * |d| + eta * N := by field_simp
    have h3 := uB _ _ bd
    linarith
  have bis : |i * s| ≤ 206 / 100 * B := by
    have h1 := abs_add_le (i * s - i * (d / N)) (i * (d / N))
    rw [sub_add_cancel] at h1
    have h2 : |i * (d / N)| ≤ |d| := by
      rw [abs_mul, abs_of_nonneg hi0, adN]
      calc (i : K) * (|d| / N) ≤ N * (|d| / N) := mul_le_mul_of_nonneg_right hiN (by positivity)
        _ = |d| := by field_simp
    linarith
  obtain ⟨m, hm, e3⟩ := hR.err (i * s) (by linarith)
  have v3 : ((PyFloat.ofInt i : RFl R) *ᶠ ((b -ᶠ a) /ᶠ (PyFloat.ofInt N : RFl R))).val = .fin m := by
    rw [RFl.val_mul, vi, v2, Fl.pf_mul_fin]; exact hm
  have e3' : |m - i * s| ≤ 306 / 100 * w := by
    have := uB _ _ bis
    linarith
  have bm : |m| ≤ 21 / 10 * B := by
    have h1 := abs_add_le (m - i * s) (i * s)
    rw [sub_add_cancel] at h1
    linarith
  have bs : |x + m| ≤ 31 / 10 * B := (abs_add_le _ _).trans (by linarith)
  obtain ⟨z, hz, e4⟩ := hR.add_err x m (RFl.rnd_of_val ha) (RFl.rnd_of_val v3) (by linarith)
  refine ⟨z, by rw [RFl.val_add, ha, v3, Fl.pf_add_fin]; exact hz, ?_⟩
  have e4' := e4.trans (uB _ _ bs)
  have e : z - (x + i * ((y - x) / N)) = (z - (x + m)) + ((m - i * s) + ((i * s - i * (d / N)) + i / N * (d - (y - x)))) := by
    field_simp; ring
  rw [e]
  have k0 : |(i : K) / N * (d - (y - x))| ≤ 2 * w := by
    rw [abs_mul, abs_of_nonneg (div_nonneg hi0 hNp.le)]
    have : (i : K) / N ≤ 1 := (div_le_one hNp).mpr hiN
    have := mul_le_mul this e1' (abs_nonneg _) (by norm_num)
    linarith
  have k1 := abs_add_le (z - (x + m)) ((m - i * s) + ((i * s - i * (d / N)) + i / N * (d - (y - x))))
  have k2 := abs_add_le (m - i * s) ((i * s - i * (d / N)) + i / N * (d - (y - x)))
  have k3 := abs_add_le (i * s - i * (d / N)) (i / N * (d - (y - x)))
  linarith

/-- **C126** Accuracy of the linear baseline in floating point arithmetic with relative precision `u`: for levels that are missing or up to `B`
in magnitude, `baseline_linear` gives NaN exactly where exact arithmetic does and otherwise the exact value up to `12 u B`, with NaN flags or
without, for either setting of `ignore_nan`. -/
theorem C126_linear {u eta big imax : K} (hR : R.Precision u eta big imax) (rsl wet : List (RFl R)) (ignoreNan : Bool) (B : K) (hB : 0 ≤ B)
    (hN : 0 < rsl.length) (hlen : rsl.length ≤ wet.length) (hx : ∀ a ∈ rsl, a.val = .nan ∨ ∃ x, a.val = .fin x ∧ |x| ≤ B)
    (hu : u ≤ 1 / 100) (hbig : 4 * B ≤ big) (himax : (rsl.length : K) ≤ imax) (heta : eta * rsl.length ≤ u * B) :
    ∃ b c, baselineLinear rsl wet ignoreNan = .ok b ∧
      baselineLinear (rsl.map (·.val)) (wet.map (·.val)) ignoreNan = .ok c ∧
      List.Forall₂ (fun x y => UpTo (12 * (u * B)) x.val y) b c := by
  have hu0 := hR.u_nonneg
  have he0 := hR.eta_nonneg
  have hw0 : 0 ≤ u * B := mul_nonneg hu0 hB
  have nan_val : (PyFloat.nan : RFl R).val = .nan := rfl
  have k1 : (rsl.map (·.val)).length = rsl.length := by rw [List.length_map]
  have k2 : (wet.map (·.val)).length = wet.length := by rw [List.length_map]
  refine ⟨_, _, by rw [baselineLinear, if_neg (by omega)], by rw [baselineLinear, if_neg (by omega)], ?_⟩
  rw [k1]
  refine linLoop_rel (fun a b => a.val = b ∧ (b = .nan ∨ ∃ x, b = .fin x ∧ |x| ≤ B)) (fun x y => UpTo (12 * (u * B)) x.val y)
    ?_ (by rw [nan_val]; exact .nan) ?_ ignoreNan hN k1 ?_ ?_ ?_
  · rintro a b ⟨rfl, h⟩
    rcases h with h | ⟨x, h, -⟩ <;> rw [h]
    · exact .nan
    · exact .fin (by simpa using hw0)
  · rw [RFl.val_zero, Fl.pf_ofInt]
    exact .fin (by simpa using hw0)
  · rintro a _ b _ num h2 hnum ⟨rfl, ha⟩ ⟨rfl, hb⟩
    unfold linspace
    rw [List.forall₂_map_left_iff, List.forall₂_map_right_iff, List.forall₂_same]
    intro i hi
    rw [List.mem_range] at hi
    have h1 : ¬ num = 1 := by omega
    rw [if_neg h1, if_neg h1]
    have self : ∀ c : RFl R, (c.val = .nan ∨ ∃ x, c.val = .fin x ∧ |x| ≤ B) → UpTo (12 * (u * B)) c.val c.val := by
      intro c hc
      rcases hc with h | ⟨x, h, -⟩ <;> rw [h]
      · exact .nan
      · exact .fin (by simpa using hw0)
    by_cases hlast : i + 1 = num
    · rw [if_pos hlast, if_pos hlast]; exact self b hb
    rw [if_neg hlast, if_neg hlast]
    obtain ⟨N, rfl⟩ : ∃ N, num = N + 1 := ⟨num - 1, by omega⟩
    have eN : ((N + 1 : ℕ) : ℤ) - 1 = (N : ℤ) := by push_cast; ring
    rw [eN]
    rcases ha with ha | ⟨x, ha, hxB⟩
    · have e1 : (a +ᶠ ((PyFloat.ofInt i : RFl R) *ᶠ ((b -ᶠ a) /ᶠ (PyFloat.ofInt N : RFl R)))).val = .nan := by
        rw [RFl.val_add, ha]; rfl
      rw [e1, ha]
      exact .nan
    rcases hb with hb | ⟨y, hb, hyB⟩
    · have e0 : (b -ᶠ a).val = .nan := by rw [RFl.val_sub, hb]; rfl
      have e1 : ((b -ᶠ a) /ᶠ (PyFloat.ofInt N : RFl R)).val = .nan := by rw [RFl.val_div, e0]; rfl
      have e2 : ((PyFloat.ofInt i : RFl R) *ᶠ ((b -ᶠ a) /ᶠ (PyFloat.ofInt N : RFl R))).val = .nan := by
        rw [RFl.val_mul, e1]
        generalize (PyFloat.ofInt i : RFl R).val = v
        cases v <;> rfl
      have e3 : (a +ᶠ ((PyFloat.ofInt i : RFl R) *ᶠ ((b -ᶠ a) /ᶠ (PyFloat.ofInt N : RFl R)))).val = .nan := by
        rw [RFl.val_add, e2, ha]; rfl
      rw [e3, ha, hb]
      exact .nan
    · have hNK : (N : K) ≤ imax := le_trans (by exact_mod_cast (by omega : N ≤ rsl.length)) himax
      have hNp : (N : K) ≠ 0 := by
        have : 0 < N := by omega
        exact_mod_cast this.ne'
      obtain ⟨z, hz, hze⟩ := line_error hR ha hb hxB hyB hu hbig N i (by omega) hNK (by omega) (by
        refine le_trans (mul_le_mul_of_nonneg_left ?_ he0) heta
        exact_mod_cast (by omega : N ≤ rsl.length))
      rw [hz, ha, hb]
      simp only [Fl.pf_ofInt, Int.cast_natCast, Fl.pf_sub_fin, Fl.pf_div_fin_ne _ _ hNp, Fl.pf_mul_fin, Fl.pf_add_fin]
      exact .fin hze
  · intro i hi
    have e : rd (rsl.map (·.val)) i = (rd rsl i).val := by
      apply rd_of_getElem?
      rw [List.getElem?_map, getElem?_eq_rd hi]; rfl
    rw [e]
    refine ⟨rfl, hx _ ?_⟩
    rw [rd_of_getElem? (List.getElem?_eq_getElem hi)]
    exact List.getElem_mem hi
  · intro i hi
    have e : rd (wet.map (·.val)) i = (rd wet i).val := by
      apply rd_of_getElem?
      rw [List.getElem?_map, getElem?_eq_rd (by omega)]; rfl
    rw [e]
    refine ⟨rfl, ?_⟩
    unfold truthy
    rw [RFl.eq_def, RFl.val_zero, Fl.pf_ofInt, Int.cast_zero]

/-! ### Constant baseline -/

/-- error of a mean -/
theorem npMean_error {u eta big imax : K} (hR : R.Precision u eta big imax) (ys : List K) (xs : List (RFl R))
    (hxs : xs.map RFl.val = ys.map Fl.fin) (hne : ys ≠ []) (hnm : (ys.length : K) ≤ imax)
    (hbig : (1 + u) ^ ys.length * (ys.map abs).sum ≤ big) :
    ∃ z, (npMean xs).val = .fin z ∧
      |z - ys.sum / ys.length| ≤ ((1 + u) ^ ys.length - 1) * ((ys.map abs).sum / ys.length) + eta := by
  have hu := hR.u_nonneg
  have hu1 : (1 : K) ≤ 1 + u := by linarith
  have hl : xs.length = ys.length := by simpa using congrArg List.length hxs
  have hn : 1 ≤ ys.length := List.length_pos_iff.mpr hne
  obtain ⟨t, ht, hte⟩ := fsum_error hR ys _ hxs hne hbig
  generalize hnn : ys.length = n at *
  have hnp : (0 : K) < n := by exact_mod_cast hn
  have hS0 : 0 ≤ (ys.map abs).sum := List.sum_nonneg (by simp)
  set P := (1 + u) ^ (n - 1) with hP
  have hPs : (1 + u) ^ n = P * (1 + u) := by
    rw [hP, ← pow_succ]; congr 1; omega
  have hsum : |ys.sum| ≤ (ys.map abs).sum := abs_list_sum_le ys
  have htb : |t| ≤ P * (ys.map abs).sum := by
    have h2 : |t| ≤ |t - ys.sum| + |ys.sum| := by
      have := abs_add_le (t - ys.sum) ys.sum
      rwa [sub_add_cancel] at this
    linarith
  have hdiv : |t / n| = |t| / n := by rw [abs_div, abs_of_pos hnp]
  obtain ⟨z, hz, hze⟩ := hR.err (t / n) (by
    rw [hdiv]
    refine (div_le_self (abs_nonneg t) (by exact_mod_cast hn)).trans (htb.trans (le_trans ?_ hbig))
    exact mul_le_mul_of_nonneg_right (pow_le_pow_right₀ hu1 (by omega)) hS0)
  refine ⟨z, ?_, ?_⟩
  · unfold npMean
    rw [RFl.val_div, ht, hl, RFl.val_ofInt, Int.cast_natCast, hR.int_exact n hnm, Fl.pf_div_fin_ne _ _ hnp.ne']
    exact hz
  · have h1 : |z - ys.sum / n| ≤ |z - t / n| + |t - ys.sum| / n := by
      have := abs_add_le (z - t / n) ((t - ys.sum) / n)
      rw [abs_div (t - ys.sum), abs_of_pos hnp] at this
      have e : z - t / n + (t - ys.sum) / n = z - ys.sum / n := by ring
      rwa [e] at this
    have h2 : |t - ys.sum| / n ≤ (P - 1) * ((ys.map abs).sum / n) := by
      rw [← mul_div_assoc]; exact div_le_div_of_nonneg_right hte hnp.le
    have h3 : u * |t / n| ≤ u * (P * ((ys.map abs).sum / n)) := by
      rw [hdiv, ← mul_div_assoc P]
      exact mul_le_mul_of_nonneg_left (div_le_div_of_nonneg_right htb hnp.le) hu
    rw [hPs]
    calc _ ≤ u * (P * ((ys.map abs).sum / n)) + eta + (P - 1) * ((ys.map abs).sum / n) := by linarith
      _ = _ := by ring

/-- a mean with a missing value is missing -/
theorem npMean_val_nan {l : List (RFl R)} (h : ∃ a ∈ l, a.val = .nan) : (npMean l).val = .nan := by
  have key : ∀ (l : List (RFl R)) (c : RFl R), (c.val = .nan ∨ ∃ a ∈ l, a.val = .nan) → (l.foldl (· +ᶠ ·) c).val = .nan := by
    intro l
    induction l with
    | nil => intro c h; simpa using h
    | cons a l ih =>
      intro c h
      rw [List.foldl_cons]
      refine ih _ ?_
      rcases h with h | ⟨x, hx, hxn⟩
      · left; rw [RFl.val_add, h]; rfl
      · rcases List.mem_cons.mp hx with rfl | hx
        · left
          rw [RFl.val_add, hxn]
          generalize c.val = v
          cases v <;> rfl
        · exact .inr ⟨x, hx, hxn⟩
  unfold npMean fsum
  rw [RFl.val_div, key l _ (.inr h)]
  rfl

theorem npMean_fl_nan {l : List (Fl K)} (h : Fl.nan ∈ l) : npMean l = .nan := by
  have key : ∀ (l : List (Fl K)) (c : Fl K), (c = .nan ∨ Fl.nan ∈ l) → l.foldl (· +ᶠ ·) c = .nan := by
    intro l
    induction l with
    | nil => intro c h; simpa using h
    | cons a l ih =>
      intro c h
      rw [List.foldl_cons]
      refine ih _ ?_
      rcases h with h | hx
      · left; rw [h]; rfl
      · rcases List.mem_cons.mp hx with rfl | hx
        · left; cases c <;> rfl
        · exact .inr hx
  unfold npMean fsum
  rw [key l _ (.inr h)]
  rfl

theorem npMean_fl_fin (zs : List K) (hne : zs ≠ []) : npMean (zs.map Fl.fin) = .fin (zs.sum / zs.length) := by
  have key : ∀ (l : List K) (c : K), (l.map Fl.fin).foldl (· +ᶠ ·) (Fl.fin c) = .fin (c + l.sum) := by
    intro l
    induction l with
    | nil => intro c; simp
    | cons a l ih => intro c; rw [List.map_cons, List.foldl_cons, Fl.pf_add_fin, ih, List.sum_cons, add_assoc]
  have hpos : (zs.length : K) ≠ 0 := by exact_mod_cast (List.length_pos_iff.mpr hne).ne'
  unfold npMean fsum
  rw [Fl.pf_ofInt, Int.cast_zero, key, zero_add, List.length_map, Fl.pf_ofInt, Int.cast_natCast, Fl.pf_div_fin_ne _ _ hpos]

theorem pow_one_add_le {u : K} (hu : 0 ≤ u) (n : ℕ) (hn : 2 * (n * u) ≤ 1) : (1 + u) ^ n ≤ 1 + 2 * (n * u) := by
  induction n with
  | zero => simp
  | succ k ih =>
    push_cast at hn ⊢
    have h1 := ih (by nlinarith)
    rw [pow_succ]
    have h2 := mul_le_mul_of_nonneg_right h1 (by linarith : 0 ≤ 1 + u)
    refine h2.trans ?_
    have h3 : 2 * (k * u) * u ≤ 1 * u := mul_le_mul_of_nonneg_right (by nlinarith) hu
    linarith

/-- the mean of values known up to `E`, the last of them exactly -/
theorem mean_step {u eta big imax : K} (hR : R.Precision u eta big imax) {B E : K} (hB : 0 ≤ B) (hE0 : 0 ≤ E) (n : ℕ) (hn : 1 ≤ n)
    (hnm : (n : K) ≤ imax) (hnu : 2 * (n * u) ≤ 1) (hEB : E ≤ B) (heta : eta ≤ u * B) (hEdef : 5 * (n * n * (u * B)) ≤ E)
    (hbig : 4 * (n * B) ≤ big) (l : List (RFl R)) (l' : List (Fl K)) (hl : l.length = n) (hl' : l'.length = n)
    (h : ∀ j, j < n → UpTo E (rd l j).val (rd l' j)) (hb : ∀ j z, j < n → rd l' j = .fin z → |z| ≤ B)
    (hlast : (rd l (n - 1)).val = rd l' (n - 1)) :
    UpTo E (npMean l).val (npMean l') ∧ ∀ z, npMean l' = .fin z → |z| ≤ B := by
  have hu := hR.u_nonneg
  have hnp : (0 : K) < n := by exact_mod_cast hn
  by_cases hnan : Fl.nan ∈ l'
  · rw [npMean_fl_nan hnan]
    obtain ⟨j, hj, hjn⟩ := List.getElem_of_mem hnan
    have hj' : j < n := by omega
    have h1 := h j hj'
    rw [rd_of_getElem? (xs := l') (by rw [List.getElem?_eq_getElem hj, hjn])] at h1
    rw [npMean_val_nan]
    · exact ⟨.nan, by simp⟩
    · refine ⟨rd l j, ?_, ?_⟩
      · rw [rd_of_getElem? (List.getElem?_eq_getElem (by omega : j < l.length))]
        exact List.getElem_mem _
      · generalize (rd l j).val = v at h1
        cases h1; rfl
  · have hfin : ∀ j, j < n → ∃ y z, (rd l j).val = .fin y ∧ rd l' j = .fin z ∧ |y - z| ≤ E := by
      intro j hj
      have h1 := h j hj
      have hm : rd l' j ∈ l' := by
        rw [rd_of_getElem? (List.getElem?_eq_getElem (by omega : j < l'.length))]
        exact List.getElem_mem _
      generalize (rd l j).val = v at *
      generalize rd l' j = w at *
      cases h1 with
      | nan => exact absurd hm hnan
      | fin h1 => exact ⟨_, _, rfl, rfl, h1⟩
    choose! Y Z hY hZ hYZ using hfin
    set ys := (List.range n).map Y with hys
    set zs := (List.range n).map Z with hzs
    have ly : ys.length = n := by simp [hys]
    have lz : zs.length = n := by simp [hzs]
    have e1 : l.map RFl.val = ys.map Fl.fin := by
      rw [eq_range_map l, hl, hys, List.map_map, List.map_map]
      exact List.map_congr_left fun j hj => hY j (List.mem_range.mp hj)
    have e2 : l' = zs.map Fl.fin := by
      rw [eq_range_map l', hl', hzs, List.map_map]
      exact List.map_congr_left fun j hj => hZ j (List.mem_range.mp hj)
    have hZB : ∀ j, j < n → |Z j| ≤ B := fun j hj => hb j _ hj (hZ j hj)
    have hYB : ∀ j, j < n → |Y j| ≤ 2 * B := by
      intro j hj
      have := abs_add_le (Y j - Z j) (Z j)
      rw [sub_add_cancel] at this
      linarith [hYZ j hj, hZB j hj]
    have sumrange : ∀ f : ℕ → K, ((List.range n).map f).sum = ∑ j ∈ Finset.range n, f j := fun f => rfl
    have sY : (ys.map abs).sum ≤ n * (2 * B) := by
      rw [hys, List.map_map, sumrange]
      refine (Finset.sum_le_card_nsmul _ _ (2 * B) fun j hj => hYB j (Finset.mem_range.mp hj)).trans ?_
      rw [Finset.card_range, nsmul_eq_mul]
    have sZ : |zs.sum| ≤ n * B := by
      rw [hzs, sumrange]
      refine (Finset.abs_sum_le_sum_abs _ _).trans ?_
      refine (Finset.sum_le_card_nsmul _ _ B fun j hj => hZB j (Finset.mem_range.mp hj)).trans ?_
      rw [Finset.card_range, nsmul_eq_mul]
    have sYZ : |ys.sum - zs.sum| ≤ (n - 1) * E := by
      rw [hys, hzs, sumrange, sumrange, ← Finset.sum_sub_distrib]
      obtain ⟨k, rfl⟩ : ∃ k, n = k + 1 := ⟨n - 1, by omega⟩
      rw [Finset.sum_range_succ]
      have hk : Y k - Z k = 0 := by
        have := hlast
        rw [Nat.add_sub_cancel, hY k (by omega), hZ k (by omega)] at this
        injection this with this
        rw [this, sub_self]
      rw [hk, add_zero]
      refine (Finset.abs_sum_le_sum_abs _ _).trans ?_
      refine (Finset.sum_le_card_nsmul _ _ E fun j hj => hYZ j (by have := Finset.mem_range.mp hj; omega)).trans ?_
      rw [Finset.card_range, nsmul_eq_mul]
      push_cast
      linarith
    have hpow := pow_one_add_le hu n hnu
    have hS0 : 0 ≤ (ys.map abs).sum := List.sum_nonneg (by simp)
    obtain ⟨z, hz, hze⟩ := npMean_error hR ys l e1 (by rintro h0; rw [h0] at ly; simp at ly; omega) (by rw [ly]; exact hnm) (by
      rw [ly]
      refine le_trans (mul_le_mul (hpow.trans (by linarith : 1 + 2 * (n * u) ≤ 2)) sY hS0 (by norm_num)) ?_
      linarith)
    rw [ly] at hze
    rw [hz, e2, npMean_fl_fin zs (by rintro h0; rw [h0] at lz; simp at lz; omega), lz]
    have hmean : |zs.sum / n| ≤ B := by
      rw [abs_div, abs_of_pos hnp, div_le_iff₀ hnp]; linarith
    refine ⟨.fin ?_, fun w hw => by cases hw; exact hmean⟩
    have m1 : (ys.map abs).sum / n ≤ 2 * B := by rw [div_le_iff₀ hnp]; linarith
    have m0 : 0 ≤ (ys.map abs).sum / n := div_nonneg hS0 hnp.le
    have m2 : ((1 + u) ^ n - 1) * ((ys.map abs).sum / n) ≤ 2 * (n * u) * (2 * B) :=
      mul_le_mul (by linarith) m1 m0 (by positivity)
    have m3 : |ys.sum / n - zs.sum / n| ≤ E - E / n := by
      rw [← sub_div, abs_div, abs_of_pos hnp, div_le_iff₀ hnp, sub_mul, div_mul_cancel₀ _ hnp.ne']
      linarith
    have m4 := abs_add_le (z - ys.sum / n) (ys.sum / n - zs.sum / n)
    rw [sub_add_sub_cancel] at m4
    have m5 : 5 * (n * (u * B)) ≤ E / n := by
      rw [le_div_iff₀ hnp]
      linarith
    have m6 : eta ≤ n * (u * B) := by
      have : (1 : K) ≤ n := by exact_mod_cast hn
      have := mul_le_mul_of_nonneg_right this (mul_nonneg hu hB)
      linarith
    linarith

/-- **C126** Accuracy of the constant baseline in floating point arithmetic with relative precision `u`: for levels that are missing or up to
`B` in magnitude, `baseline_constant` gives NaN exactly where exact arithmetic does and otherwise the exact value up to `5 n^2 u B` with
`n = n_average_last_dry`, however long the record is and however often a wet period averages over values of earlier wet periods. -/
theorem C126_constant {u eta big imax : K} (hR : R.Precision u eta big imax) (trsl : List (RFl R)) (wet : List Bool) (n : ℕ) (hn : 1 ≤ n)
    (hlen : trsl.length ≤ wet.length) (B : K) (hB : 0 ≤ B) (hx : ∀ a ∈ trsl, a.val = .nan ∨ ∃ x, a.val = .fin x ∧ |x| ≤ B)
    (hnm : (n : K) ≤ imax) (hnu : 5 * (n * n * u) ≤ 1) (heta : eta ≤ u * B) (hbig : 4 * (n * B) ≤ big) :
    ∃ b c, baselineConstant trsl wet n = .ok b ∧ baselineConstant (trsl.map (·.val)) wet n = .ok c ∧ b.length = trsl.length ∧
      List.Forall₂ (fun x y => UpTo (5 * (n * n * (u * B))) x.val y) b c ∧ (∀ y ∈ c, y = .nan ∨ ∃ z, y = .fin z ∧ |z| ≤ B) := by
  have hu := hR.u_nonneg
  have hnp : (1 : K) ≤ n := by exact_mod_cast hn
  set E := 5 * (n * n * (u * B)) with hE
  have hE0 : 0 ≤ E := by positivity
  have hEB : E ≤ B := by
    have := mul_le_mul_of_nonneg_right hnu hB
    rw [hE]; linarith
  have hnu2 : 2 * (n * u) ≤ 1 := by
    have : (n : K) * u ≤ n * n * u := mul_le_mul_of_nonneg_right (by nlinarith) hu
    have : 0 ≤ (n : K) * n * u := by positivity
    linarith
  have k1 : (trsl.map (·.val)).length = trsl.length := by rw [List.length_map]
  have lb := constLoop_length trsl wet n
  have lc := constLoop_length (trsl.map (·.val)) wet n
  rw [k1] at lc
  have rdv : ∀ i, i < trsl.length → rd (trsl.map (·.val)) i = (rd trsl i).val := by
    intro i hi
    apply rd_of_getElem?
    rw [List.getElem?_map, getElem?_eq_rd hi]; rfl
  have hx' : ∀ i, i < trsl.length → (rd trsl i).val = .nan ∨ ∃ x, (rd trsl i).val = .fin x ∧ |x| ≤ B := by
    intro i hi
    refine hx _ ?_
    rw [rd_of_getElem? (List.getElem?_eq_getElem hi)]
    exact List.getElem_mem hi
  have self : ∀ v : Fl K, (v = .nan ∨ ∃ x, v = .fin x ∧ |x| ≤ B) → UpTo E v v ∧ ∀ z, v = .fin z → |z| ≤ B := by
    rintro v (rfl | ⟨x, rfl, h⟩)
    · exact ⟨.nan, by simp⟩
    · exact ⟨.fin (by simpa using hE0), fun z hz => by cases hz; exact h⟩
  have key : ∀ i, i < trsl.length →
      (UpTo E (rd (constLoop trsl wet n) i).val (rd (constLoop (trsl.map (·.val)) wet n) i) ∧
        ∀ z, rd (constLoop (trsl.map (·.val)) wet n) i = .fin z → |z| ≤ B) ∧
      (rdB wet i = false ∨ i < n → (rd (constLoop trsl wet n) i).val = rd (constLoop (trsl.map (·.val)) wet n) i) := by
    intro i
    induction i using Nat.strong_induction_on with
    | _ i ih =>
      intro hi
      by_cases hin : i < n
      · rw [constLoop_init _ _ hin hi, constLoop_init _ _ hin (by omega), rdv i hi]
        exact ⟨self _ (hx' i hi), fun _ => rfl⟩
      · rw [constLoop_rec _ _ hn (by omega) hi, constLoop_rec _ _ hn (by omega) (by omega)]
        have hpi : ∀ k, prevIdx k i = i - 1 := fun k => by rw [prevIdx, if_neg (by omega)]
        unfold constVal
        rw [hpi, hpi, hpi]
        by_cases c1 : (rdB wet i && !rdB wet (i - 1)) = true
        · rw [if_pos c1, if_pos c1]
          have hc : rdB wet i = true ∧ rdB wet (i - 1) = false := by simpa using c1
          refine ⟨?_, fun h => absurd h (by simp [hc.1, hin])⟩
          refine mean_step hR hB hE0 n hn hnm hnu2 hEB heta le_rfl hbig _ _ (slice_length (by omega) (by omega))
            (slice_length (by omega) (by omega)) ?_ ?_ ?_
          · intro j hj
            rw [rd_slice (by omega), rd_slice (by omega)]
            exact (ih _ (by omega) (by omega)).1.1
          · intro j z hj hz
            rw [rd_slice (by omega)] at hz
            exact (ih _ (by omega) (by omega)).1.2 z hz
          · rw [rd_slice (by omega), rd_slice (by omega), show i - n + (n - 1) = i - 1 by omega]
            exact (ih (i - 1) (by omega) (by omega)).2 (.inl hc.2)
        · rw [if_neg c1, if_neg c1]
          by_cases c2 : (rdB wet i && rdB wet (i - 1)) = true
          · rw [if_pos c2, if_pos c2]
            have hc : rdB wet i = true ∧ rdB wet (i - 1) = true := by simpa using c2
            exact ⟨(ih (i - 1) (by omega) (by omega)).1, fun h => absurd h (by simp [hc.1, hin])⟩
          · rw [if_neg c2, if_neg c2, rdv i hi]
            exact ⟨self _ (hx' i hi), fun _ => rfl⟩
  refine ⟨constLoop trsl wet n, constLoop (trsl.map (·.val)) wet n, by rw [baselineConstant, if_neg (by omega)],
    by rw [baselineConstant, if_neg (by omega)], lb, ?_, ?_⟩
  · refine List.forall₂_iff_get.mpr ⟨by omega, fun i h1 h2 => ?_⟩
    have := (key i (by omega)).1.1
    rw [rd_of_getElem? (List.getElem?_eq_getElem h1), rd_of_getElem? (List.getElem?_eq_getElem h2)] at this
    simpa using this
  · intro y hy
    obtain ⟨i, hi, rfl⟩ := List.getElem_of_mem hy
    have := (key i (by omega)).1
    rw [rd_of_getElem? (List.getElem?_eq_getElem hi)] at this
    obtain ⟨h1, h2⟩ := this
    generalize (constLoop (trsl.map (·.val)) wet n)[i] = v at *
    generalize (rd (constLoop trsl wet n) i).val = w at *
    cases h1 with
    | nan => exact .inl rfl
    | fin h => exact .inr ⟨_, rfl, h2 _ rfl⟩

/-! ### Doubles -/

theorem b64_eta_le {B : K} (hB1 : (2 : K) ^ (-900 : ℤ) ≤ B) : (2 : K) ^ (-1075 : ℤ) ≤ 2 ^ (-53 : ℤ) * B := by
  calc (2 : K) ^ (-1075 : ℤ) ≤ 2 ^ (-53 + -900 : ℤ) := zpow_le_zpow_right₀ (by norm_num) (by norm_num)
    _ = 2 ^ (-53 : ℤ) * 2 ^ (-900 : ℤ) := zpow_add₀ (by norm_num) _ _
    _ ≤ _ := mul_le_mul_of_nonneg_left hB1 (by positivity)

/-- **C126** Both baselines in IEEE doubles: for levels that are missing or up to `B` in magnitude, `2^-900 <= B <= 2^500`, and
`n_average_last_dry <= 2^25`, the constant baseline is right up to `5 n^2 2^-53 B`, the linear one (records of at most `2^53` steps) up to
`12 * 2^-53 B`. -/
theorem C126_doubles [FloorRing K] (x : List (RFl (binary64 (K := K)))) (B : K) (hB1 : (2 : K) ^ (-900 : ℤ) ≤ B) (hB2 : B ≤ 2 ^ (500 : ℤ))
    (hx : ∀ a ∈ x, a.val = .nan ∨ ∃ y, a.val = .fin y ∧ |y| ≤ B) :
    (∀ (wet : List Bool) (n : ℕ), 1 ≤ n → n ≤ 2 ^ 25 → x.length ≤ wet.length →
      ∃ b c, baselineConstant x wet n = .ok b ∧ baselineConstant (x.map (·.val)) wet n = .ok c ∧
        List.Forall₂ (fun y z => UpTo (5 * (n * n * (2 ^ (-53 : ℤ) * B))) y.val z) b c) ∧
    ∀ (wet : List (RFl (binary64 (K := K)))) (ignoreNan : Bool), 0 < x.length → x.length ≤ 2 ^ 53 → x.length ≤ wet.length →
      ∃ b c, baselineLinear x wet ignoreNan = .ok b ∧ baselineLinear (x.map (·.val)) (wet.map (·.val)) ignoreNan = .ok c ∧
        List.Forall₂ (fun y z => UpTo (12 * (2 ^ (-53 : ℤ) * B)) y.val z) b c := by
  have hB : 0 ≤ B := le_trans (by positivity) hB1
  have hbig : ∀ c : K, c ≤ 2 ^ (50 : ℤ) → c * B ≤ 2 ^ (1023 : ℤ) := by
    intro c hc
    calc c * B ≤ 2 ^ (50 : ℤ) * 2 ^ (500 : ℤ) := mul_le_mul hc hB2 hB (by positivity)
      _ = 2 ^ (550 : ℤ) := by rw [← zpow_add₀ (by norm_num)]; norm_num
      _ ≤ _ := zpow_le_zpow_right₀ (by norm_num) (by norm_num)
  refine ⟨fun wet n hn hn2 hlen => ?_, fun wet ignoreNan h0 h53 hlen => ?_⟩
  · have hnK : (n : K) ≤ 2 ^ 25 := by exact_mod_cast hn2
    have hn0 : (0 : K) ≤ n := Nat.cast_nonneg n
    obtain ⟨b, c, h1, h2, -, h3, -⟩ := C126_constant binary64_precision x wet n hn hlen B hB hx (hnK.trans (by norm_num)) (by
        have : (n : K) * n ≤ 2 ^ 25 * 2 ^ 25 := mul_le_mul hnK hnK hn0 (by positivity)
        have := mul_le_mul_of_nonneg_right this (by positivity : (0 : K) ≤ 2 ^ (-53 : ℤ))
        refine le_trans (mul_le_mul_of_nonneg_left this (by norm_num)) ?_
        norm_num) (b64_eta_le hB1) (by
        rw [← mul_assoc]
        refine hbig _ (le_trans (mul_le_mul_of_nonneg_left hnK (by norm_num)) ?_)
        norm_num)
    exact ⟨b, c, h1, h2, h3⟩
  · have hnK : (x.length : K) ≤ 2 ^ 53 := by exact_mod_cast h53
    refine C126_linear binary64_precision x wet ignoreNan B hB h0 hlen hx (by norm_num) (hbig 4 (by norm_num)) (hnK.trans (by norm_num)) ?_
    calc (2 : K) ^ (-1075 : ℤ) * x.length ≤ 2 ^ (-1075 : ℤ) * 2 ^ 53 := mul_le_mul_of_nonneg_left hnK (by positivity)
      _ = 2 ^ (-1022 : ℤ) := by
        rw [show (2 : K) ^ 53 = 2 ^ (53 : ℤ) by norm_cast, ← zpow_add₀ (by norm_num)]
        norm_num
      _ ≤ 2 ^ (-53 + -900 : ℤ) := zpow_le_zpow_right₀ (by norm_num) (by norm_num)
      _ = 2 ^ (-53 : ℤ) * 2 ^ (-900 : ℤ) := zpow_add₀ (by norm_num) _ _
      _ ≤ _ := mul_le_mul_of_nonneg_left hB1 (by positivity)

/-- Levels 50, 51, a gap, 60 dB with two dry steps and two wet ones: the constant baseline with `n_average_last_dry = 2` is 50.5 dB in the
wet period, in doubles up to 10^-12 dB. -/
example : ∃ b : List (RFl (binary64 (K := ℚ))), baselineConstant
    [PyFloat.ofInt (50 : ℕ), PyFloat.ofInt (51 : ℕ), PyFloat.nan, PyFloat.ofInt (60 : ℕ)] [false, false, true, true] 2 = .ok b ∧
    ∃ y z, b[3]? = some y ∧ y.val = .fin z ∧ |z - 101 / 2| ≤ 1 / 10 ^ 12 := by
  have v : ∀ m : ℕ, m ≤ 60 → (PyFloat.ofInt m : RFl (binary64 (K := ℚ))).val = .fin m := by
    intro m hm
    rw [RFl.val_ofInt]
    have := (binary64_precision (K := ℚ)).int_exact m (by
      have : (m : ℚ) ≤ 60 := by exact_mod_cast hm
      push_cast
      exact this.trans (by norm_num))
    simpa using this
  obtain ⟨b, c, h1, h2, h3⟩ := (C126_doubles (K := ℚ)
    [PyFloat.ofInt (50 : ℕ), PyFloat.ofInt (51 : ℕ), PyFloat.nan, PyFloat.ofInt (60 : ℕ)] 64
    (two_zpow_le (by norm_num) (by norm_num))
    (by rw [show (64 : ℚ) = 2 ^ (6 : ℤ) by norm_num]; exact zpow_le_zpow_right₀ one_le_two (by norm_num)) (by
      intro a ha
      simp only [List.mem_cons, List.not_mem_nil, or_false] at ha
      rcases ha with rfl | rfl | rfl | rfl
      · exact .inr ⟨_, v 50 (by norm_num), by norm_num⟩
      · exact .inr ⟨_, v 51 (by norm_num), by norm_num⟩
      · exact .inl rfl
      · exact .inr ⟨_, v 60 (by norm_num), by norm_num⟩)).1 [false, false, true, true] 2 (by norm_num) (by norm_num) (by simp)
  have hc : c = [.fin 50, .fin 51, .fin (101 / 2), .fin (101 / 2)] := by
    simp only [List.map_cons, List.map_nil, v 50 (by norm_num), v 51 (by norm_num), v 60 (by norm_num), RFl.val_nan] at h2
    have : baselineConstant [Fl.fin ((50 : ℕ) : ℚ), .fin ((51 : ℕ) : ℚ), .nan, .fin ((60 : ℕ) : ℚ)] [false, false, true, true] 2
        = .ok [.fin 50, .fin 51, .fin (101 / 2), .fin (101 / 2)] := by decide +kernel
    rw [this] at h2
    injection h2 with h2
    exact h2.symm
  subst hc
  refine ⟨b, h1, ?_⟩
  match b, h3 with
  | [b0, b1, b2, b3], .cons _ (.cons _ (.cons _ (.cons h _))) =>
    generalize hv : b3.val = v3 at h
    cases h with
    | fin h => exact ⟨b3, _, rfl, hv, h.trans (by norm_num)⟩

/-- A wet period between two dry steps in the middle of the record: the linear baseline in doubles. -/
example : ∃ b c, baselineLinear (F := RFl (binary64 (K := ℚ)))
    [PyFloat.ofInt (50 : ℕ), PyFloat.nan, PyFloat.ofInt (60 : ℕ), PyFloat.ofInt (51 : ℕ)]
    [PyFloat.ofInt (0 : ℕ), PyFloat.ofInt (1 : ℕ), PyFloat.ofInt (1 : ℕ), PyFloat.ofInt (0 : ℕ)] false = .ok b ∧
    baselineLinear [Fl.fin (50 : ℚ), .nan, .fin 60, .fin 51] [.fin 0, .fin 1, .fin 1, .fin 0] false = .ok c ∧
    c = [Fl.fin 50, .fin (151 / 3), .fin (152 / 3), .fin 51] ∧
    List.Forall₂ (fun y z => UpTo (12 * (2 ^ (-53 : ℤ) * 64)) y.val z) b c := by
  have v : ∀ m : ℕ, m ≤ 60 → (PyFloat.ofInt m : RFl (binary64 (K := ℚ))).val = .fin m := by
    intro m hm
    rw [RFl.val_ofInt]
    have := (binary64_precision (K := ℚ)).int_exact m (by
      have : (m : ℚ) ≤ 60 := by exact_mod_cast hm
      push_cast
      exact this.trans (by norm_num))
    simpa using this
  obtain ⟨b, c, h1, h2, h3⟩ := (C126_doubles (K := ℚ)
    [PyFloat.ofInt (50 : ℕ), PyFloat.nan, PyFloat.ofInt (60 : ℕ), PyFloat.ofInt (51 : ℕ)] 64
    (two_zpow_le (by norm_num) (by norm_num))
    (by rw [show (64 : ℚ) = 2 ^ (6 : ℤ) by norm_num]; exact zpow_le_zpow_right₀ one_le_two (by norm_num)) (by
      intro a ha
      simp only [List.mem_cons, List.not_mem_nil, or_false] at ha
      rcases ha with rfl | rfl | rfl | rfl
      · exact .inr ⟨_, v 50 (by norm_num), by norm_num⟩
      · exact .inl rfl
      · exact .inr ⟨_, v 60 (by norm_num), by norm_num⟩
      · exact .inr ⟨_, v 51 (by norm_num), by norm_num⟩)).2
    [PyFloat.ofInt (0 : ℕ), PyFloat.ofInt (1 : ℕ), PyFloat.ofInt (1 : ℕ), PyFloat.ofInt (0 : ℕ)] false (by simp) (by simp) (by simp)
  have e : baselineLinear [Fl.fin (50 : ℚ), .nan, .fin 60, .fin 51] [.fin 0, .fin 1, .fin 1, .fin 0] false
      = .ok [Fl.fin 50, .fin (151 / 3), .fin (152 / 3), .fin 51] := by decide +kernel
  simp only [List.map_cons, List.map_nil, v 50 (by norm_num), v 51 (by norm_num), v 60 (by norm_num), v 0 (by norm_num), v 1 (by norm_num),
    RFl.val_nan] at h2
  norm_num only at h2
  have hc := h2.symm.trans e
  injection hc with hc
  exact ⟨b, c, h1, h2, hc, h3⟩

end Verif.Props
