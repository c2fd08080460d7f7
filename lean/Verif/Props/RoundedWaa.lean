import Verif.Props.Rounding

/-!
# Property C120: accuracy of `waa_schleiss_2013` in floating point arithmetic
-/

namespace Verif.Props
open Verif Verif.Waa Verif.Bin

variable {K : Type} [Field K] [LinearOrder K] [IsStrictOrderedRing K] {R : Rounding K}

theorem val_pyMin (a b : RFl R) : (pyMin a b).val = pyMin a.val b.val := by
  unfold pyMin
  rw [RFl.lt_def]
  split_ifs <;> rfl

theorem pyMin_fin_fin (x y : K) : pyMin (Fl.fin x) (Fl.fin y) = .fin (min x y) := by
  unfold pyMin
  rw [Fl.pf_lt_fin]
  by_cases h : y < x
  · rw [if_pos (by simpa using h), min_eq_right h.le]
  · rw [if_neg (by simpa using h), min_eq_left (not_lt.mp h)]

theorem pyMin_nan_left (v : Fl K) : pyMin (Fl.nan) v = .nan := by
  unfold pyMin
  rw [if_neg]
  cases v <;> exact Bool.false_ne_true

theorem pyMin_nan_right (v : Fl K) : pyMin v Fl.nan = v := by
  unfold pyMin
  rw [if_neg]
  cases v <;> exact Bool.false_ne_true

/-- One step of the recursion: error of the computed value of `prev + (waa_max - prev) * 3 * delta_t / tau`. -/
theorem schleiss_step_err {u eta big imax : K} (hR : R.Precision u eta big imax) {prev waaMax deltaT tau : RFl R}
    {P M d t B : K} (hP : prev.val = .fin P) (hM : waaMax.val = .fin M) (hd : deltaT.val = .fin d) (ht : tau.val = .fin t)
    (hd0 : 0 ≤ d) (ht0 : 0 < t) (h3 : 3 * d ≤ t) (hu : u ≤ 1 / 100) (he1 : eta ≤ u * B) (he2 : eta ≤ u * B * t)
    (hbig : 8 * B * (1 + d) ≤ big) (h3i : 3 ≤ imax) (hB : 0 ≤ B) (hM0 : 0 ≤ M) (hMB : M ≤ B) (hP1 : |P| ≤ (1 + u) * B) :
    ∃ s, (prev +ᶠ (waaMax -ᶠ prev) *ᶠ PyFloat.ofInt 3 *ᶠ deltaT /ᶠ tau).val = .fin s ∧
      |s - (P + (M - P) * (3 * d / t))| ≤ 14 * (u * B) := by
  have hu0 := hR.u_nonneg
  have he0 := hR.eta_nonneg
  set w := u * B with hw
  have hw0 : 0 ≤ w := mul_nonneg hu0 hB
  have hwB : w ≤ B / 100 := by
    have := mul_le_mul_of_nonneg_right hu hB
    linarith
  have hBd : 0 ≤ B * d := mul_nonneg hB hd0
  have hb8 : 8 * B ≤ big := by nlinarith
  have uB : ∀ x c : K, x ≤ c * B → u * x ≤ c * w := by
    intro x c h
    have := mul_le_mul_of_nonneg_left h hu0
    rw [hw]; linarith
  have hP1' : |P| ≤ 101 / 100 * B := by
    refine hP1.trans ?_
    have := mul_le_mul_of_nonneg_right hu hB
    linarith
  have hV : |M - P| ≤ 201 / 100 * B := by
    refine (abs_sub _ _).trans ?_
    rw [abs_of_nonneg hM0]
    linarith
  obtain ⟨s1, h1, e1⟩ := hR.sub_err M P (RFl.rnd_of_val hM) (RFl.rnd_of_val hP) (by linarith)
  have v1 : (waaMax -ᶠ prev).val = .fin s1 := by rw [RFl.val_sub, hM, hP, Fl.pf_sub_fin]; exact h1
  have e1' : |s1 - (M - P)| ≤ 201 / 100 * w := e1.trans (uB _ _ hV)
  have b1 : |s1| ≤ 2031 / 1000 * B := by
    have := abs_add_le (s1 - (M - P)) (M - P)
    rw [sub_add_cancel] at this
    linarith
  have v3 : (PyFloat.ofInt 3 : RFl R).val = .fin 3 := by
    rw [RFl.val_ofInt]
    have := hR.int_exact 3 (by exact_mod_cast h3i)
    simpa using this
  have a13 : |s1 * 3| = |s1| * 3 := by rw [abs_mul, abs_of_nonneg (by norm_num : (0 : K) ≤ 3)]
  obtain ⟨s2, h2, e2⟩ := hR.err (s1 * 3) (by rw [a13]; linarith)
  have v2 : ((waaMax -ᶠ prev) *ᶠ PyFloat.ofInt 3).val = .fin s2 := by
    rw [RFl.val_mul, v1, v3, Fl.pf_mul_fin]; exact h2
  have e2' : |s2 - s1 * 3| ≤ 7093 / 1000 * w := by
    have := uB (|s1 * 3|) (6093 / 1000) (by rw [a13]; linarith)
    linarith
  have b2 : |s2| ≤ 617 / 100 * B := by
    have := abs_add_le (s2 - s1 * 3) (s1 * 3)
    rw [sub_add_cancel, a13] at this
    linarith
  have a2d : |s2 * d| = |s2| * d := by rw [abs_mul, abs_of_nonneg hd0]
  have b2d : |s2| * d ≤ 617 / 100 * B * d := mul_le_mul_of_nonneg_right b2 hd0
  obtain ⟨s3, h3', e3⟩ := hR.err (s2 * d) (by rw [a2d]; nlinarith)
  have v3' : ((waaMax -ᶠ prev) *ᶠ PyFloat.ofInt 3 *ᶠ deltaT).val = .fin s3 := by
    rw [RFl.val_mul, v2, hd, Fl.pf_mul_fin]; exact h3'
  set r := d / t with hr
  have hr0 : 0 ≤ r := div_nonneg hd0 ht0.le
  have hr1 : r ≤ 1 / 3 := by rw [hr, div_le_iff₀ ht0]; linarith
  have hdr : d = r * t := by rw [hr, div_mul_cancel₀ _ ht0.ne']
  have e3' : |s3 / t - s2 * r| ≤ 306 / 100 * w := by
    have e : s3 / t - s2 * r = (s3 - s2 * d) / t := by rw [hr]; ring
    rw [e, abs_div, abs_of_pos ht0, div_le_iff₀ ht0]
    refine e3.trans ?_
    rw [a2d]
    have i1 : u * (|s2| * d) ≤ 617 / 100 * w * d := by
      have := mul_le_mul_of_nonneg_right (uB _ _ b2) hd0
      linarith
    have i2 : w * d ≤ w * (1 / 3 * t) := by
      refine mul_le_mul_of_nonneg_left ?_ hw0
      linarith
    linarith
  have b3 : |s3 / t| ≤ 21 / 10 * B := by
    have := abs_add_le (s3 / t - s2 * r) (s2 * r)
    rw [sub_add_cancel, abs_mul, abs_of_nonneg hr0] at this
    have i : |s2| * r ≤ 617 / 100 * B * (1 / 3) := mul_le_mul b2 hr1 hr0 (by linarith)
    linarith
  obtain ⟨s4, h4, e4⟩ := hR.err (s3 / t) (by linarith)
  have v4 : ((waaMax -ᶠ prev) *ᶠ PyFloat.ofInt 3 *ᶠ deltaT /ᶠ tau).val = .fin s4 := by
    rw [RFl.val_div, v3', ht, Fl.pf_div_fin_ne _ _ ht0.ne']; exact h4
  have e4' : |s4 - s3 / t| ≤ 31 / 10 * w := by
    have := uB _ _ b3
    linarith
  have b4 : |s4| ≤ 214 / 100 * B := by
    have := abs_add_le (s4 - s3 / t) (s3 / t)
    rw [sub_add_cancel] at this
    linarith
  have b5 : |P + s4| ≤ 315 / 100 * B := (abs_add_le _ _).trans (by linarith)
  obtain ⟨s5, h5, e5⟩ := hR.add_err P s4 (RFl.rnd_of_val hP) (RFl.rnd_of_val v4) (by linarith)
  have e5' := e5.trans (uB _ _ b5)
  refine ⟨s5, by rw [RFl.val_add, hP, v4, Fl.pf_add_fin]; exact h5, ?_⟩
  have e : s5 - (P + (M - P) * (3 * d / t)) =
      (s5 - (P + s4)) + ((s4 - s3 / t) + ((s3 / t - s2 * r) + (r * (s2 - s1 * 3) + 3 * r * (s1 - (M - P))))) := by
    rw [hr]; ring
  rw [e]
  have j1 : |r * (s2 - s1 * 3)| ≤ 1 / 3 * (7093 / 1000 * w) := by
    rw [abs_mul, abs_of_nonneg hr0]
    exact mul_le_mul hr1 e2' (abs_nonneg _) (by norm_num)
  have j2 : |3 * r * (s1 - (M - P))| ≤ 1 * (201 / 100 * w) := by
    rw [abs_mul, abs_of_nonneg (by linarith)]
    exact mul_le_mul (by linarith) e1' (abs_nonneg _) (by norm_num)
  have k1 := abs_add_le (s5 - (P + s4)) ((s4 - s3 / t) + ((s3 / t - s2 * r) + (r * (s2 - s1 * 3) + 3 * r * (s1 - (M - P)))))
  have k2 := abs_add_le (s4 - s3 / t) ((s3 / t - s2 * r) + (r * (s2 - s1 * 3) + 3 * r * (s1 - (M - P))))
  have k3 := abs_add_le (s3 / t - s2 * r) (r * (s2 - s1 * 3) + 3 * r * (s1 - (M - P)))
  have k4 := abs_add_le (r * (s2 - s1 * 3)) (3 * r * (s1 - (M - P)))
  linarith

theorem abs_min_sub_min {a b c d : K} {E : K} (h1 : |a - c| ≤ E) (h2 : |b - d| ≤ E) : |min a b - min c d| ≤ E := by
  obtain ⟨p1, p2⟩ := abs_le.mp h1
  obtain ⟨q1, q2⟩ := abs_le.mp h2
  rw [abs_le]
  constructor
  · rcases min_choice a b with h | h <;> rw [h]
    · linarith [min_le_left c d]
    · linarith [min_le_right c d]
  · rcases min_choice c d with h | h <;> rw [h]
    · linarith [min_le_left a b]
    · linarith [min_le_right a b]

/-- **C120** Accuracy of the WAA in floating point arithmetic with relative precision `u`, on data with gaps: the WAA of rounded and of
exact arithmetic are NaN at the same places and elsewhere differ by at most `16 i u B` at step `i`, where `B` bounds the
attenuations and `waa_max`; however long the record, the difference is also at most `16 u B tau / (3 delta_t)`. -/
theorem C120_schleiss_accuracy {u eta big imax : K} (hR : R.Precision u eta big imax) (rsl base wet : List (RFl R))
    (waaMax deltaT tau : RFl R) (M d t B : K) (hM : waaMax.val = .fin M) (hd : deltaT.val = .fin d) (ht : tau.val = .fin t)
    (hd0 : 0 ≤ d) (ht0 : 0 < t) (h3 : 3 * d ≤ t) (hM0 : 0 ≤ M) (hMB : M ≤ B)
    (hu : u ≤ 1 / 100) (he1 : eta ≤ u * B) (he2 : eta ≤ u * B * t) (hbig : 8 * B * (1 + d) ≤ big) (h3i : 3 ≤ imax)
    (hl : rsl.length = base.length) (hw : rsl.length ≤ wet.length)
    (hin : ∀ (i : Nat) a b, rsl[i]? = some a → base[i]? = some b →
      (a.val = .nan ∨ b.val = .nan) ∨ ∃ x y, a.val = .fin x ∧ b.val = .fin y ∧ |x - y| ≤ B) :
    ∃ out ws, waaSchleiss rsl base wet waaMax deltaT tau = .ok out ∧
      waaSchleiss (rsl.map (·.val)) (base.map (·.val)) (wet.map (·.val)) waaMax.val deltaT.val tau.val = .ok ws ∧
      out.length = rsl.length ∧ ws.length = rsl.length ∧
      ∀ (i : Nat) o w, out[i]? = some o → ws[i]? = some w →
        (o.val = .nan ∧ w = .nan) ∨
        ∃ p q, o.val = .fin p ∧ w = .fin q ∧ |p - q| ≤ 16 * i * (u * B) ∧ |p - q| * (3 * d / t) ≤ 16 * (u * B) := by
  have hu0 := hR.u_nonneg
  have hB : 0 ≤ B := hM0.trans hMB
  have hw0 : 0 ≤ u * B := mul_nonneg hu0 hB
  have hwB : u * B ≤ B / 100 := by
    have := mul_le_mul_of_nonneg_right hu hB
    linarith
  have htau1 : (tau ==ᶠ PyFloat.ofInt 0) = false := by
    rw [RFl.eq_def, ht, RFl.val_zero]; simpa using ht0.ne'
  have htau2 : (tau.val ==ᶠ PyFloat.ofInt 0) = false := by
    rw [ht]; simpa using ht0.ne'
  obtain ⟨out, o1, o2, o3, o4⟩ := schleiss_rec rsl base wet waaMax deltaT tau hl hw htau1
  obtain ⟨ws, w1, w2, w3, w4⟩ := schleiss_rec (rsl.map (·.val)) (base.map (·.val)) (wet.map (·.val)) waaMax.val deltaT.val
    tau.val (by simpa using hl) (by simpa using hw) htau2
  simp only [List.length_map] at w2 w3 w4
  set k := 3 * d / t with hk
  have hk0 : 0 ≤ k := div_nonneg (by linarith) ht0.le
  have hk1 : k ≤ 1 := by rw [hk, div_le_one ht0]; exact h3
  -- the attenuations
  have hA : ∀ i, i < rsl.length →
      ((rd (atten rsl base) i).val = .nan ∧ rd (atten (rsl.map (·.val)) (base.map (·.val))) i = .nan) ∨
      ∃ α α', (rd (atten rsl base) i).val = .fin α ∧ rd (atten (rsl.map (·.val)) (base.map (·.val))) i = .fin α' ∧
        |α - α'| ≤ u * B ∧ |α'| ≤ B := by
    intro i hi
    have ga := getElem?_eq_rd hi
    have gb := getElem?_eq_rd (show i < base.length by omega)
    have e1 : rd (atten rsl base) i = rd rsl i -ᶠ rd base i := by
      apply rd_of_getElem?
      simp [atten, List.getElem?_zipWith, ga, gb]
    have e2 : rd (atten (rsl.map (·.val)) (base.map (·.val))) i = (rd rsl i).val -ᶠ (rd base i).val := by
      apply rd_of_getElem?
      simp [atten, List.getElem?_zipWith, ga, gb]
    rw [e1, e2, RFl.val_sub]
    rcases hin i _ _ ga gb with h | ⟨x, y, hx, hy, hxy⟩
    · left
      have : ((rd rsl i).val -ᶠ (rd base i).val : Fl K) = .nan := by
        rcases h with h | h <;> rw [h]
        · generalize (rd base i).val = v
          cases v <;> rfl
        · generalize (rd rsl i).val = v
          cases v <;> rfl
      rw [this]
      exact ⟨rfl, rfl⟩
    · right
      obtain ⟨z, hz, hze⟩ := hR.sub_err x y (RFl.rnd_of_val hx) (RFl.rnd_of_val hy) (by nlinarith [mul_nonneg hB hd0])
      refine ⟨z, x - y, by rw [hx, hy, Fl.pf_sub_fin]; exact hz, by rw [hx, hy, Fl.pf_sub_fin], ?_, hxy⟩
      exact hze.trans (mul_le_mul_of_nonneg_left hxy hu0)
  have hwet : ∀ i, i < rsl.length → (rd (wet.map (·.val)) i ==ᶠ PyFloat.ofInt 1) = (rd wet i ==ᶠ PyFloat.ofInt 1) := by
    intro i hi
    have : rd (wet.map (·.val)) i = (rd wet i).val := by
      apply rd_of_getElem?
      rw [List.getElem?_map, getElem?_eq_rd (show i < wet.length by omega)]
      rfl
    rw [this, RFl.eq_def, RFl.val_one]
    simp
  have key : ∀ i, i < rsl.length → ((rd out i).val = .nan ∧ rd ws i = .nan) ∨
      ∃ p q, (rd out i).val = .fin p ∧ rd ws i = .fin q ∧ |p - q| ≤ 16 * i * (u * B) ∧ |p - q| * k ≤ 16 * (u * B) ∧
        |p| ≤ (1 + u) * B ∧ p ≤ M ∧ |q| ≤ B ∧ q ≤ M := by
    intro i
    induction i with
    | zero =>
      intro hi
      right
      refine ⟨0, 0, by rw [o3 hi, RFl.val_zero], by rw [w3 hi]; simp, by simp, by simpa using hw0, ?_, hM0, by simpa using hB, hM0⟩
      rw [abs_zero]
      exact mul_nonneg (by linarith) hB
    | succ i ih =>
      intro hi
      have ih := ih (by omega)
      rw [o4 (i + 1) (by omega) hi, w4 (i + 1) (by omega) hi]
      unfold schleissVal
      rw [hwet _ hi, Nat.add_sub_cancel]
      rcases hA (i + 1) hi with ⟨n1, n2⟩ | ⟨α, α', a1, a2, a3, a4⟩
      · left
        split_ifs
        · rw [val_pyMin, val_pyMin, n1, n2, pyMin_nan_left, pyMin_nan_left, pyMin_nan_left]
          exact ⟨rfl, rfl⟩
        · rw [val_pyMin, n1, n2, pyMin_nan_left]
          exact ⟨rfl, rfl⟩
      · right
        have hα : |α| ≤ (1 + u) * B := by
          have := abs_add_le (α - α') α'
          rw [sub_add_cancel] at this
          linarith
        obtain ⟨α1, α2⟩ := abs_le.mp hα
        obtain ⟨β1, β2⟩ := abs_le.mp a4
        have hMu : M ≤ (1 + u) * B := by linarith
        have base2 : |min α M - min α' M| ≤ u * B := abs_min_sub_min a3 (by simpa using hw0)
        have iK : (0 : K) ≤ i := Nat.cast_nonneg i
        have i16 : 16 * (u * B) ≤ 16 * ((i + 1 : ℕ) : K) * (u * B) := by
          push_cast
          have := mul_nonneg iK hw0
          linarith
        have dry : |min α M - min α' M| ≤ 16 * ((i + 1 : ℕ) : K) * (u * B) ∧ |min α M - min α' M| * k ≤ 16 * (u * B) ∧
            |min α M| ≤ (1 + u) * B ∧ min α M ≤ M ∧ |min α' M| ≤ B ∧ min α' M ≤ M := by
          refine ⟨by linarith, ?_, ?_, min_le_right _ _, ?_, min_le_right _ _⟩
          · have := mul_le_mul base2 hk1 hk0 hw0
            linarith
          · rw [abs_le]
            exact ⟨le_min α1 (by linarith), (min_le_right _ _).trans hMu⟩
          · rw [abs_le]
            exact ⟨le_min β1 (by linarith), (min_le_right _ _).trans hMB⟩
        split_ifs with hflag
        · rcases ih with ⟨n1, n2⟩ | ⟨p, q, hp, hq, g1, g2, g3, g4, g5, g6⟩
          · refine ⟨min α M, min α' M, ?_, ?_, dry⟩
            · have : (rd out i +ᶠ (waaMax -ᶠ rd out i) *ᶠ PyFloat.ofInt 3 *ᶠ deltaT /ᶠ tau).val = .nan := by
                rw [RFl.val_add, n1]; rfl
              rw [val_pyMin, val_pyMin, this, a1, hM, pyMin_nan_right, pyMin_fin_fin]
            · rw [n2, a2, hM]
              have : (Fl.nan +ᶠ (Fl.fin M -ᶠ Fl.nan) *ᶠ PyFloat.ofInt 3 *ᶠ deltaT.val /ᶠ tau.val : Fl K) = .nan := rfl
              rw [this, pyMin_nan_right, pyMin_fin_fin]
          · obtain ⟨s, hs, hse⟩ := schleiss_step_err hR hp hM hd ht hd0 ht0 h3 hu he1 he2 hbig h3i hB hM0 hMB g3
            have hge : p ≤ s := by
              have hn : isNaN (rd out i +ᶠ (waaMax -ᶠ rd out i) *ᶠ PyFloat.ofInt 3 *ᶠ deltaT /ᶠ tau) = false := by
                rw [RFl.isNaN_def, hs]; rfl
              have := schleiss_step_ge (prev := rd out i) (waaMax := waaMax) (deltaT := deltaT) (tau := tau)
                (by rw [RFl.le_def, hp, hM, Fl.pf_le_fin, decide_eq_true_eq]; exact g4)
                (by rw [RFl.le_def, RFl.val_zero, hd, Fl.pf_le_fin, decide_eq_true_eq]; exact hd0)
                (by rw [RFl.lt_def, RFl.val_zero, ht, Fl.pf_lt_fin, decide_eq_true_eq]; exact ht0) hn
              rw [RFl.le_def, hp, hs, Fl.pf_le_fin, decide_eq_true_eq] at this
              exact this
            have hqge : q ≤ q + (M - q) * k := by
              have := mul_nonneg (show 0 ≤ M - q by linarith) hk0
              linarith
            refine ⟨min (min α M) s, min (min α' M) (q + (M - q) * k), ?_, ?_, ?_⟩
            · rw [val_pyMin, val_pyMin, hs, a1, hM, pyMin_fin_fin, pyMin_fin_fin]
            · rw [hq, a2, hM, hd, ht, pyMin_fin_fin]
              have : (Fl.fin q +ᶠ (Fl.fin M -ᶠ Fl.fin q) *ᶠ PyFloat.ofInt 3 *ᶠ Fl.fin d /ᶠ Fl.fin t : Fl K) =
                  .fin (q + (M - q) * k) := by
                simp only [Fl.pf_sub_fin, Fl.pf_ofInt, Fl.pf_mul_fin, Fl.pf_div_fin_ne _ _ ht0.ne', Fl.pf_add_fin]
                congr 1
                rw [hk]
                push_cast
                ring
              rw [this, pyMin_fin_fin]
            · have hse' : |s - (q + (M - q) * k)| ≤ (1 - k) * |p - q| + 14 * (u * B) := by
                have e : s - (q + (M - q) * k) = (s - (p + (M - p) * k)) + (1 - k) * (p - q) := by ring
                rw [e]
                refine (abs_add_le _ _).trans ?_
                rw [abs_mul, abs_of_nonneg (by linarith : 0 ≤ 1 - k)]
                linarith
              have hpq := abs_nonneg (p - q)
              have hkpq : 0 ≤ k * |p - q| := mul_nonneg hk0 hpq
              have comb : |min (min α M) s - min (min α' M) (q + (M - q) * k)| ≤ (1 - k) * |p - q| + 14 * (u * B) := by
                refine abs_min_sub_min (base2.trans ?_) hse'
                have := mul_nonneg (by linarith : 0 ≤ 1 - k) hpq
                linarith
              refine ⟨?_, ?_, ?_, ?_, ?_, ?_⟩
              · refine comb.trans ?_
                push_cast
                linarith
              · have h1 := mul_le_mul_of_nonneg_right comb hk0
                have h2 := mul_le_mul_of_nonneg_left g2 (by linarith : 0 ≤ 1 - k)
                have h3 := mul_nonneg hk0 hw0
                linarith
              · rw [abs_le]
                exact ⟨le_min (abs_le.mp dry.2.2.1).1 ((abs_le.mp g3).1.trans hge),
                  ((min_le_left _ _).trans (min_le_right _ _)).trans hMu⟩
              · exact (min_le_left _ _).trans (min_le_right _ _)
              · rw [abs_le]
                exact ⟨le_min (abs_le.mp dry.2.2.2.2.1).1 ((abs_le.mp g5).1.trans hqge),
                  ((min_le_left _ _).trans (min_le_right _ _)).trans hMB⟩
              · exact (min_le_left _ _).trans (min_le_right _ _)
        · exact ⟨min α M, min α' M, by rw [val_pyMin, a1, hM, pyMin_fin_fin], by rw [a2, hM, pyMin_fin_fin], dry⟩
  refine ⟨out, ws, o1, w1, o2, w2, ?_⟩
  intro i o w ho hw'
  have hi : i < rsl.length := by
    rw [← o2]; exact (List.getElem?_eq_some_iff.mp ho).1
  obtain rfl := rd_of_getElem? ho
  obtain rfl := rd_of_getElem? hw'
  rcases key i hi with h | ⟨p, q, h1, h2, h3, h4, -⟩
  · exact .inl h
  · exact .inr ⟨p, q, h1, h2, h3, h4⟩

/-- **C120** The same for IEEE doubles: with attenuations and `waa_max` up to `B` between `2^-900` and `2^500`, `3 delta_t ≤ tau`, `tau` not below
`2^-100` and `delta_t` up to `2^500`, the WAA is right up to `16 i 2^-53 B` at step `i`, and up to `16 * 2^-53 B tau / (3 delta_t)`
at every step. -/
theorem C120_schleiss_doubles [FloorRing K] (rsl base wet : List (RFl (binary64 (K := K))))
    (waaMax deltaT tau : RFl (binary64 (K := K))) (M d t B : K) (hM : waaMax.val = .fin M) (hd : deltaT.val = .fin d)
    (ht : tau.val = .fin t) (hd0 : 0 ≤ d) (h3 : 3 * d ≤ t) (hM0 : 0 ≤ M) (hMB : M ≤ B)
    (hB1 : (2 : K) ^ (-900 : ℤ) ≤ B) (hB2 : B ≤ 2 ^ (500 : ℤ)) (ht1 : (2 : K) ^ (-100 : ℤ) ≤ t) (hd2 : d ≤ 2 ^ (500 : ℤ))
    (hl : rsl.length = base.length) (hw : rsl.length ≤ wet.length)
    (hin : ∀ (i : Nat) a b, rsl[i]? = some a → base[i]? = some b →
      (a.val = .nan ∨ b.val = .nan) ∨ ∃ x y, a.val = .fin x ∧ b.val = .fin y ∧ |x - y| ≤ B) :
    ∃ out ws, waaSchleiss rsl base wet waaMax deltaT tau = .ok out ∧
      waaSchleiss (rsl.map (·.val)) (base.map (·.val)) (wet.map (·.val)) waaMax.val deltaT.val tau.val = .ok ws ∧
      out.length = rsl.length ∧ ws.length = rsl.length ∧
      ∀ (i : Nat) o w, out[i]? = some o → ws[i]? = some w →
        (o.val = .nan ∧ w = .nan) ∨
        ∃ p q, o.val = .fin p ∧ w = .fin q ∧ |p - q| ≤ 16 * i * (2 ^ (-53 : ℤ) * B) ∧
          |p - q| * (3 * d / t) ≤ 16 * (2 ^ (-53 : ℤ) * B) := by
  have hB0 : 0 < B := lt_of_lt_of_le (zpow_pos two_pos _) hB1
  refine C120_schleiss_accuracy binary64_precision rsl base wet waaMax deltaT tau M d t B hM hd ht hd0
    (lt_of_lt_of_le (by positivity) ht1) h3 hM0 hMB (by norm_num) ?_ ?_ ?_ (by norm_num) hl hw hin
  · calc (2 : K) ^ (-1075 : ℤ) ≤ 2 ^ (-53 + -900 : ℤ) := zpow_le_zpow_right₀ (by norm_num) (by norm_num)
      _ = 2 ^ (-53 : ℤ) * 2 ^ (-900 : ℤ) := zpow_add₀ (by norm_num) _ _
      _ ≤ _ := mul_le_mul_of_nonneg_left hB1 (by positivity)
  · calc (2 : K) ^ (-1075 : ℤ) ≤ 2 ^ (-53 + -900 + -100 : ℤ) := zpow_le_zpow_right₀ (by norm_num) (by norm_num)
      _ = 2 ^ (-53 : ℤ) * 2 ^ (-900 : ℤ) * 2 ^ (-100 : ℤ) := by rw [zpow_add₀ (by norm_num), zpow_add₀ (by norm_num)]
      _ ≤ _ := mul_le_mul (mul_le_mul_of_nonneg_left hB1 (by positivity)) ht1 (by positivity) (by positivity)
  · calc 8 * B * (1 + d) ≤ 2 ^ (3 : ℤ) * 2 ^ (500 : ℤ) * (2 ^ (500 : ℤ) + 2 ^ (500 : ℤ)) := by
          refine mul_le_mul (mul_le_mul (by norm_num) hB2 hB0.le (by positivity))
            (add_le_add (one_le_zpow₀ one_le_two (by norm_num)) hd2) (by linarith)
            (mul_nonneg (zpow_nonneg zero_le_two _) (zpow_nonneg zero_le_two _))
      _ = 2 ^ (1004 : ℤ) := by
        rw [← two_mul, ← zpow_one_add₀ (by norm_num), ← zpow_add₀ (by norm_num), ← zpow_add₀ (by norm_num)]
        norm_num
      _ ≤ _ := zpow_le_zpow_right₀ (by norm_num) (by norm_num)

theorem le_two_zpow {x : K} {n : ℤ} (hn : 3 ≤ n) (hx : x ≤ 8) : x ≤ 2 ^ n :=
  hx.trans (le_trans (by norm_num : (8 : K) ≤ 2 ^ (3 : ℤ)) (zpow_le_zpow_right₀ one_le_two hn))

theorem two_zpow_le {x : K} {n : ℤ} (hn : n ≤ 0) (hx : 1 ≤ x) : (2 : K) ^ n ≤ x :=
  (zpow_le_one_of_nonpos₀ one_le_two hn).trans hx

/-- Three steps in the rain with `waa_max = 2`, `delta_t = 1` and `tau = 15`, after a gap: in exact arithmetic the WAA are 0, NaN, 2 and
2; doubles are right to 15 digits. -/
example : ∃ out : List (RFl (binary64 (K := ℚ))), waaSchleiss
    [PyFloat.ofInt (0 : ℕ), PyFloat.nan, PyFloat.ofInt (5 : ℕ), PyFloat.ofInt (4 : ℕ)]
    [PyFloat.ofInt (0 : ℕ), PyFloat.ofInt (0 : ℕ), PyFloat.ofInt (0 : ℕ), PyFloat.ofInt (0 : ℕ)]
    [PyFloat.ofInt (0 : ℕ), PyFloat.ofInt (1 : ℕ), PyFloat.ofInt (1 : ℕ), PyFloat.ofInt (1 : ℕ)]
    (PyFloat.ofInt (2 : ℕ)) (PyFloat.ofInt (1 : ℕ)) (PyFloat.ofInt (15 : ℕ)) = .ok out ∧
      ∃ o p, out[3]? = some o ∧ o.val = .fin p ∧ |p - 2| ≤ 1 / 10 ^ 13 := by
  have v := val_ofNat_binary64
  have v0 := v 0 (by norm_num)
  have v1 := v 1 (by norm_num)
  have v2 := v 2 (by norm_num)
  have v4 := v 4 (by norm_num)
  have v5 := v 5 (by norm_num)
  have v15 := v 15 (by norm_num)
  obtain ⟨out, ws, h1, h2, h3, h4, h5⟩ := C120_schleiss_doubles (K := ℚ)
    [PyFloat.ofInt (0 : ℕ), PyFloat.nan, PyFloat.ofInt (5 : ℕ), PyFloat.ofInt (4 : ℕ)]
    [PyFloat.ofInt (0 : ℕ), PyFloat.ofInt (0 : ℕ), PyFloat.ofInt (0 : ℕ), PyFloat.ofInt (0 : ℕ)]
    [PyFloat.ofInt (0 : ℕ), PyFloat.ofInt (1 : ℕ), PyFloat.ofInt (1 : ℕ), PyFloat.ofInt (1 : ℕ)]
    (PyFloat.ofInt (2 : ℕ)) (PyFloat.ofInt (1 : ℕ)) (PyFloat.ofInt (15 : ℕ)) 2 1 15 5
    (by simpa using v2) (by simpa using v1) (by simpa using v15) (by norm_num) (by norm_num) (by norm_num) (by norm_num)
    (two_zpow_le (by norm_num) (by norm_num)) (le_two_zpow (by norm_num) (by norm_num))
    (two_zpow_le (by norm_num) (by norm_num)) (le_two_zpow (by norm_num) (by norm_num)) (by simp) (by simp)
    (by
      intro i a b ha hb
      have hi : i < 4 := (List.getElem?_eq_some_iff.mp ha).1
      interval_cases i
      · obtain rfl := Option.some.inj ha
        obtain rfl := Option.some.inj hb
        exact .inr ⟨0, 0, by simpa using v0, by simpa using v0, by norm_num⟩
      · obtain rfl := Option.some.inj ha
        exact .inl (.inl rfl)
      · obtain rfl := Option.some.inj ha
        obtain rfl := Option.some.inj hb
        exact .inr ⟨5, 0, by simpa using v5, by simpa using v0, by norm_num⟩
      · obtain rfl := Option.some.inj ha
        obtain rfl := Option.some.inj hb
        exact .inr ⟨4, 0, by simpa using v4, by simpa using v0, by norm_num⟩)
  refine ⟨out, h1, ?_⟩
  have hws : ws = [.fin 0, .nan, .fin 2, .fin 2] := by
    simp only [List.map_cons, List.map_nil, v0, v1, v2, v4, v5, v15, RFl.val_nan] at h2
    have : waaSchleiss [Fl.fin ((0 : ℕ) : ℚ), .nan, .fin ((5 : ℕ) : ℚ), .fin ((4 : ℕ) : ℚ)]
        [.fin ((0 : ℕ) : ℚ), .fin ((0 : ℕ) : ℚ), .fin ((0 : ℕ) : ℚ), .fin ((0 : ℕ) : ℚ)]
        [.fin ((0 : ℕ) : ℚ), .fin ((1 : ℕ) : ℚ), .fin ((1 : ℕ) : ℚ), .fin ((1 : ℕ) : ℚ)]
        (.fin ((2 : ℕ) : ℚ)) (.fin ((1 : ℕ) : ℚ)) (.fin ((15 : ℕ) : ℚ)) = .ok [.fin 0, .nan, .fin 2, .fin 2] := by
      decide +kernel
    rw [this] at h2
    injection h2 with h2
    exact h2.symm
  have g3 : out[3]? = some (rd out 3) := getElem?_eq_rd (by rw [h3]; simp)
  rcases h5 3 _ (.fin 2) g3 (by rw [hws]; rfl) with h | ⟨p, q, e1, e2, e3, -⟩
  · cases h.2
  · refine ⟨_, p, g3, e1, ?_⟩
    injection e2 with e2
    subst e2
    refine e3.trans ?_
    norm_num

end Verif.Props
