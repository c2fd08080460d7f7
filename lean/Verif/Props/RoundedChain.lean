import Verif.Props.RoundedBaseline
import Verif.Props.RateClose

/-!
# Property C127: accuracy of the whole chain in floating point arithmetic
-/

namespace Verif.Props
open Verif Verif.Baseline Verif.Waa Verif.Bin Verif.KR

section general
variable {K : Type} [Field K] [LinearOrder K] [IsStrictOrderedRing K] {R : Rounding K}

theorem UpTo.trans {E E' : K} {a b c : Fl K} (h : UpTo E a b) (h' : UpTo E' b c) : UpTo (E + E') a c := by
  cases h with
  | nan => cases h'; exact .nan
  | fin h =>
    cases h' with
    | fin h' =>
      rename_i x y z
      refine .fin ?_
      have := abs_add_le (x - y) (y - z)
      rw [sub_add_sub_cancel] at this
      linarith

/-- missing or at most `C` in magnitude -/
def AtMost (C : K) (v : Fl K) : Prop := v = .nan ∨ ∃ x, v = .fin x ∧ |x| ≤ C

theorem AtMost.pyMin {C : K} {v w : Fl K} (hv : AtMost C v) (hw : AtMost C w) : AtMost C (pyMin v w) := by
  rcases hv with rfl | ⟨x, rfl, hx⟩
  · rw [pyMin_nan_left]; exact .inl rfl
  · rcases hw with rfl | ⟨y, rfl, hy⟩
    · rw [pyMin_nan_right]; exact .inr ⟨x, rfl, hx⟩
    · rw [pyMin_fin_fin]
      refine .inr ⟨_, rfl, ?_⟩
      rcases min_choice x y with h | h <;> rw [h] <;> assumption

/-- The exact WAA is at most as large in magnitude as attenuation and `waa_max`. -/
theorem schleiss_atMost (C : K) (rsl base wet w : List (Fl K)) (M d t : K) (hd0 : 0 ≤ d) (ht0 : 0 < t) (h3 : 3 * d ≤ t)
    (hM : |M| ≤ C) (hl : rsl.length = base.length) (hw : rsl.length ≤ wet.length)
    (h : ∀ i, i < rsl.length → AtMost C (rd (atten rsl base) i))
    (ho : waaSchleiss rsl base wet (.fin M) (.fin d) (.fin t) = .ok w) :
    ∀ i, i < rsl.length → AtMost C (rd w i) := by
  have htau : ((Fl.fin t : Fl K) ==ᶠ PyFloat.ofInt 0) = false := by simpa using ht0.ne'
  obtain ⟨w', o1, o2, o3, o4⟩ := schleiss_rec rsl base wet (.fin M) (.fin d) (.fin t) hl hw htau
  rw [ho] at o1
  cases o1
  set k := 3 * d / t with hk
  have hk0 : 0 ≤ k := div_nonneg (by linarith) ht0.le
  have hk1 : k ≤ 1 := by rw [hk, div_le_one ht0]; exact h3
  have hMM : AtMost C (Fl.fin M) := .inr ⟨M, rfl, hM⟩
  intro i
  induction i with
  | zero =>
    intro hi
    rw [o3 (by omega), Fl.pf_ofInt]
    exact .inr ⟨_, rfl, by simpa using (abs_nonneg M).trans hM⟩
  | succ i ih =>
    intro hi
    have ih' := ih (by omega)
    clear ih
    rw [o4 (i + 1) (by omega) (by omega)]
    unfold schleissVal
    rw [Nat.add_sub_cancel]
    have hA := h (i + 1) hi
    split_ifs
    · refine (hA.pyMin hMM).pyMin ?_
      rcases ih' with h | ⟨z, h, hz⟩ <;> rw [h]
      · exact .inl rfl
      · have e : (Fl.fin z +ᶠ (Fl.fin M -ᶠ Fl.fin z) *ᶠ PyFloat.ofInt 3 *ᶠ Fl.fin d /ᶠ Fl.fin t : Fl K) =
            .fin ((1 - k) * z + k * M) := by
          simp only [Fl.pf_sub_fin, Fl.pf_ofInt, Fl.pf_mul_fin, Fl.pf_div_fin_ne _ _ ht0.ne', Fl.pf_add_fin]
          congr 1
          rw [hk]
          push_cast
          ring
        rw [e]
        refine .inr ⟨_, rfl, ?_⟩
        have k1 := abs_add_le ((1 - k) * z) (k * M)
        rw [abs_mul, abs_mul, abs_of_nonneg hk0, abs_of_nonneg (by linarith : 0 ≤ 1 - k)] at k1
        have k2 := mul_le_mul_of_nonneg_left hz (by linarith : 0 ≤ 1 - k)
        have k3 := mul_le_mul_of_nonneg_left hM hk0
        linarith
    · exact hA.pyMin hMM

/-- Wet antenna attenuation and subtractions after a baseline `b` that is within `E` of the exact one `c`. -/
theorem chain_attenuation {u eta big imax : K} (hR : R.Precision u eta big imax) (trsl b wet : List (RFl R)) (c : List (Fl K))
    (waaMax deltaT tau : RFl R) (M d t B m E : K) (hlen : trsl.length ≤ wet.length) (hbl : b.length = trsl.length)
    (hM : waaMax.val = .fin M) (hd : deltaT.val = .fin d) (ht : tau.val = .fin t)
    (hd0 : 0 ≤ d) (ht0 : 0 < t) (h3 : 3 * d ≤ t) (hM0 : 0 ≤ M) (hMB : M ≤ B)
    (hx : ∀ a ∈ trsl, a.val = .nan ∨ ∃ x, a.val = .fin x ∧ |x| ≤ B)
    (hbc : List.Forall₂ (fun x y => UpTo E x.val y) b c) (hcB : ∀ y ∈ c, y = .nan ∨ ∃ z, y = .fin z ∧ |z| ≤ B)
    (hE0 : 0 ≤ E) (hEB : E ≤ B)
    (hm : (trsl.length : K) ≤ m ∨ t ≤ 3 * d * m) (hmu : 48 * (m * u) ≤ 1)
    (h3i : 3 ≤ imax) (hu : u ≤ 1 / 100) (he1 : eta ≤ u * B) (he2 : eta ≤ u * B * t) (hbig2 : 24 * B * (1 + d) ≤ big) :
    ∃ w v, waaSchleiss trsl b wet waaMax deltaT tau = .ok w ∧
      waaSchleiss (trsl.map (·.val)) c (wet.map (·.val)) (.fin M) (.fin d) (.fin t) = .ok v ∧
      List.Forall₂ (fun x y => UpTo (2 * E + 48 * (m * (u * B)) + 11 * (u * B)) x.val y ∧ AtMost (8 * B) x.val)
        (List.zipWith (· -ᶠ ·) (List.zipWith (· -ᶠ ·) trsl b) w)
        (List.zipWith (· -ᶠ ·) (List.zipWith (· -ᶠ ·) (trsl.map (·.val)) c) v) := by
  have hu0 := hR.u_nonneg
  have he0 := hR.eta_nonneg
  have hB : 0 ≤ B := hM0.trans hMB
  set e := u * B with he
  have hee : 0 ≤ e := mul_nonneg hu0 hB
  have heB : e ≤ B / 100 := by
    have := mul_le_mul_of_nonneg_right hu hB
    linarith
  have hcl : c.length = trsl.length := by rw [← hbc.length_eq, hbl]
  have k1 : (trsl.map (·.val)).length = trsl.length := by rw [List.length_map]
  have kb : (b.map (·.val)).length = trsl.length := by rw [List.length_map, hbl]
  have rdv : ∀ (l : List (RFl R)) i, i < l.length → rd (l.map (·.val)) i = (rd l i).val := by
    intro l i hi
    apply rd_of_getElem?
    rw [List.getElem?_map, getElem?_eq_rd hi]; rfl
  have hxi : ∀ i, i < trsl.length → AtMost B (rd trsl i).val := by
    intro i hi
    refine hx _ ?_
    rw [rd_of_getElem? (List.getElem?_eq_getElem hi)]
    exact List.getElem_mem hi
  have hci : ∀ i, i < trsl.length → AtMost B (rd c i) := by
    intro i hi
    refine hcB _ ?_
    rw [rd_of_getElem? (List.getElem?_eq_getElem (by omega))]
    exact List.getElem_mem _
  have hbci : ∀ i, i < trsl.length → UpTo E (rd b i).val (rd c i) := by
    intro i hi
    have := (List.forall₂_iff_get.mp hbc).2 i (by omega) (by omega)
    rw [rd_of_getElem? (List.getElem?_eq_getElem (by omega)), rd_of_getElem? (List.getElem?_eq_getElem (by omega))]
    simpa using this
  -- WAA, rounded against exact on the same baseline
  obtain ⟨w, w1, hw, hw1, hwl, hw1l, hww⟩ := C120_schleiss_accuracy hR trsl b wet waaMax deltaT tau M d t (3 * B) hM hd ht
    hd0 ht0 h3 hM0 (by linarith) hu (by linarith) (by
      have : 0 ≤ u * B * t := by positivity
      linarith) (by linarith) h3i hbl.symm (by simpa using hlen) (by
      intro i a b' ha hb'
      have hi : i < trsl.length := (List.getElem?_eq_some_iff.mp ha).1
      have e1 := hxi i hi
      have e2 := hci i hi
      have e3 := hbci i hi
      rw [rd_of_getElem? ha] at e1
      rw [rd_of_getElem? hb'] at e3
      generalize rd c i = q at *
      rcases e1 with e1 | ⟨x, e1, hx⟩
      · exact .inl (.inl e1)
      · generalize hbv : b'.val = p at *
        cases e3 with
        | nan => exact .inl (.inr rfl)
        | fin e3 =>
          rename_i p q
          refine .inr ⟨x, p, e1, rfl, ?_⟩
          rcases e2 with e2 | ⟨y, e2, hy⟩
          · cases e2
          · cases e2
            have := abs_sub x p
            have k := abs_add_le (p - q) q
            rw [sub_add_cancel] at k
            linarith)
  rw [hM, hd, ht] at hw1
  -- exact WAA on both baselines
  have hself : List.Forall₂ (UpTo (0 : K)) (trsl.map (·.val)) (trsl.map (·.val)) := by
    rw [List.forall₂_same]
    intro v hv
    obtain ⟨a, ha, rfl⟩ := List.mem_map.mp hv
    rcases hx a ha with h | ⟨x, h, -⟩ <;> rw [h]
    · exact .nan
    · exact .fin (by simp)
  have hbc' : List.Forall₂ (UpTo E) (b.map (·.val)) c := by rwa [List.forall₂_map_left_iff]
  have hzz := near_zip_sub hself hbc'
  rw [zero_add] at hzz
  obtain ⟨w1', v, hw1', hv, -, hwv⟩ := C125_waa E hE0 (trsl.map (·.val)) (b.map (·.val)) (trsl.map (·.val)) c (wet.map (·.val)) M d t hd0 ht0 h3
    (by omega) (by omega) (by simpa using hlen) hzz
  rw [hw1] at hw1'
  cases hw1'
  have hvl : v.length = trsl.length := by rw [← hwv.length_eq, hw1l]
  refine ⟨w, v, hw, hv, ?_⟩
  have hvB := schleiss_atMost (2 * B) (trsl.map (·.val)) c (wet.map (·.val)) v M d t hd0 ht0 h3 (by rw [abs_of_nonneg hM0]; linarith)
    (by omega) (by simpa using hlen) (by
      intro i hi
      rw [k1] at hi
      have ea : rd (atten (trsl.map (·.val)) c) i = (rd trsl i).val -ᶠ rd c i := by
        apply rd_of_getElem?
        unfold atten
        rw [List.getElem?_zipWith, getElem?_eq_rd (by omega : i < (trsl.map (·.val)).length), getElem?_eq_rd (by omega : i < c.length),
          rdv _ _ hi]
      rw [ea]
      rcases hxi i hi with h | ⟨x, h, hx⟩ <;> rw [h]
      · exact .inl rfl
      · rcases hci i hi with h | ⟨y, h, hy⟩ <;> rw [h]
        · exact .inl rfl
        · exact .inr ⟨x - y, Fl.pf_sub_fin x y, (abs_sub _ _).trans (by linarith)⟩) hv
  rw [k1] at hvB
  have hm0 : 0 ≤ m := by
    rcases hm with h | h
    · exact (Nat.cast_nonneg _).trans h
    · by_contra hneg
      have := mul_nonneg (by linarith : 0 ≤ 3 * d) (by linarith : 0 ≤ -m)
      linarith
  have hme : 48 * (m * e) ≤ B := by
    have := mul_le_mul_of_nonneg_right hmu hB
    rw [he]; linarith
  have hwi : ∀ i, i < trsl.length → UpTo (E + 48 * (m * e)) (rd w i).val (rd v i) := by
    intro i hi
    have q1 : UpTo (48 * (m * e)) (rd w i).val (rd w1 i) := by
      rcases hww i _ _ (getElem?_eq_rd (by omega)) (getElem?_eq_rd (by omega)) with ⟨q1, q2⟩ | ⟨p, q, q1, q2, q3, q4⟩
      · rw [q1, q2]; exact .nan
      · rw [q1, q2]
        refine .fin ?_
        have eB : u * (3 * B) = 3 * e := by rw [he]; ring
        rw [eB] at q3 q4
        rcases hm with h | h
        · have hiK : (i : K) ≤ m := le_trans (by exact_mod_cast hi.le) h
          have := mul_le_mul_of_nonneg_right hiK hee
          linarith
        · by_cases hd' : d = 0
          · rw [hd'] at h; linarith
          have hdp : 0 < d := lt_of_le_of_ne hd0 (Ne.symm hd')
          have hk : 0 < 3 * d / t := by positivity
          have hkm : 1 ≤ 3 * d / t * m := by
            rw [div_mul_eq_mul_div, le_div_iff₀ ht0]; linarith
          have h5 := mul_le_mul_of_nonneg_right q4 hm0
          have h6 := mul_le_mul_of_nonneg_left hkm (abs_nonneg (p - q))
          linarith
    have q2 := near_rd hwv (i := i) (by omega)
    have := q1.trans q2
    rwa [add_comm] at this
  refine List.forall₂_iff_get.mpr ⟨by simp only [List.length_zipWith]; omega, fun i h1 h2 => ?_⟩
  have hi : i < trsl.length := by simp only [List.length_zipWith] at h1; omega
  have g1 : (List.zipWith (· -ᶠ ·) (List.zipWith (· -ᶠ ·) trsl b) w).get ⟨i, h1⟩ = (rd trsl i -ᶠ rd b i) -ᶠ rd w i := by
    simp only [List.get_eq_getElem, List.getElem_zipWith]
    rw [rd_of_getElem? (List.getElem?_eq_getElem (by omega)), rd_of_getElem? (List.getElem?_eq_getElem (by omega)),
      rd_of_getElem? (List.getElem?_eq_getElem (by omega))]
  have g2 : (List.zipWith (· -ᶠ ·) (List.zipWith (· -ᶠ ·) (trsl.map (·.val)) c) v).get ⟨i, h2⟩ = ((rd trsl i).val -ᶠ rd c i) -ᶠ rd v i := by
    simp only [List.get_eq_getElem, List.getElem_zipWith, List.getElem_map]
    rw [rd_of_getElem? (List.getElem?_eq_getElem (by omega)), rd_of_getElem? (List.getElem?_eq_getElem (by omega)),
      rd_of_getElem? (List.getElem?_eq_getElem (by omega))]
  rw [g1, g2]
  have r1 := hxi i hi
  have r2 := hbci i hi
  have r3 := hci i hi
  have r4 := hwi i hi
  have r5 := hvB i hi
  generalize rd trsl i = a at *
  generalize rd b i = y at *
  generalize rd w i = z at *
  generalize rd c i = y' at *
  generalize rd v i = z' at *
  rcases r1 with r1 | ⟨α, r1, ha⟩
  · have : ((a -ᶠ y) -ᶠ z).val = .nan := by
      have e0 : (a -ᶠ y).val = .nan := by rw [RFl.val_sub, r1]; rfl
      rw [RFl.val_sub, e0]; rfl
    rw [this, r1]
    exact ⟨.nan, .inl rfl⟩
  generalize hy : y.val = yv at r2
  cases r2 with
  | nan =>
    have : ((a -ᶠ y) -ᶠ z).val = .nan := by
      have e0 : (a -ᶠ y).val = .nan := by rw [RFl.val_sub, r1, hy]; rfl
      rw [RFl.val_sub, e0]; rfl
    rw [this, r1]
    exact ⟨.nan, .inl rfl⟩
  | fin r2 =>
    rename_i β β'
    rcases r3 with r3 | ⟨_, r3, hb'⟩
    · cases r3
    cases r3
    have bβ : |β| ≤ 2 * B := by
      have k := abs_add_le (β - β') β'
      rw [sub_add_cancel] at k
      linarith
    have b1 : |α - β| ≤ 3 * B := (abs_sub _ _).trans (by linarith)
    have hdb : 24 * B ≤ big := by
      have : 0 ≤ B * d := mul_nonneg hB hd0
      linarith
    obtain ⟨A, hA, eA⟩ := hR.sub_err α β (RFl.rnd_of_val r1) (RFl.rnd_of_val hy) (by linarith)
    have vA : (a -ᶠ y).val = .fin A := by rw [RFl.val_sub, r1, hy, Fl.pf_sub_fin]; exact hA
    have eA' : |A - (α - β)| ≤ 3 * e := by
      have := mul_le_mul_of_nonneg_left b1 hu0
      rw [he]; linarith
    have bA : |A| ≤ 303 / 100 * B := by
      have k := abs_add_le (A - (α - β)) (α - β)
      rw [sub_add_cancel] at k
      linarith
    generalize hz : z.val = zv at r4
    cases r4 with
    | nan =>
      have : ((a -ᶠ y) -ᶠ z).val = .nan := by
        rw [RFl.val_sub, vA, hz]; rfl
      rw [this, r1]
      exact ⟨.nan, .inl rfl⟩
    | fin r4 =>
      rename_i ω ω'
      rcases r5 with r5 | ⟨_, r5, hw'⟩
      · cases r5
      cases r5
      have bω : |ω| ≤ 4 * B := by
        have k := abs_add_le (ω - ω') ω'
        rw [sub_add_cancel] at k
        linarith
      have b2 : |A - ω| ≤ 703 / 100 * B := (abs_sub _ _).trans (by linarith)
      obtain ⟨p, hp, ep⟩ := hR.sub_err A ω (RFl.rnd_of_val vA) (RFl.rnd_of_val hz) (by linarith)
      have vp : ((a -ᶠ y) -ᶠ z).val = .fin p := by rw [RFl.val_sub, vA, hz, Fl.pf_sub_fin]; exact hp
      have ep' : |p - (A - ω)| ≤ 703 / 100 * e := by
        have := mul_le_mul_of_nonneg_left b2 hu0
        rw [he]; linarith
      rw [vp, r1, Fl.pf_sub_fin, Fl.pf_sub_fin]
      refine ⟨.fin ?_, .inr ⟨p, rfl, ?_⟩⟩
      · have e0 : p - (α - β' - ω') = (p - (A - ω)) + ((A - (α - β)) + (-(β - β') + -(ω - ω'))) := by ring
        rw [e0]
        have k1 := abs_add_le (p - (A - ω)) ((A - (α - β)) + (-(β - β') + -(ω - ω')))
        have k2 := abs_add_le (A - (α - β)) (-(β - β') + -(ω - ω'))
        have k3 := abs_add_le (-(β - β')) (-(ω - ω'))
        rw [abs_neg, abs_neg] at k3
        linarith
      · have k := abs_add_le (p - (A - ω)) (A - ω)
        rw [sub_add_cancel] at k
        linarith

/-- **C127** Accuracy of the attenuation `trsl - baseline - waa` of the chain `baseline_constant`, `waa_schleiss_2013` in floating point
arithmetic of relative precision `u`: for levels that are missing or up to `B` in magnitude, `waa_max` up to `B` and `3 delta_t <= tau`, the
result is NaN exactly where that of exact arithmetic is, and otherwise within `(10 n^2 + 48 m + 11) u B` of it, where `n` is
`n_average_last_dry` and `m` the length of the record or `tau / (3 delta_t)`, whichever is less. -/
theorem C127_attenuation {u eta big imax : K} (hR : R.Precision u eta big imax) (trsl : List (RFl R)) (wet : List Bool) (n : ℕ)
    (waaMax deltaT tau : RFl R) (M d t B m : K) (hn : 1 ≤ n) (hlen : trsl.length ≤ wet.length)
    (hM : waaMax.val = .fin M) (hd : deltaT.val = .fin d) (ht : tau.val = .fin t)
    (hd0 : 0 ≤ d) (ht0 : 0 < t) (h3 : 3 * d ≤ t) (hM0 : 0 ≤ M) (hMB : M ≤ B)
    (hx : ∀ a ∈ trsl, a.val = .nan ∨ ∃ x, a.val = .fin x ∧ |x| ≤ B)
    (hm : (trsl.length : K) ≤ m ∨ t ≤ 3 * d * m) (hmu : 48 * (m * u) ≤ 1) (hnu : 5 * (n * n * u) ≤ 1)
    (hnm : (n : K) ≤ imax) (h3i : 3 ≤ imax) (hu : u ≤ 1 / 100) (he1 : eta ≤ u * B) (he2 : eta ≤ u * B * t)
    (hbig1 : 4 * (n * B) ≤ big) (hbig2 : 24 * B * (1 + d) ≤ big) :
    ∃ b w c v, baselineConstant trsl wet n = .ok b ∧ waaSchleiss trsl b (wet.map flagF) waaMax deltaT tau = .ok w ∧
      baselineConstant (trsl.map (·.val)) wet n = .ok c ∧
      waaSchleiss (trsl.map (·.val)) c (wet.map flagF) (.fin M) (.fin d) (.fin t) = .ok v ∧
      List.Forall₂ (fun x y => UpTo ((10 * (n * n) + 48 * m + 11) * (u * B)) x.val y ∧ AtMost (8 * B) x.val)
        (List.zipWith (· -ᶠ ·) (List.zipWith (· -ᶠ ·) trsl b) w)
        (List.zipWith (· -ᶠ ·) (List.zipWith (· -ᶠ ·) (trsl.map (·.val)) c) v) := by
  have hu0 := hR.u_nonneg
  have hB : 0 ≤ B := hM0.trans hMB
  obtain ⟨b, c, hb, hc, hbl, hbc, hcB⟩ := C126_constant hR trsl wet n hn hlen B hB hx hnm hnu he1 hbig1
  have kw : (wet.map (flagF : Bool → RFl R)).map (·.val) = wet.map flagF := by
    rw [List.map_map]
    refine List.map_congr_left fun f _ => ?_
    cases f
    · show (PyFloat.ofInt 0 : RFl R).val = PyFloat.ofInt 0
      rw [RFl.val_zero, Fl.pf_ofInt, Int.cast_zero]
    · show (PyFloat.ofInt 1 : RFl R).val = PyFloat.ofInt 1
      rw [RFl.val_one, Fl.pf_ofInt, Int.cast_one]
  obtain ⟨w, v, hw, hv, h⟩ := chain_attenuation hR trsl b (wet.map flagF) c waaMax deltaT tau M d t B m (5 * (n * n * (u * B)))
    (by simpa using hlen) hbl hM hd ht hd0 ht0 h3 hM0 hMB hx hbc hcB (by positivity) (by
      have := mul_le_mul_of_nonneg_right hnu hB
      linarith) hm hmu h3i hu he1 he2 hbig2
  rw [kw] at hv
  have e1 : 2 * (5 * (n * n * (u * B))) + 48 * (m * (u * B)) + 11 * (u * B) = (10 * (n * n) + 48 * m + 11) * (u * B) := by ring
  rw [e1] at h
  exact ⟨b, w, c, v, hb, hw, hc, hv, h⟩

end general

/-- The rain rate of the power law `A = a R^b L`, zero for a negative attenuation. -/
noncomputable def lawRate (α β l A : ℝ) : ℝ := (max 0 A / (α * l)) ^ (1 / β)

theorem lawRate_mono {α β l : ℝ} (hαl : 0 < α * l) (hβ : 0 < 1 / β) {A A' : ℝ} (h : A ≤ A') : lawRate α β l A ≤ lawRate α β l A' :=
  Real.rpow_le_rpow (div_nonneg (le_max_left _ _) hαl.le) (div_le_div_of_nonneg_right (max_le_max le_rfl h) hαl.le) hβ.le

theorem lawRate_nonneg {α β l : ℝ} (hαl : 0 < α * l) (A : ℝ) : 0 ≤ lawRate α β l A :=
  Real.rpow_nonneg (div_nonneg (le_max_left _ _) hαl.le) _

theorem lawRate_neg {α β l : ℝ} (hβ : 0 < 1 / β) {A : ℝ} (h : A ≤ 0) : lawRate α β l A = 0 := by
  unfold lawRate
  rw [max_eq_left h, zero_div, Real.zero_rpow hβ.ne']

/-- Rain rate of an attenuation within `ε` of the exact one. -/
theorem rate_of_close [PyPow DblR] (hacc : PowClose) {L a b Rmin q : DblR} {l α β rm B ε : ℝ} {Q : Fl ℝ} (hr : RateRange L a b l α β)
    (hrm : Rmin.val = .fin rm) (hB2 : B ≤ 2 ^ (290 : ℤ)) (hT : (8 * B / (α * l)) ^ (1 / β) ≤ 2 ^ (64 : ℤ))
    (hU : UpTo ε q.val Q) (hA : AtMost (8 * B) q.val) :
    (Q = .nan ∧ isNaN (rateF a b L Rmin q) = true) ∨
    ∃ A ρ, Q = .fin A ∧ (rateF a b L Rmin q).val = .fin (if ρ < rm then 0 else ρ) ∧ 0 ≤ ρ ∧
      (1 - 2 ^ (-46 : ℤ)) * lawRate α β l (A - ε) - 2 ^ (-99 : ℤ) ≤ ρ ∧
      ρ ≤ (1 + 2 ^ (-46 : ℤ)) * lawRate α β l (A + ε) + 2 ^ (-99 : ℤ) := by
  generalize hqv : q.val = qv at *
  have p300 : (0 : ℝ) < 2 ^ (-300 : ℤ) := by positivity
  have hαl : 0 < α * l := mul_pos (p300.trans_le hr.α1) (p300.trans_le hr.l1)
  have hβ : 0 < 1 / β := by have := hr.β1; positivity
  cases hU with
  | nan =>
    refine .inl ⟨rfl, ?_⟩
    have : isNaN q = true := by rw [RFl.isNaN_def, hqv]; rfl
    unfold rateF
    rw [if_pos this]
    rfl
  | fin hU =>
    rename_i Â A
    obtain ⟨u1, u2⟩ := abs_le.mp hU
    have hnn : isNaN q = false := by rw [RFl.isNaN_def, hqv]; rfl
    have cut : ∀ (f : DblR) (ρ : ℝ), f.val = .fin ρ → (if f <ᶠ Rmin then (PyFloat.ofInt 0 : DblR) else f).val = .fin (if ρ < rm then 0 else ρ) := by
      intro f ρ hf
      have : (f <ᶠ Rmin) = decide (ρ < rm) := by rw [RFl.lt_def, hf, hrm, Fl.pf_lt_fin]
      by_cases hlt : ρ < rm
      · rw [if_pos hlt, if_pos (by rw [this]; simpa using hlt), RFl.val_zero]
      · rw [if_neg hlt, if_neg (by rw [this]; simpa using hlt), hf]
    by_cases h0 : 0 ≤ Â
    · have hle : ((PyFloat.ofInt 0 : DblR) ≤ᶠ q) = true := by
        rw [RFl.le_def, RFl.val_zero, hqv, Fl.pf_le_fin]; simpa using h0
      have hA8 : Â ≤ 8 * B := by
        rcases hA with hA | ⟨_, hA, h⟩
        · cases hA
        · cases hA; exact (le_abs_self _).trans h
      have hT' : (Â / (α * l)) ^ (1 / β) ≤ 2 ^ (64 : ℤ) :=
        le_trans (Real.rpow_le_rpow (div_nonneg h0 hαl.le) (div_le_div_of_nonneg_right hA8 hαl.le) hβ.le) hT
      have h8 : 8 * B ≤ 2 ^ (300 : ℤ) := by
        have e : (8 : ℝ) * 2 ^ (290 : ℤ) ≤ 2 ^ (300 : ℤ) := by
          rw [show (300 : ℤ) = 10 + 290 from rfl, zpow_add₀ (by norm_num)]
          exact mul_le_mul_of_nonneg_right (by norm_num) (by positivity)
        exact (mul_le_mul_of_nonneg_left hB2 (by norm_num)).trans e
      obtain ⟨ρ, hρ, hρ0, hρe⟩ := rate_close hacc hr hqv h0 (hA8.trans h8) hT'
      refine .inr ⟨A, ρ, rfl, ?_, hρ0, ?_, ?_⟩
      · unfold rateF
        rw [if_neg (by rw [hnn]; exact Bool.false_ne_true)]
        dsimp only
        rw [if_pos hle]
        exact cut _ _ hρ
      · have e1 : (Â / (α * l)) ^ (1 / β) = lawRate α β l Â := by unfold lawRate; rw [max_eq_right h0]
        rw [e1] at hρe
        have k1 := lawRate_mono hαl hβ (by linarith : A - ε ≤ Â)
        have k2 := (abs_le.mp hρe).1
        have k3 := mul_le_mul_of_nonneg_left k1 (by norm_num : (0 : ℝ) ≤ 1 - 2 ^ (-46 : ℤ))
        generalize (2 : ℝ) ^ (-99 : ℤ) = t99 at *
        generalize (2 : ℝ) ^ (-46 : ℤ) = t46 at *
        linarith only [k2, k3]
      · have e1 : (Â / (α * l)) ^ (1 / β) = lawRate α β l Â := by unfold lawRate; rw [max_eq_right h0]
        rw [e1] at hρe
        have k1 := lawRate_mono hαl hβ (by linarith : Â ≤ A + ε)
        have k2 := (abs_le.mp hρe).2
        have k3 := mul_le_mul_of_nonneg_left k1 (by norm_num : (0 : ℝ) ≤ 1 + 2 ^ (-46 : ℤ))
        generalize (2 : ℝ) ^ (-99 : ℤ) = t99 at *
        generalize (2 : ℝ) ^ (-46 : ℤ) = t46 at *
        linarith only [k2, k3]
    · have hneg := not_le.mp h0
      have hle : ((PyFloat.ofInt 0 : DblR) ≤ᶠ q) = false := by
        rw [RFl.le_def, RFl.val_zero, hqv, Fl.pf_le_fin]; simpa using hneg
      refine .inr ⟨A, 0, rfl, ?_, le_rfl, ?_, ?_⟩
      · unfold rateF
        rw [if_neg (by rw [hnn]; exact Bool.false_ne_true)]
        dsimp only
        simp only [hle, Bool.false_eq_true, if_false]
        exact cut _ _ RFl.val_zero
      · rw [lawRate_neg hβ (by linarith : A - ε ≤ 0), mul_zero, zero_sub]
        have : (0 : ℝ) ≤ 2 ^ (-99 : ℤ) := by positivity
        linarith
      · have := lawRate_nonneg hαl (β := β) (A + ε)
        positivity

/-- **C127** Accuracy of the rain rates of the whole chain `baseline_constant`, `waa_schleiss_2013`, `calc_R_from_A` in IEEE doubles: for
levels that are missing or up to `B` in magnitude, the rate is NaN exactly where the attenuation `A` of exact arithmetic is; otherwise it is,
before rates below `R_min` are set to zero, up to `2^-46` relative and `2^-99` absolute error between the rates of the power law at `A - e`
and `A + e`, with `e = (10 n^2 + 48 m + 11) 2^-53 B`, where `n` is `n_average_last_dry` and `m` the length of the record or
`tau / (3 delta_t)`, whichever is less. -/
theorem C127_rain [PyPow DblR] (hacc : PowClose) (trsl : List DblR) (wet : List Bool) (n : ℕ) (waaMax deltaT tau L a b Rmin : DblR)
    (M d t B m l α β rm : ℝ) (hn : 1 ≤ n) (hn2 : n ≤ 2 ^ 25) (hlen : trsl.length ≤ wet.length)
    (hM : waaMax.val = .fin M) (hd : deltaT.val = .fin d) (ht : tau.val = .fin t) (hr : RateRange L a b l α β) (hrm : Rmin.val = .fin rm)
    (hd0 : 0 ≤ d) (h3 : 3 * d ≤ t) (ht1 : (2 : ℝ) ^ (-100 : ℤ) ≤ t) (hd2 : d ≤ 2 ^ (500 : ℤ)) (hM0 : 0 ≤ M) (hMB : M ≤ B)
    (hB1 : (2 : ℝ) ^ (-900 : ℤ) ≤ B) (hB2 : B ≤ 2 ^ (290 : ℤ)) (hT : (8 * B / (α * l)) ^ (1 / β) ≤ 2 ^ (64 : ℤ))
    (hx : ∀ a ∈ trsl, a.val = .nan ∨ ∃ x, a.val = .fin x ∧ |x| ≤ B)
    (hm : (trsl.length : ℝ) ≤ m ∨ t ≤ 3 * d * m) (hm2 : m ≤ 2 ^ 47) :
    ∃ c v rs, baselineConstant (trsl.map (·.val)) wet n = .ok c ∧
      waaSchleiss (trsl.map (·.val)) c (wet.map flagF) (.fin M) (.fin d) (.fin t) = .ok v ∧
      rainChainF n waaMax deltaT tau L a b Rmin trsl wet = .ok rs ∧
      c.length = trsl.length ∧ v.length = trsl.length ∧ rs.length = trsl.length ∧
      ∀ (i : ℕ) x y z r, trsl[i]? = some x → c[i]? = some y → v[i]? = some z → rs[i]? = some r →
        ((x.val -ᶠ y) -ᶠ z = .nan ∧ isNaN r = true) ∨
        ∃ A ρ, (x.val -ᶠ y) -ᶠ z = .fin A ∧ r.val = .fin (if ρ < rm then 0 else ρ) ∧ 0 ≤ ρ ∧
          (1 - 2 ^ (-46 : ℤ)) * lawRate α β l (A - (10 * (n * n) + 48 * m + 11) * (2 ^ (-53 : ℤ) * B)) - 2 ^ (-99 : ℤ) ≤ ρ ∧
          ρ ≤ (1 + 2 ^ (-46 : ℤ)) * lawRate α β l (A + (10 * (n * n) + 48 * m + 11) * (2 ^ (-53 : ℤ) * B)) + 2 ^ (-99 : ℤ) := by
  have hB : 0 ≤ B := le_trans (by positivity) hB1
  have ht0 : 0 < t := lt_of_lt_of_le (by positivity) ht1
  have hnK : (n : ℝ) ≤ 2 ^ 25 := by exact_mod_cast hn2
  have hn0 : (0 : ℝ) ≤ n := Nat.cast_nonneg n
  obtain ⟨bb, w, c, v, hb, hw, hc, hv, hF⟩ := C127_attenuation (binary64_precision (K := ℝ)) trsl wet n waaMax deltaT tau M d t B m hn hlen
    hM hd ht hd0 ht0 h3 hM0 hMB hx hm (by
      have := mul_le_mul_of_nonneg_right hm2 (by positivity : (0 : ℝ) ≤ 2 ^ (-53 : ℤ))
      refine le_trans (mul_le_mul_of_nonneg_left this (by norm_num)) ?_
      norm_num) (by
      have : (n : ℝ) * n ≤ 2 ^ 25 * 2 ^ 25 := mul_le_mul hnK hnK hn0 (by positivity)
      have := mul_le_mul_of_nonneg_right this (by positivity : (0 : ℝ) ≤ 2 ^ (-53 : ℤ))
      refine le_trans (mul_le_mul_of_nonneg_left this (by norm_num)) ?_
      norm_num) (hnK.trans (by norm_num)) (by norm_num) (by norm_num) (b64_eta_le hB1) (by
      calc (2 : ℝ) ^ (-1075 : ℤ) ≤ 2 ^ (-53 + -900 + -100 : ℤ) := zpow_le_zpow_right₀ (by norm_num) (by norm_num)
        _ = 2 ^ (-53 : ℤ) * 2 ^ (-900 : ℤ) * 2 ^ (-100 : ℤ) := by rw [zpow_add₀ (by norm_num), zpow_add₀ (by norm_num)]
        _ ≤ _ := mul_le_mul (mul_le_mul_of_nonneg_left hB1 (by positivity)) ht1 (by positivity) (by positivity)) (by
      calc 4 * (n * B) ≤ 2 ^ (2 : ℤ) * (2 ^ (25 : ℤ) * 2 ^ (290 : ℤ)) :=
            mul_le_mul (by norm_num) (mul_le_mul (hnK.trans (by norm_num)) hB2 hB (by positivity)) (by positivity) (by positivity)
        _ = 2 ^ (317 : ℤ) := by rw [← zpow_add₀ (by norm_num), ← zpow_add₀ (by norm_num)]; norm_num
        _ ≤ _ := zpow_le_zpow_right₀ (by norm_num) (by norm_num)) (by
      calc 24 * B * (1 + d) ≤ 2 ^ (5 : ℤ) * 2 ^ (290 : ℤ) * (2 ^ (500 : ℤ) + 2 ^ (500 : ℤ)) := by
            refine mul_le_mul (mul_le_mul (by norm_num) hB2 hB (by positivity))
              (add_le_add (one_le_zpow₀ one_le_two (by norm_num)) hd2) (by linarith)
              (mul_nonneg (zpow_nonneg zero_le_two _) (zpow_nonneg zero_le_two _))
        _ = 2 ^ (796 : ℤ) := by
          rw [← two_mul, ← zpow_one_add₀ (by norm_num), ← zpow_add₀ (by norm_num), ← zpow_add₀ (by norm_num)]
          norm_num
        _ ≤ _ := zpow_le_zpow_right₀ (by norm_num) (by norm_num))
  obtain ⟨b0, hb0, hb0l, -⟩ := C01_constant_dry trsl wet n hn hlen
  rw [hb] at hb0
  cases hb0
  have k1 : (trsl.map (·.val)).length = trsl.length := by rw [List.length_map]
  obtain ⟨c0, hc0, hc0l, -⟩ := C01_constant_dry (trsl.map (·.val)) wet n hn (by omega)
  rw [hc] at hc0
  cases hc0
  obtain ⟨w0, hw0, hw0l, -⟩ := schleiss_rec trsl bb (wet.map flagF) waaMax deltaT tau hb0l.symm (by simpa using hlen) (by
    rw [RFl.eq_def, ht, RFl.val_zero]; simpa using ht0.ne')
  rw [hw] at hw0
  cases hw0
  obtain ⟨v0, hv0, hv0l, -⟩ := schleiss_rec (trsl.map (·.val)) c (wet.map flagF) (.fin M) (.fin d) (.fin t) (by omega) (by simpa using hlen) (by
    simpa using ht0.ne')
  rw [hv] at hv0
  cases hv0
  refine ⟨c, v, _, hc, hv, by simp only [rainChainF, hb, bind, Except.bind, hw]; exact calcR_scalar _ _ _ _ _ _ _, by omega, by omega,
    by simp only [List.length_map, List.length_zipWith]; omega, ?_⟩
  intro i x y z r hxi hyi hzi hri
  have hi : i < trsl.length := (List.getElem?_eq_some_iff.mp hxi).1
  rw [List.getElem?_map, Option.map_eq_some_iff] at hri
  obtain ⟨q, hq, rfl⟩ := hri
  have hF2 := (List.forall₂_iff_get.mp hF).2 i (by simp only [List.length_zipWith]; omega)
    (by simp only [List.length_zipWith, List.length_map]; omega)
  have g1 := (List.getElem?_eq_some_iff.mp hq).2
  have g2 : (List.zipWith (· -ᶠ ·) (List.zipWith (· -ᶠ ·) (trsl.map (·.val)) c) v)[i]? = some ((x.val -ᶠ y) -ᶠ z) := by
    simp [List.getElem?_zipWith, hxi, hyi, hzi]
  have g2' := (List.getElem?_eq_some_iff.mp g2).2
  rw [List.get_eq_getElem, List.get_eq_getElem] at hF2
  dsimp only at hF2
  rw [g1, g2'] at hF2
  obtain ⟨hU, hA⟩ := hF2
  exact rate_of_close hacc hr hrm hB2 hT hU hA

/-- Two dry steps at 50 dB and two wet ones at 60 dB, `n_average_last_dry = 2`, `waa_max = 2`, `delta_t = 1`, `tau = 15`, 10 km: in exact
arithmetic the attenuation at the first wet step is 9.6 dB and the rain rate 0.96 mm/h; doubles give that up to `10^-12`. -/
example : letI := correctPow (binary64 (K := ℝ))
    let D : ℕ → DblR := fun k => PyFloat.ofInt k
    ∃ rs r ρ, rainChainF 2 (D 2) (D 1) (D 15) (D 10) (D 1) (D 1) (D 0) [D 50, D 50, D 60, D 60] [false, false, true, true] = .ok rs ∧
      rs[2]? = some r ∧ r.val = .fin ρ ∧ |ρ - 96 / 100| ≤ 1 / 10 ^ 12 := by
  let _ := correctPow (binary64 (K := ℝ))
  intro D
  have v : ∀ k : ℕ, k ≤ 60 → (D k).val = .fin (k : ℝ) := fun k hk => val_ofNat_b64 k (hk.trans (by norm_num))
  have lo : ∀ (x : ℝ) (j : ℤ), 1 ≤ x → j ≤ 0 → (2 : ℝ) ^ j ≤ x := fun x j hx hj =>
    le_trans (zpow_le_one_of_nonpos₀ (by norm_num) hj) hx
  have hi : ∀ (x : ℝ) (j : ℤ), x ≤ 2 ^ (10 : ℤ) → 10 ≤ j → x ≤ 2 ^ j := fun x j hx hj =>
    le_trans hx (zpow_le_zpow_right₀ (by norm_num) hj)
  have hr : RateRange (D 10) (D 1) (D 1) 10 1 1 :=
    ⟨by simpa using v 10 (by norm_num), by simpa using v 1 (by norm_num), by simpa using v 1 (by norm_num),
      lo _ _ (by norm_num) (by norm_num), hi _ _ (by norm_num) (by norm_num), lo _ _ (by norm_num) (by norm_num),
      hi _ _ (by norm_num) (by norm_num), by norm_num, by norm_num⟩
  obtain ⟨c, w, rs, hc, hw, hrs, h1, h2, h3, h⟩ := C127_rain correctPow_close [D 50, D 50, D 60, D 60] [false, false, true, true] 2
    (D 2) (D 1) (D 15) (D 10) (D 1) (D 1) (D 0) 2 1 15 64 4 10 1 1 0 (by norm_num) (by norm_num) (by simp)
    (by simpa using v 2 (by norm_num)) (by simpa using v 1 (by norm_num)) (by simpa using v 15 (by norm_num)) hr
    (by simpa using v 0 (by norm_num)) (by norm_num) (by norm_num) (lo _ _ (by norm_num) (by norm_num))
    (hi _ _ (by norm_num) (by norm_num)) (by norm_num) (by norm_num) (lo _ _ (by norm_num) (by norm_num))
    (hi _ _ (by norm_num) (by norm_num)) (by norm_num) (by
      intro a ha
      simp only [List.mem_cons, List.not_mem_nil, or_false] at ha
      rcases ha with rfl | rfl | rfl | rfl
      · exact .inr ⟨_, v 50 (by norm_num), by norm_num⟩
      · exact .inr ⟨_, v 50 (by norm_num), by norm_num⟩
      · exact .inr ⟨_, v 60 (by norm_num), by norm_num⟩
      · exact .inr ⟨_, v 60 (by norm_num), by norm_num⟩) (.inl (by norm_num)) (by norm_num)
  have e1 : [D 50, D 50, D 60, D 60].map (·.val) = [Fl.fin (50 : ℝ), .fin 50, .fin 60, .fin 60] := by
    simp only [List.map_cons, List.map_nil, v 50 (by norm_num), v 60 (by norm_num)]
    norm_num
  rw [e1] at hc hw
  have c2 : c[2]? = some (.fin (50 : ℝ)) := by
    have h := C02_constant_wet _ [false, false, true, true] 2 (by norm_num) (by simp) c hc 2 2 le_rfl le_rfl (by simp) rfl (by
      intro k k1 k2
      obtain rfl : k = 2 := by omega
      rfl)
    obtain ⟨c', hc', -, hd⟩ := C01_constant_dry [Fl.fin (50 : ℝ), .fin 50, .fin 60, .fin 60] [false, false, true, true] 2 (by norm_num) (by simp)
    rw [hc] at hc'
    cases hc'
    have d0 := hd 0 (by simp) (.inl (by norm_num))
    have d1 := hd 1 (by simp) (.inl (by norm_num))
    rw [h]
    match c, d0, d1 with
    | _ :: _ :: _, d0, d1 =>
      obtain rfl := Option.some.inj d0
      obtain rfl := Option.some.inj d1
      show some (npMean ([50, 50].map Fl.fin)) = _
      rw [npMean_fl_fin _ (by simp)]
      norm_num
  obtain ⟨w', hw', hwl, w0, wr⟩ := schleiss_rec [Fl.fin (50 : ℝ), .fin 50, .fin 60, .fin 60] c ([false, false, true, true].map flagF)
    (.fin 2) (.fin 1) (.fin 15) (by simp [h1]) (by simp) (by simp)
  rw [hw] at hw'
  cases hw'
  obtain ⟨c', hc', -, hd⟩ := C01_constant_dry [Fl.fin (50 : ℝ), .fin 50, .fin 60, .fin 60] [false, false, true, true] 2 (by norm_num) (by simp)
  rw [hc] at hc'
  cases hc'
  have c1 : c[1]? = some (.fin (50 : ℝ)) := hd 1 (by simp) (.inl (by norm_num))
  have a1 : rd (atten [Fl.fin (50 : ℝ), .fin 50, .fin 60, .fin 60] c) 1 = .fin 0 := by
    apply rd_of_getElem?
    unfold atten
    rw [List.getElem?_zipWith, c1]
    simp
  have a2 : rd (atten [Fl.fin (50 : ℝ), .fin 50, .fin 60, .fin 60] c) 2 = .fin 10 := by
    apply rd_of_getElem?
    unfold atten
    rw [List.getElem?_zipWith, c2]
    simp
    norm_num
  have w1 : rd w 1 = .fin 0 := by
    rw [wr 1 (by norm_num) (by simp)]
    unfold schleissVal
    rw [if_neg (by simp [rd, flagF]), a1, pyMin_fin_fin]
    norm_num
  have w2 : rd w 2 = .fin (4 / 10) := by
    rw [wr 2 (by norm_num) (by simp), w1]
    unfold schleissVal
    rw [if_pos (by simp [rd, flagF]), a2, pyMin_fin_fin]
    simp only [Fl.pf_sub_fin, Fl.pf_ofInt, Fl.pf_mul_fin, Fl.pf_div_fin_ne _ _ (by norm_num : (15 : ℝ) ≠ 0), Fl.pf_add_fin, pyMin_fin_fin]
    norm_num
  have hlr : 2 < rs.length := by rw [h3]; simp
  refine ⟨rs, rd rs 2, ?_⟩
  rcases h 2 _ _ _ _ rfl c2 (getElem?_eq_rd (by rw [h2]; simp)) (getElem?_eq_rd hlr) with ⟨e, -⟩ | ⟨A, ρ, e, g1, g2, g3, g4⟩
  · rw [v 60 (by norm_num), w2] at e
    simp at e
  · rw [v 60 (by norm_num), w2] at e
    simp only [Fl.pf_sub_fin, Fl.fin.injEq] at e
    refine ⟨ρ, hrs, getElem?_eq_rd hlr, by rw [g1, if_neg (by linarith)], ?_⟩
    unfold lawRate at g3 g4
    rw [show (1 : ℝ) / 1 = 1 by norm_num, Real.rpow_one] at g3 g4
    norm_num at e
    rw [← e, max_eq_right (by norm_num)] at g3 g4
    norm_num at g3 g4
    rw [abs_le]
    constructor <;> linarith

end Verif.Props
