import Verif.Props.RoundedChain

/-!
# Property C156: accuracy of the chain with the linear baseline in floating point arithmetic
-/

namespace Verif.Props
open Verif Verif.Baseline Verif.Waa Verif.Bin Verif.KR

section general
variable {K : Type} [Field K] [LinearOrder K] [IsStrictOrderedRing K] {R : Rounding K}

/-- The exact linear baseline of levels up to `B` in magnitude is at most `B` in magnitude. -/
theorem linear_atMost (rsl wet c : List (Fl K)) (ignoreNan : Bool) (B : K) (hB : 0 ≤ B) (hN : 0 < rsl.length)
    (hx : ∀ a ∈ rsl, AtMost B a) (hc : baselineLinear rsl wet ignoreNan = .ok c) : ∀ y ∈ c, AtMost B y := by
  have h : c = (forRange 1 rsl.length (linInit rsl) (linBody rsl wet ignoreNan)).baseline := by
    unfold baselineLinear at hc
    split_ifs at hc
    cases hc
    rfl
  have key := linLoop_rel (fun a b : Fl K => a = b ∧ AtMost B a) (fun a b : Fl K => a = b ∧ AtMost B a) (fun _ _ h => h)
    ⟨rfl, .inl rfl⟩ ⟨rfl, by rw [Fl.pf_ofInt]; exact .inr ⟨_, rfl, by simpa using hB⟩⟩ (wet := wet) (wet' := wet) ignoreNan hN rfl (by
      rintro a _ b _ num h2 - ⟨rfl, ha⟩ ⟨rfl, hb⟩
      rw [List.forall₂_same]
      intro v hv
      refine ⟨rfl, ?_⟩
      unfold linspace at hv
      rw [List.mem_map] at hv
      obtain ⟨i, hi, rfl⟩ := hv
      rw [List.mem_range] at hi
      rw [if_neg (by omega)]
      split_ifs with hlast
      · exact hb
      rcases ha with rfl | ⟨x, rfl, hxB⟩
      · exact .inl rfl
      rcases hb with rfl | ⟨y, rfl, hyB⟩
      · exact .inl rfl
      obtain ⟨N, rfl⟩ : ∃ N, num = N + 1 := ⟨num - 1, by omega⟩
      have hNp : (0 : K) < N := by
        have : 0 < N := by omega
        exact_mod_cast this
      have hiN : (i : K) ≤ N := by exact_mod_cast (by omega : i ≤ N)
      have eN : ((N + 1 : ℕ) : ℤ) - 1 = (N : ℤ) := by push_cast; ring
      rw [eN]
      simp only [Fl.pf_ofInt, Int.cast_natCast, Fl.pf_sub_fin, Fl.pf_div_fin_ne _ _ hNp.ne', Fl.pf_mul_fin, Fl.pf_add_fin]
      refine .inr ⟨_, rfl, ?_⟩
      have e : x + (i : K) * ((y - x) / N) = (1 - i / N) * x + i / N * y := by field_simp; ring
      have f0 : 0 ≤ (i : K) / N := by positivity
      have f1 : (i : K) / N ≤ 1 := by rw [div_le_one hNp]; exact hiN
      rw [e]
      have k1 := abs_add_le ((1 - (i : K) / N) * x) (i / N * y)
      rw [abs_mul, abs_mul, abs_of_nonneg f0, abs_of_nonneg (by linarith : 0 ≤ 1 - (i : K) / N)] at k1
      have k2 := mul_le_mul_of_nonneg_left hxB (by linarith : 0 ≤ 1 - (i : K) / N)
      have k3 := mul_le_mul_of_nonneg_left hyB f0
      linarith) (by
      intro i hi
      refine ⟨rfl, hx _ ?_⟩
      rw [rd_of_getElem? (List.getElem?_eq_getElem hi)]
      exact List.getElem_mem hi) (fun _ _ => ⟨rfl, rfl⟩)
  rw [← h] at key
  rw [List.forall₂_same] at key
  exact fun y hy => (key y hy).2

/-- **C156** Accuracy of the attenuation `trsl - baseline - waa` of the chain `baseline_linear`, `waa_schleiss_2013` in floating point
arithmetic of relative precision `u`: for levels that are missing or up to `B` in magnitude, wet flags of any values, missing ones included,
`waa_max` up to `B` and `3 delta_t <= tau`, the result is NaN exactly where that of exact arithmetic is, and otherwise within
`(48 m + 35) u B` of it, where `m` is the length of the record or `tau / (3 delta_t)`, whichever is less. -/
theorem C156_attenuation {u eta big imax : K} (hR : R.Precision u eta big imax) (trsl wet : List (RFl R)) (ignoreNan : Bool)
    (waaMax deltaT tau : RFl R) (M d t B m : K) (hN : 0 < trsl.length) (hlen : trsl.length ≤ wet.length)
    (hM : waaMax.val = .fin M) (hd : deltaT.val = .fin d) (ht : tau.val = .fin t)
    (hd0 : 0 ≤ d) (ht0 : 0 < t) (h3 : 3 * d ≤ t) (hM0 : 0 ≤ M) (hMB : M ≤ B)
    (hx : ∀ a ∈ trsl, a.val = .nan ∨ ∃ x, a.val = .fin x ∧ |x| ≤ B)
    (hm : (trsl.length : K) ≤ m ∨ t ≤ 3 * d * m) (hmu : 48 * (m * u) ≤ 1)
    (hni : (trsl.length : K) ≤ imax) (h3i : 3 ≤ imax) (hu : u ≤ 1 / 100) (he1 : eta * trsl.length ≤ u * B) (he2 : eta ≤ u * B * t)
    (hbig2 : 24 * B * (1 + d) ≤ big) :
    ∃ b w c v, baselineLinear trsl wet ignoreNan = .ok b ∧ waaSchleiss trsl b wet waaMax deltaT tau = .ok w ∧
      baselineLinear (trsl.map (·.val)) (wet.map (·.val)) ignoreNan = .ok c ∧
      waaSchleiss (trsl.map (·.val)) c (wet.map (·.val)) (.fin M) (.fin d) (.fin t) = .ok v ∧
      b.length = trsl.length ∧ c.length = trsl.length ∧
      List.Forall₂ (fun x y => UpTo ((48 * m + 35) * (u * B)) x.val y ∧ AtMost (8 * B) x.val)
        (List.zipWith (· -ᶠ ·) (List.zipWith (· -ᶠ ·) trsl b) w)
        (List.zipWith (· -ᶠ ·) (List.zipWith (· -ᶠ ·) (trsl.map (·.val)) c) v) := by
  have hu0 := hR.u_nonneg
  have he0 := hR.eta_nonneg
  have hB : 0 ≤ B := hM0.trans hMB
  have hBd : 0 ≤ B * d := mul_nonneg hB hd0
  have he1' : eta ≤ u * B := by
    have : (1 : K) ≤ trsl.length := by exact_mod_cast hN
    have := mul_le_mul_of_nonneg_left this he0
    linarith
  obtain ⟨b, c, hb, hc, hbc⟩ := C126_linear hR trsl wet ignoreNan B hB hN hlen hx hu (by linarith) hni he1
  have hbl : b.length = trsl.length := by
    cases ignoreNan with
    | false =>
      obtain ⟨o, ho, hl⟩ := C08_linear_characterisation trsl wet hN hlen
      rw [hb] at ho
      cases ho
      exact hl.1
    | true =>
      rw [C07_ignore_nan_is_ffill trsl wet false hlen] at hb
      obtain ⟨o, ho, hl⟩ := C08_linear_characterisation trsl (ffillFlags wet) hN (by
        cases wet with
        | nil => exact hlen
        | cons w ws => simpa [ffillFlags, ffillFrom_length] using hlen)
      rw [hb] at ho
      cases ho
      exact hl.1
  have hcB := linear_atMost _ _ c ignoreNan B hB (by rw [List.length_map]; exact hN) (by
    intro a ha
    obtain ⟨a', ha', rfl⟩ := List.mem_map.mp ha
    exact hx a' ha') hc
  obtain ⟨w, v, hw, hv, h⟩ := chain_attenuation hR trsl b wet c waaMax deltaT tau M d t B m (12 * (u * B))
    hlen hbl hM hd ht hd0 ht0 h3 hM0 hMB hx hbc hcB (by positivity) (by
      have := mul_le_mul_of_nonneg_right hu hB
      linarith) hm hmu h3i hu he1' he2 hbig2
  have e1 : 2 * (12 * (u * B)) + 48 * (m * (u * B)) + 11 * (u * B) = (48 * m + 35) * (u * B) := by ring
  rw [e1] at h
  exact ⟨b, w, c, v, hb, hw, hc, hv, hbl, by rw [← hbc.length_eq, hbl], h⟩

end general

/-- The chain `baseline_linear`, `waa_schleiss_2013`, then `calc_R_from_A` of `trsl - baseline - waa` with given `a` and `b`. -/
def rainChainLinF {F : Type} [PyFloat F] [PyPow F] (ignoreNan : Bool) (waaMax deltaT tau L a b Rmin : F) (trsl wet : List F) :
    Except Err (List F) := do
  let baseline ← baselineLinear trsl wet ignoreNan
  let waa ← waaSchleiss trsl baseline wet waaMax deltaT tau
  calcR (fun _ _ _ => .error .valueError) (List.zipWith (· -ᶠ ·) (List.zipWith (· -ᶠ ·) trsl baseline) waa) L
    none none (some [a]) (some [b]) "ITU_2005" Rmin

/-- **C156** Accuracy of the rain rates of the whole chain `baseline_linear`, `waa_schleiss_2013`, `calc_R_from_A` in IEEE doubles: for
levels that are missing or up to `B` in magnitude and records of at most `2^53` steps, the rate is NaN exactly where the attenuation `A` of
exact arithmetic is; otherwise it is, before rates below `R_min` are set to zero, up to `2^-46` relative and `2^-99` absolute error between
the rates of the power law at `A - e` and `A + e`, with `e = (48 m + 35) 2^-53 B`, where `m` is the length of the record or
`tau / (3 delta_t)`, whichever is less. -/
theorem C156_rain [PyPow DblR] (hacc : PowClose) (trsl wet : List DblR) (ignoreNan : Bool) (waaMax deltaT tau L a b Rmin : DblR)
    (M d t B m l α β rm : ℝ) (hN : 0 < trsl.length) (hN2 : trsl.length ≤ 2 ^ 53) (hlen : trsl.length ≤ wet.length)
    (hM : waaMax.val = .fin M) (hd : deltaT.val = .fin d) (ht : tau.val = .fin t) (hr : RateRange L a b l α β) (hrm : Rmin.val = .fin rm)
    (hd0 : 0 ≤ d) (h3 : 3 * d ≤ t) (ht1 : (2 : ℝ) ^ (-100 : ℤ) ≤ t) (hd2 : d ≤ 2 ^ (500 : ℤ)) (hM0 : 0 ≤ M) (hMB : M ≤ B)
    (hB1 : (2 : ℝ) ^ (-900 : ℤ) ≤ B) (hB2 : B ≤ 2 ^ (290 : ℤ)) (hT : (8 * B / (α * l)) ^ (1 / β) ≤ 2 ^ (64 : ℤ))
    (hx : ∀ a ∈ trsl, a.val = .nan ∨ ∃ x, a.val = .fin x ∧ |x| ≤ B)
    (hm : (trsl.length : ℝ) ≤ m ∨ t ≤ 3 * d * m) (hm2 : m ≤ 2 ^ 47) :
    ∃ c v rs, baselineLinear (trsl.map (·.val)) (wet.map (·.val)) ignoreNan = .ok c ∧
      waaSchleiss (trsl.map (·.val)) c (wet.map (·.val)) (.fin M) (.fin d) (.fin t) = .ok v ∧
      rainChainLinF ignoreNan waaMax deltaT tau L a b Rmin trsl wet = .ok rs ∧
      c.length = trsl.length ∧ v.length = trsl.length ∧ rs.length = trsl.length ∧
      ∀ (i : ℕ) x y z r, trsl[i]? = some x → c[i]? = some y → v[i]? = some z → rs[i]? = some r →
        ((x.val -ᶠ y) -ᶠ z = .nan ∧ isNaN r = true) ∨
        ∃ A ρ, (x.val -ᶠ y) -ᶠ z = .fin A ∧ r.val = .fin (if ρ < rm then 0 else ρ) ∧ 0 ≤ ρ ∧
          (1 - 2 ^ (-46 : ℤ)) * lawRate α β l (A - (48 * m + 35) * (2 ^ (-53 : ℤ) * B)) - 2 ^ (-99 : ℤ) ≤ ρ ∧
          ρ ≤ (1 + 2 ^ (-46 : ℤ)) * lawRate α β l (A + (48 * m + 35) * (2 ^ (-53 : ℤ) * B)) + 2 ^ (-99 : ℤ) := by
  have hB : 0 ≤ B := le_trans (by positivity) hB1
  have ht0 : 0 < t := lt_of_lt_of_le (by positivity) ht1
  have hNK : (trsl.length : ℝ) ≤ 2 ^ 53 := by exact_mod_cast hN2
  obtain ⟨bb, w, c, v, hb, hw, hc, hv, hbl, hcl, hF⟩ := C156_attenuation (binary64_precision (K := ℝ)) trsl wet ignoreNan waaMax deltaT tau
    M d t B m hN hlen hM hd ht hd0 ht0 h3 hM0 hMB hx hm (by
      have := mul_le_mul_of_nonneg_right hm2 (by positivity : (0 : ℝ) ≤ 2 ^ (-53 : ℤ))
      refine le_trans (mul_le_mul_of_nonneg_left this (by norm_num)) ?_
      norm_num) (hNK.trans (by norm_num)) (by norm_num) (by norm_num) (by
      calc (2 : ℝ) ^ (-1075 : ℤ) * trsl.length ≤ 2 ^ (-1075 : ℤ) * 2 ^ (53 : ℤ) :=
            mul_le_mul_of_nonneg_left (hNK.trans (by norm_num)) (by positivity)
        _ = 2 ^ (-1022 : ℤ) := by rw [← zpow_add₀ (by norm_num)]; norm_num
        _ ≤ 2 ^ (-53 + -900 : ℤ) := zpow_le_zpow_right₀ (by norm_num) (by norm_num)
        _ = 2 ^ (-53 : ℤ) * 2 ^ (-900 : ℤ) := by rw [zpow_add₀ (by norm_num)]
        _ ≤ _ := mul_le_mul_of_nonneg_left hB1 (by positivity)) (by
      calc (2 : ℝ) ^ (-1075 : ℤ) ≤ 2 ^ (-53 + -900 + -100 : ℤ) := zpow_le_zpow_right₀ (by norm_num) (by norm_num)
        _ = 2 ^ (-53 : ℤ) * 2 ^ (-900 : ℤ) * 2 ^ (-100 : ℤ) := by rw [zpow_add₀ (by norm_num), zpow_add₀ (by norm_num)]
        _ ≤ _ := mul_le_mul (mul_le_mul_of_nonneg_left hB1 (by positivity)) ht1 (by positivity) (by positivity)) (by
      calc 24 * B * (1 + d) ≤ 2 ^ (5 : ℤ) * 2 ^ (290 : ℤ) * (2 ^ (500 : ℤ) + 2 ^ (500 : ℤ)) := by
            refine mul_le_mul (mul_le_mul (by norm_num) hB2 hB (by positivity))
              (add_le_add (one_le_zpow₀ one_le_two (by norm_num)) hd2) (by linarith)
              (mul_nonneg (zpow_nonneg zero_le_two _) (zpow_nonneg zero_le_two _))
        _ = 2 ^ (796 : ℤ) := by
          rw [← two_mul, ← zpow_one_add₀ (by norm_num), ← zpow_add₀ (by norm_num), ← zpow_add₀ (by norm_num)]
          norm_num
        _ ≤ _ := zpow_le_zpow_right₀ (by norm_num) (by norm_num))
  have k1 : (trsl.map (·.val)).length = trsl.length := by rw [List.length_map]
  obtain ⟨w0, hw0, hw0l, -⟩ := schleiss_rec trsl bb wet waaMax deltaT tau hbl.symm hlen (by
    rw [RFl.eq_def, ht, RFl.val_zero]; simpa using ht0.ne')
  rw [hw] at hw0
  cases hw0
  obtain ⟨v0, hv0, hv0l, -⟩ := schleiss_rec (trsl.map (·.val)) c (wet.map (·.val)) (.fin M) (.fin d) (.fin t) (by omega)
    (by simpa using hlen) (by simpa using ht0.ne')
  rw [hv] at hv0
  cases hv0
  refine ⟨c, v, _, hc, hv, by simp only [rainChainLinF, hb, bind, Except.bind, hw]; exact calcR_scalar _ _ _ _ _ _ _, by omega, by omega,
    by simp only [List.length_map, List.length_zipWith]; omega, ?_⟩
  intro i x y z r hxi hyi hzi hri
  have hi : i < trsl.length := (List.getElem?_eq_some_iff.mp hxi).1
  rw [List.getElem?_map, Option.map_eq_some_iff] at hri
  obtain ⟨q, hq, rfl⟩ := hri
  have hF2 := (List.forall₂_iff_get.mp hF).2 i (by simp only [List.length_zipWith]; omega)
    (by simp only [List.length_zipWith, List.length_map]; omega)
  have g1 := (List.getElem?_eq_some_iff.mp hq).2
  have g2 : (List.zipWith (· -ᶠ ·) (List.zipWith (· -ᶠ ·) (trsl.map (·.val)) c) v)[i]? = some ((x.val -ᶠ y) -ᶠ z) := by
    simp [List.getElem?_zipWith, hxi, hyi, hzi]
  have g2' := (List.getElem?_eq_some_iff.mp g2).2
  rw [List.get_eq_getElem, List.get_eq_getElem] at hF2
  dsimp only at hF2
  rw [g1, g2'] at hF2
  obtain ⟨hU, hA⟩ := hF2
  exact rate_of_close hacc hr hrm hB2 hT hU hA

/-- A wet step at 60 dB between dry steps at 50 dB, `waa_max = 2`, `delta_t = 1`, `tau = 15`, 10 km: in exact arithmetic the attenuation at
the wet step is 9.6 dB and the rain rate 0.96 mm/h; doubles give that up to `10^-12`. -/
example : letI := correctPow (binary64 (K := ℝ))
    let D : ℕ → DblR := fun k => PyFloat.ofInt k
    ∃ rs r ρ, rainChainLinF false (D 2) (D 1) (D 15) (D 10) (D 1) (D 1) (D 0) [D 50, D 60, D 50] [D 0, D 1, D 0] = .ok rs ∧
      rs[1]? = some r ∧ r.val = .fin ρ ∧ |ρ - 96 / 100| ≤ 1 / 10 ^ 12 := by
  let _ := correctPow (binary64 (K := ℝ))
  intro D
  have v : ∀ k : ℕ, k ≤ 60 → (D k).val = .fin (k : ℝ) := fun k hk => val_ofNat_b64 k (hk.trans (by norm_num))
  have lo : ∀ (x : ℝ) (j : ℤ), 1 ≤ x → j ≤ 0 → (2 : ℝ) ^ j ≤ x := fun x j hx hj =>
    le_trans (zpow_le_one_of_nonpos₀ (by norm_num) hj) hx
  have hi : ∀ (x : ℝ) (j : ℤ), x ≤ 2 ^ (10 : ℤ) → 10 ≤ j → x ≤ 2 ^ j := fun x j hx hj =>
    le_trans hx (zpow_le_zpow_right₀ (by norm_num) hj)
  have hr : RateRange (D 10) (D 1) (D 1) 10 1 1 :=
    ⟨by simpa using v 10 (by norm_num), by simpa using v 1 (by norm_num), by simpa using v 1 (by norm_num),
      lo _ _ (by norm_num) (by norm_num), hi _ _ (by norm_num) (by norm_num), lo _ _ (by norm_num) (by norm_num),
      hi _ _ (by norm_num) (by norm_num), by norm_num, by norm_num⟩
  obtain ⟨c, w, rs, hc, hw, hrs, h1, h2, h3, h⟩ := C156_rain correctPow_close [D 50, D 60, D 50] [D 0, D 1, D 0] false
    (D 2) (D 1) (D 15) (D 10) (D 1) (D 1) (D 0) 2 1 15 64 4 10 1 1 0 (by simp) (by simp) (by simp)
    (by simpa using v 2 (by norm_num)) (by simpa using v 1 (by norm_num)) (by simpa using v 15 (by norm_num)) hr
    (by simpa using v 0 (by norm_num)) (by norm_num) (by norm_num) (lo _ _ (by norm_num) (by norm_num))
    (hi _ _ (by norm_num) (by norm_num)) (by norm_num) (by norm_num) (lo _ _ (by norm_num) (by norm_num))
    (hi _ _ (by norm_num) (by norm_num)) (by norm_num) (by
      intro a ha
      simp only [List.mem_cons, List.not_mem_nil, or_false] at ha
      rcases ha with rfl | rfl | rfl
      · exact .inr ⟨_, v 50 (by norm_num), by norm_num⟩
      · exact .inr ⟨_, v 60 (by norm_num), by norm_num⟩
      · exact .inr ⟨_, v 50 (by norm_num), by norm_num⟩) (.inl (by norm_num)) (by norm_num)
  have e1 : [D 50, D 60, D 50].map (·.val) = [50, 60, 50].map (Fl.fin : ℝ → Fl ℝ) := by
    simp only [List.map_cons, List.map_nil, v 50 (by norm_num), v 60 (by norm_num)]
    norm_num
  have e2 : [D 0, D 1, D 0].map (·.val) = flags (K := ℝ) [false, true, false] := by
    simp only [flags, List.map_cons, List.map_nil, v 0 (by norm_num), v 1 (by norm_num)]
    norm_num
  rw [e1, e2] at hc hw
  obtain ⟨c', hc', -, hdry, hwet, -⟩ := C06_linear_interpolates [(50 : ℝ), 60, 50] [false, true, false] false (by simp) (by simp)
  rw [hc] at hc'
  cases hc'
  have c1 : c[1]? = some (.fin (50 : ℝ)) := by
    have := hwet 0 2 1 (by norm_num) (by norm_num) (by simp) (.inl rfl) (.inr rfl) (by
      intro k k1 k2
      obtain rfl : k = 1 := by omega
      simp [Dry])
    rw [this]
    norm_num
  obtain ⟨w', hw', hwl, w0, wr⟩ := schleiss_rec ([50, 60, 50].map (Fl.fin : ℝ → Fl ℝ)) c (flags (K := ℝ) [false, true, false])
    (.fin 2) (.fin 1) (.fin 15) (by simp [h1]) (by simp [flags]) (by simp)
  rw [hw] at hw'
  cases hw'
  have a1 : rd (atten ([50, 60, 50].map (Fl.fin : ℝ → Fl ℝ)) c) 1 = .fin 10 := by
    apply rd_of_getElem?
    unfold atten
    rw [List.getElem?_zipWith, c1]
    simp
    norm_num
  have w0' : rd w 0 = .fin 0 := by
    rw [w0 (by simp), Fl.pf_ofInt]; norm_num
  have w1 : rd w 1 = .fin (4 / 10) := by
    rw [wr 1 (by norm_num) (by simp), w0']
    unfold schleissVal
    rw [if_pos (by simp [rd, flags]), a1, pyMin_fin_fin]
    simp only [Fl.pf_sub_fin, Fl.pf_ofInt, Fl.pf_mul_fin, Fl.pf_div_fin_ne _ _ (by norm_num : (15 : ℝ) ≠ 0), Fl.pf_add_fin, pyMin_fin_fin]
    norm_num
  have hlr : 1 < rs.length := by rw [h3]; simp
  refine ⟨rs, rd rs 1, ?_⟩
  rcases h 1 _ _ _ _ rfl c1 (getElem?_eq_rd (by rw [h2]; simp)) (getElem?_eq_rd hlr) with ⟨e, -⟩ | ⟨A, ρ, e, g1, g2, g3, g4⟩
  · rw [v 60 (by norm_num), w1] at e
    simp at e
  · rw [v 60 (by norm_num), w1] at e
    simp only [Fl.pf_sub_fin, Fl.fin.injEq] at e
    refine ⟨ρ, hrs, getElem?_eq_rd hlr, by rw [g1, if_neg (by linarith)], ?_⟩
    unfold lawRate at g3 g4
    rw [show (1 : ℝ) / 1 = 1 by norm_num, Real.rpow_one] at g3 g4
    norm_num at e
    rw [← e, max_eq_right (by norm_num)] at g3 g4
    norm_num at g3 g4
    rw [abs_le]
    constructor <;> linarith

end Verif.Props
