import Verif.RoundingReal
import Verif.Props.Rounding
import Verif.Props.NearbyChain

/-!
# C94, C95: the nearby approach in rounded arithmetic
-/

namespace Verif.Props
open Verif Verif.Nearby Verif.Bin

/-! ### C94 deltaP -/

section delta
variable {F : Type} [PyFloat F]

/-- number of values in the last `period` steps up to `t` -/
def dataCount (xs : List F) (period t : Nat) : Nat := (valid (window xs period t)).length

theorem getElem?_deltaP_gen (period need : Nat) (xs : List F) (t : Nat) (x : F)
    (hx : xs[t]? = some x) : (deltaP period need xs)[t]? = some (x -ᶠ
      (if dataCount xs period t < need then PyFloat.nan
        else listMax (valid (window xs period t)))) := by
  have ht : t < xs.length := (List.getElem?_eq_some_iff.mp hx).1
  unfold deltaP maxPmin
  rw [List.getElem?_zipWith, hx, getElem?_rolling _ _ _ _ _ ht]
  rfl

variable [OrderedPyFloat F]

/-- **C94** Whatever the rounding, `deltaP` is NaN or not positive. -/
theorem C94_delta_nonpos (period need : Nat) (xs : List F) (hper : 0 < period)
    (t : Nat) (d : F) (hd : (deltaP period need xs)[t]? = some d) :
    isNaN d = true ∨ d ≤ᶠ PyFloat.ofInt 0 := by
  have ht : t < xs.length := by
    have := (List.getElem?_eq_some_iff.mp hd).1
    simpa [deltaP, maxPmin, length_rolling] using this
  obtain ⟨x, hx⟩ : ∃ x, xs[t]? = some x := ⟨_, List.getElem?_eq_getElem ht⟩
  rw [getElem?_deltaP_gen _ _ _ _ _ hx] at hd
  obtain rfl := Option.some.inj hd
  by_cases hnx : isNaN x = true
  · left; exact LawfulPyFloat.sub_nan _ _ (by simp [hnx])
  have hnx' : isNaN x = false := by simpa using hnx
  split_ifs with h
  · left; exact LawfulPyFloat.sub_nan _ _ (by simp [LawfulPyFloat.isNaN_nan])
  · have hmem : x ∈ valid (window xs period t) :=
      mem_valid.mpr ⟨mem_window.mpr ⟨t, by omega, le_rfl, hx⟩, hnx'⟩
    obtain ⟨-, h2⟩ := listMax_spec (List.ne_nil_of_mem hmem) fun y hy => (mem_valid.mp hy).2
    by_cases hn : isNaN (x -ᶠ listMax (valid (window xs period t))) = true
    · exact Or.inl hn
    · exact Or.inr (OrderedPyFloat.sub_nonpos _ _ (h2 x hmem) (by simpa using hn))

end delta

section binary64
variable {K : Type} [Field K] [LinearOrder K] [IsStrictOrderedRing K] [FloorRing K]

/-- The difference of two doubles is zero only if they are equal (gradual underflow). -/
theorem b64_sub_ne_zero {x y : K} (hx : (binary64 (K := K)).rnd x = .fin x)
    (hy : (binary64 (K := K)).rnd y = .fin y) (h : x ≠ y) (hb : |x - y| ≤ 2 ^ (1023 : ℤ)) :
    ∃ z, (binary64 (K := K)).rnd (x - y) = .fin z ∧ z ≠ 0 := by
  obtain ⟨z, hz, he⟩ := (binary64_precision (K := K)).sub_err x y hx hy hb
  refine ⟨z, hz, ?_⟩
  rintro rfl
  rw [zero_sub, abs_neg] at he
  have h0 : 0 < |x - y| := abs_pos.mpr (sub_ne_zero.mpr h)
  have h1 : (2 : K) ^ (-53 : ℤ) < 1 := by norm_num
  have := mul_lt_mul_of_pos_right h1 h0
  rw [one_mul] at this
  linarith

/-- **C94** In IEEE doubles `deltaP` is negative exactly where an earlier value of the window is greater than the
current one (for values up to `2^1022`): small differences are not lost. -/
theorem C94_delta_negative (period need : Nat) (xs : List (RFl (binary64 (K := K))))
    (hper : 0 < period) (t : Nat) (x : K) (v d : RFl (binary64 (K := K)))
    (hv : xs[t]? = some v) (hvx : v.val = .fin x)
    (hreg : ∀ (s : Nat) (y : RFl (binary64 (K := K))), xs[s]? = some y → y.val = .nan ∨ ∃ r : K, y.val = .fin r ∧ |r| ≤ 2 ^ (1022 : ℤ))
    (hmany : need ≤ dataCount xs period t)
    (hd : (deltaP period need xs)[t]? = some d) :
    ∃ z : K, d.val = .fin z ∧ z ≤ 0 ∧
      (z < 0 ↔ ∃ s y r, t < s + period ∧ s ≤ t ∧ xs[s]? = some y ∧ y.val = .fin r ∧ x < r) := by
  rw [getElem?_deltaP_gen _ _ _ _ _ hv, if_neg (by omega)] at hd
  obtain rfl := Option.some.inj hd
  have hmem : v ∈ valid (window xs period t) :=
    mem_valid.mpr ⟨mem_window.mpr ⟨t, by omega, le_rfl, hv⟩, by rw [RFl.isNaN_def, hvx]; rfl⟩
  obtain ⟨h1, h2⟩ := listMax_spec (List.ne_nil_of_mem hmem) fun y hy => (mem_valid.mp hy).2
  generalize listMax (valid (window xs period t)) = M at h1 h2
  obtain ⟨hMw, hMn⟩ := mem_valid.mp h1
  obtain ⟨s, hs1, hs2, hs⟩ := mem_window.mp hMw
  obtain ⟨m, hm, hmb⟩ : ∃ m : K, M.val = .fin m ∧ |m| ≤ 2 ^ (1022 : ℤ) := by
    rcases hreg s M hs with h | h
    · rw [RFl.isNaN_def, h] at hMn; cases hMn
    · exact h
  have hxb : |x| ≤ 2 ^ (1022 : ℤ) := by
    rcases hreg t v hv with h | ⟨r, h, hr⟩
    · rw [hvx] at h; cases h
    · rw [hvx] at h; obtain rfl := Fl.fin.inj h; exact hr
  have hle : x ≤ m := by
    have := h2 v hmem
    rw [RFl.le_def, hvx, hm] at this
    simpa using this
  have hbig : |x - m| ≤ 2 ^ (1023 : ℤ) := by
    have e : (2 : K) ^ (1023 : ℤ) = 2 ^ (1022 : ℤ) + 2 ^ (1022 : ℤ) := by
      rw [← two_mul, show (1023 : ℤ) = 1 + 1022 by norm_num, zpow_add₀ two_ne_zero, zpow_one]
    rw [e]
    exact (abs_sub x m).trans (add_le_add hxb hmb)
  have hval : (v -ᶠ M).val = binary64.rnd (x - m) := by
    rw [RFl.val_sub, hvx, hm, Fl.pf_sub_fin]; rfl
  rcases hle.eq_or_lt with heq | hlt
  · refine ⟨0, by rw [hval, heq, sub_self]; exact binary64.zero, le_rfl, ?_⟩
    refine ⟨fun h => absurd h (lt_irrefl _), ?_⟩
    rintro ⟨s', y, r, a1, a2, a3, a4, a5⟩
    have hy : y ∈ valid (window xs period t) :=
      mem_valid.mpr ⟨mem_window.mpr ⟨s', a1, a2, a3⟩, by rw [RFl.isNaN_def, a4]; rfl⟩
    have := h2 y hy
    rw [RFl.le_def, a4, hm, Fl.pf_le_fin, decide_eq_true_eq] at this
    linarith
  · obtain ⟨z, hz, hz0⟩ := b64_sub_ne_zero (RFl.rnd_of_val hvx) (RFl.rnd_of_val hm) hlt.ne hbig
    have hzn : z ≤ 0 := rnd_nonpos hz (by linarith)
    refine ⟨z, by rw [hval, hz], hzn, ?_⟩
    exact ⟨fun _ => ⟨s, M, m, hs1, hs2, hs, hm, hlt⟩, fun _ => lt_of_le_of_ne hzn hz0⟩

/-! ### C95 reference level -/

/-- Doubling a double is exact unless it overflows. -/
theorem b64_double {x : K} (h : (binary64 (K := K)).rnd x = .fin x) (hb : |x| ≤ 2 ^ (1022 : ℤ)) :
    (binary64 (K := K)).rnd (2 * x) = .fin (2 * x) := by
  have h' := (rndFmt_self_iff (p := 53) (emin := -1074) (emax := 1024)).mp h
  show rndFmt 53 (-1074) 1024 (2 * x) = _
  rw [rndFmt_self_iff]
  have h2 : |2 * x| = 2 * |x| := by rw [abs_mul, abs_of_pos (by norm_num : (0 : K) < 2)]
  refine ⟨?_, ?_⟩
  · rcases (abs_nonneg x).eq_or_lt with h0 | h0
    · rw [h2, ← h0, mul_zero]; exact rndPos_zero
    · have e1 := h'.1
      set E := ulpExp 53 (-1074) |x| with hE
      have hx : |x| = (MinMax.rintK (|x| / 2 ^ E) : K) * 2 ^ E := e1.symm
      set m : ℤ := MinMax.rintK (|x| / 2 ^ E)
      have hlt := lt_two_zpow (p := 53) (emin := -1074) |x|
      rw [← hE] at hlt
      have h2x : |2 * x| = (m : K) * 2 ^ (E + 1) := by
        rw [h2, hx, zpow_add₀ two_ne_zero, zpow_one]; ring
      rw [h2x]
      refine rndPos_mul_zpow ?_
      rw [← h2x]
      refine ulpExp_le (by rw [h2]; linarith) ?_ ?_
      · have := ulpExp_ge (p := 53) (emin := -1074) |x|
        omega
      · rw [h2, show E + 1 + ((53 : ℕ) : ℤ) = 1 + (E + (53 : ℕ)) by ring, zpow_add₀ two_ne_zero, zpow_one]
        linarith
  · rw [h2]
    have e : (2 : K) ^ (1024 : ℤ) = 2 * (2 * 2 ^ (1022 : ℤ)) := by
      rw [show (1024 : ℤ) = 1 + (1 + 1022) by norm_num, zpow_add₀ two_ne_zero, zpow_add₀ two_ne_zero,
        zpow_one]
    have : (0 : K) < 2 ^ (1022 : ℤ) := two_zpow_pos _
    rw [e]
    generalize (2 : K) ^ (1022 : ℤ) = B at hb this ⊢
    linarith

/-- A value is NaN or a number between `lo` and `hi`. -/
def Within (lo hi : K) (v : RFl (binary64 (K := K))) : Prop :=
  v.val = .nan ∨ ∃ r : K, v.val = .fin r ∧ lo ≤ r ∧ r ≤ hi

theorem b64_mean_between {lo hi : K} (hlo : (binary64 (K := K)).rnd lo = .fin lo)
    (hhi : (binary64 (K := K)).rnd hi = .fin hi) (blo : |lo| ≤ 2 ^ (1022 : ℤ))
    (bhi : |hi| ≤ 2 ^ (1022 : ℤ)) {a b : RFl (binary64 (K := K))} {x y : K} (ha : a.val = .fin x)
    (hb : b.val = .fin y) (hx : lo ≤ x ∧ x ≤ hi) (hy : lo ≤ y ∧ y ≤ hi) :
    ∃ r : K, ((a +ᶠ b) /ᶠ PyFloat.ofInt 2).val = .fin r ∧ lo ≤ r ∧ r ≤ hi := by
  obtain ⟨s, hs, s1, s2⟩ := rnd_between (b64_double hlo blo) (b64_double hhi bhi)
    (x := x + y) (by linarith [hx.1, hy.1]) (by linarith [hx.2, hy.2])
  have h2 : (PyFloat.ofInt 2 : RFl (binary64 (K := K))).val = .fin 2 := by
    rw [RFl.val_ofInt]
    have := (binary64_precision (K := K)).int_exact 2 (by norm_num)
    exact_mod_cast this
  obtain ⟨r, hr, r1, r2⟩ := rnd_between hlo hhi (x := s / 2) (by linarith) (by linarith)
  refine ⟨r, ?_, r1, r2⟩
  rw [RFl.val_div, RFl.val_add, ha, hb, Fl.pf_add_fin]
  show (binary64 (K := K)).round (binary64.rnd (x + y) /ᶠ _) = _
  rw [hs, h2, Fl.pf_div_fin_ne _ _ (by norm_num)]
  exact hr

theorem dryLevel_b64 (x y w : RFl (binary64 (K := K))) :
    dryLevel x y w = if w ==ᶠ PyFloat.ofInt 0 then (x +ᶠ y) /ᶠ PyFloat.ofInt 2 else PyFloat.nan := by
  have e1 : ((PyFloat.ofInt 1 : RFl (binary64 (K := K))) ==ᶠ PyFloat.ofInt 1) = true := by
    rw [RFl.eq_def, RFl.val_one]; simp
  have e0 : ((PyFloat.ofInt 0 : RFl (binary64 (K := K))) ==ᶠ PyFloat.ofInt 1) = false := by
    rw [RFl.eq_def, RFl.val_one, RFl.val_zero]; simp
  have en : ((PyFloat.nan : RFl (binary64 (K := K))) ==ᶠ PyFloat.ofInt 1) = false := rfl
  unfold dryLevel
  dsimp only
  by_cases hn : isNaN w = true
  · have : (w ==ᶠ PyFloat.ofInt 0) = false := by
      rw [RFl.isNaN_def, Fl.isNaN_iff] at hn
      rw [RFl.eq_def, hn]; rfl
    rw [if_pos hn, en, this]
  · rw [if_neg hn]
    by_cases hz : (w ==ᶠ PyFloat.ofInt 0) = true
    · rw [if_pos hz, if_pos e1, if_pos hz]
    · rw [if_neg hz, e0, if_neg hz]
      rfl

/-- **C95** In IEEE doubles the reference level at `t` is NaN or lies between `lo` and `hi`, if the levels
`pmin` and `pmax` of the steps flagged dry among the last `n` do. -/
theorem C95_reference_between (pmin pmax wet : List (RFl (binary64 (K := K))))
    (n mp t : Nat) (lo hi : K) (hlo : (binary64 (K := K)).rnd lo = .fin lo)
    (hhi : (binary64 (K := K)).rnd hi = .fin hi) (blo : |lo| ≤ 2 ^ (1022 : ℤ))
    (bhi : |hi| ≤ 2 ^ (1022 : ℤ)) (hmp : 0 < mp)
    (hdry : ∀ s x y w, t < s + n → s ≤ t → pmin[s]? = some x → pmax[s]? = some y →
      wet[s]? = some w → w ==ᶠ PyFloat.ofInt 0 → Within lo hi x ∧ Within lo hi y)
    (r : RFl (binary64 (K := K)))
    (hr : (determine_reference_level pmin pmax wet n mp)[t]? = some r) : Within lo hi r := by
  unfold determine_reference_level at hr
  have ht : t < (zip3 dryLevel pmin pmax wet).length := by
    have := (List.getElem?_eq_some_iff.mp hr).1
    rwa [length_rolling] at this
  rw [getElem?_rolling _ _ _ _ _ ht] at hr
  obtain rfl := Option.some.inj hr
  split_ifs with hc
  · exact Or.inl rfl
  set v := valid (window (zip3 dryLevel pmin pmax wet) n t) with hvdef
  have hv : ∀ x ∈ v, ∃ q : K, x.val = .fin q ∧ lo ≤ q ∧ q ≤ hi := by
    intro x hx
    obtain ⟨m2, m3⟩ := mem_valid.mp hx
    obtain ⟨s, s1, s2, hs⟩ := mem_window.mp m2
    have hs' := hs
    unfold zip3 at hs'
    rw [List.getElem?_zipWith_eq_some] at hs'
    obtain ⟨p, w, hp, hw, rfl⟩ := hs'
    obtain ⟨h1, h2⟩ := List.getElem?_zip_eq_some.mp hp
    rw [dryLevel_b64] at m3 ⊢
    by_cases hz : (w ==ᶠ PyFloat.ofInt 0) = true
    · obtain ⟨hx1, hy1⟩ := hdry s _ _ w s1 s2 h1 h2 hw hz
      rw [if_pos hz] at m3 ⊢
      have hadd : isNaN (p.1 +ᶠ p.2) = false := by
        by_contra hh
        rw [OrderedPyFloat.div_nan _ _ (by simp at hh; simp [hh])] at m3
        cases m3
      rcases hx1 with hx1 | ⟨a, ha, ha'⟩
      · rw [LawfulPyFloat.add_nan _ _ (by rw [RFl.isNaN_def, hx1]; rfl)] at hadd
        cases hadd
      · rcases hy1 with hy1 | ⟨b, hb, hb'⟩
        · rw [LawfulPyFloat.add_nan _ _ (by
            have : isNaN p.2 = true := by rw [RFl.isNaN_def, hy1]; rfl
            rw [this, Bool.or_true])] at hadd
          cases hadd
        · exact b64_mean_between hlo hhi blo bhi ha hb ha' hb'
    · rw [if_neg hz, LawfulPyFloat.isNaN_nan] at m3
      cases m3
  have hlen : (sortF v).length = v.length := (sortF_perm v).length_eq
  have hpos : 0 < v.length := by omega
  have hs : ∀ k < (sortF v).length, ∃ q : K, (rd (sortF v) k).val = .fin q ∧ lo ≤ q ∧ q ≤ hi := by
    intro k hk
    exact hv _ ((sortF_perm v).mem_iff.mp (List.mem_of_getElem? (getElem?_eq_rd hk)))
  right
  unfold median
  dsimp only
  rw [if_neg (by omega)]
  split_ifs
  · exact hs _ (by omega)
  · obtain ⟨a, ha, ha'⟩ := hs ((sortF v).length / 2 - 1) (by omega)
    obtain ⟨b, hb, hb'⟩ := hs ((sortF v).length / 2) (by omega)
    exact b64_mean_between hlo hhi blo bhi ha hb ha' hb'

theorem zip3_replicate {α β γ δ : Type} (f : α → β → γ → δ) (a : α) (b : β) (zs : List γ) :
    zip3 f (List.replicate zs.length a) (List.replicate zs.length b) zs = zs.map (f a b) := by
  unfold zip3
  induction zs with
  | nil => rfl
  | cons z zs ih => simpa [List.replicate_succ] using ih

/-- **C95** In IEEE doubles a constant signal gives a reference level of exactly this value wherever at least `mp`
of the last `n` steps are flagged dry, NaN elsewhere; there both corrected signals are exactly this value, wet or
dry, so that the attenuation is exactly zero (contrast C83). -/
theorem C95_constant_signal (c : RFl (binary64 (K := K))) (x : K) (hc : c.val = .fin x)
    (hb : |x| ≤ 2 ^ (1022 : ℤ)) (wet : List (RFl (binary64 (K := K)))) (n mp : Nat) (hmp : 0 < mp)
    (t : Nat) (ht : t < wet.length) :
    let lev := List.replicate wet.length c
    let pref := determine_reference_level lev lev wet n mp
    let out := correct_received_signals lev lev wet pref
    ((window wet n t).countP (fun w => w ==ᶠ PyFloat.ofInt 0) < mp →
      ∃ r, pref[t]? = some r ∧ r.val = .nan) ∧
    (mp ≤ (window wet n t).countP (fun w => w ==ᶠ PyFloat.ofInt 0) →
      pref[t]? = some c ∧ out.1[t]? = some c ∧ out.2[t]? = some c ∧
      (c -ᶠ c).val = .fin 0) := by
  intro lev pref out
  have hmean : (c +ᶠ c) /ᶠ PyFloat.ofInt 2 = c := by
    obtain ⟨r, hr, r1, r2⟩ := b64_mean_between (RFl.rnd_of_val hc) (RFl.rnd_of_val hc) hb hb hc hc
      ⟨le_rfl, le_rfl⟩ ⟨le_rfl, le_rfl⟩
    apply RFl.ext
    rw [hr, hc, le_antisymm r2 r1]
  have hcn : isNaN c = false := by rw [RFl.isNaN_def, hc]; rfl
  have hz : zip3 dryLevel lev lev wet =
      wet.map fun w => if w ==ᶠ PyFloat.ofInt 0 then c else PyFloat.nan := by
    rw [zip3_replicate]
    refine List.map_congr_left fun w _ => ?_
    rw [dryLevel_b64, hmean]
  have hval : valid (window (zip3 dryLevel lev lev wet) n t) =
      List.replicate ((window wet n t).countP fun w => w ==ᶠ PyFloat.ofInt 0) c := by
    rw [hz, window_map]
    generalize window wet n t = ws
    induction ws with
    | nil => rfl
    | cons w ws ih =>
      unfold valid at ih ⊢
      by_cases h : (w ==ᶠ PyFloat.ofInt 0) = true
      · rw [List.map_cons, if_pos h, List.filter_cons, hcn, List.countP_cons, if_pos h]
        simp only [Bool.not_false, if_true]
        rw [ih, List.replicate_succ]
      · rw [List.map_cons, if_neg h, List.filter_cons, LawfulPyFloat.isNaN_nan, List.countP_cons,
          if_neg h]
        simpa using ih
  have hpref : pref[t]? = some (if (window wet n t).countP (fun w => w ==ᶠ PyFloat.ofInt 0) < mp
      then PyFloat.nan else median (valid (window (zip3 dryLevel lev lev wet) n t))) := by
    show (rolling _ _ _ _)[t]? = _
    rw [getElem?_rolling _ _ _ _ _ (by rw [hz]; simpa using ht), hval, List.length_replicate]
  refine ⟨fun h => ⟨_, by rw [hpref, if_pos h], rfl⟩, fun h => ?_⟩
  rw [if_neg (by omega)] at hpref
  have hp : pref[t]? = some c := by
    have hw : Within x x (median (valid (window (zip3 dryLevel lev lev wet) n t))) := by
      refine C95_reference_between lev lev wet n mp t x x (RFl.rnd_of_val hc) (RFl.rnd_of_val hc) hb hb
        hmp ?_ _ hpref
      intro s a b w _ _ ha hb _ _
      have e : ∀ v, lev[s]? = some v → v = c := by
        intro v hv
        exact List.eq_of_mem_replicate (List.mem_of_getElem? hv)
      rw [e a ha, e b hb]
      exact ⟨Or.inr ⟨x, hc, le_rfl, le_rfl⟩, Or.inr ⟨x, hc, le_rfl, le_rfl⟩⟩
    rw [hpref]
    congr 1
    rcases hw with hw | ⟨r, hr, r1, r2⟩
    · exfalso
      rw [hval] at hw
      have hmem : ∀ k < (sortF (List.replicate ((window wet n t).countP
          fun w => w ==ᶠ PyFloat.ofInt 0) c)).length,
          rd (sortF (List.replicate ((window wet n t).countP fun w => w ==ᶠ PyFloat.ofInt 0) c)) k = c := by
        intro k hk
        exact List.eq_of_mem_replicate ((sortF_perm _).mem_iff.mp
          (List.mem_of_getElem? (getElem?_eq_rd hk)))
      have hl := (sortF_perm (List.replicate ((window wet n t).countP
          fun w => w ==ᶠ PyFloat.ofInt 0) c)).length_eq
      rw [List.length_replicate] at hl
      unfold median at hw
      dsimp only at hw
      rw [if_neg (by omega)] at hw
      split_ifs at hw
      · rw [hmem _ (by omega), hc] at hw; cases hw
      · rw [hmem _ (by omega), hmem _ (by omega), hmean, hc] at hw; cases hw
    · apply RFl.ext
      rw [hr, hc, le_antisymm r2 r1]
  have hlev : lev[t]? = some c := List.getElem?_replicate_of_lt ht
  obtain ⟨w, hw⟩ : ∃ w, wet[t]? = some w := ⟨_, List.getElem?_eq_getElem ht⟩
  have h1 : out.1[t]? = some c := by
    show (zip3 corrMin lev wet pref)[t]? = _
    rw [getElem?_zip3 _ hlev hw hp]
    unfold corrMin
    split_ifs <;> rfl
  refine ⟨hp, h1, ?_, ?_⟩
  · show (zip3 corrMax out.1 lev pref)[t]? = _
    rw [getElem?_zip3 _ h1 hlev hp]
    unfold corrMax
    split_ifs <;> rfl
  · rw [RFl.val_sub, hc, Fl.pf_sub_fin, sub_self]
    exact binary64.zero

end binary64

/-- The signal `0.1`, three dry steps and a wet one: the reference level at the wet step is exactly `0.1` (compare
`C83_constant_signal_attenuation`). -/
example : (determine_reference_level (List.replicate 4 tenth) (List.replicate 4 tenth)
    [PyFloat.ofInt 0, PyFloat.ofInt 0, PyFloat.ofInt 0, PyFloat.ofInt 1] 4 3)[3]? = some tenth := by
  obtain ⟨x, hx, hb⟩ : ∃ x, tenth.val = .fin x ∧ |x| ≤ 2 ^ (1022 : ℤ) := by
    have h : (binary64 (K := ℚ)).rnd (1 / 10)
        = .fin (((7205759403792794 : ℤ) : ℚ) * 2 ^ ((-4 : ℤ) - 52)) :=
      binary64_rnd (by norm_num) (by norm_num) (by norm_num) (by norm_num)
        (rintK_eq (by norm_num [abs_lt]))
    refine ⟨_, h, ?_⟩
    have : (2 : ℚ) ^ (0 : ℤ) ≤ 2 ^ (1022 : ℤ) := zpow_le_zpow_right₀ one_le_two (by norm_num)
    refine le_trans ?_ this
    rw [abs_of_pos (by norm_num)]
    norm_num
  have e00 : ((PyFloat.ofInt 0 : RFl (binary64 (K := ℚ))) ==ᶠ PyFloat.ofInt 0) = true := by
    rw [RFl.eq_def, RFl.val_zero]; decide
  have e10 : ((PyFloat.ofInt 1 : RFl (binary64 (K := ℚ))) ==ᶠ PyFloat.ofInt 0) = false := by
    rw [RFl.eq_def, RFl.val_one, RFl.val_zero]; decide
  refine ((C95_constant_signal tenth x hx hb
    [PyFloat.ofInt 0, PyFloat.ofInt 0, PyFloat.ofInt 0, PyFloat.ofInt 1] 4 3 (by norm_num) 3
    (by simp)).2 ?_).1
  simp [window, slice, e00, e10]

/-- Level `1`, then `0`: `deltaP` of the second step is negative. -/
example : ∃ (d : RFl (binary64 (K := ℚ))) (z : ℚ),
    (deltaP 2 2 [PyFloat.ofInt 1, PyFloat.ofInt 0])[1]? = some d ∧ d.val = .fin z ∧ z < 0 := by
  have hl : 1 < (deltaP 2 2 [(PyFloat.ofInt 1 : RFl (binary64 (K := ℚ))), PyFloat.ofInt 0]).length := by
    simp [deltaP, maxPmin, length_rolling]
  have n1 : isNaN (PyFloat.ofInt 1 : RFl (binary64 (K := ℚ))) = false := by
    rw [RFl.isNaN_def, RFl.val_one]; rfl
  have n0 : isNaN (PyFloat.ofInt 0 : RFl (binary64 (K := ℚ))) = false := by
    rw [RFl.isNaN_def, RFl.val_zero]; rfl
  have hb : (2 : ℚ) ^ (0 : ℤ) ≤ 2 ^ (1022 : ℤ) := zpow_le_zpow_right₀ one_le_two (by norm_num)
  rw [zpow_zero] at hb
  obtain ⟨z, hz, _, hiff⟩ := C94_delta_negative 2 2
    [(PyFloat.ofInt 1 : RFl (binary64 (K := ℚ))), PyFloat.ofInt 0] (by norm_num) 1 0
    (PyFloat.ofInt 0) _ rfl RFl.val_zero
    (by
      intro s y hy
      have hm := List.mem_of_getElem? hy
      simp only [List.mem_cons, List.not_mem_nil, or_false] at hm
      rcases hm with rfl | rfl
      · exact Or.inr ⟨1, RFl.val_one, by rw [abs_one]; exact hb⟩
      · exact Or.inr ⟨0, RFl.val_zero, by rw [abs_zero]; exact le_trans zero_le_one hb⟩)
    (by simp [dataCount, window, slice, valid, n0, n1]) (List.getElem?_eq_getElem hl)
  exact ⟨_, z, List.getElem?_eq_getElem hl, hz,
    hiff.mpr ⟨0, PyFloat.ofInt 1, 1, by norm_num, by norm_num, rfl, RFl.val_one, by norm_num⟩⟩

/-- Levels `0` and `1` at two dry steps: the reference level is NaN or within `[0, 1]`. -/
example (r : RFl (binary64 (K := ℚ)))
    (hr : (determine_reference_level [PyFloat.ofInt 0, PyFloat.ofInt 1] [PyFloat.ofInt 1, PyFloat.ofInt 1]
      [PyFloat.ofInt 0, PyFloat.ofInt 0] 2 1)[1]? = some r) : Within 0 1 r := by
  have hb : (2 : ℚ) ^ (0 : ℤ) ≤ 2 ^ (1022 : ℤ) := zpow_le_zpow_right₀ one_le_two (by norm_num)
  rw [zpow_zero] at hb
  refine C95_reference_between _ _ _ 2 1 1 0 1 (RFl.rnd_of_val RFl.val_zero)
    (RFl.rnd_of_val RFl.val_one) (by rw [abs_zero]; exact le_trans zero_le_one hb)
    (by rw [abs_one]; exact hb) (by norm_num) ?_ r hr
  intro s x y w _ _ hx hy _ _
  have h01 : ∀ v : RFl (binary64 (K := ℚ)), v = PyFloat.ofInt 0 ∨ v = PyFloat.ofInt 1 → Within 0 1 v := by
    rintro v (rfl | rfl)
    · exact Or.inr ⟨0, RFl.val_zero, by norm_num, by norm_num⟩
    · exact Or.inr ⟨1, RFl.val_one, by norm_num, by norm_num⟩
  have hm := List.mem_of_getElem? hx
  have hm' := List.mem_of_getElem? hy
  simp only [List.mem_cons, List.not_mem_nil, or_false] at hm hm'
  exact ⟨h01 x hm, h01 y (by rcases hm' with h | h <;> exact Or.inr h)⟩

end Verif.Props
