import Verif.Props.BaselineConstant
import Verif.Props.WaaSchleiss
import Verif.Props.KR

/-!
# Properties C76, C77, C78: the processing chain of the example notebooks

baseline_constant, waa_schleiss_2013, then calc_R_from_A
(docs/notebooks/Basic CML processing workflow.ipynb).
-/

namespace Verif.Props
open Verif Verif.Baseline Verif.Waa Verif.KR

/-- boolean flags as the numbers 0 and 1 -/
def flagF {F : Type} [PyFloat F] (w : Bool) : F := if w then PyFloat.ofInt 1 else PyFloat.ofInt 0

/-- Parameters of the chain. -/
structure ChainParams where
  n : Nat
  waaMax : ℝ
  deltaT : ℝ
  tau : ℝ
  L : ℝ
  a : ℝ
  b : ℝ
  Rmin : ℝ

/-- Usable parameters. -/
structure ChainParams.Ok (p : ChainParams) : Prop where
  n : 1 ≤ p.n
  waaMax : 0 ≤ p.waaMax
  deltaT : 0 ≤ p.deltaT
  tau : 0 < p.tau
  L : 0 < p.L
  a : 0 < p.a
  b : 0 < p.b

/-- The chain: `baseline = baseline_constant(trsl, wet)`, `waa = waa_schleiss_2013(trsl, baseline,
wet, ...)`, `R = calc_R_from_A(trsl - baseline - waa, ...)`. -/
noncomputable def rainChain (sp : Spline) (p : ChainParams) (trsl : List (Fl ℝ)) (wet : List Bool) :
    Except Err (List (Fl ℝ)) := do
  let baseline ← baselineConstant trsl wet p.n
  let waa ← waaSchleiss trsl baseline (wet.map flagF) (.fin p.waaMax) (.fin p.deltaT) (.fin p.tau)
  calc_R_from_A sp (List.zipWith (· -ᶠ ·) (List.zipWith (· -ᶠ ·) trsl baseline) waa) (.fin p.L)
    none none (some [.fin p.a]) (some [.fin p.b]) "ITU_2005" (.fin p.Rmin)

/-- The chain without WAA correction: `R = calc_R_from_A(trsl - baseline, ...)`. -/
noncomputable def rainChainNoWaa (sp : Spline) (p : ChainParams) (trsl : List (Fl ℝ))
    (wet : List Bool) : Except Err (List (Fl ℝ)) := do
  let baseline ← baselineConstant trsl wet p.n
  calc_R_from_A sp (List.zipWith (· -ᶠ ·) trsl baseline) (.fin p.L)
    none none (some [.fin p.a]) (some [.fin p.b]) "ITU_2005" (.fin p.Rmin)

theorem calc_R_scalar (sp : Spline) (A : List (Fl ℝ)) (L a b R_min : ℝ) :
    calc_R_from_A sp A (.fin L) none none (some [.fin a]) (some [.fin b]) "ITU_2005" (.fin R_min) =
      .ok (A.map (rate (.fin a) (.fin b) (.fin L) (.fin R_min))) :=
  callAB_eq sp A L a b R_min

theorem rainChain_ok {sp : Spline} {p : ChainParams} {trsl : List (Fl ℝ)} {wet : List Bool}
    {b w : List (Fl ℝ)} (hb : baselineConstant trsl wet p.n = .ok b)
    (hw : waaSchleiss trsl b (wet.map flagF) (.fin p.waaMax) (.fin p.deltaT) (.fin p.tau) = .ok w) :
    rainChain sp p trsl wet =
      .ok ((List.zipWith (· -ᶠ ·) (List.zipWith (· -ᶠ ·) trsl b) w).map
        (rate (.fin p.a) (.fin p.b) (.fin p.L) (.fin p.Rmin))) := by
  simp only [rainChain, hb, bind, Except.bind, hw]
  exact calc_R_scalar _ _ _ _ _ _

theorem rainChainNoWaa_ok {sp : Spline} {p : ChainParams} {trsl : List (Fl ℝ)} {wet : List Bool}
    {b : List (Fl ℝ)} (hb : baselineConstant trsl wet p.n = .ok b) :
    rainChainNoWaa sp p trsl wet =
      .ok ((List.zipWith (· -ᶠ ·) trsl b).map
        (rate (.fin p.a) (.fin p.b) (.fin p.L) (.fin p.Rmin))) := by
  simp only [rainChainNoWaa, hb, bind, Except.bind]
  exact calc_R_scalar _ _ _ _ _ _

/-- `rate` on numbers -/
noncomputable def rateR (p : ChainParams) (x : ℝ) : ℝ :=
  if x < 0 then 0
  else if (x / (p.a * p.L)) ^ (1 / p.b) < p.Rmin then 0 else (x / (p.a * p.L)) ^ (1 / p.b)

theorem rateR_nonneg {p : ChainParams} (h : p.Ok) (x : ℝ) : 0 ≤ rateR p x := by
  unfold rateR
  split_ifs with h1 h2
  · exact le_rfl
  · exact le_rfl
  · have := mul_pos h.a h.L
    have : 0 ≤ x / (p.a * p.L) := div_nonneg (not_lt.mp h1) this.le
    positivity

theorem rateR_zero {p : ChainParams} (h : p.Ok) : rateR p 0 = 0 := by
  have : (0:ℝ) ^ (1 / p.b) = 0 := Real.zero_rpow (by have := h.b; positivity)
  unfold rateR
  rw [zero_div, this]
  split_ifs <;> rfl

theorem rateR_mono {p : ChainParams} (h : p.Ok) {x y : ℝ} (hxy : x ≤ y) : rateR p x ≤ rateR p y := by
  by_cases hx : x < 0
  · rw [rateR, if_pos hx]; exact rateR_nonneg h y
  · have hy : ¬ y < 0 := by linarith [not_lt.mp hx]
    have haL := mul_pos h.a h.L
    have h0 : 0 ≤ x / (p.a * p.L) := div_nonneg (not_lt.mp hx) haL.le
    have hp : (x / (p.a * p.L)) ^ (1 / p.b) ≤ (y / (p.a * p.L)) ^ (1 / p.b) :=
      Real.rpow_le_rpow h0 (div_le_div_of_nonneg_right hxy haL.le) (by have := h.b; positivity)
    have hn := rateR_nonneg h y
    unfold rateR at hn ⊢
    rw [if_neg hx, if_neg hy]
    rw [if_neg hy] at hn
    split_ifs with h1 h2 h2
    · exact le_rfl
    · rw [if_neg h2] at hn; exact hn
    · linarith
    · exact hp

/-- Everything finite. -/
theorem rainChain_fin (sp : Spline) {p : ChainParams} (hp : p.Ok) (xs : List ℝ) (wet : List Bool)
    (hlen : xs.length ≤ wet.length) :
    ∃ bs ws : List ℝ, ∃ hb : bs.length = xs.length, ∃ hw : ws.length = xs.length,
      baselineConstant (xs.map Fl.fin) wet p.n = .ok (bs.map Fl.fin) ∧
      waaSchleiss (xs.map Fl.fin) (bs.map Fl.fin) (wet.map flagF) (.fin p.waaMax) (.fin p.deltaT)
        (.fin p.tau) = .ok (ws.map Fl.fin) ∧
      (∀ i (hi : i < xs.length), (i < p.n ∨ wet[i]? = some false) → bs[i] = xs[i]) ∧
      (∀ h : 0 < xs.length, ws[0] = 0) ∧
      (∀ i (h0 : 0 < i) (hi : i < xs.length),
        ws[i] = if wet[i]? = some true then
          min (min (xs[i] - bs[i]) p.waaMax)
            (ws[i-1] + (p.waaMax - ws[i-1]) * (3 * p.deltaT / p.tau))
          else min (xs[i] - bs[i]) p.waaMax) ∧
      ∃ rs : List ℝ, ∃ hr : rs.length = xs.length,
        rainChain sp p (xs.map Fl.fin) wet = .ok (rs.map Fl.fin) ∧
        (∀ i (hi : i < xs.length), rs[i] = rateR p (xs[i] - bs[i] - ws[i])) ∧
      ∃ us : List ℝ, ∃ hu : us.length = xs.length,
        rainChainNoWaa sp p (xs.map Fl.fin) wet = .ok (us.map Fl.fin) ∧
        (∀ i (hi : i < xs.length), us[i] = rateR p (xs[i] - bs[i])) := by
  obtain ⟨bs, hb, hb1, -⟩ := C05_constant_affine xs wet p.n hp.n hlen 1 0
  obtain ⟨ws, hw1, hw, hw0, hwi⟩ := schleiss_fin xs bs (wet.map flagF) p.waaMax p.deltaT p.tau
    hb.symm (by simpa using hlen) hp.tau.ne'
  obtain ⟨out, ho1, -, ho3⟩ := C01_constant_dry (xs.map Fl.fin) wet p.n hp.n (by simpa using hlen)
  rw [hb1] at ho1
  injection ho1 with ho1
  subst ho1
  refine ⟨bs, ws, hb, hw, hb1, hw1, ?_, hw0, ?_, ?_⟩
  · intro i hi h
    have := ho3 i (by simpa using hi) h
    simpa [hi, hb] using this
  · intro i h0 hi
    rw [hwi i h0 hi]
    have : ((wet.map flagF)[i]? = some (Fl.fin (1:ℝ))) ↔ wet[i]? = some true := by
      rw [List.getElem?_map]
      cases h : wet[i]? with
      | none => simp
      | some w => cases w <;> simp [flagF]
    simp only [this]
  · refine ⟨(List.range xs.length).map fun i => rateR p (xs.getD i 0 - bs.getD i 0 - ws.getD i 0),
      by simp, ?_, ?_, (List.range xs.length).map fun i => rateR p (xs.getD i 0 - bs.getD i 0),
      by simp, ?_, ?_⟩
    · rw [rainChain_ok hb1 hw1]
      congr 1
      apply List.ext_getElem
      · simp [hb, hw]
      · intro i h1 h2
        simp only [List.getElem_map, List.getElem_zipWith, Fl.pf_sub_fin, List.getElem_range]
        rw [rate_fin hp.a hp.b hp.L]
        have hi : i < xs.length := by simpa [hb, hw] using h1
        simp [rateR, List.getD_eq_getElem?_getD, hi, hb, hw]
    · intro i hi
      simp [List.getD_eq_getElem?_getD, hi, hb, hw]
    · rw [rainChainNoWaa_ok hb1]
      congr 1
      apply List.ext_getElem
      · simp [hb]
      · intro i h1 h2
        simp only [List.getElem_map, List.getElem_zipWith, Fl.pf_sub_fin, List.getElem_range]
        rw [rate_fin hp.a hp.b hp.L]
        have hi : i < xs.length := by simpa [hb] using h1
        simp [rateR, List.getD_eq_getElem?_getD, hi, hb]
    · intro i hi
      simp [List.getD_eq_getElem?_getD, hi, hb]

/-- **C76** Every rain rate of the chain is a non-negative number; steps that are not wet, and the
first `n` steps, get exactly 0. -/
theorem C76_nonneg_and_dry (sp : Spline) (p : ChainParams) (hp : p.Ok) (xs : List ℝ)
    (wet : List Bool) (hlen : xs.length ≤ wet.length) :
    ∃ rs : List ℝ, rainChain sp p (xs.map Fl.fin) wet = .ok (rs.map Fl.fin) ∧
      rs.length = xs.length ∧ (∀ r ∈ rs, 0 ≤ r) ∧
      ∀ i, i < xs.length → (i < p.n ∨ wet[i]? = some false) → rs[i]? = some 0 := by
  obtain ⟨bs, ws, hb, hw, -, -, hdry, hw0, hwi, rs, hr, h1, h2, -⟩ :=
    rainChain_fin sp hp xs wet hlen
  have hzero : ∀ i (hi : i < xs.length), i < p.n → ws[i] = 0 := by
    intro i
    induction i with
    | zero => intro hi _; exact hw0 hi
    | succ i ih =>
      intro hi hin
      have e := ih (by omega) (by omega)
      have h := hwi (i+1) (by omega) hi
      have e' : ws[i+1-1]'(by omega) = 0 := by simpa using e
      rw [e', hdry (i+1) hi (Or.inl hin), sub_self, min_eq_left hp.waaMax] at h
      rw [h]
      split_ifs
      · refine min_eq_left ?_
        have := div_nonneg (mul_nonneg (by norm_num : (0:ℝ) ≤ 3) hp.deltaT) hp.tau.le
        have := mul_nonneg hp.waaMax this
        linarith
      · rfl
  refine ⟨rs, h1, hr, ?_, ?_⟩
  · intro r hmem
    obtain ⟨i, hi, rfl⟩ := List.mem_iff_getElem.mp hmem
    rw [h2 i (by omega)]
    exact rateR_nonneg hp _
  · intro i hi h
    rw [List.getElem?_eq_getElem (by omega), h2 i hi]
    have hws : ws[i] = 0 := by
      rcases Nat.lt_or_ge i p.n with hin | hin
      · exact hzero i hi hin
      · have hn := hp.n
        have hd : wet[i]? = some false := by
          rcases h with h | h
          · omega
          · exact h
        rw [hwi i (by omega) hi, hd, if_neg (by simp), hdry i hi (Or.inr hd), sub_self,
          min_eq_left hp.waaMax]
    rw [hdry i hi h, hws, sub_self, sub_zero, rateR_zero hp]

/-- **C76** If the signal up to step `k` never falls below the baseline, the rain rates up to step
`k` are at most those of the chain without WAA correction. -/
theorem C76_at_most_uncorrected (sp : Spline) (p : ChainParams) (hp : p.Ok) (xs : List ℝ)
    (wet : List Bool) (hlen : xs.length ≤ wet.length) (bs : List ℝ)
    (hbs : baselineConstant (xs.map Fl.fin) wet p.n = .ok (bs.map Fl.fin)) (k : Nat)
    (hk : k < xs.length) (hbelow : ∀ i x b, i ≤ k → xs[i]? = some x → bs[i]? = some b → b ≤ x) :
    ∃ rs us : List ℝ, rainChain sp p (xs.map Fl.fin) wet = .ok (rs.map Fl.fin) ∧
      rainChainNoWaa sp p (xs.map Fl.fin) wet = .ok (us.map Fl.fin) ∧
      ∀ i, i ≤ k → ∃ r u, rs[i]? = some r ∧ us[i]? = some u ∧ r ≤ u := by
  obtain ⟨bs', ws, hb, hw, hb1, -, hdry, hw0, hwi, rs, hr, h1, h2, us, hu, h3, h4⟩ :=
    rainChain_fin sp hp xs wet hlen
  obtain rfl : bs' = bs := by
    rw [hb1] at hbs
    injection hbs with hbs
    exact List.map_injective_iff.mpr (fun a b h => by injection h) hbs
  refine ⟨rs, us, h1, h3, fun i hi => ⟨_, _, List.getElem?_eq_getElem (by omega),
    List.getElem?_eq_getElem (by omega), ?_⟩⟩
  rw [h2 i (by omega), h4 i (by omega)]
  apply rateR_mono hp
  have hA : ∀ j (hj : j ≤ k), bs'[j] ≤ xs[j] := fun j hj =>
    hbelow j _ _ hj (List.getElem?_eq_getElem (by omega)) (List.getElem?_eq_getElem (by omega))
  have key : ∀ j (hj : j ≤ k), 0 ≤ ws[j] ∧ ws[j] ≤ p.waaMax := by
    intro j
    induction j with
    | zero => intro _; rw [hw0 (by omega)]; exact ⟨le_rfl, hp.waaMax⟩
    | succ j ih =>
      intro hj
      have e := ih (by omega)
      have h := hwi (j+1) (by omega) (by omega)
      have e' : ws[j+1-1]'(by omega) = ws[j] := by simp
      rw [e'] at h
      have hAj := hA (j+1) hj
      have hc := div_nonneg (mul_nonneg (by norm_num : (0:ℝ) ≤ 3) hp.deltaT) hp.tau.le
      have hm := mul_nonneg (sub_nonneg.mpr e.2) hc
      have hwm := hp.waaMax
      rw [h]
      split_ifs
      · exact ⟨le_min (le_min (by linarith) hwm) (by linarith),
          (min_le_left _ _).trans (min_le_right _ _)⟩
      · exact ⟨le_min (by linarith) hwm, min_le_right _ _⟩
  have := (key i hi).1
  linarith

/-- **C77** Adding a constant to the signal does not change the rain rates. -/
theorem C77_offset (sp : Spline) (p : ChainParams) (hn : 1 ≤ p.n) (xs : List ℝ) (wet : List Bool)
    (hlen : xs.length ≤ wet.length) (d : ℝ) :
    rainChain sp p (xs.map fun x => Fl.fin (x + d)) wet = rainChain sp p (xs.map Fl.fin) wet := by
  obtain ⟨bs, hb, h1, h2⟩ := C05_constant_affine xs wet p.n hn hlen 1 d
  simp only [one_mul] at h2
  have hA : List.zipWith (fun a b : Fl ℝ => a -ᶠ b) (xs.map fun x => Fl.fin (x + d))
      (bs.map fun y => Fl.fin (y + d)) =
      List.zipWith (fun a b : Fl ℝ => a -ᶠ b) (xs.map Fl.fin) (bs.map Fl.fin) := by
    rw [List.zipWith_map, List.zipWith_map]
    congr 1
    funext a b
    simp
  have hW : waaSchleiss (xs.map fun x => Fl.fin (x + d)) (bs.map fun y => Fl.fin (y + d))
      (wet.map flagF) (.fin p.waaMax) (.fin p.deltaT) (.fin p.tau) =
      waaSchleiss (xs.map Fl.fin) (bs.map Fl.fin) (wet.map flagF) (.fin p.waaMax) (.fin p.deltaT)
        (.fin p.tau) := by
    unfold waaSchleiss
    rw [hA]
    simp only [List.length_map, List.map_map]
    rfl
  unfold rainChain
  rw [h1, h2]
  show (waaSchleiss _ _ _ _ _ _).bind _ = (waaSchleiss _ _ _ _ _ _).bind _
  rw [hW, hA]

section
variable {F : Type} [PyFloat F]

/-- Two runs of `waa_schleiss_2013` that agree before step `m` give the same WAA before step `m`. -/
theorem schleiss_causal (rsl rsl' base base' wet wet' : List F) (waaMax deltaT tau : F) (m : Nat)
    (hl : rsl.length = base.length) (hl' : rsl'.length = base'.length)
    (hw : rsl.length ≤ wet.length) (hw' : rsl'.length ≤ wet'.length)
    (hm : m ≤ rsl.length) (hm' : m ≤ rsl'.length)
    (h1 : rsl.take m = rsl'.take m) (h2 : base.take m = base'.take m)
    (h3 : wet.take m = wet'.take m)
    (htau : (tau ==ᶠ PyFloat.ofInt 0) = false) :
    ∃ out out', waaSchleiss rsl base wet waaMax deltaT tau = .ok out ∧
      waaSchleiss rsl' base' wet' waaMax deltaT tau = .ok out' ∧
      out.length = rsl.length ∧ out'.length = rsl'.length ∧ out.take m = out'.take m := by
  obtain ⟨out, a1, a2, a3, a4⟩ := schleiss_rec rsl base wet waaMax deltaT tau hl hw htau
  obtain ⟨out', b1, b2, b3, b4⟩ := schleiss_rec rsl' base' wet' waaMax deltaT tau hl' hw' htau
  refine ⟨out, out', a1, b1, a2, b2, ?_⟩
  have hA : (atten rsl base).take m = (atten rsl' base').take m := by
    unfold atten
    rw [List.take_zipWith, List.take_zipWith, h1, h2]
  have key : ∀ i, i < m → rd out i = rd out' i := by
    intro i
    induction i with
    | zero => intro hi; rw [a3 (by omega), b3 (by omega)]
    | succ i ih =>
      intro hi
      rw [a4 (i+1) (by omega) (by omega), b4 (i+1) (by omega) (by omega)]
      unfold schleissVal
      rw [rd_eq_of_take_eq h3 hi, rd_eq_of_take_eq hA hi, Nat.add_sub_cancel, ih (by omega)]
  apply List.ext_getElem?
  intro j
  by_cases hj : j < m
  · rw [List.getElem?_take_of_lt hj, List.getElem?_take_of_lt hj, getElem?_eq_rd (by omega),
      getElem?_eq_rd (by omega), key j hj]
  · simp [hj]

end

/-- **C77** (causality) If two calls agree on signal and flags before step `m`, their rain rates
agree before step `m`. The signal may contain NaN and infinities. -/
theorem C77_causal (sp : Spline) (p : ChainParams) (hn : 1 ≤ p.n) (htau : p.tau ≠ 0)
    (trsl trsl' : List (Fl ℝ)) (wet wet' : List Bool) (m : Nat)
    (hlen : trsl.length ≤ wet.length) (hlen' : trsl'.length ≤ wet'.length)
    (hm : m ≤ trsl.length) (hm' : m ≤ trsl'.length)
    (ht : trsl.take m = trsl'.take m) (hw : wet.take m = wet'.take m) :
    ∃ R R', rainChain sp p trsl wet = .ok R ∧ rainChain sp p trsl' wet' = .ok R' ∧
      R.length = trsl.length ∧ R'.length = trsl'.length ∧ R.take m = R'.take m := by
  obtain ⟨b, hb1, hb2, -⟩ := C01_constant_dry trsl wet p.n hn hlen
  obtain ⟨b', hb1', hb2', -⟩ := C01_constant_dry trsl' wet' p.n hn hlen'
  have hb := C03_constant_causal trsl trsl' wet wet' p.n m hn hlen hlen' hm hm' ht hw b b' hb1 hb1'
  obtain ⟨w, w', hw1, hw1', hw2, hw2', hww⟩ := schleiss_causal trsl trsl' b b' (wet.map flagF)
    (wet'.map flagF) (.fin p.waaMax) (.fin p.deltaT) (.fin p.tau) m hb2.symm hb2'.symm
    (by simpa using hlen) (by simpa using hlen') hm hm' ht hb
    (by rw [← List.map_take, ← List.map_take, hw]) (by simpa using htau)
  refine ⟨_, _, rainChain_ok hb1 hw1, rainChain_ok hb1' hw1', by simp [hb2, hw2],
    by simp [hb2', hw2'], ?_⟩
  rw [← List.map_take, ← List.map_take, List.take_zipWith, List.take_zipWith, List.take_zipWith,
    List.take_zipWith, ht, hb, hww]

/-- parameters of the examples -/
noncomputable def chainExample : ChainParams where
  n := 1
  waaMax := 2
  deltaT := 1
  tau := 30
  L := 1
  a := 1
  b := 1
  Rmin := 1/10

theorem chainExample_ok : chainExample.Ok where
  n := by simp [chainExample]
  waaMax := by simp [chainExample]
  deltaT := by simp [chainExample]
  tau := by simp [chainExample]
  L := by simp [chainExample]
  a := by simp [chainExample]
  b := by simp [chainExample]

theorem rateR_example (x : ℝ) : rateR chainExample x = if x < 1/10 then 0 else x := by
  unfold rateR chainExample
  simp only [mul_one, div_one, Real.rpow_one]
  split_ifs <;> first | rfl | linarith

/-- Rain rates of the chain for three steps `x, y, z`, of which the last two are wet. -/
theorem chainExample_run (sp : Spline) (x y z : ℝ) :
    rainChain sp chainExample ([x, y, z].map Fl.fin) [false, true, true] =
      .ok ([0, rateR chainExample (y - x - min (min (y - x) 2) (1/5)),
        rateR chainExample (z - x - min (min (z - x) 2)
          (min (min (y - x) 2) (1/5) + (2 - min (min (y - x) 2) (1/5)) / 10))].map Fl.fin) ∧
    rainChainNoWaa sp chainExample ([x, y, z].map Fl.fin) [false, true, true] =
      .ok ([0, rateR chainExample (y - x), rateR chainExample (z - x)].map Fl.fin) := by
  have hb : baselineConstant ([x, y, z].map Fl.fin) [false, true, true] 1 =
      .ok ([x, x, x].map Fl.fin) := by
    simp [baselineConstant, constLoop, forRange, constBody, setSlice, isNaNBool, rdB, prevIdx,
      npMean, slice, fsum, rd, List.range', Fl.pf_div_fin]
  obtain ⟨bs, ws, hbl, hwl, hb1, hw1, -, h0, hi, rs, hr, h1, h2, us, hu, h3, h4⟩ :=
    rainChain_fin sp chainExample_ok [x, y, z] [false, true, true] (by simp)
  have hb1' : baselineConstant ([x, y, z].map Fl.fin) [false, true, true] 1 =
      .ok (bs.map Fl.fin) := hb1
  rw [hb] at hb1'
  injection hb1' with hb1'
  obtain rfl : [x, x, x] = bs := List.map_injective_iff.mpr (fun a b h => by injection h) hb1'
  match ws, hwl with
  | [w0, w1, w2], _ =>
    have e0 : w0 = 0 := h0 (by simp)
    have e1 := hi 1 (by simp) (by simp)
    have e2 := hi 2 (by simp) (by simp)
    subst e0
    simp [chainExample] at e1 e2
    match rs, hr, us, hu with
    | [r0, r1, r2], _, [u0, u1, u2], _ =>
      have a0 := h2 0 (by simp)
      have a1 := h2 1 (by simp)
      have a2 := h2 2 (by simp)
      have c0 := h4 0 (by simp)
      have c1 := h4 1 (by simp)
      have c2 := h4 2 (by simp)
      simp at a0 a1 a2 c0 c1 c2
      rw [rateR_zero chainExample_ok] at a0 c0
      rw [h1, h3, a0, a1, a2, c0, c1, c2]
      have f1 : w1 = min (min (y - x) 2) (1/5) := by rw [e1]; norm_num
      have f2 : w2 = min (min (z - x) 2)
          (min (min (y - x) 2) (1/5) + (2 - min (min (y - x) 2) (1/5)) / 10) := by
        rw [e2, f1]; congr 2; ring
      exact ⟨by rw [f1, f2], rfl⟩

/-- the hypotheses of C76 and C77 are met by a signal that rises by 5 dB -/
example (sp : Spline) :
    rainChain sp chainExample ([1, 6, 6].map Fl.fin) [false, true, true] =
      .ok ([0, 24/5, 231/50].map Fl.fin) := by
  rw [(chainExample_run sp 1 6 6).1, rateR_example, rateR_example]
  norm_num

/-- **C78** If the signal is below the baseline at a wet step `i` and the recovery of one step is too
small, the WAA is negative at `i` and, the next step being wet, also at `i + 1`, where the corrected
attenuation then exceeds the observed one. -/
theorem C78_negative_waa {K : Type} [Field K] [LinearOrder K] [IsStrictOrderedRing K]
    (rsl base : List K) (wet : List (Fl K)) (wm dt tau : K)
    (hl : rsl.length = base.length) (hw : rsl.length ≤ wet.length) (htau : 0 < tau) (hdt : 0 ≤ dt)
    (hc : 3 * dt ≤ tau) (i : Nat) (hi0 : 0 < i) (x b x' b' : K)
    (hx : rsl[i]? = some x) (hb : base[i]? = some b) (hx' : rsl[i+1]? = some x')
    (hb' : base[i+1]? = some b') (hwet' : wet[i+1]? = some (.fin 1))
    (hbelow : x < b) (hslow : (1 - 3 * dt / tau) * (x - b) + 3 * dt / tau * wm < 0) :
    ∃ ws : List K, waaSchleiss (rsl.map Fl.fin) (base.map Fl.fin) wet (.fin wm) (.fin dt) (.fin tau)
        = .ok (ws.map Fl.fin) ∧
      ∃ w w', ws[i]? = some w ∧ ws[i+1]? = some w' ∧ w < 0 ∧ w' < 0 ∧
        x' - b' < x' - b' - w' := by
  obtain ⟨ws, h1, h2, -, h4⟩ := schleiss_fin rsl base wet wm dt tau hl hw htau.ne'
  have hlt : i + 1 < rsl.length := (List.getElem?_eq_some_iff.mp hx').1
  have ex : rsl[i] = x := (List.getElem?_eq_some_iff.mp hx).2
  have eb : base[i] = b := (List.getElem?_eq_some_iff.mp hb).2
  have k1 : ws[i] ≤ x - b := by
    rw [h4 i hi0 (by omega), ex, eb]
    split_ifs
    · exact (min_le_left _ _).trans (min_le_left _ _)
    · exact min_le_left _ _
  have k2 : ws[i+1] < 0 := by
    rw [h4 (i+1) (by omega) hlt, if_pos hwet']
    refine lt_of_le_of_lt (min_le_right _ _) ?_
    have e : ws[i+1-1]'(by omega) = ws[i] := by simp
    rw [e]
    have hc' : 3 * dt / tau ≤ 1 := (div_le_one htau).mpr hc
    have := mul_le_mul_of_nonneg_left k1 (sub_nonneg.mpr hc')
    linarith
  exact ⟨ws, h1, ws[i], ws[i+1], List.getElem?_eq_getElem (by omega),
    List.getElem?_eq_getElem (by omega), by linarith, k2, by linarith⟩

example : (1 - 3 * 1 / 30 : ℚ) * (0 - 1) + 3 * 1 / 30 * 2 < 0 ∧
    waaSchleiss [Fl.fin (1:ℚ), .fin 0, .fin 1] [.fin 1, .fin 1, .fin 1] [.fin 0, .fin 1, .fin 1]
      (.fin 2) (.fin 1) (.fin 30) = .ok [.fin 0, .fin (-1), .fin (-7/10)] := by
  constructor
  · norm_num
  · decide +kernel

/-- **C78** Through the chain: a signal that falls below the baseline at a wet step and is back at the
baseline one step later gets rain there, while there is none without the WAA correction. -/
theorem C78_more_rain (sp : Spline) :
    ∃ (p : ChainParams) (xs : List ℝ) (wet : List Bool) (rs us : List ℝ), p.Ok ∧
      xs.length ≤ wet.length ∧
      rainChain sp p (xs.map Fl.fin) wet = .ok (rs.map Fl.fin) ∧
      rainChainNoWaa sp p (xs.map Fl.fin) wet = .ok (us.map Fl.fin) ∧
      (∀ u ∈ us, u = 0) ∧ ∃ r ∈ rs, 0 < r := by
  refine ⟨chainExample, [1, 0, 1], [false, true, true], _, _, chainExample_ok, by simp,
    (chainExample_run sp 1 0 1).1, (chainExample_run sp 1 0 1).2, ?_, ?_⟩
  · rw [rateR_example, rateR_example]
    norm_num
  · rw [rateR_example, rateR_example]
    norm_num

end Verif.Props
