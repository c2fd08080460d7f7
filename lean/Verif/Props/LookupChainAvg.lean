import Verif.Props.LookupChain

/-!
# Property C164: the chain with the looked-up wet antenna attenuation behind averaged and linear baselines
-/

namespace Verif.Props
open Verif Verif.KR Verif.Bin Verif.WaaModels Verif.Baseline Verif.Spec

/-- attenuation by rain and film at a wet step -/
noncomputable def rainFilm (m b l α ζ δ R : ℝ) : ℝ := m * R ^ b * l + α * (1 - Real.exp (-δ * R ^ ζ))

/-- The chain behind any baseline that keeps dry levels, is within `κ` of the dry level, and is not above the level at wet steps. -/
theorem lookup_chain [PyPow DblR] [MonoPow DblR] [PyExp DblR] (hpow : PowClose) (hacc : PowAccurate) (hexp : ExpClose)
    (he : ExpRange) (hm : ExpMono)
    (ab : List DblR → List String → String → Except Err (List DblR × List DblR))
    {f fG L A_max zeta d u v Rmin : DblR} {pol : String} {α ζ δ l μ β ε fx m b rm : ℝ}
    (h : PastorekParams A_max zeta d α δ) (hζ : zeta.val = .fin ζ) (ζ1 : ζ ≤ 0.67)
    (hα1 : 2 ^ (-300 : ℤ) ≤ α) (hα : α ≤ 2 ^ (14 : ℤ)) (hδ2 : δ ≤ 2 ^ (100 : ℤ))
    (hl : L.val = .fin l) (l1 : 1 / 10 ≤ l) (l2 : l ≤ 50) (f1 : 10 ^ 9 ≤ fx) (f2 : fx ≤ 100 * 10 ^ 9) (hp : isH pol ∨ isV pol)
    (hab : ab [f /ᶠ PyFloat.ofInt 1000000000] [pol] "ITU_2005" = .ok ([u], [v])) (habG : ab [fG] [pol] "ITU_2005" = .ok ([u], [v]))
    (hu : u.val = .fin μ) (hv : v.val = .fin β)
    (habx : a_b cubicSpline [.fin (fx / 10 ^ 9)] [pol] "ITU_2005" = .ok ([.fin m], [.fin b]))
    (hε : ε ≤ 2 ^ (-16 : ℤ)) (hmε : |μ - m| ≤ ε * m) (hbε : |1 / β - 1 / b| ≤ ε) (hrm : Rmin.val = .fin rm)
    (trsl base : List DblR) (wet : List Bool) (hbl : base.length = trsl.length) (dryLevel R : ℕ → ℝ) (η κ : ℝ) (hη : 0 ≤ η) (hκ : 0 ≤ κ)
    (hx : ∀ s x, trsl[s]? = some x → ∃ y, x.val = .fin y ∧
      |y - levelPastorek (WetAt wet) m b l α ζ δ dryLevel R s| ≤ η)
    (hb : ∀ s x, base[s]? = some x → ∃ y, x.val = .fin y ∧ |y - dryLevel s| ≤ κ)
    (hdry : ∀ s < trsl.length, ¬ WetAt wet s → base[s]? = trsl[s]?)
    (hR : ∀ s < trsl.length, WetAt wet s → 0 ≤ R s ∧ η + κ ≤ rainFilm m b l α ζ δ (R s) ∧
      rainFilm m b l α ζ δ (R s) ≤ 998 - (η + κ)) :
    ∃ waa rs, pastorekFromAObs ab rainGrid (List.zipWith (· -ᶠ ·) trsl base) f pol L A_max zeta d = .ok waa ∧
      calcR ab (List.zipWith (· -ᶠ ·) (List.zipWith (· -ᶠ ·) trsl base) waa) L (some [fG]) (some [pol]) none none "ITU_2005" Rmin
        = .ok rs ∧ rs.length = trsl.length ∧
      ∀ i r, rs[i]? = some r → (¬ WetAt wet i → r.val = .fin 0) ∧
        (WetAt wet i → ∃ ρ, r.val = .fin (if ρ < rm then 0 else ρ) ∧ 0 ≤ ρ ∧
          (1 - 2 ^ (-46 : ℤ)) * lawRate μ β l
              (m * R i ^ b * l - (η + κ + (2 ^ (-39 : ℤ) + 2 ^ (11 : ℤ) * ε) * α + 2 ^ (-32 : ℤ))) - 2 ^ (-99 : ℤ) ≤ ρ ∧
          ρ ≤ (1 + 2 ^ (-46 : ℤ)) * lawRate μ β l
              (max (1.36 * (m * R i ^ b * l)) 1.4e-10 + (η + κ + (2 ^ (-39 : ℤ) + 2 ^ (11 : ℤ) * ε) * α + 2 ^ (-32 : ℤ)))
              + 2 ^ (-99 : ℤ)) := by
  have pr := binary64_precision (K := ℝ)
  have ζ0 : 0 < ζ := by
    have := h.hz
    rw [RFl.lt_def, RFl.val_zero, hζ, Fl.pf_lt_fin, decide_eq_true_eq] at this
    exact this
  have l0 : 0 < l := by linarith
  obtain ⟨m0, b0, μ0, iβ⟩ := itu_signs f1 f2 hp habx hε hmε hbε
  have μl := mul_pos μ0 l0
  have film0 : ∀ r : ℝ, 0 ≤ r → 0 ≤ α * (1 - Real.exp (-δ * r ^ ζ)) := by
    intro r hr
    have : Real.exp (-δ * r ^ ζ) ≤ 1 := Real.exp_le_one_iff.mpr (by
      have := Real.rpow_nonneg hr ζ
      have := h.δ0
      nlinarith)
    exact mul_nonneg h.α0.le (sub_nonneg.mpr this)
  -- the observed attenuation at each step
  have key : ∀ i z, (List.zipWith (· -ᶠ ·) trsl base)[i]? = some z → ∃ x, z.val = .fin x ∧ 0 ≤ x ∧ x ≤ 999 ∧
      (¬ WetAt wet i → x = 0) ∧
      (WetAt wet i → |x - (m * R i ^ b * l + α * (1 - Real.exp (-δ * R i ^ ζ)))| ≤ η + κ + 2 ^ (-43 : ℤ)) := by
    intro i z hz
    rw [List.getElem?_zipWith] at hz
    obtain ⟨xi, hxi⟩ : ∃ xi, trsl[i]? = some xi := by
      cases h1 : trsl[i]? with
      | none => rw [h1] at hz; simp at hz
      | some xi => exact ⟨xi, rfl⟩
    have hil : i < trsl.length := (List.getElem?_eq_some_iff.mp hxi).1
    obtain ⟨yi, hyi, eyi⟩ := hx i xi hxi
    by_cases hw : WetAt wet i
    · obtain ⟨xb, hxb⟩ : ∃ xb, base[i]? = some xb := ⟨_, List.getElem?_eq_getElem (by omega)⟩
      obtain ⟨yb, hyb, eyb⟩ := hb i xb hxb
      rw [hxi, hxb] at hz
      simp only [Option.some.injEq] at hz
      obtain ⟨-, k1, k2⟩ := hR i hil hw
      unfold rainFilm at k1 k2
      unfold levelPastorek at eyi
      rw [if_pos hw] at eyi
      obtain ⟨a1, a2⟩ := abs_le.mp eyi
      obtain ⟨c1, c2⟩ := abs_le.mp eyb
      have habs : |yi - yb| = yi - yb := abs_of_nonneg (by linarith)
      have hle : yi - yb ≤ 998 := by linarith
      have hge : 0 ≤ yi - yb := by linarith
      obtain ⟨q, hq, hqe⟩ := pr.sub_err yi yb (rep_fin hyi) (rep_fin hyb) (by
        rw [habs]
        exact le_trans (by norm_num; linarith : yi - yb ≤ 2 ^ (20 : ℤ)) (zpow_le_zpow_right₀ (by norm_num) (by norm_num)))
      rw [habs] at hqe
      have hqe' : |q - (yi - yb)| ≤ 2 ^ (-43 : ℤ) := hqe.trans (by norm_num; linarith)
      obtain ⟨q1, q2⟩ := abs_le.mp hqe'
      obtain ⟨q3, -⟩ := abs_le.mp hqe
      have u1 : (2 : ℝ) ^ (-53 : ℤ) * (yi - yb) ≤ 1 * (yi - yb) := mul_le_mul_of_nonneg_right (by norm_num) hge
      refine ⟨q, ?_, by linarith, by norm_num at q1 q2 ⊢; linarith, fun hn => absurd hw hn, fun _ => ?_⟩
      · rw [← hz, RFl.val_sub, hyi, hyb, Fl.pf_sub_fin]
        exact hq
      · rw [abs_le]
        constructor <;> linarith
    · have hb : base[i]? = some xi := by
        rw [hdry i hil hw, hxi]
      rw [hxi, hb] at hz
      simp only [Option.some.injEq] at hz
      refine ⟨0, ?_, le_rfl, by norm_num, fun _ => rfl, fun hn => absurd hn hw⟩
      have e0 : (binary64 (K := ℝ)).rnd 0 = .fin 0 := rep_fin RFl.val_zero
      rw [← hz, RFl.val_sub, hyi, Fl.pf_sub_fin, sub_self]
      exact e0
  have z43 : (0 : ℝ) ≤ 2 ^ (-43 : ℤ) := by positivity
  obtain ⟨waa, rs, w1, w2, w3, w4⟩ := C164_rates hpow hacc hexp he hm ab h hζ ζ1 hα1 hα hδ2 hl l1 l2 f1 f2 hp hab habG hu hv habx hε hmε
    hbε hrm (List.zipWith (· -ᶠ ·) trsl base) (fun i => if WetAt wet i then R i else 0) (η + κ + 2 ^ (-43 : ℤ)) (by linarith) (by
      intro i z hz
      obtain ⟨x, x1, x2, x3, x5, x6⟩ := key i z hz
      refine .inr ⟨x, x1, x2, x3, ?_⟩
      by_cases hw : WetAt wet i
      · have hil : i < trsl.length := by
          have := (List.getElem?_eq_some_iff.mp hz).1
          rw [List.length_zipWith] at this
          omega
        simp only [if_pos hw]
        obtain ⟨k0, k1, k2⟩ := hR i hil hw
        unfold rainFilm at k2
        have := film0 _ k0
        exact ⟨k0, by linarith, x6 hw⟩
      · simp only [if_neg hw]
        rw [x5 hw, Real.zero_rpow b0.ne', Real.zero_rpow ζ0.ne']
        norm_num
        linarith)
  refine ⟨waa, rs, w1, w2, by rw [w3]; simp [hbl], fun i r hr => ?_⟩
  have hil : i < rs.length := (List.getElem?_eq_some_iff.mp hr).1
  rw [w3] at hil
  obtain ⟨x, x1, x2, x3, x5, x6⟩ := key i _ (List.getElem?_eq_getElem hil)
  obtain ⟨-, w5⟩ := w4 i _ r (List.getElem?_eq_getElem hil) hr
  obtain ⟨w6, ρ, w7, w8, w9, w10⟩ := w5 x x1
  refine ⟨fun hw => w6 (x5 hw), fun hw => ⟨ρ, w7, w8, ?_, ?_⟩⟩
  all_goals simp only [if_pos hw] at w9 w10
  · refine le_trans (sub_le_sub_right (mul_le_mul_of_nonneg_left (lawRate_mono μl iβ ?_) (by norm_num)) _) w9
    norm_num
    linarith
  · refine w10.trans (add_le_add_left (mul_le_mul_of_nonneg_left (lawRate_mono μl iβ ?_) (by norm_num)) _)
    norm_num
    linarith

/-- baseline values within a distance of the dry level, from an error bound and the stability of the exact baseline -/
theorem base_close {base : List DblR} {c : List (Fl ℝ)} {T : ℕ} {dryLevel : ℕ → ℝ} {E δ : ℝ}
    (h1 : List.Forall₂ (fun y z => UpTo E y.val z) base c) (h2 : List.Forall₂ (UpTo δ) c (series T dryLevel)) :
    base.length = T ∧ ∀ s x, base[s]? = some x → ∃ y, x.val = .fin y ∧ |y - dryLevel s| ≤ δ + E := by
  have len : base.length = T := by rw [h1.length_eq, h2.length_eq, series_length]
  refine ⟨len, fun s x hs => ?_⟩
  have hsl : s < base.length := (List.getElem?_eq_some_iff.mp hs).1
  have hcl : s < c.length := by rw [← h1.length_eq]; exact hsl
  have k1 := (List.forall₂_iff_get.mp h1).2 s hsl hcl
  have k2 := (List.forall₂_iff_get.mp h2).2 s hcl (by rw [← h2.length_eq]; exact hcl)
  have e : (series T dryLevel)[s]'(by rw [← h2.length_eq]; exact hcl) = .fin (dryLevel s) :=
    (List.getElem?_eq_some_iff.mp (series_get dryLevel (by omega : s < T))).2
  have ex : base[s] = x := (List.getElem?_eq_some_iff.mp hs).2
  simp only [List.get_eq_getElem] at k1 k2
  rw [e] at k2
  rw [ex] at k1
  have k := k1.trans k2
  rw [add_comm]
  generalize x.val = w at k
  cases k with
  | fin hk => exact ⟨_, rfl, hk⟩

/-- **C164** Constant baseline with averaging over `n` dry values: if the rain and its film attenuate at every wet step by at least
`c = 2 δ + 5 n^2 2^-53 B` (`δ` the error of the levels, `B` their greatest magnitude), the correction does not raise, and the rates are as in
`C164_last_dry` with `c` in place of twice the level error. -/
theorem C164_constant [PyPow DblR] [MonoPow DblR] [PyExp DblR] (hpow : PowClose) (hacc : PowAccurate) (hexp : ExpClose)
    (he : ExpRange) (hm : ExpMono)
    (ab : List DblR → List String → String → Except Err (List DblR × List DblR))
    {f fG L A_max zeta d u v Rmin : DblR} {pol : String} {α ζ δ l μ β ε fx m b rm : ℝ}
    (h : PastorekParams A_max zeta d α δ) (hζ : zeta.val = .fin ζ) (ζ1 : ζ ≤ 0.67)
    (hα1 : 2 ^ (-300 : ℤ) ≤ α) (hα : α ≤ 2 ^ (14 : ℤ)) (hδ2 : δ ≤ 2 ^ (100 : ℤ))
    (hl : L.val = .fin l) (l1 : 1 / 10 ≤ l) (l2 : l ≤ 50) (f1 : 10 ^ 9 ≤ fx) (f2 : fx ≤ 100 * 10 ^ 9) (hp : isH pol ∨ isV pol)
    (hab : ab [f /ᶠ PyFloat.ofInt 1000000000] [pol] "ITU_2005" = .ok ([u], [v])) (habG : ab [fG] [pol] "ITU_2005" = .ok ([u], [v]))
    (hu : u.val = .fin μ) (hv : v.val = .fin β)
    (habx : a_b cubicSpline [.fin (fx / 10 ^ 9)] [pol] "ITU_2005" = .ok ([.fin m], [.fin b]))
    (hε : ε ≤ 2 ^ (-16 : ℤ)) (hmε : |μ - m| ≤ ε * m) (hbε : |1 / β - 1 / b| ≤ ε) (hrm : Rmin.val = .fin rm)
    (trsl : List DblR) (wet : List Bool) (n : ℕ) (hn : 1 ≤ n) (hn2 : n ≤ 2 ^ 25) (hlen : trsl.length ≤ wet.length)
    (dryLevel R : ℕ → ℝ) (η B c : ℝ) (hη : 0 ≤ η) (hB1 : (2 : ℝ) ^ (-900 : ℤ) ≤ B) (hB2 : B ≤ 2 ^ (500 : ℤ))
    (hc : c = 2 * η + 5 * (n * n * (2 ^ (-53 : ℤ) * B)))
    (h1 : ∀ s < n, ¬ WetAt wet s)
    (h2 : ∀ s < trsl.length, WetAt wet s → ∀ k, k < s → s ≤ k + n → dryLevel k = dryLevel s)
    (hx : ∀ s x, trsl[s]? = some x → ∃ y, x.val = .fin y ∧ |y| ≤ B ∧
      |y - levelPastorek (WetAt wet) m b l α ζ δ dryLevel R s| ≤ η)
    (hR : ∀ s < trsl.length, WetAt wet s → 0 ≤ R s ∧ c ≤ m * R s ^ b * l + α * (1 - Real.exp (-δ * R s ^ ζ)) ∧
      m * R s ^ b * l + α * (1 - Real.exp (-δ * R s ^ ζ)) ≤ 998 - c) :
    ∃ base waa rs, baselineConstant trsl wet n = .ok base ∧
      pastorekFromAObs ab rainGrid (List.zipWith (· -ᶠ ·) trsl base) f pol L A_max zeta d = .ok waa ∧
      calcR ab (List.zipWith (· -ᶠ ·) (List.zipWith (· -ᶠ ·) trsl base) waa) L (some [fG]) (some [pol]) none none "ITU_2005" Rmin
        = .ok rs ∧ rs.length = trsl.length ∧
      ∀ i r, rs[i]? = some r → (¬ WetAt wet i → r.val = .fin 0) ∧
        (WetAt wet i → ∃ ρ, r.val = .fin (if ρ < rm then 0 else ρ) ∧ 0 ≤ ρ ∧
          (1 - 2 ^ (-46 : ℤ)) * lawRate μ β l
              (m * R i ^ b * l - (c + (2 ^ (-39 : ℤ) + 2 ^ (11 : ℤ) * ε) * α + 2 ^ (-32 : ℤ))) - 2 ^ (-99 : ℤ) ≤ ρ ∧
          ρ ≤ (1 + 2 ^ (-46 : ℤ)) * lawRate μ β l
              (max (1.36 * (m * R i ^ b * l)) 1.4e-10 + (c + (2 ^ (-39 : ℤ) + 2 ^ (11 : ℤ) * ε) * α + 2 ^ (-32 : ℤ)))
              + 2 ^ (-99 : ℤ)) := by
  have hx' : ∀ a ∈ trsl, a.val = .nan ∨ ∃ y, a.val = .fin y ∧ |y| ≤ B := by
    intro x hx'
    obtain ⟨s, hs, rfl⟩ := List.mem_iff_getElem.mp hx'
    obtain ⟨y, hy, hyB, -⟩ := hx s _ (List.getElem?_eq_getElem hs)
    exact .inr ⟨y, hy, hyB⟩
  obtain ⟨base, ce, k1, k2, k3⟩ := (C126_doubles trsl B hB1 hB2 hx').1 wet n hn hn2 hlen
  have hup := recorded_upTo (fun s x hs => let ⟨y, hy, _, hd⟩ := hx s x hs; ⟨y, hy, hd⟩)
  obtain ⟨b1, b2, hb1, hb2, hbb⟩ := C125_baseline_constant η (trsl.map (·.val)) _ wet n hn (by rw [List.length_map]; exact hlen) hup
  rw [k2] at hb1
  cases hb1
  rw [C130_baseline_constant wet trsl.length n dryLevel _ hn hlen h1
    (fun s _ hw => by unfold levelPastorek; rw [if_neg hw, add_zero]) h2] at hb2
  cases hb2
  obtain ⟨len, hb⟩ := base_close k3 hbb
  obtain ⟨base', hbase, -, bdry⟩ := C01_constant_dry trsl wet n hn hlen
  rw [k1] at hbase
  cases hbase
  have E0 : 0 ≤ 5 * ((n : ℝ) * n * (2 ^ (-53 : ℤ) * B)) := by
    have : 0 ≤ B := le_trans (by positivity) hB1
    positivity
  have ec : η + (η + 5 * ((n : ℝ) * n * (2 ^ (-53 : ℤ) * B))) = c := by rw [hc]; ring
  obtain ⟨waa, rs, w1, w2, w3, w4⟩ := lookup_chain hpow hacc hexp he hm ab h hζ ζ1 hα1 hα hδ2 hl l1 l2 f1 f2 hp hab habG hu hv habx hε hmε
    hbε hrm trsl base wet len dryLevel R η (η + 5 * (n * n * (2 ^ (-53 : ℤ) * B))) hη (by linarith)
    (fun s x hs => let ⟨y, hy, _, hd⟩ := hx s x hs; ⟨y, hy, hd⟩) hb
    (fun s hs hw => bdry s hs (.inr (dry_flag (by omega) hw))) (by rw [ec]; exact hR)
  rw [ec] at w4
  exact ⟨base, waa, rs, k1, w1, w2, w3, w4⟩

/-- Levels 60, 60, 69, 62 with the third step wet and the average of two dry steps as baseline: rain and film together attenuate by 9 dB. -/
example (ab : List DblR → List String → String → Except Err (List DblR × List DblR)) (f fG u v x60 x62 x69 Rmin : DblR) (μ β m b : ℝ)
    (hab : ab [f /ᶠ PyFloat.ofInt 1000000000] ["V"] "ITU_2005" = .ok ([u], [v])) (habG : ab [fG] ["V"] "ITU_2005" = .ok ([u], [v]))
    (hu : u.val = .fin μ) (hv : v.val = .fin β)
    (hx : a_b cubicSpline [.fin (23 * 10 ^ 9 / 10 ^ 9)] ["V"] "ITU_2005" = .ok ([.fin m], [.fin b]))
    (hm : |μ - m| ≤ 2 ^ (-40 : ℤ) * m) (hb : |1 / β - 1 / b| ≤ 2 ^ (-40 : ℤ)) (R : ℝ) (R0 : 0 ≤ R)
    (hR : m * R ^ b * 5 + 14 * (1 - Real.exp (-(1 / 8) * R ^ (1 / 2 : ℝ))) = 9)
    (h1 : x60.val = .fin 60) (h2 : x69.val = .fin 69) (h3 : x62.val = .fin 62) (h4 : Rmin.val = .fin 0) :
    ∃ base waa rs, baselineConstant [x60, x60, x69, x62] [false, false, true, false] 2 = .ok base ∧
      @pastorekFromAObs DblR _ (correctPow _) correctExp ab (@rainGrid DblR _ (correctPow _))
        (List.zipWith (· -ᶠ ·) [x60, x60, x69, x62] base) f "V"
        (dyad 5 0 (by norm_num) (by norm_num) (by norm_num) (by norm_num))
        (dyad 14 0 (by norm_num) (by norm_num) (by norm_num) (by norm_num))
        (dyad 1 (-1) (by norm_num) (by norm_num) (by norm_num) (by norm_num))
        (dyad 1 (-3) (by norm_num) (by norm_num) (by norm_num) (by norm_num)) = .ok waa ∧
      @calcR DblR _ (correctPow _) ab (List.zipWith (· -ᶠ ·) (List.zipWith (· -ᶠ ·) [x60, x60, x69, x62] base) waa)
        (dyad 5 0 (by norm_num) (by norm_num) (by norm_num) (by norm_num))
        (some [fG]) (some ["V"]) none none "ITU_2005" Rmin = .ok rs ∧
      ∃ r0 r1, rs[0]? = some r0 ∧ r0.val = .fin 0 ∧ rs[2]? = some r1 ∧ ∃ ρ, r1.val = .fin (if ρ < 0 then 0 else ρ) ∧
        (1 - 2 ^ (-46 : ℤ)) * lawRate μ β 5 (m * R ^ b * 5 - 1 / 10 ^ 6) - 2 ^ (-99 : ℤ) ≤ ρ := by
  let _ := correctPow (binary64 (K := ℝ))
  let _ := correctExp
  have _ := correctPow_laws (binary64 (K := ℝ))
  obtain ⟨m0, b0, μ0, iβ⟩ := itu_signs (fx := 23 * 10 ^ 9) (pol := "V") (by norm_num) (by norm_num) (by simp [isV]) hx
    (by norm_num : (2 : ℝ) ^ (-40 : ℤ) ≤ 2 ^ (-16 : ℤ)) hm hb
  have big : ∀ z : ℤ, 7 ≤ z → (100 : ℝ) ≤ 2 ^ z := fun z hz =>
    le_trans (by norm_num : (100 : ℝ) ≤ 2 ^ (7 : ℤ)) (zpow_le_zpow_right₀ (by norm_num) hz)
  have dis : ∀ s : ℕ, s < 4 → s = 0 ∨ s = 1 ∨ s = 2 ∨ s = 3 := by omega
  obtain ⟨base, waa, rs, k1, k2, k3, k4, k5⟩ := C164_constant correctPow_close correctPow_accurate correctExp_close correctExp_range
    correctExp_mono ab (L := dyad 5 0 (by norm_num) (by norm_num) (by norm_num) (by norm_num))
    (A_max := dyad 14 0 (by norm_num) (by norm_num) (by norm_num) (by norm_num))
    (zeta := dyad 1 (-1) (by norm_num) (by norm_num) (by norm_num) (by norm_num))
    (d := dyad 1 (-3) (by norm_num) (by norm_num) (by norm_num) (by norm_num)) (α := 14) (ζ := 1 / 2) (δ := 1 / 8) (l := 5)
    (ε := 2 ^ (-40 : ℤ)) (fx := 23 * 10 ^ 9)
    ⟨by simp [dyad], by norm_num, by simp [dyad]; norm_num, by norm_num, by
      rw [RFl.lt_def, RFl.val_zero]; simp [dyad]⟩ (by simp [dyad]) (by norm_num)
    ((zpow_le_one_of_nonpos₀ (by norm_num) (by norm_num)).trans (by norm_num)) (by norm_num)
    (le_trans (by norm_num) (big 100 (by norm_num))) (by simp [dyad]) (by norm_num) (by norm_num) (by norm_num)
    (by norm_num) (by simp [isV]) hab habG hu hv hx (by norm_num) hm hb h4 [x60, x60, x69, x62] [false, false, true, false] 2 (by norm_num) (by norm_num) (by simp)
    (fun s => if s = 3 then 62 else 60) (fun _ => R) 0 100 _ le_rfl
    ((zpow_le_one_of_nonpos₀ (by norm_num) (by norm_num)).trans (by norm_num)) (big 500 (by norm_num)) rfl
    (by intro s hs; interval_cases s <;> simp [WetAt])
    (by
      intro s hs hw k k1 k2
      rcases dis s (by simpa using hs) with rfl | rfl | rfl | rfl
      · omega
      · simp [WetAt] at hw
      · rw [if_neg (by omega), if_neg (by omega)]
      · simp [WetAt] at hw)
    (by
      intro s x hs
      rcases dis s (by simpa using (List.getElem?_eq_some_iff.mp hs).1) with rfl | rfl | rfl | rfl <;> simp at hs <;> subst hs
      · exact ⟨60, h1, by norm_num, by simp [levelPastorek, WetAt]⟩
      · exact ⟨60, h1, by norm_num, by simp [levelPastorek, WetAt]⟩
      · refine ⟨69, h2, by norm_num, ?_⟩
        simp only [levelPastorek]
        rw [if_pos (show WetAt [false, false, true, false] _ from rfl)]
        norm_num at hR ⊢
        linarith
      · exact ⟨62, h3, by norm_num, by simp [levelPastorek, WetAt]⟩)
    (by
      intro s hs hw
      norm_num at hR ⊢
      refine ⟨R0, ?_, ?_⟩ <;> linarith)
  refine ⟨base, waa, rs, k1, k2, k3, ?_⟩
  have g : ∀ j, j < 4 → ∃ r, rs[j]? = some r := fun j hj => ⟨_, List.getElem?_eq_getElem (by simpa [k4] using hj)⟩
  obtain ⟨r0, e0⟩ := g 0 (by norm_num)
  obtain ⟨r1, e1⟩ := g 2 (by norm_num)
  obtain ⟨ρ, ρ1, -, ρ2, -⟩ := (k5 2 r1 e1).2 rfl
  refine ⟨r0, r1, e0, (k5 0 r0 e0).1 (by simp [WetAt]), e1, ρ, ρ1, le_trans (sub_le_sub_right (mul_le_mul_of_nonneg_left
    (lawRate_mono (mul_pos μ0 (by norm_num)) iβ ?_) (by norm_num)) _) ρ2⟩
  norm_num
  linarith

/-- flags of zeros and ones in doubles -/
theorem flagF_dbl (w : Bool) : isNaN (flagF w : DblR) = false ∧ ((flagF w : DblR) ==ᶠ PyFloat.ofInt 0) = !w := by
  cases w
  · have e : (flagF false : DblR) = PyFloat.ofInt 0 := rfl
    rw [e]
    constructor
    · rw [RFl.isNaN_def, RFl.val_zero]; rfl
    · rw [RFl.eq_def, RFl.val_zero]; simp
  · have e : (flagF true : DblR) = PyFloat.ofInt 1 := rfl
    rw [e]
    constructor
    · rw [RFl.isNaN_def, RFl.val_one]; rfl
    · rw [RFl.eq_def, RFl.val_zero, RFl.val_one]; simp

/-- The linear baseline in doubles keeps the levels of dry steps exactly, wherever its value is a number. -/
theorem linear_dry_exact (rsl : List DblR) (bs : List Bool) (b : Bool) (hN : 0 < rsl.length) (hlen : rsl.length ≤ bs.length)
    {out : List DblR} (ho : baselineLinear rsl (bs.map flagF) b = .ok out) (hfin : ∀ (s : ℕ) (x : DblR), out[s]? = some x → ∃ y, x.val = .fin y)
    {i : ℕ} (hi : i < rsl.length) (hd : ¬ WetAt bs i) : out[i]? = rsl[i]? := by
  have hign : baselineLinear rsl (bs.map (flagF : Bool → DblR)) true = baselineLinear rsl (bs.map flagF) false := by
    unfold baselineLinear
    split_ifs
    · rfl
    · congr 2
      apply forRange_congr
      intro i s h1 h2
      have hn : isNaN (rd (bs.map (flagF : Bool → DblR)) i) = false := by
        have hib : i < bs.length := by omega
        unfold rd
        rw [List.getD_eq_getElem?_getD, List.getElem?_map, List.getElem?_eq_getElem hib]
        exact (flagF_dbl _).1
      unfold linBody
      simp [hn]
  have ho' : baselineLinear rsl (bs.map flagF) false = .ok out := by
    cases b
    · exact ho
    · rw [← hign]; exact ho
  obtain ⟨o, h1, hs⟩ := C08_linear_characterisation rsl (bs.map flagF) hN (by simpa using hlen)
  rw [ho'] at h1
  cases h1
  have hw : ¬ FlagWet (bs.map (flagF : Bool → DblR)) i := by
    rintro ⟨-, w, k1, k2⟩
    rw [List.getElem?_map, dry_flag (by omega) hd] at k1
    simp only [Option.map_some, Option.some.injEq] at k1
    subst k1
    rw [(flagF_dbl false).1, (flagF_dbl false).2] at k2
    simp at k2
  have hnb : ∀ p q, ¬ BadEvent (FlagNaN (bs.map (flagF : Bool → DblR))) p q := by
    rintro p q ⟨k, -, -, -, w, k1, k2⟩
    rw [List.getElem?_map, Option.map_eq_some_iff] at k1
    obtain ⟨f, -, rfl⟩ := k1
    rw [(flagF_dbl f).1] at k2
    cases k2
  have hsig : some (rsl.getD i PyFloat.nan) = rsl[i]? := by
    rw [List.getD_eq_getElem?_getD, List.getElem?_eq_getElem hi]
    rfl
  by_cases hnext : ∃ r, WetEvent (FlagWet (bs.map (flagF : Bool → DblR))) i r ∧ r < rsl.length
  · obtain ⟨r, hE, hr⟩ := hnext
    have k := (hs.inside i r i hE hr le_rfl (by have := hE.1; omega)).2 (hnb _ _)
    obtain ⟨y, hy⟩ := hfin i _ k
    rw [k, ← hsig]
    congr 1
    unfold lineAt at hy ⊢
    generalize (rsl.getD r PyFloat.nan -ᶠ rsl.getD i PyFloat.nan) /ᶠ PyFloat.ofInt ((r : ℤ) - i) = w at hy ⊢
    generalize rsl.getD i PyFloat.nan = a at hy ⊢
    have e0 : (binary64 (K := ℝ)).rnd 0 = .fin 0 := rep_fin RFl.val_zero
    have hm : (PyFloat.ofInt ((i : ℤ) - i) *ᶠ w).val = .nan ∨ (PyFloat.ofInt ((i : ℤ) - i) *ᶠ w).val = .fin 0 := by
      rw [sub_self, RFl.val_mul, RFl.val_zero]
      cases hwv : w.val with
      | nan => left; simp [PyFloat.mul, Fl.mul, Rounding.round]
      | ninf => left; simp [PyFloat.mul, Fl.mul, Rounding.round, Fl.infSign]
      | pinf => left; simp [PyFloat.mul, Fl.mul, Rounding.round, Fl.infSign]
      | fin c => right; rw [Fl.pf_mul_fin, zero_mul]; exact e0
    rcases hm with hm | hm
    · rw [RFl.val_add, hm] at hy
      cases ha : a.val <;> rw [ha] at hy <;> simp [PyFloat.add, Fl.add, Rounding.round] at hy
    · ext1
      rw [RFl.val_add, hm]
      rw [RFl.val_add, hm] at hy
      cases ha : a.val with
      | fin c => rw [Fl.pf_add_fin, add_zero]; exact rep_fin ha
      | _ => rw [ha] at hy; simp [PyFloat.add, Fl.add, Rounding.round] at hy
  · have hnext' : ∀ r, WetEvent (FlagWet (bs.map (flagF : Bool → DblR))) i r → rsl.length ≤ r := by
      intro r hr
      by_contra hc
      exact hnext ⟨r, hr, by omega⟩
    by_cases hprev : ∃ p, WetEvent (FlagWet (bs.map (flagF : Bool → DblR))) p i
    · obtain ⟨p, hE⟩ := hprev
      rw [(hs.stop p i hE hi hnext').2 (hnb _ _), hsig]
    · rw [hs.dry i hi hw (fun p hp => hprev ⟨p, hp⟩) hnext', hsig]

/-- **C164** Linear baseline (either setting of `ignore_nan`): first and last step dry, the dry level linear across each wet event; if the rain and
its film attenuate at every wet step by at least `c = 2 δ + 12 2^-53 B`, the correction does not raise, and the rates are as in
`C164_last_dry` with `c` in place of twice the level error. -/
theorem C164_linear [PyPow DblR] [MonoPow DblR] [PyExp DblR] (hpow : PowClose) (hacc : PowAccurate) (hexp : ExpClose)
    (he : ExpRange) (hm : ExpMono)
    (ab : List DblR → List String → String → Except Err (List DblR × List DblR))
    {f fG L A_max zeta d u v Rmin : DblR} {pol : String} {α ζ δ l μ β ε fx m b rm : ℝ}
    (h : PastorekParams A_max zeta d α δ) (hζ : zeta.val = .fin ζ) (ζ1 : ζ ≤ 0.67)
    (hα1 : 2 ^ (-300 : ℤ) ≤ α) (hα : α ≤ 2 ^ (14 : ℤ)) (hδ2 : δ ≤ 2 ^ (100 : ℤ))
    (hl : L.val = .fin l) (l1 : 1 / 10 ≤ l) (l2 : l ≤ 50) (f1 : 10 ^ 9 ≤ fx) (f2 : fx ≤ 100 * 10 ^ 9) (hp : isH pol ∨ isV pol)
    (hab : ab [f /ᶠ PyFloat.ofInt 1000000000] [pol] "ITU_2005" = .ok ([u], [v])) (habG : ab [fG] [pol] "ITU_2005" = .ok ([u], [v]))
    (hu : u.val = .fin μ) (hv : v.val = .fin β)
    (habx : a_b cubicSpline [.fin (fx / 10 ^ 9)] [pol] "ITU_2005" = .ok ([.fin m], [.fin b]))
    (hε : ε ≤ 2 ^ (-16 : ℤ)) (hmε : |μ - m| ≤ ε * m) (hbε : |1 / β - 1 / b| ≤ ε) (hrm : Rmin.val = .fin rm)
    (trsl : List DblR) (wet : List Bool) (ignoreNan : Bool) (hN : 0 < trsl.length) (hN2 : trsl.length ≤ 2 ^ 53)
    (hlen : trsl.length ≤ wet.length)
    (dryLevel R : ℕ → ℝ) (η B c : ℝ) (hη : 0 ≤ η) (hB1 : (2 : ℝ) ^ (-900 : ℤ) ≤ B) (hB2 : B ≤ 2 ^ (500 : ℤ))
    (hc : c = 2 * η + 12 * (2 ^ (-53 : ℤ) * B))
    (hfirst : ¬ WetAt wet 0) (hlast : ¬ WetAt wet (trsl.length - 1))
    (hlin : ∀ p i q, p < i → i < q → q < trsl.length → ¬ WetAt wet p → ¬ WetAt wet q → (∀ k, p < k → k < q → WetAt wet k) →
      dryLevel i = dryLevel p + ((i : ℝ) - p) * ((dryLevel q - dryLevel p) / ((q : ℝ) - p)))
    (hx : ∀ s x, trsl[s]? = some x → ∃ y, x.val = .fin y ∧ |y| ≤ B ∧
      |y - levelPastorek (WetAt wet) m b l α ζ δ dryLevel R s| ≤ η)
    (hR : ∀ s < trsl.length, WetAt wet s → 0 ≤ R s ∧ c ≤ m * R s ^ b * l + α * (1 - Real.exp (-δ * R s ^ ζ)) ∧
      m * R s ^ b * l + α * (1 - Real.exp (-δ * R s ^ ζ)) ≤ 998 - c) :
    ∃ base waa rs, baselineLinear trsl (wet.map flagF) ignoreNan = .ok base ∧
      pastorekFromAObs ab rainGrid (List.zipWith (· -ᶠ ·) trsl base) f pol L A_max zeta d = .ok waa ∧
      calcR ab (List.zipWith (· -ᶠ ·) (List.zipWith (· -ᶠ ·) trsl base) waa) L (some [fG]) (some [pol]) none none "ITU_2005" Rmin
        = .ok rs ∧ rs.length = trsl.length ∧
      ∀ i r, rs[i]? = some r → (¬ WetAt wet i → r.val = .fin 0) ∧
        (WetAt wet i → ∃ ρ, r.val = .fin (if ρ < rm then 0 else ρ) ∧ 0 ≤ ρ ∧
          (1 - 2 ^ (-46 : ℤ)) * lawRate μ β l
              (m * R i ^ b * l - (c + (2 ^ (-39 : ℤ) + 2 ^ (11 : ℤ) * ε) * α + 2 ^ (-32 : ℤ))) - 2 ^ (-99 : ℤ) ≤ ρ ∧
          ρ ≤ (1 + 2 ^ (-46 : ℤ)) * lawRate μ β l
              (max (1.36 * (m * R i ^ b * l)) 1.4e-10 + (c + (2 ^ (-39 : ℤ) + 2 ^ (11 : ℤ) * ε) * α + 2 ^ (-32 : ℤ)))
              + 2 ^ (-99 : ℤ)) := by
  have hx' : ∀ a ∈ trsl, a.val = .nan ∨ ∃ y, a.val = .fin y ∧ |y| ≤ B := by
    intro x hx'
    obtain ⟨s, hs, rfl⟩ := List.mem_iff_getElem.mp hx'
    obtain ⟨y, hy, hyB, -⟩ := hx s _ (List.getElem?_eq_getElem hs)
    exact .inr ⟨y, hy, hyB⟩
  have kw : (wet.map (flagF : Bool → DblR)).map (·.val) = wet.map flagF := by
    rw [List.map_map]
    refine List.map_congr_left fun f _ => ?_
    cases f
    · show (PyFloat.ofInt 0 : DblR).val = PyFloat.ofInt 0
      rw [RFl.val_zero, Fl.pf_ofInt, Int.cast_zero]
    · show (PyFloat.ofInt 1 : DblR).val = PyFloat.ofInt 1
      rw [RFl.val_one, Fl.pf_ofInt, Int.cast_one]
  obtain ⟨base, ce, k1, k2, k3⟩ := (C126_doubles trsl B hB1 hB2 hx').2 (wet.map flagF) ignoreNan hN hN2 (by simpa using hlen)
  rw [kw] at k2
  have hup := recorded_upTo (fun s x hs => let ⟨y, hy, _, hd⟩ := hx s x hs; ⟨y, hy, hd⟩)
  obtain ⟨b1, b2, hb1, hb2, hbb⟩ := C125_baseline_linear η hη (trsl.map (·.val)) _ (wet.map flagF) ignoreNan (by simpa using hN)
    (by simpa using hlen) hup
  rw [k2] at hb1
  cases hb1
  rw [C130_baseline_linear wet trsl.length dryLevel _ ignoreNan hN hlen hfirst hlast
    (fun s _ hw => by unfold levelPastorek; rw [if_neg hw, add_zero]) hlin] at hb2
  cases hb2
  obtain ⟨len, hb⟩ := base_close k3 hbb
  have E0 : 0 ≤ 12 * ((2 : ℝ) ^ (-53 : ℤ) * B) := by
    have : 0 ≤ B := le_trans (by positivity) hB1
    positivity
  have ec : η + (η + 12 * ((2 : ℝ) ^ (-53 : ℤ) * B)) = c := by rw [hc]; ring
  obtain ⟨waa, rs, w1, w2, w3, w4⟩ := lookup_chain hpow hacc hexp he hm ab h hζ ζ1 hα1 hα hδ2 hl l1 l2 f1 f2 hp hab habG hu hv habx hε hmε
    hbε hrm trsl base wet len dryLevel R η (η + 12 * (2 ^ (-53 : ℤ) * B)) hη (by linarith)
    (fun s x hs => let ⟨y, hy, _, hd⟩ := hx s x hs; ⟨y, hy, hd⟩) hb
    (fun s hs hw => linear_dry_exact trsl wet ignoreNan hN hlen k1 (fun t x ht => let ⟨y, hy, _⟩ := hb t x ht; ⟨y, hy⟩) hs hw)
    (by rw [ec]; exact hR)
  rw [ec] at w4
  exact ⟨base, waa, rs, k1, w1, w2, w3, w4⟩

/-- Levels 60, 69, 62 with the second step wet and the linear baseline 60, 61, 62: rain and film together attenuate by 8 dB. -/
example (ab : List DblR → List String → String → Except Err (List DblR × List DblR)) (f fG u v x60 x62 x69 Rmin : DblR) (μ β m b : ℝ)
    (hab : ab [f /ᶠ PyFloat.ofInt 1000000000] ["V"] "ITU_2005" = .ok ([u], [v])) (habG : ab [fG] ["V"] "ITU_2005" = .ok ([u], [v]))
    (hu : u.val = .fin μ) (hv : v.val = .fin β)
    (hx : a_b cubicSpline [.fin (23 * 10 ^ 9 / 10 ^ 9)] ["V"] "ITU_2005" = .ok ([.fin m], [.fin b]))
    (hm : |μ - m| ≤ 2 ^ (-40 : ℤ) * m) (hb : |1 / β - 1 / b| ≤ 2 ^ (-40 : ℤ)) (R : ℝ) (R0 : 0 ≤ R)
    (hR : m * R ^ b * 5 + 14 * (1 - Real.exp (-(1 / 8) * R ^ (1 / 2 : ℝ))) = 8)
    (h1 : x60.val = .fin 60) (h2 : x69.val = .fin 69) (h3 : x62.val = .fin 62) (h4 : Rmin.val = .fin 0) :
    ∃ base waa rs, baselineLinear [x60, x69, x62] ([false, true, false].map flagF) false = .ok base ∧
      @pastorekFromAObs DblR _ (correctPow _) correctExp ab (@rainGrid DblR _ (correctPow _))
        (List.zipWith (· -ᶠ ·) [x60, x69, x62] base) f "V"
        (dyad 5 0 (by norm_num) (by norm_num) (by norm_num) (by norm_num))
        (dyad 14 0 (by norm_num) (by norm_num) (by norm_num) (by norm_num))
        (dyad 1 (-1) (by norm_num) (by norm_num) (by norm_num) (by norm_num))
        (dyad 1 (-3) (by norm_num) (by norm_num) (by norm_num) (by norm_num)) = .ok waa ∧
      @calcR DblR _ (correctPow _) ab (List.zipWith (· -ᶠ ·) (List.zipWith (· -ᶠ ·) [x60, x69, x62] base) waa)
        (dyad 5 0 (by norm_num) (by norm_num) (by norm_num) (by norm_num))
        (some [fG]) (some ["V"]) none none "ITU_2005" Rmin = .ok rs ∧
      ∃ r0 r1, rs[0]? = some r0 ∧ r0.val = .fin 0 ∧ rs[1]? = some r1 ∧ ∃ ρ, r1.val = .fin (if ρ < 0 then 0 else ρ) ∧
        (1 - 2 ^ (-46 : ℤ)) * lawRate μ β 5 (m * R ^ b * 5 - 1 / 10 ^ 6) - 2 ^ (-99 : ℤ) ≤ ρ := by
  let _ := correctPow (binary64 (K := ℝ))
  let _ := correctExp
  have _ := correctPow_laws (binary64 (K := ℝ))
  obtain ⟨m0, b0, μ0, iβ⟩ := itu_signs (fx := 23 * 10 ^ 9) (pol := "V") (by norm_num) (by norm_num) (by simp [isV]) hx
    (by norm_num : (2 : ℝ) ^ (-40 : ℤ) ≤ 2 ^ (-16 : ℤ)) hm hb
  have big : ∀ z : ℤ, 7 ≤ z → (100 : ℝ) ≤ 2 ^ z := fun z hz =>
    le_trans (by norm_num : (100 : ℝ) ≤ 2 ^ (7 : ℤ)) (zpow_le_zpow_right₀ (by norm_num) hz)
  have dis : ∀ s : ℕ, s < 3 → s = 0 ∨ s = 1 ∨ s = 2 := by omega
  obtain ⟨base, waa, rs, k1, k2, k3, k4, k5⟩ := C164_linear correctPow_close correctPow_accurate correctExp_close correctExp_range
    correctExp_mono ab (L := dyad 5 0 (by norm_num) (by norm_num) (by norm_num) (by norm_num))
    (A_max := dyad 14 0 (by norm_num) (by norm_num) (by norm_num) (by norm_num))
    (zeta := dyad 1 (-1) (by norm_num) (by norm_num) (by norm_num) (by norm_num))
    (d := dyad 1 (-3) (by norm_num) (by norm_num) (by norm_num) (by norm_num)) (α := 14) (ζ := 1 / 2) (δ := 1 / 8) (l := 5)
    (ε := 2 ^ (-40 : ℤ)) (fx := 23 * 10 ^ 9)
    ⟨by simp [dyad], by norm_num, by simp [dyad]; norm_num, by norm_num, by
      rw [RFl.lt_def, RFl.val_zero]; simp [dyad]⟩ (by simp [dyad]) (by norm_num)
    ((zpow_le_one_of_nonpos₀ (by norm_num) (by norm_num)).trans (by norm_num)) (by norm_num)
    (le_trans (by norm_num) (big 100 (by norm_num))) (by simp [dyad]) (by norm_num) (by norm_num) (by norm_num)
    (by norm_num) (by simp [isV]) hab habG hu hv hx (by norm_num) hm hb h4 [x60, x69, x62] [false, true, false] false (by simp) (by norm_num) (by simp)
    (fun s => 60 + s) (fun _ => R) 0 100 _ le_rfl
    ((zpow_le_one_of_nonpos₀ (by norm_num) (by norm_num)).trans (by norm_num)) (big 500 (by norm_num)) rfl
    (by simp [WetAt]) (by simp [WetAt])
    (by
      intro p i q hpi hiq hq hp hq' hw
      simp at hq
      obtain ⟨rfl, rfl, rfl⟩ : p = 0 ∧ i = 1 ∧ q = 2 := by omega
      norm_num)
    (by
      intro s x hs
      rcases dis s (by simpa using (List.getElem?_eq_some_iff.mp hs).1) with rfl | rfl | rfl <;> simp at hs <;> subst hs
      · exact ⟨60, h1, by norm_num, by simp [levelPastorek, WetAt]⟩
      · refine ⟨69, h2, by norm_num, ?_⟩
        simp only [levelPastorek]
        rw [if_pos (show WetAt [false, true, false] _ from rfl)]
        norm_num at hR ⊢
        linarith
      · exact ⟨62, h3, by norm_num, by simp [levelPastorek, WetAt]; norm_num⟩)
    (by
      intro s hs hw
      norm_num at hR ⊢
      refine ⟨R0, ?_, ?_⟩ <;> linarith)
  refine ⟨base, waa, rs, k1, k2, k3, ?_⟩
  have g : ∀ j, j < 3 → ∃ r, rs[j]? = some r := fun j hj => ⟨_, List.getElem?_eq_getElem (by simpa [k4] using hj)⟩
  obtain ⟨r0, e0⟩ := g 0 (by norm_num)
  obtain ⟨r1, e1⟩ := g 1 (by norm_num)
  obtain ⟨ρ, ρ1, -, ρ2, -⟩ := (k5 1 r1 e1).2 rfl
  refine ⟨r0, r1, e0, (k5 0 r0 e0).1 (by simp [WetAt]), e1, ρ, ρ1, le_trans (sub_le_sub_right (mul_le_mul_of_nonneg_left
    (lawRate_mono (mul_pos μ0 (by norm_num)) iβ ?_) (by norm_num)) _) ρ2⟩
  norm_num
  linarith

end Verif.Props
