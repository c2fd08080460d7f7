import Verif.Props.LookupAccuracy
import Verif.Props.LookupGrid
import Verif.Props.LookupRecovery
import Verif.Props.RoundedChain
import Verif.Props.LevelsToRain
import Verif.Props.RecoveryPastorek

/-!
# Property C164: levels to rain with the look-up of the wet antenna attenuation, in double arithmetic
-/

namespace Verif.Props
open Verif Verif.KR Verif.Bin Verif.WaaModels Verif.Baseline

/-- what `waa_pastorek_2021_from_A_obs` leaves of an observation near the attenuation `A` of rain and the film it makes, in exact
arithmetic -/
theorem lookup_leaves {m b l α ζ δ : ℝ} (m0 : 0 < m) (b0 : 0 < b) (l0 : 0 < l) (α0 : 0 < α) (ζ0 : 0 < ζ) (δ0 : 0 < δ) (hζb : ζ ≤ b)
    (spline : Spline) (fx : Fl ℝ) (pol : String)
    (habx : a_b spline [fx /ᶠ PyFloat.ofInt 1000000000] [pol] "ITU_2005" = .ok ([.fin m], [.fin b])) :
    ∃ g : ℝ → ℝ,
      (∀ A_obs : List (Fl ℝ), (∀ z ∈ A_obs, z = .nan ∨ ∃ x, z = .fin x ∧ 0 ≤ x ∧ x ≤ 1000) →
        waa_pastorek_2021_from_A_obs spline A_obs fx pol (.fin l) (.fin α) (.fin ζ) (.fin δ) =
          .ok (A_obs.map fun z => match z with | .fin x => .fin (g x) | _ => .nan)) ∧
      ∀ R x η, 0 ≤ R → m * R ^ b * l ≤ 1000 → 0 ≤ x → x ≤ 1000 →
        |x - (m * R ^ b * l + α * (1 - Real.exp (-δ * R ^ ζ)))| ≤ η →
        m * R ^ b * l - η ≤ x - g x ∧ x - g x ≤ max (1.36 * (m * R ^ b * l)) 1.4e-10 + η := by
  obtain ⟨g, top, t1, -, -, -, -, gmono, gok, gerr⟩ := C16_from_A_obs m0 b0 l0 α0 ζ0 δ0 spline fx pol habx
  refine ⟨g, fun A_obs hA => gok A_obs fun z hz => (hA z hz).imp id fun ⟨x, e, x0, x1⟩ => ⟨x, e, x0, by linarith⟩, ?_⟩
  intro R x η hR hA x0 x1 hx
  obtain ⟨g', hg', hb'⟩ := C132_pastorek m0 b0 l0 α0 ζ0 δ0 spline fx pol habx [R] (by simpa using ⟨hR, hA⟩)
  have hb := hb' R (by simp)
  simp only [List.map_cons, List.map_nil] at hg' hb
  generalize hD : m * R ^ b * l + α * (1 - Real.exp (-δ * R ^ ζ)) = D at *
  have A0 : 0 ≤ m * R ^ b * l := by positivity
  have D0 : 0 ≤ D := by
    have : Real.exp (-δ * R ^ ζ) ≤ 1 := Real.exp_le_one_iff.mpr (by
      have := Real.rpow_nonneg hR ζ
      nlinarith)
    rw [← hD]
    have := mul_nonneg α0.le (sub_nonneg.mpr this)
    linarith
  have Dt : D ≤ top := by
    by_contra hn
    rw [gerr [.fin D] ⟨.fin D, by simp, by simp, fun y hy => .inr (by cases hy; linarith)⟩] at hg'
    cases hg'
  rw [gok [.fin D] (by simpa using ⟨D0, Dt⟩)] at hg'
  simp only [List.map_cons, List.map_nil, Except.ok.injEq, List.cons.injEq, Fl.fin.injEq, and_true] at hg'
  obtain ⟨-, h2, -, h4, -⟩ := hb
  rw [← hg'] at h2 h4
  have h4 := h4 hζb
  obtain ⟨e1, e2⟩ := abs_le.mp hx
  rcases le_total x D with h | h
  · obtain ⟨k1, k2⟩ := gmono x D x0 h Dt
    constructor <;> linarith
  · obtain ⟨k1, k2⟩ := gmono D x D0 h (by linarith)
    constructor <;> linarith

/-- **C164** Rain rates after the correction with `waa_pastorek_2021_from_A_obs`, in doubles: for a link of the ITU table (1 to 100 GHz,
0.1 to 50 km), `zeta <= 0.67`, and observations from 0 to 999 dB each within `η` of the attenuation `A = a R^b L` of rain plus
the wet antenna attenuation of this rain, look-up and `calc_R_from_A` succeed and give, before rates below `R_min` are set to zero,
rates between those of the power law at `A - e` and at `max(1.36 A, 1.4e-10) + e`, up to `2^-46` relative and `2^-99` absolute error;
`e = η + (2^-39 + 2^11 ε) A_max + 2^-43 A_obs`. Where nothing is observed the rate is 0, where the observation is missing it is NaN. -/
theorem C164_rates [PyPow DblR] [MonoPow DblR] [PyExp DblR] (hpow : PowClose) (hacc : PowAccurate) (hexp : ExpClose)
    (he : ExpRange) (hm : ExpMono)
    (ab : List DblR → List String → String → Except Err (List DblR × List DblR))
    {f fG L A_max zeta d u v Rmin : DblR} {pol : String} {α ζ δ l μ β ε fx m b rm : ℝ}
    (h : PastorekParams A_max zeta d α δ) (hζ : zeta.val = .fin ζ) (ζ1 : ζ ≤ 0.67)
    (hα1 : 2 ^ (-300 : ℤ) ≤ α) (hα : α ≤ 2 ^ (14 : ℤ)) (hδ2 : δ ≤ 2 ^ (100 : ℤ))
    (hl : L.val = .fin l) (l1 : 1 / 10 ≤ l) (l2 : l ≤ 50) (f1 : 10 ^ 9 ≤ fx) (f2 : fx ≤ 100 * 10 ^ 9) (hp : isH pol ∨ isV pol)
    (hab : ab [f /ᶠ PyFloat.ofInt 1000000000] [pol] "ITU_2005" = .ok ([u], [v])) (habG : ab [fG] [pol] "ITU_2005" = .ok ([u], [v]))
    (hu : u.val = .fin μ) (hv : v.val = .fin β)
    (habx : a_b cubicSpline [.fin (fx / 10 ^ 9)] [pol] "ITU_2005" = .ok ([.fin m], [.fin b]))
    (hε : ε ≤ 2 ^ (-16 : ℤ)) (hmε : |μ - m| ≤ ε * m) (hbε : |1 / β - 1 / b| ≤ ε) (hrm : Rmin.val = .fin rm)
    (A_obs : List DblR) (R : ℕ → ℝ) (η : ℝ) (hη : 0 ≤ η)
    (hA : ∀ i z, A_obs[i]? = some z → isNaN z = true ∨ ∃ x, z.val = .fin x ∧ 0 ≤ x ∧ x ≤ 999 ∧
      0 ≤ R i ∧ m * R i ^ b * l ≤ 1000 ∧ |x - (m * R i ^ b * l + α * (1 - Real.exp (-δ * R i ^ ζ)))| ≤ η) :
    ∃ waa rs, pastorekFromAObs ab rainGrid A_obs f pol L A_max zeta d = .ok waa ∧
      calcR ab (List.zipWith (· -ᶠ ·) A_obs waa) L (some [fG]) (some [pol]) none none "ITU_2005" Rmin = .ok rs ∧
      rs.length = A_obs.length ∧
      ∀ i z r, A_obs[i]? = some z → rs[i]? = some r → (isNaN z = true → isNaN r = true) ∧
        ∀ x, z.val = .fin x → (x = 0 → r.val = .fin 0) ∧ ∃ ρ, r.val = .fin (if ρ < rm then 0 else ρ) ∧ 0 ≤ ρ ∧
          (1 - 2 ^ (-46 : ℤ)) * lawRate μ β l
              (m * R i ^ b * l - (η + (2 ^ (-39 : ℤ) + 2 ^ (11 : ℤ) * ε) * α + 2 ^ (-43 : ℤ) * x)) - 2 ^ (-99 : ℤ) ≤ ρ ∧
          ρ ≤ (1 + 2 ^ (-46 : ℤ)) * lawRate μ β l
              (max (1.36 * (m * R i ^ b * l)) 1.4e-10 + (η + (2 ^ (-39 : ℤ) + 2 ^ (11 : ℤ) * ε) * α + 2 ^ (-43 : ℤ) * x))
              + 2 ^ (-99 : ℤ) := by
  have pr := binary64_precision (K := ℝ)
  have g1 : 1 ≤ fx / 10 ^ 9 := by rw [le_div_iff₀ (by norm_num)]; linarith
  have g2 : fx / 10 ^ 9 ≤ 100 := by rw [div_le_iff₀ (by norm_num)]; linarith
  have ζ1' : ζ ≤ 1 := by norm_num at ζ1; linarith
  obtain ⟨a, hg⟩ := C163_grid hacc
  obtain ⟨m', b', m0, b0, habx2, hitu⟩ := C163_itu (ε := ε) hpow hacc hexp he hm ab hg h hζ ζ1' hα1 hα hδ2 hl l1 l2 f1 f2 hp hab hu hv
  rw [habx] at habx2
  simp only [Except.ok.injEq, Prod.mk.injEq, List.cons.injEq, Fl.fin.injEq, and_true] at habx2
  obtain ⟨rfl, rfl⟩ := habx2
  -- ranges of the parameters
  obtain ⟨r, r', hrr, habx3⟩ := ab_single g1 g2 hp (Or.inr rfl : "ITU_2005" = "ITU_2003" ∨ "ITU_2005" = "ITU_2005")
  obtain ⟨m1, m2⟩ := cert_a_range (Or.inr rfl : "ITU_2005" = "ITU_2003" ∨ "ITU_2005" = "ITU_2005") (r := r) (by tauto) g1 g2
  obtain ⟨b1, b2⟩ := cert_b_range (Or.inr rfl : "ITU_2005" = "ITU_2003" ∨ "ITU_2005" = "ITU_2005") (r := r') (by tauto) g1 g2
  rw [habx] at habx3
  simp only [Except.ok.injEq, Prod.mk.injEq, List.cons.injEq, Fl.fin.injEq, and_true] at habx3
  rw [← habx3.1] at m1 m2
  rw [← habx3.2] at b1 b2
  clear habx3
  have l0 : 0 < l := by linarith
  have i2 : 1 / b ≤ 3 / 2 := by rw [div_le_iff₀ b0]; norm_num at b1; linarith
  have i1 : 1 / 2 ≤ 1 / b := one_div_le_one_div_of_le b0 (by norm_num at b2; linarith)
  have hε' : ε ≤ 1 / 100 := hε.trans (by norm_num)
  have ε0 : 0 ≤ ε := (abs_nonneg _).trans hbε
  obtain ⟨β1', β2'⟩ := abs_le.mp hbε
  have iβ : 0 < 1 / β := by linarith
  have iβ2 : 1 / β ≤ 2 := by linarith
  have β0 : 0 < β := one_div_pos.mp iβ
  have bβ1 : 1 / 2 ≤ β := by rw [div_le_iff₀ β0] at iβ2; linarith
  have bβ2 : β ≤ 8 := by
    have : 1 / 8 ≤ 1 / β := by linarith
    rw [le_div_iff₀ β0] at this
    linarith
  obtain ⟨μ1', μ2'⟩ := abs_le.mp hmε
  have em : ε * m ≤ 1 / 100 * m := mul_le_mul_of_nonneg_right hε' m0.le
  have lo : ∀ x : ℝ, 1 / 2 ^ 20 ≤ x → (2 : ℝ) ^ (-300 : ℤ) ≤ x := fun x hx =>
    le_trans (le_trans (zpow_le_zpow_right₀ (by norm_num) (by norm_num) : (2 : ℝ) ^ (-300 : ℤ) ≤ 2 ^ (-20 : ℤ)) (by norm_num)) hx
  have hi : ∀ x : ℝ, x ≤ 64 → x ≤ (2 : ℝ) ^ (300 : ℤ) := fun x hx =>
    le_trans hx (le_trans (by norm_num : (64 : ℝ) ≤ 2 ^ (6 : ℤ)) (zpow_le_zpow_right₀ (by norm_num) (by norm_num)))
  have μlo : 0.00002 ≤ μ := by norm_num at m1 ⊢; linarith
  have hr : RateRange L u v l μ β := ⟨hl, hu, hv, lo l (by norm_num; linarith), hi l (by linarith),
    lo μ (by norm_num at μlo ⊢; linarith), hi μ (by norm_num at m2; linarith), by linarith, bβ2⟩
  have μl : 0 < μ * l := mul_pos (by norm_num at μlo; linarith) l0
  have hT : (8 * (128 : ℝ) / (μ * l)) ^ (1 / β) ≤ 2 ^ (64 : ℤ) := by
    have q1 : 8 * (128 : ℝ) / (μ * l) ≤ 2 ^ (30 : ℕ) := by
      rw [div_le_iff₀ μl]
      have : 0.00002 * (1 / 10) ≤ μ * l := mul_le_mul μlo l1 (by norm_num) (by norm_num at μlo; linarith)
      norm_num at this ⊢
      linarith
    calc (8 * (128 : ℝ) / (μ * l)) ^ (1 / β) ≤ ((2 : ℝ) ^ (30 : ℕ)) ^ (1 / β) :=
          Real.rpow_le_rpow (by positivity) q1 iβ.le
      _ ≤ ((2 : ℝ) ^ (30 : ℕ)) ^ (2 : ℝ) := Real.rpow_le_rpow_of_exponent_le (by norm_num) iβ2
      _ ≤ 2 ^ (64 : ℤ) := by norm_num
  have ζ0 : 0 < ζ := by
    have := h.hz
    rw [RFl.lt_def, RFl.val_zero, hζ, Fl.pf_lt_fin, decide_eq_true_eq] at this
    exact this
  have habx' : a_b cubicSpline [Fl.fin fx /ᶠ PyFloat.ofInt 1000000000] [pol] "ITU_2005" = .ok ([.fin m], [.fin b]) := by
    rw [Fl.pf_ofInt, Fl.pf_div_fin_ne _ _ (by norm_num)]
    push_cast
    norm_num at habx ⊢
    exact habx
  -- the two runs of the look-up
  have hA' : ∀ z ∈ A_obs, isNaN z = true ∨ ∃ x, z.val = .fin x ∧ 0 ≤ x ∧ x ≤ 999 := by
    intro z hz
    obtain ⟨i, hi⟩ := List.mem_iff_getElem?.mp hz
    exact (hA i z hi).imp id fun ⟨x, e, x0, x1, _⟩ => ⟨x, e, x0, x1⟩
  obtain ⟨out, ref, ho, hx, len, -, hacc'⟩ := hitu hε hmε hbε A_obs hA'
  obtain ⟨top, t1, -, hrun, -⟩ := C163_range he hm ab hg h hα hab hr.rainParams
  obtain ⟨out', ho', -, hrange⟩ := hrun A_obs fun z hz => (hA' z hz).imp id fun ⟨x, e, x0, x1⟩ => ⟨x, e, x0, x1.trans t1⟩
  rw [ho] at ho'
  cases ho'
  obtain ⟨g, gok, gb⟩ := lookup_leaves m0 b0 l0 h.α0 ζ0 h.δ0 (ζ1.trans b1) cubicSpline (.fin fx) pol habx'
  rw [gok (A_obs.map (·.val)) (by
    intro z hz
    obtain ⟨y, hy, rfl⟩ := List.mem_map.mp hz
    rcases hA' y hy with hn | ⟨x, hx, x0, x1⟩
    · rw [RFl.isNaN_def] at hn
      left
      cases hv : y.val <;> rw [hv] at hn <;> first | rfl | cases hn
    · exact .inr ⟨x, hx, x0, by linarith⟩)] at hx
  cases hx
  refine ⟨out, _, ho, calcR_freq _ L Rmin habG, by simp [len], ?_⟩
  intro i z r hz hr'
  obtain ⟨w, hw, wn, wf⟩ := hrange i z hz
  simp only [List.getElem?_map, List.getElem?_zipWith, hz, hw, Option.map_some, Option.some.injEq] at hr'
  subst hr'
  refine ⟨fun hn => ?_, ?_⟩
  · have : isNaN (z -ᶠ w) = true := LawfulPyFloat.sub_nan _ _ (by simp [hn])
    unfold rateF
    rw [if_pos this]
    rfl
  intro x hzx
  obtain ⟨y, hy, y0, -, yx, yz⟩ := wf x hzx
  have hxx : 0 ≤ x ∧ x ≤ 999 ∧ 0 ≤ R i ∧ m * R i ^ b * l ≤ 1000 ∧
      |x - (m * R i ^ b * l + α * (1 - Real.exp (-δ * R i ^ ζ)))| ≤ η := by
    rcases hA i z hz with hn | ⟨x', e, k⟩
    · rw [RFl.isNaN_def, hzx] at hn; cases hn
    · rw [hzx] at e; cases e; exact k
  obtain ⟨x0, x1, R0, A1, hxη⟩ := hxx
  obtain ⟨y', v', r, hy', hv', hr', hvr⟩ := hacc' i z x hz hzx
  rw [hw] at hy'
  cases hy'
  rw [hy] at hv'
  cases hv'
  simp only [List.getElem?_map, hz, hzx, Option.map_some, Option.some.injEq, Fl.fin.injEq] at hr'
  subst hr'
  obtain ⟨k1, k2⟩ := gb (R i) x η R0 A1 x0 (by linarith) hxη
  have E0 : (2 : ℝ) ^ (-1000 : ℤ) ≤ 2 ^ (-42 : ℤ) * α := by
    have : (2 : ℝ) ^ (-1000 : ℤ) ≤ 2 ^ (-42 : ℤ) * 2 ^ (-300 : ℤ) := by
      rw [← zpow_add₀ (by norm_num)]
      exact zpow_le_zpow_right₀ (by norm_num) (by norm_num)
    exact this.trans (mul_le_mul_of_nonneg_left hα1 (by positivity))
  have E2 : (2 : ℝ) ^ (-1000 : ℤ) ≤ 1 := by
    simpa using (zpow_le_zpow_right₀ (by norm_num) (by norm_num) : (2 : ℝ) ^ (-1000 : ℤ) ≤ 2 ^ (0 : ℤ))
  have E3 : (2 : ℝ) ^ (20 : ℤ) ≤ 2 ^ (1023 : ℤ) := zpow_le_zpow_right₀ (by norm_num) (by norm_num)
  have E4 : (0 : ℝ) ≤ 2 ^ (-1000 : ℤ) := by positivity
  have xy : |x - y| ≤ x + 2 ^ (-1000 : ℤ) := by
    rw [abs_le]
    have : (2 : ℝ) ^ (-49 : ℤ) * x ≤ 1 * x := mul_le_mul_of_nonneg_right (by norm_num) x0
    constructor <;> linarith
  obtain ⟨q, hq, hqe⟩ := pr.sub_err x y (rep_fin hzx) (rep_fin hy)
    (le_trans (by linarith : |x - y| ≤ 1000) (le_trans (by norm_num) E3))
  have vq : (z -ᶠ w).val = .fin q := by rw [RFl.val_sub, hzx, hy, Fl.pf_sub_fin]; exact hq
  have hqx : |q - (x - y)| ≤ 2 ^ (-53 : ℤ) * x + 2 ^ (-43 : ℤ) * α := by
    have k3 : (2 : ℝ) ^ (-53 : ℤ) * |x - y| ≤ 2 ^ (-53 : ℤ) * (x + 2 ^ (-1000 : ℤ)) := mul_le_mul_of_nonneg_left xy (by positivity)
    have e53 : (2 : ℝ) ^ (-53 : ℤ) ≤ 1 / 4 := by norm_num
    have k4 : (2 : ℝ) ^ (-53 : ℤ) * 2 ^ (-1000 : ℤ) ≤ 1 / 4 * 2 ^ (-1000 : ℤ) := mul_le_mul_of_nonneg_right e53 E4
    have E7 : (2 : ℝ) ^ (-42 : ℤ) * α = 2 * (2 ^ (-43 : ℤ) * α) := by norm_num; ring
    rw [mul_add] at k3
    generalize (2 : ℝ) ^ (-1000 : ℤ) = t at *
    refine hqe.trans (k3.trans (add_le_add le_rfl (k4.trans ?_)))
    rw [E7] at E0
    generalize (2 : ℝ) ^ (-43 : ℤ) * α = s at *
    linarith only [E0, E4]
  obtain ⟨q1, q2⟩ := abs_le.mp hqx
  obtain ⟨v1, v2⟩ := abs_le.mp hvr
  refine ⟨fun hx0 => ?_, ?_⟩
  · subst hx0
    have y00 := yz rfl
    subst y00
    have hz0 : z = PyFloat.ofInt 0 := RFl.ext (by rw [hzx, RFl.val_zero])
    have hw0 : w = PyFloat.ofInt 0 := RFl.ext (by rw [hy, RFl.val_zero])
    have : z -ᶠ w = PyFloat.ofInt 0 := RFl.ext (by
      rw [vq, RFl.val_zero]
      have := hq
      rw [sub_zero, rep_fin (RFl.val_zero)] at this
      exact this.symm)
    rw [this, rateF_zero hr.rainParams, RFl.val_zero]
  have hαs : 0 ≤ α := h.α0.le
  have εα : 0 ≤ 2 ^ (11 : ℤ) * ε * α := by positivity
  rcases rate_of_close hpow (Q := .fin (x - g x)) (B := 128) (ε := (2 ^ (-39 : ℤ) + 2 ^ (11 : ℤ) * ε) * α + 2 ^ (-43 : ℤ) * x)
    (q := z -ᶠ w) hr hrm (by
      exact le_trans (by norm_num : (128 : ℝ) ≤ 2 ^ (7 : ℤ)) (zpow_le_zpow_right₀ (by norm_num) (by norm_num))) hT (by
      rw [vq]
      refine .fin ?_
      rw [abs_le]
      norm_num at q1 q2 v1 v2 ⊢
      constructor <;> linarith) (by
      rw [vq]
      refine .inr ⟨q, rfl, ?_⟩
      rw [abs_le] at xy ⊢
      norm_num at hα E2 xy q1 q2 ⊢
      constructor <;> linarith) with ⟨hQ, -⟩ | ⟨A, ρ, hQ, hρ, ρ0, ρ1, ρ2⟩
  · cases hQ
  cases hQ
  refine ⟨ρ, hρ, ρ0, ?_, ?_⟩
  · refine le_trans (sub_le_sub_right (mul_le_mul_of_nonneg_left (lawRate_mono μl iβ ?_) (by norm_num)) _) ρ1
    linarith
  · refine ρ2.trans (add_le_add_left (mul_le_mul_of_nonneg_left (lawRate_mono μl iβ ?_) (by norm_num)) _)
    linarith

/-- signs of the parameters of a link of the ITU table, exact and in doubles -/
theorem itu_signs {fx m b μ β ε : ℝ} {pol : String} (f1 : 10 ^ 9 ≤ fx) (f2 : fx ≤ 100 * 10 ^ 9) (hp : isH pol ∨ isV pol)
    (habx : a_b cubicSpline [.fin (fx / 10 ^ 9)] [pol] "ITU_2005" = .ok ([.fin m], [.fin b]))
    (hε : ε ≤ 2 ^ (-16 : ℤ)) (hmε : |μ - m| ≤ ε * m) (hbε : |1 / β - 1 / b| ≤ ε) : 0 < m ∧ 0 < b ∧ 0 < μ ∧ 0 < 1 / β := by
  have g1 : 1 ≤ fx / 10 ^ 9 := by rw [le_div_iff₀ (by norm_num)]; linarith
  have g2 : fx / 10 ^ 9 ≤ 100 := by rw [div_le_iff₀ (by norm_num)]; linarith
  obtain ⟨r, r', hrr, habx3⟩ := ab_single g1 g2 hp (Or.inr rfl : "ITU_2005" = "ITU_2003" ∨ "ITU_2005" = "ITU_2005")
  obtain ⟨m1, m2⟩ := cert_a_range (Or.inr rfl : "ITU_2005" = "ITU_2003" ∨ "ITU_2005" = "ITU_2005") (r := r) (by tauto) g1 g2
  obtain ⟨b1, b2⟩ := cert_b_range (Or.inr rfl : "ITU_2005" = "ITU_2003" ∨ "ITU_2005" = "ITU_2005") (r := r') (by tauto) g1 g2
  rw [habx] at habx3
  simp only [Except.ok.injEq, Prod.mk.injEq, List.cons.injEq, Fl.fin.injEq, and_true] at habx3
  rw [← habx3.1] at m1 m2
  rw [← habx3.2] at b1 b2
  have m0 : 0 < m := by norm_num at m1; linarith
  have b0 : 0 < b := by norm_num at b1; linarith
  have i1 : 1 / 2 ≤ 1 / b := one_div_le_one_div_of_le b0 (by norm_num at b2; linarith)
  have hε' : ε ≤ 1 / 100 := hε.trans (by norm_num)
  obtain ⟨β1', -⟩ := abs_le.mp hbε
  obtain ⟨μ1', -⟩ := abs_le.mp hmε
  have em : ε * m ≤ 1 / 100 * m := mul_le_mul_of_nonneg_right hε' m0.le
  exact ⟨m0, b0, by linarith, by linarith⟩

/-- the last dry step before a wet one -/
theorem prev_dry (wet : List Bool) (hfirst : ¬ WetAt wet 0) : ∀ i, WetAt wet i → ∃ p, p < i ∧ ¬ WetAt wet p ∧ WetOn wet (p + 1) i := by
  intro i
  induction i with
  | zero => exact fun h => absurd h hfirst
  | succ i ih =>
    intro h
    by_cases hi : WetAt wet i
    · obtain ⟨p, p1, p2, p3⟩ := ih hi
      refine ⟨p, by omega, p2, fun k k1 k2 => ?_⟩
      rcases Nat.lt_or_ge i k with hk | hk
      · rw [show k = i + 1 by omega]; exact h
      · exact p3 k k1 hk
    · exact ⟨i, by omega, hi, fun k k1 k2 => by rw [show k = i + 1 by omega]; exact h⟩

theorem dry_flag {wet : List Bool} {i : ℕ} (hi : i < wet.length) (h : ¬ WetAt wet i) : wet[i]? = some false := by
  rw [List.getElem?_eq_getElem hi]
  unfold WetAt at h
  rw [List.getElem?_eq_getElem hi] at h
  cases hb : wet[i] with
  | false => rfl
  | true => rw [hb] at h; exact absurd rfl h

/-- **C164** From recorded levels to rain with the constant baseline over the last dry value (`n_average_last_dry = 1`): if every
recorded level is within `η` of the one which dry level, rain and the film of water of Pastorek et al. give, the dry level does not
change from the last dry step through the event, and no level of a wet step is below the one of the last dry step (or more than 998 dB
above it), the chain run in doubles succeeds; rates at dry steps are 0, those at wet steps lie, before rates below `R_min` are set to zero,
between those of the power law at `A - e` and at `max(1.36 A, 1.4e-10) + e`, up to `2^-46` relative and `2^-99` absolute error;
`e = 2 η + (2^-39 + 2^11 ε) A_max + 2^-32`. -/
theorem C164_last_dry [PyPow DblR] [MonoPow DblR] [PyExp DblR] (hpow : PowClose) (hacc : PowAccurate) (hexp : ExpClose)
    (he : ExpRange) (hm : ExpMono)
    (ab : List DblR → List String → String → Except Err (List DblR × List DblR))
    {f fG L A_max zeta d u v Rmin : DblR} {pol : String} {α ζ δ l μ β ε fx m b rm : ℝ}
    (h : PastorekParams A_max zeta d α δ) (hζ : zeta.val = .fin ζ) (ζ1 : ζ ≤ 0.67)
    (hα1 : 2 ^ (-300 : ℤ) ≤ α) (hα : α ≤ 2 ^ (14 : ℤ)) (hδ2 : δ ≤ 2 ^ (100 : ℤ))
    (hl : L.val = .fin l) (l1 : 1 / 10 ≤ l) (l2 : l ≤ 50) (f1 : 10 ^ 9 ≤ fx) (f2 : fx ≤ 100 * 10 ^ 9) (hp : isH pol ∨ isV pol)
    (hab : ab [f /ᶠ PyFloat.ofInt 1000000000] [pol] "ITU_2005" = .ok ([u], [v])) (habG : ab [fG] [pol] "ITU_2005" = .ok ([u], [v]))
    (hu : u.val = .fin μ) (hv : v.val = .fin β)
    (habx : a_b cubicSpline [.fin (fx / 10 ^ 9)] [pol] "ITU_2005" = .ok ([.fin m], [.fin b]))
    (hε : ε ≤ 2 ^ (-16 : ℤ)) (hmε : |μ - m| ≤ ε * m) (hbε : |1 / β - 1 / b| ≤ ε) (hrm : Rmin.val = .fin rm)
    (trsl : List DblR) (wet : List Bool) (hlen : trsl.length ≤ wet.length) (dryLevel R : ℕ → ℝ) (η : ℝ)
    (hfirst : ¬ WetAt wet 0)
    (hdry : ∀ p i, p < i → i < trsl.length → ¬ WetAt wet p → WetOn wet (p + 1) i → dryLevel i = dryLevel p)
    (hR : ∀ s < trsl.length, WetAt wet s → 0 ≤ R s ∧ m * R s ^ b * l ≤ 1000)
    (hx : ∀ s x, trsl[s]? = some x → ∃ y, x.val = .fin y ∧
      |y - levelPastorek (WetAt wet) m b l α ζ δ dryLevel R s| ≤ η)
    (hpos : ∀ p i x x' y y', p < i → ¬ WetAt wet p → WetOn wet (p + 1) i → trsl[p]? = some x → trsl[i]? = some x' →
      x.val = .fin y → x'.val = .fin y' → y ≤ y' ∧ y' ≤ y + 998) :
    ∃ base waa rs, baselineConstant trsl wet 1 = .ok base ∧
      pastorekFromAObs ab rainGrid (List.zipWith (· -ᶠ ·) trsl base) f pol L A_max zeta d = .ok waa ∧
      calcR ab (List.zipWith (· -ᶠ ·) (List.zipWith (· -ᶠ ·) trsl base) waa) L (some [fG]) (some [pol]) none none "ITU_2005" Rmin
        = .ok rs ∧ rs.length = trsl.length ∧
      ∀ i r, rs[i]? = some r → (¬ WetAt wet i → r.val = .fin 0) ∧
        (WetAt wet i → ∃ ρ, r.val = .fin (if ρ < rm then 0 else ρ) ∧ 0 ≤ ρ ∧
          (1 - 2 ^ (-46 : ℤ)) * lawRate μ β l
              (m * R i ^ b * l - (2 * η + (2 ^ (-39 : ℤ) + 2 ^ (11 : ℤ) * ε) * α + 2 ^ (-32 : ℤ))) - 2 ^ (-99 : ℤ) ≤ ρ ∧
          ρ ≤ (1 + 2 ^ (-46 : ℤ)) * lawRate μ β l
              (max (1.36 * (m * R i ^ b * l)) 1.4e-10 + (2 * η + (2 ^ (-39 : ℤ) + 2 ^ (11 : ℤ) * ε) * α + 2 ^ (-32 : ℤ)))
              + 2 ^ (-99 : ℤ)) := by
  have pr := binary64_precision (K := ℝ)
  obtain ⟨base, hbase, blen, bdry⟩ := C01_constant_dry trsl wet 1 le_rfl hlen
  have ζ0 : 0 < ζ := by
    have := h.hz
    rw [RFl.lt_def, RFl.val_zero, hζ, Fl.pf_lt_fin, decide_eq_true_eq] at this
    exact this
  have l0 : 0 < l := by linarith
  obtain ⟨m0, b0, μ0, iβ⟩ := itu_signs f1 f2 hp habx hε hmε hbε
  have μl := mul_pos μ0 l0
  -- the observed attenuation at each step
  have key : ∀ i z, (List.zipWith (· -ᶠ ·) trsl base)[i]? = some z → ∃ x, z.val = .fin x ∧ 0 ≤ x ∧ x ≤ 999 ∧ 0 ≤ η ∧
      (¬ WetAt wet i → x = 0) ∧
      (WetAt wet i → |x - (m * R i ^ b * l + α * (1 - Real.exp (-δ * R i ^ ζ)))| ≤ 2 * η + 2 ^ (-43 : ℤ)) := by
    intro i z hz
    rw [List.getElem?_zipWith] at hz
    obtain ⟨xi, hxi⟩ : ∃ xi, trsl[i]? = some xi := by
      cases h1 : trsl[i]? with
      | none => rw [h1] at hz; simp at hz
      | some xi => exact ⟨xi, rfl⟩
    have hil : i < trsl.length := (List.getElem?_eq_some_iff.mp hxi).1
    obtain ⟨yi, hyi, eyi⟩ := hx i xi hxi
    have η0 : 0 ≤ η := (abs_nonneg _).trans eyi
    by_cases hw : WetAt wet i
    · obtain ⟨p, hpi, hpd, hpw⟩ := prev_dry wet hfirst i hw
      have hpl : p < trsl.length := by omega
      obtain ⟨xp, hxp⟩ : ∃ xp, trsl[p]? = some xp := ⟨_, List.getElem?_eq_getElem hpl⟩
      obtain ⟨yp, hyp, eyp⟩ := hx p xp hxp
      have hb : base[i]? = some xp := by
        rw [C82_constant_last_dry trsl wet hlen base hbase (p + 1) i (by omega) (by omega) hil
          (by simpa using dry_flag (by omega) hpd) hpw]
        simpa using hxp
      rw [hxi, hb] at hz
      simp only [Option.some.injEq] at hz
      obtain ⟨k1, k2⟩ := hpos p i xp xi yp yi hpi hpd hpw hxp hxi hyp hyi
      have habs : |yi - yp| = yi - yp := abs_of_nonneg (by linarith)
      obtain ⟨q, hq, hqe⟩ := pr.sub_err yi yp (rep_fin hyi) (rep_fin hyp) (by
        rw [habs]
        exact le_trans (by norm_num; linarith : yi - yp ≤ 2 ^ (20 : ℤ)) (zpow_le_zpow_right₀ (by norm_num) (by norm_num)))
      rw [habs] at hqe
      have hqe' : |q - (yi - yp)| ≤ 2 ^ (-43 : ℤ) := hqe.trans (by norm_num; linarith)
      obtain ⟨q1, q2⟩ := abs_le.mp hqe'
      obtain ⟨q3, -⟩ := abs_le.mp hqe
      have u1 : (2 : ℝ) ^ (-53 : ℤ) * (yi - yp) ≤ 1 * (yi - yp) := mul_le_mul_of_nonneg_right (by norm_num) (by linarith)
      refine ⟨q, ?_, by linarith, by norm_num at q1 q2 ⊢; linarith, η0, fun hn => absurd hw hn, fun _ => ?_⟩
      · rw [← hz, RFl.val_sub, hyi, hyp, Fl.pf_sub_fin]
        exact hq
      · unfold levelPastorek at eyi eyp
        rw [if_pos hw, hdry p i hpi hil hpd hpw] at eyi
        rw [if_neg hpd, add_zero] at eyp
        obtain ⟨a1, a2⟩ := abs_le.mp eyi
        obtain ⟨c1, c2⟩ := abs_le.mp eyp
        rw [abs_le]
        constructor <;> linarith
    · have hb : base[i]? = some xi := by
        rw [bdry i hil (.inr (dry_flag (by omega) hw)), hxi]
      rw [hxi, hb] at hz
      simp only [Option.some.injEq] at hz
      refine ⟨0, ?_, le_rfl, by norm_num, η0, fun _ => rfl, fun hn => absurd hn hw⟩
      have e0 : (binary64 (K := ℝ)).rnd 0 = .fin 0 := rep_fin RFl.val_zero
      rw [← hz, RFl.val_sub, hyi, Fl.pf_sub_fin, sub_self]
      exact e0
  by_cases hη : 0 ≤ η
  swap
  · -- then the record is empty
    have : trsl = [] := by
      cases trsl with
      | nil => rfl
      | cons x xs =>
        obtain ⟨y, -, e⟩ := hx 0 x rfl
        exact absurd ((abs_nonneg _).trans e) hη
    subst this
    obtain ⟨waa, rs, w1, w2, w3, -⟩ := C164_rates hpow hacc hexp he hm ab h hζ ζ1 hα1 hα hδ2 hl l1 l2 f1 f2 hp hab habG hu hv habx hε hmε
      hbε hrm [] R 0 le_rfl (by simp)
    refine ⟨base, waa, rs, hbase, by simpa using w1, by simpa using w2, by simpa using w3, fun i r hr => ?_⟩
    have : rs = [] := List.length_eq_zero_iff.mp (by simpa using w3)
    rw [this] at hr
    simp at hr
  have z43 : (0 : ℝ) ≤ 2 ^ (-43 : ℤ) := by positivity
  obtain ⟨waa, rs, w1, w2, w3, w4⟩ := C164_rates hpow hacc hexp he hm ab h hζ ζ1 hα1 hα hδ2 hl l1 l2 f1 f2 hp hab habG hu hv habx hε hmε
    hbε hrm (List.zipWith (· -ᶠ ·) trsl base) (fun i => if WetAt wet i then R i else 0) (2 * η + 2 ^ (-43 : ℤ)) (by linarith) (by
      intro i z hz
      obtain ⟨x, x1, x2, x3, x4, x5, x6⟩ := key i z hz
      refine .inr ⟨x, x1, x2, x3, ?_⟩
      by_cases hw : WetAt wet i
      · have hil : i < trsl.length := by
          have := (List.getElem?_eq_some_iff.mp hz).1
          rw [List.length_zipWith] at this
          omega
        simp only [if_pos hw]
        exact ⟨(hR i hil hw).1, (hR i hil hw).2, x6 hw⟩
      · simp only [if_neg hw]
        rw [x5 hw, Real.zero_rpow b0.ne', Real.zero_rpow ζ0.ne']
        norm_num
        linarith)
  refine ⟨base, waa, rs, hbase, w1, w2, by rw [w3]; simp [blen], fun i r hr => ?_⟩
  have hil : i < rs.length := (List.getElem?_eq_some_iff.mp hr).1
  rw [w3] at hil
  obtain ⟨x, x1, x2, x3, x4, x5, x6⟩ := key i _ (List.getElem?_eq_getElem hil)
  obtain ⟨-, w5⟩ := w4 i _ r (List.getElem?_eq_getElem hil) hr
  obtain ⟨w6, ρ, w7, w8, w9, w10⟩ := w5 x x1
  refine ⟨fun hw => w6 (x5 hw), fun hw => ⟨ρ, w7, w8, ?_, ?_⟩⟩
  all_goals
    simp only [if_pos hw] at w9 w10
  · refine le_trans (sub_le_sub_right (mul_le_mul_of_nonneg_left (lawRate_mono μl iβ ?_) (by norm_num)) _) w9
    norm_num
    linarith
  · refine w10.trans (add_le_add_left (mul_le_mul_of_nonneg_left (lawRate_mono μl iβ ?_) (by norm_num)) _)
    norm_num
    linarith

/-- **C164** The condition on the levels is needed: if the level of one wet step is below the one of the last dry step, by however little,
the correction raises `ValueError` for the whole record, whatever link and parameters. -/
theorem C164_below_raises [PyPow DblR] [PyExp DblR] (ab : List DblR → List String → String → Except Err (List DblR × List DblR))
    (grid : List DblR) (f L A_max zeta d : DblR) (pol : String) (trsl : List DblR) (wet : List Bool) (hlen : trsl.length ≤ wet.length)
    (p i : ℕ) (x x' : DblR) (y y' : ℝ) (hpi : p < i) (hpd : ¬ WetAt wet p) (hpw : WetOn wet (p + 1) i)
    (hx : trsl[p]? = some x) (hx' : trsl[i]? = some x') (hy : x.val = .fin y) (hy' : x'.val = .fin y') (hlt : y' < y)
    (hbig : y - y' ≤ 2 ^ (1023 : ℤ)) :
    ∃ base, baselineConstant trsl wet 1 = .ok base ∧
      pastorekFromAObs ab grid (List.zipWith (· -ᶠ ·) trsl base) f pol L A_max zeta d = .error .valueError := by
  have pr := binary64_precision (K := ℝ)
  obtain ⟨base, hbase, blen, bdry⟩ := C01_constant_dry trsl wet 1 le_rfl hlen
  have hil : i < trsl.length := (List.getElem?_eq_some_iff.mp hx').1
  have hb : base[i]? = some x := by
    rw [C82_constant_last_dry trsl wet hlen base hbase (p + 1) i (by omega) (by omega) hil
      (by simpa using dry_flag (by omega) hpd) hpw]
    simpa using hx
  have habs : |y' - y| = y - y' := by rw [abs_of_neg (by linarith)]; ring
  obtain ⟨q, hq, hqe⟩ := pr.sub_err y' y (rep_fin hy') (rep_fin hy) (by rw [habs]; exact hbig)
  rw [habs] at hqe
  have q0 : q < 0 := by
    obtain ⟨-, q2⟩ := abs_le.mp hqe
    have : (2 : ℝ) ^ (-53 : ℤ) * (y - y') ≤ 1 / 2 * (y - y') := mul_le_mul_of_nonneg_right (by norm_num) (by linarith)
    have q3 := q2.trans this
    linarith only [q3, hlt]
  refine ⟨base, hbase, ?_⟩
  unfold pastorekFromAObs
  rw [if_pos]
  rw [List.any_eq_true]
  refine ⟨x' -ᶠ x, List.mem_of_getElem? (i := i) (by rw [List.getElem?_zipWith, hx', hb]), ?_⟩
  rw [RFl.lt_def, RFl.val_zero, RFl.val_sub, hy', hy, Fl.pf_sub_fin]
  have : (binary64 (K := ℝ)).round (.fin (y' - y)) = .fin q := hq
  rw [this, Fl.pf_lt_fin]
  simpa using q0

/-- **C164** With averaging over more dry values the chain can fail on a record without rain and without noise: for the constant level
`0.1`, four steps of which the last is flagged wet, and `n_average_last_dry = 3` the rounded baseline exceeds the level, and the
correction raises `ValueError`, for every link, all parameters and whatever the functions of the library. -/
theorem C164_constant_level_raises [PyPow (RFl (binary64 (K := ℚ)))] [PyExp (RFl (binary64 (K := ℚ)))]
    (ab : List (RFl (binary64 (K := ℚ))) → List String → String →
      Except Err (List (RFl (binary64 (K := ℚ))) × List (RFl (binary64 (K := ℚ)))))
    (grid : List (RFl (binary64 (K := ℚ)))) (f L A_max zeta d : RFl (binary64 (K := ℚ))) (pol : String) :
    ∃ base, baselineConstant [tenth, tenth, tenth, tenth] [false, false, false, true] 3 = .ok base ∧
      pastorekFromAObs ab grid (List.zipWith (· -ᶠ ·) [tenth, tenth, tenth, tenth] base) f pol L A_max zeta d = .error .valueError := by
  obtain ⟨y, h1, -, h3⟩ := C83_constant_signal_attenuation
  refine ⟨_, h1, ?_⟩
  unfold pastorekFromAObs
  rw [if_pos]
  rw [List.any_eq_true]
  exact ⟨tenth -ᶠ y, by simp, h3⟩

/-- a record of four levels on a link of 5 km at 23 GHz, with correctly rounded functions and parameters within `2^-40` of the exact ones:
dry, two wet steps 8 dB and 0 dB above the level of the dry step before, and dry again at another level -/
example (ab : List DblR → List String → String → Except Err (List DblR × List DblR)) (f fG u v x60 x61 x68 Rmin : DblR) (μ β m b : ℝ)
    (hab : ab [f /ᶠ PyFloat.ofInt 1000000000] ["V"] "ITU_2005" = .ok ([u], [v])) (habG : ab [fG] ["V"] "ITU_2005" = .ok ([u], [v]))
    (hu : u.val = .fin μ) (hv : v.val = .fin β)
    (hx : a_b cubicSpline [.fin (23 * 10 ^ 9 / 10 ^ 9)] ["V"] "ITU_2005" = .ok ([.fin m], [.fin b]))
    (hm : |μ - m| ≤ 2 ^ (-40 : ℤ) * m) (hb : |1 / β - 1 / b| ≤ 2 ^ (-40 : ℤ)) (R : ℝ) (R0 : 0 ≤ R) (hA : m * R ^ b * 5 ≤ 8)
    (hR : m * R ^ b * 5 + 14 * (1 - Real.exp (-(1 / 8) * R ^ (1 / 2 : ℝ))) = 8)
    (h1 : x60.val = .fin 60) (h2 : x68.val = .fin 68) (h3 : x61.val = .fin 61) (h4 : Rmin.val = .fin 0) :
    ∃ base waa rs, baselineConstant [x60, x68, x60, x61] [false, true, true, false] 1 = .ok base ∧
      @pastorekFromAObs DblR _ (correctPow _) correctExp ab (@rainGrid DblR _ (correctPow _))
        (List.zipWith (· -ᶠ ·) [x60, x68, x60, x61] base) f "V"
        (dyad 5 0 (by norm_num) (by norm_num) (by norm_num) (by norm_num))
        (dyad 14 0 (by norm_num) (by norm_num) (by norm_num) (by norm_num))
        (dyad 1 (-1) (by norm_num) (by norm_num) (by norm_num) (by norm_num))
        (dyad 1 (-3) (by norm_num) (by norm_num) (by norm_num) (by norm_num)) = .ok waa ∧
      @calcR DblR _ (correctPow _) ab (List.zipWith (· -ᶠ ·) (List.zipWith (· -ᶠ ·) [x60, x68, x60, x61] base) waa)
        (dyad 5 0 (by norm_num) (by norm_num) (by norm_num) (by norm_num))
        (some [fG]) (some ["V"]) none none "ITU_2005" Rmin = .ok rs ∧
      ∃ r3 r1, rs[3]? = some r3 ∧ r3.val = .fin 0 ∧ rs[1]? = some r1 ∧ ∃ ρ, r1.val = .fin (if ρ < 0 then 0 else ρ) ∧
        (1 - 2 ^ (-46 : ℤ)) * lawRate μ β 5 (m * R ^ b * 5 - 1 / 10 ^ 6) - 2 ^ (-99 : ℤ) ≤ ρ := by
  let _ := correctPow (binary64 (K := ℝ))
  let _ := correctExp
  have _ := correctPow_laws (binary64 (K := ℝ))
  obtain ⟨m0, b0, μ0, iβ⟩ := itu_signs (fx := 23 * 10 ^ 9) (pol := "V") (by norm_num) (by norm_num) (by simp [isV]) hx
    (by norm_num : (2 : ℝ) ^ (-40 : ℤ) ≤ 2 ^ (-16 : ℤ)) hm hb
  have dis : ∀ s : ℕ, s < 4 → s = 0 ∨ s = 1 ∨ s = 2 ∨ s = 3 := by omega
  obtain ⟨base, waa, rs, k1, k2, k3, k4, k5⟩ := C164_last_dry correctPow_close correctPow_accurate correctExp_close correctExp_range
    correctExp_mono ab (L := dyad 5 0 (by norm_num) (by norm_num) (by norm_num) (by norm_num))
    (A_max := dyad 14 0 (by norm_num) (by norm_num) (by norm_num) (by norm_num))
    (zeta := dyad 1 (-1) (by norm_num) (by norm_num) (by norm_num) (by norm_num))
    (d := dyad 1 (-3) (by norm_num) (by norm_num) (by norm_num) (by norm_num)) (α := 14) (ζ := 1 / 2) (δ := 1 / 8) (l := 5)
    (ε := 2 ^ (-40 : ℤ)) (fx := 23 * 10 ^ 9)
    ⟨by simp [dyad], by norm_num, by simp [dyad]; norm_num, by norm_num, by
      rw [RFl.lt_def, RFl.val_zero]; simp [dyad]⟩ (by simp [dyad]) (by norm_num)
    ((zpow_le_one_of_nonpos₀ (by norm_num) (by norm_num)).trans (by norm_num)) (by norm_num)
    (le_trans (by norm_num) (one_le_zpow₀ (by norm_num) (by norm_num))) (by simp [dyad]) (by norm_num) (by norm_num) (by norm_num)
    (by norm_num) (by simp [isV]) hab habG hu hv hx (by norm_num) hm hb h4 [x60, x68, x60, x61] [false, true, true, false] (by simp)
    (fun s => if s = 3 then 61 else 60) (fun s => if s = 1 then R else 0) 0 (by simp)
    (by
      intro p i hpi hi hp hw
      have : WetAt [false, true, true, false] i := hw i (by omega) le_rfl
      have i3 : i ≠ 3 := by rintro rfl; simp [WetAt] at this
      have p3 : p ≠ 3 := by simp at hi; omega
      simp [i3, p3])
    (by
      intro s hs hw
      by_cases h1 : s = 1
      · subst h1; simp only [if_true]; exact ⟨R0, by linarith⟩
      · simp only [if_neg h1]
        rw [Real.zero_rpow b0.ne']
        norm_num)
    (by
      intro s x hs
      rcases dis s (by simpa using (List.getElem?_eq_some_iff.mp hs).1) with rfl | rfl | rfl | rfl <;> simp at hs <;> subst hs
      · exact ⟨60, h1, by simp [levelPastorek]⟩
      · refine ⟨68, h2, ?_⟩
        simp only [levelPastorek]
        rw [if_pos (show WetAt [false, true, true, false] 1 from rfl)]
        simp
        norm_num at hR ⊢
        linarith
      · exact ⟨60, h1, by simp [levelPastorek, Real.zero_rpow b0.ne']⟩
      · exact ⟨61, h3, by simp [levelPastorek]⟩)
    (by
      intro p i x x' y y' hpi hp hw hx hx' hy hy'
      have hi4 : i < 4 := by simpa using (List.getElem?_eq_some_iff.mp hx').1
      have hwi : WetAt [false, true, true, false] i := hw i (by omega) le_rfl
      have p0 : p = 0 := by
        rcases dis p (by omega) with rfl | rfl | rfl | rfl
        · rfl
        · exact absurd rfl hp
        · exact absurd rfl hp
        · omega
      subst p0
      simp at hx
      subst hx
      rw [h1] at hy
      cases hy
      rcases dis i hi4 with rfl | rfl | rfl | rfl
      · omega
      · simp at hx'; subst hx'; rw [h2] at hy'; cases hy'; norm_num
      · simp at hx'; subst hx'; rw [h1] at hy'; cases hy'; norm_num
      · simp [WetAt] at hwi)
  refine ⟨base, waa, rs, k1, k2, k3, ?_⟩
  have g : ∀ j, j < 4 → ∃ r, rs[j]? = some r := fun j hj => ⟨_, List.getElem?_eq_getElem (by simpa [k4] using hj)⟩
  obtain ⟨r3, e3⟩ := g 3 (by norm_num)
  obtain ⟨r1, e1⟩ := g 1 (by norm_num)
  obtain ⟨ρ, ρ1, -, ρ2, -⟩ := (k5 1 r1 e1).2 rfl
  refine ⟨r3, r1, e3, (k5 3 r3 e3).1 (by simp [WetAt]), e1, ρ, ρ1, le_trans (sub_le_sub_right (mul_le_mul_of_nonneg_left
    (lawRate_mono (mul_pos μ0 (by norm_num)) iβ ?_) (by norm_num)) _) ρ2⟩
  simp only [if_true]
  norm_num
  linarith

end Verif.Props
