import Verif.Props.LevelsToRain
import Verif.Props.RoundedIdw

/-!
# Property C158: rain maps in doubles
-/

namespace Verif.Props
open Verif Verif.Baseline Verif.Waa Verif.Bin Verif.KR Verif.Idw

/-- A weighted mean of values within `e` of `c` is within `e` of `c`. -/
theorem weighted_near {ι : Type} (S : List ι) (w v : ι → ℝ) (c e : ℝ) (hw : ∀ i ∈ S, 0 < w i) (hv : ∀ i ∈ S, |v i - c| ≤ e) (hS : S ≠ []) :
    |(S.map fun i => w i * v i).sum / (S.map w).sum - c| ≤ e := by
  have hpos : 0 < (S.map w).sum := by
    apply sum_pos_of_pos (by simpa using hS)
    intro x hx
    obtain ⟨j, hj, rfl⟩ := List.mem_map.mp hx
    exact hw j hj
  have h1 : c - e ≤ (S.map fun i => w i * v i).sum / (S.map w).sum := by
    rw [le_div_iff₀ hpos, ← List.sum_map_mul_left]
    apply List.sum_le_sum
    intro j hj
    have h1 := (abs_le.mp (hv j hj)).1
    have h2 := hw j hj
    nlinarith
  have h2 : (S.map fun i => w i * v i).sum / (S.map w).sum ≤ c + e := by
    rw [div_le_iff₀ hpos, ← List.sum_map_mul_left]
    apply List.sum_le_sum
    intro j hj
    have h1 := (abs_le.mp (hv j hj)).2
    have h2 := hw j hj
    nlinarith
  rw [abs_le]
  constructor <;> linarith

/-- **C158** Map of a smooth field in doubles: if the data are the values of `f` up to `E` and `f` changes by at most `Λ` per unit of distance,
a cell computed in doubles, in whatever order numpy adds, differs from `f` there by at most `Λ ρ + E + (k + 4) 2^-50 M + 2^-1050`, where `ρ`
is the largest distance of the `k` neighbours used and `M` bounds the data. The distances the tree computes need not be right: either the
first one is below `1e-10`, or their powers are between `2^-900` and `2^900`. -/
theorem C158_field [PyPow DblR] (hacc : PowAccurate) {sum : List DblR → DblR} {dot : List DblR → List DblR → DblR} (ha : Adds sum dot)
    (tiny p : DblR) (z : List DblR) (nb S : List (DblR × Nat)) (b M E lam ρ : ℝ) (f : Pt → ℝ) (q : Pt) (pos : Nat → Pt)
    (hp : p.val = .fin b) (hSd : S = nb.filter fun e => decide (e.2 < z.length)) (hS : S ≠ []) (hk : S.length ≤ 2 ^ 20)
    (hd : (∃ e S', S = e :: S' ∧ (e.1 <ᶠ tiny) = true) ∨ ∀ e ∈ S, (e.1 <ᶠ tiny) = false ∧
      ∃ d, e.1.val = .fin d ∧ 0 < d ∧ (2 : ℝ) ^ (-900 : ℤ) ≤ d ^ b ∧ d ^ b ≤ 2 ^ (900 : ℤ))
    (hz : ∀ e ∈ S, ∃ x y, z[e.2]? = some x ∧ x.val = .fin y ∧ |y| ≤ M ∧ |y - f (pos e.2)| ≤ E) (hM : M ≤ 2 ^ (1000 : ℤ))
    (hlam : 0 ≤ lam) (hf : ∀ u v, |f u - f v| ≤ lam * euclid u v) (hρ : ∀ e ∈ S, euclid q (pos e.2) ≤ ρ) :
    ∃ r, (idwVal sum dot tiny z p nb).val = .fin r ∧
      |r - f q| ≤ lam * ρ + E + ((S.length + 4) * 2 ^ (-50 : ℤ) * M + 2 ^ (-1050 : ℤ)) := by
  have near : ∀ e ∈ S, ∀ y, |y - f (pos e.2)| ≤ E → |y - f q| ≤ lam * ρ + E := by
    intro e he y hy
    have h1 := hf q (pos e.2)
    have h2 := mul_le_mul_of_nonneg_left (hρ e he) hlam
    have h3 := abs_add_le (y - f (pos e.2)) (f (pos e.2) - f q)
    rw [sub_add_sub_cancel, abs_sub_comm (f (pos e.2))] at h3
    linarith
  have hM0 : 0 ≤ M := by
    obtain ⟨e, he⟩ := List.exists_mem_of_ne_nil S hS
    obtain ⟨x, y, -, -, h, -⟩ := hz e he
    exact (abs_nonneg _).trans h
  have hround : 0 ≤ ((S.length : ℝ) + 4) * 2 ^ (-50 : ℤ) * M + 2 ^ (-1050 : ℤ) := by positivity
  rcases hd with ⟨e, S', hS', he⟩ | hd
  · obtain ⟨x, y, hx, hy, -, hE⟩ := hz e (by rw [hS']; simp)
    have hval : idwVal sum dot tiny z p nb = rd z e.2 := by
      unfold idwVal
      dsimp only
      rw [← hSd, hS']
      dsimp only
      rw [if_pos he]
    refine ⟨y, by rw [hval, rd_of_getElem? hx, hy], ?_⟩
    have := near e (by rw [hS']; simp) y hE
    linarith
  · obtain ⟨r, hr, hre⟩ := C116_accuracy hacc ha tiny p z nb S b M hp hSd hS hk (fun e he => (hd e he).1) (fun e he => (hd e he).2)
      (fun e he => let ⟨x, y, h1, h2, h3, _⟩ := hz e he; ⟨x, y, h1, h2, h3⟩) hM
    refine ⟨r, hr, ?_⟩
    have hm := weighted_near S (fun e => 1 / numOf e.1 ^ b) (fun e => numOf (rd z e.2)) (f q) (lam * ρ + E) (by
      intro e he
      obtain ⟨-, d, hdv, hd0, -⟩ := hd e he
      have : numOf e.1 = d := by unfold numOf; rw [hdv]
      rw [this]
      have := Real.rpow_pos_of_pos hd0 b
      positivity) (by
      intro e he
      obtain ⟨x, y, hx, hy, -, hE⟩ := hz e he
      have : numOf (rd z e.2) = y := by unfold numOf; rw [rd_of_getElem? hx, hy]
      rw [this]
      exact near e he y hE) hS
    set m := (S.map fun e => 1 / numOf e.1 ^ b * numOf (rd z e.2)).sum / (S.map fun e => 1 / numOf e.1 ^ b).sum
    have h3 := abs_add_le (r - m) (m - f q)
    rw [sub_add_sub_cancel] at h3
    linarith

/-- A link with its position, its recorded levels and wet flags, and the parameters of the processing. -/
structure DblLink where
  pos : Pt
  trsl : List DblR
  wet : List Bool
  n : ℕ
  (waaMax deltaT tau L a b Rmin : DblR)

/-- The rain rates of a link. -/
noncomputable def DblLink.rates [PyPow DblR] (k : DblLink) : Except Err (List DblR) :=
  rainChainF k.n k.waaMax k.deltaT k.tau k.L k.a k.b k.Rmin k.trsl k.wet

/-- The rain at a step: none if it is dry. -/
def rainOn (wet : List Bool) (R : ℕ → ℝ) (s : ℕ) : ℝ := if WetAt wet s then R s else 0

/-- The levels of the link are, up to `δ`, those made by rain of the rates `R` (and film of water, and a dry level that stays constant from `n`
steps before an event); the parameters are within the ranges of C157, and level and rounding errors change the rate at step `s` by at most
`η`. -/
structure DblLink.MadeBy (k : DblLink) (s : ℕ) (R : ℕ → ℝ) (M d t B m l α β rm δ η : ℝ) (dryLevel : ℕ → ℝ) : Prop where
  hs : s < k.trsl.length
  hn : 1 ≤ k.n
  hn2 : k.n ≤ 2 ^ 25
  hlen : k.trsl.length ≤ k.wet.length
  hM : k.waaMax.val = .fin M
  hd : k.deltaT.val = .fin d
  ht : k.tau.val = .fin t
  hr : RateRange k.L k.a k.b l α β
  hrm : k.Rmin.val = .fin rm
  hd0 : 0 ≤ d
  h3 : 3 * d ≤ t
  ht1 : (2 : ℝ) ^ (-100 : ℤ) ≤ t
  hd2 : d ≤ 2 ^ (500 : ℤ)
  hM0 : 0 ≤ M
  hMB : M ≤ B
  hB1 : (2 : ℝ) ^ (-900 : ℤ) ≤ B
  hB2 : B ≤ 2 ^ (290 : ℤ)
  hT : (8 * B / (α * l)) ^ (1 / β) ≤ 2 ^ (64 : ℤ)
  hm : (k.trsl.length : ℝ) ≤ m ∨ t ≤ 3 * d * m
  hm2 : m ≤ 2 ^ 47
  hδ : 0 ≤ δ
  hR : ∀ i < k.trsl.length, WetAt k.wet i → 0 ≤ R i
  h1 : ∀ i < k.n, ¬ WetAt k.wet i
  h2 : ∀ i < k.trsl.length, WetAt k.wet i → ∀ j, j < i → i ≤ j + k.n → dryLevel j = dryLevel i
  hx : ∀ i x, k.trsl[i]? = some x → ∃ y, x.val = .fin y ∧ |y| ≤ B ∧
    |y - levelAt (WetAt k.wet) M (3 * d / t) dryLevel (fun i => α * R i ^ β * l) i| ≤ δ
  lo : rainOn k.wet R s - η ≤ (1 - 2 ^ (-46 : ℤ)) *
    lawRate α β l (rainAtt k.wet α β l R s - (4 * δ + (10 * (k.n * k.n) + 48 * m + 11) * (2 ^ (-53 : ℤ) * B))) - 2 ^ (-99 : ℤ)
  hi : (1 + 2 ^ (-46 : ℤ)) *
    lawRate α β l (rainAtt k.wet α β l R s + (4 * δ + (10 * (k.n * k.n) + 48 * m + 11) * (2 ^ (-53 : ℤ) * B))) + 2 ^ (-99 : ℤ) ≤
      rainOn k.wet R s + η

/-- What `MadeBy` says about a step of rain in terms of rates: the power law at the attenuation by rain is the rain. -/
theorem DblLink.MadeBy.rate {k : DblLink} {s : ℕ} {R dryLevel : ℕ → ℝ} {M d t B m l α β rm δ η : ℝ}
    (h : k.MadeBy s R M d t B m l α β rm δ η dryLevel) : lawRate α β l (rainAtt k.wet α β l R s) = rainOn k.wet R s := by
  have p300 : (0 : ℝ) < 2 ^ (-300 : ℤ) := by positivity
  have hβ : 0 < β := by have := h.hr.β1; linarith
  unfold rainOn
  split_ifs with hw
  · exact lawRate_rainAtt (p300.trans_le h.hr.α1) hβ (p300.trans_le h.hr.l1) hw (h.hR s h.hs hw)
  · unfold rainAtt
    rw [if_neg hw]
    exact lawRate_neg (by positivity) le_rfl

/-- **C158** From recorded levels to the rain map, all in doubles: if, at step `s`, the rain on each link is that of a field `f` at the position of
the link up to `E`, `f` changes by at most `Λ` per unit of distance, and level and rounding errors change the rates of the links by at
most `η`, a cell of the map differs from `f` there by at most `Λ ρ + E + η + R_min + (k + 4) 2^-50 M + 2^-1050`, where `ρ` is the largest
distance of the `k` links used. -/
theorem C158_rain_map [PyPow DblR] (hclose : PowClose) (hacc : PowAccurate) {sum : List DblR → DblR} {dot : List DblR → List DblR → DblR}
    (ha : Adds sum dot) (tiny p : DblR) (links : List DblLink) (s : ℕ) (z : List DblR) (nb S : List (DblR × Nat))
    (b M E Rm η lam ρ : ℝ) (f : Pt → ℝ) (q : Pt) (hRm : 0 ≤ Rm)
    (hmade : ∀ k ∈ links, ∃ R M' d t B m l α β rm δ dryLevel, k.MadeBy s R M' d t B m l α β rm δ η dryLevel ∧ rm ≤ Rm ∧
      rainOn k.wet R s + η ≤ M ∧ |rainOn k.wet R s - f k.pos| ≤ E)
    (hz : List.Forall₂ (fun k v => ∃ rs, k.rates = .ok rs ∧ rs[s]? = some v) links z)
    (hp : p.val = .fin b) (hSd : S = nb.filter fun e => decide (e.2 < z.length)) (hS : S ≠ []) (hk : S.length ≤ 2 ^ 20)
    (hd : (∃ e S', S = e :: S' ∧ (e.1 <ᶠ tiny) = true) ∨ ∀ e ∈ S, (e.1 <ᶠ tiny) = false ∧
      ∃ d, e.1.val = .fin d ∧ 0 < d ∧ (2 : ℝ) ^ (-900 : ℤ) ≤ d ^ b ∧ d ^ b ≤ 2 ^ (900 : ℤ)) (hM : M ≤ 2 ^ (1000 : ℤ))
    (hlam : 0 ≤ lam) (hf : ∀ u v, |f u - f v| ≤ lam * euclid u v)
    (hρ : ∀ e ∈ S, ∀ k, links[e.2]? = some k → euclid q k.pos ≤ ρ) :
    ∃ r, (idwVal sum dot tiny z p nb).val = .fin r ∧
      |r - f q| ≤ lam * ρ + (E + η + Rm) + ((S.length + 4) * 2 ^ (-50 : ℤ) * M + 2 ^ (-1050 : ℤ)) := by
  have hlz := hz.length_eq
  have hlt : ∀ e ∈ S, e.2 < links.length := by
    intro e he
    rw [hSd, List.mem_filter] at he
    have := of_decide_eq_true he.2
    omega
  have hpos : ∀ e ∈ S, ∃ k, links[e.2]? = some k ∧ (links.map (·.pos)).getD e.2 (0, 0) = k.pos := by
    intro e he
    refine ⟨_, List.getElem?_eq_getElem (hlt e he), ?_⟩
    rw [List.getD_eq_getElem?_getD, List.getElem?_map, List.getElem?_eq_getElem (hlt e he)]
    rfl
  refine C158_field hacc ha tiny p z nb S b M (E + η + Rm) lam ρ f q (fun j => (links.map (·.pos)).getD j (0, 0)) hp hSd hS hk hd ?_ hM hlam hf ?_
  · intro e he
    obtain ⟨k, hkg, hkp⟩ := hpos e he
    rw [hkp]
    have hkm : k ∈ links := List.mem_of_getElem? hkg
    obtain ⟨R, M', d, t, B, m, l, α, β, rm, δ, dl, hmk, hrm, hRM, hRf⟩ := hmade k hkm
    have hzl : e.2 < z.length := by rw [← hlz]; exact hlt e he
    have hq := (List.forall₂_iff_get.mp hz).2 e.2 (hlt e he) hzl
    obtain ⟨rs, hrs, hv⟩ := hq
    simp only [List.get_eq_getElem] at hrs hv
    rw [(List.getElem?_eq_some_iff.mp hkg).2] at hrs
    obtain ⟨rs', hrs', -, h⟩ := C157_constant hclose k.trsl k.wet k.n k.waaMax k.deltaT k.tau k.L k.a k.b k.Rmin M' d t B m l α β rm hmk.hn
      hmk.hn2 hmk.hlen hmk.hM hmk.hd hmk.ht hmk.hr hmk.hrm hmk.hd0 hmk.h3 hmk.ht1 hmk.hd2 hmk.hM0 hmk.hMB hmk.hB1 hmk.hB2 hmk.hT hmk.hm
      hmk.hm2 dl R δ hmk.hδ hmk.hR hmk.h1 hmk.h2 hmk.hx
    unfold DblLink.rates at hrs
    rw [hrs'] at hrs
    cases hrs
    obtain ⟨y, g1, g2, g3, g4⟩ := h s _ hv
    have b1 : rainOn k.wet R s - η ≤ y := hmk.lo.trans g3
    have b2 : y ≤ rainOn k.wet R s + η := g4.trans hmk.hi
    obtain ⟨f1, f2⟩ := abs_le.mp hRf
    refine ⟨_, _, List.getElem?_eq_getElem hzl, g1, ?_, ?_⟩
    · split_ifs
      · rw [abs_zero]; linarith
      · rw [abs_of_nonneg g2]; linarith
    · rw [abs_le]
      split_ifs with hc
      · constructor <;> linarith
      · constructor <;> linarith
  · intro e he
    obtain ⟨k, hkg, hkp⟩ := hpos e he
    rw [hkp]
    exact hρ e he k hkg

/-- Two links with the record of the example of C157, at distances of 1 and 3 from a cell; rain of 0.928 mm/h everywhere. The map gives that
up to 0.042 mm/h. -/
example : letI := correctPow (binary64 (K := ℝ))
    let D : ℕ → DblR := fun k => PyFloat.ofInt k
    let k : Pt → DblLink := fun x => ⟨x, [D 50, D 50, D 60, D 60], [false, false, true, true], 2, D 2, D 1, D 15, D 10, D 1, D 1, D 0⟩
    ∃ z r, List.Forall₂ (fun k v => ∃ rs, DblLink.rates k = .ok rs ∧ rs[3]? = some v) [k (1, 0), k (0, 3)] z ∧
      (idwVal fsum (fun w v => fsum (List.zipWith (· *ᶠ ·) w v)) (D 0) z (D 2) [(D 1, 0), (D 3, 1), (D 9, 2)]).val = .fin r ∧
      |r - 928 / 1000| ≤ 42 / 1000 := by
  let _ := correctPow (binary64 (K := ℝ))
  intro D k
  have v : ∀ k : ℕ, k ≤ 60 → (D k).val = .fin (k : ℝ) := fun k hk => val_ofNat_b64 k (hk.trans (by norm_num))
  have lo : ∀ (x : ℝ) (j : ℤ), 1 ≤ x → j ≤ 0 → (2 : ℝ) ^ j ≤ x := fun x j hx hj =>
    le_trans (zpow_le_one_of_nonpos₀ (by norm_num) hj) hx
  have hi : ∀ (x : ℝ) (j : ℤ), x ≤ 2 ^ (10 : ℤ) → 10 ≤ j → x ≤ 2 ^ j := fun x j hx hj =>
    le_trans hx (zpow_le_zpow_right₀ (by norm_num) hj)
  have hr : RateRange (D 10) (D 1) (D 1) 10 1 1 :=
    ⟨by simpa using v 10 (by norm_num), by simpa using v 1 (by norm_num), by simpa using v 1 (by norm_num),
      lo _ _ (by norm_num) (by norm_num), hi _ _ (by norm_num) (by norm_num), lo _ _ (by norm_num) (by norm_num),
      hi _ _ (by norm_num) (by norm_num), by norm_num, by norm_num⟩
  have w0 : ¬ WetAt [false, false, true, true] 0 := by simp [WetAt]
  have w1 : ¬ WetAt [false, false, true, true] 1 := by simp [WetAt]
  have w2 : WetAt [false, false, true, true] 2 := by simp [WetAt]
  have w3 : WetAt [false, false, true, true] 3 := by simp [WetAt]
  have hmade : ∀ x, (k x).MadeBy 3 (fun s => if s = 2 then 96 / 100 else 928 / 1000) 2 1 15 64 4 10 1 1 0 (1 / 10) (41 / 1000)
      (fun _ => 50 + 1 / 10) := by
    intro x
    refine ⟨by simp [k], by simp [k], by norm_num [k], by simp [k], by simpa using v 2 (by norm_num), by simpa using v 1 (by norm_num),
      by simpa using v 15 (by norm_num), hr, by simpa using v 0 (by norm_num), by norm_num, by norm_num, lo _ _ (by norm_num) (by norm_num),
      hi _ _ (by norm_num) (by norm_num), by norm_num, by norm_num, lo _ _ (by norm_num) (by norm_num), hi _ _ (by norm_num) (by norm_num),
      by norm_num, .inl (by norm_num [k]), by norm_num, by norm_num, ?_, ?_, fun _ _ _ _ _ _ => rfl, ?_, ?_, ?_⟩
    · intro s _ _
      split_ifs <;> norm_num
    · intro s hs
      have : s = 0 ∨ s = 1 := by simp only [k] at hs; omega
      rcases this with rfl | rfl
      · exact w0
      · exact w1
    · intro s x hs
      have hlt : s < 4 := by simpa [k] using (List.getElem?_eq_some_iff.mp hs).1
      have : s = 0 ∨ s = 1 ∨ s = 2 ∨ s = 3 := by omega
      rcases this with rfl | rfl | rfl | rfl <;> simp only [k, List.getElem?_cons_zero, List.getElem?_cons_succ, Option.some.injEq] at hs <;>
        subst hs
      · refine ⟨_, v 50 (by norm_num), by norm_num, ?_⟩
        unfold levelAt
        rw [if_neg w0]; norm_num
      · refine ⟨_, v 50 (by norm_num), by norm_num, ?_⟩
        unfold levelAt
        rw [if_neg w1]; norm_num
      · refine ⟨_, v 60 (by norm_num), by norm_num, ?_⟩
        unfold levelAt
        rw [if_pos w2]
        simp only [k, filmAt, if_pos w2, if_neg w1]
        norm_num [Real.rpow_one]
      · refine ⟨_, v 60 (by norm_num), by norm_num, ?_⟩
        unfold levelAt
        rw [if_pos w3]
        simp only [k, filmAt, if_pos w2, if_pos w3, if_neg w1]
        norm_num [Real.rpow_one]
    · unfold lawRate rainAtt rainOn
      rw [if_pos w3, if_pos w3, show (1 : ℝ) / 1 = 1 by norm_num]
      simp only [Real.rpow_one]
      rw [max_eq_right (by norm_num [k])]
      norm_num [k]
    · unfold lawRate rainAtt rainOn
      rw [if_pos w3, if_pos w3, show (1 : ℝ) / 1 = 1 by norm_num]
      simp only [Real.rpow_one]
      rw [max_eq_right (by norm_num [k])]
      norm_num [k]
  have hz : ∀ x, ∃ v rs, DblLink.rates (k x) = .ok rs ∧ rs[3]? = some v := by
    intro x
    have h := hmade x
    obtain ⟨rs, hrs, hl, -⟩ := C157_constant correctPow_close _ _ _ _ _ _ _ _ _ _ _ _ _ _ _ _ _ _ _ h.hn h.hn2 h.hlen h.hM h.hd h.ht h.hr
      h.hrm h.hd0 h.h3 h.ht1 h.hd2 h.hM0 h.hMB h.hB1 h.hB2 h.hT h.hm h.hm2 _ _ _ h.hδ h.hR h.h1 h.h2 h.hx
    exact ⟨_, rs, hrs, getElem?_eq_rd (by rw [hl]; exact h.hs)⟩
  obtain ⟨z0, hz0⟩ := hz (1, 0)
  obtain ⟨z1, hz1⟩ := hz (0, 3)
  have hzz : List.Forall₂ (fun k v => ∃ rs, DblLink.rates k = .ok rs ∧ rs[3]? = some v) [k (1, 0), k (0, 3)] [z0, z1] :=
    .cons hz0 (.cons hz1 .nil)
  have d9 : (3 : ℝ) ^ (2 : ℝ) = 9 := by norm_num
  obtain ⟨r, hr1, hr2⟩ := C158_rain_map correctPow_close correctPow_accurate adds_fsum (D 0) (D 2) [k (1, 0), k (0, 3)] 3 [z0, z1]
    [(D 1, 0), (D 3, 1), (D 9, 2)] [(D 1, 0), (D 3, 1)] 2 1 0 0 (41 / 1000) 0 3 (fun _ => 928 / 1000) (0, 0) le_rfl (by
      intro l hl
      have hx : ∃ x, l = k x := by
        simp only [List.mem_cons, List.not_mem_nil, or_false] at hl
        rcases hl with rfl | rfl
        · exact ⟨_, rfl⟩
        · exact ⟨_, rfl⟩
      obtain ⟨x, rfl⟩ := hx
      have e : rainOn (k x).wet (fun s => if s = 2 then 96 / 100 else 928 / 1000) 3 = 928 / 1000 := by
        unfold rainOn
        rw [if_pos w3]; norm_num
      refine ⟨_, _, _, _, _, _, _, _, _, _, _, _, hmade x, le_rfl, ?_, ?_⟩
      · rw [e]; norm_num
      · rw [e]; norm_num) hzz (by simpa using v 2 (by norm_num)) (by simp) (by simp) (by simp) (.inr (by
      intro e he
      simp only [List.mem_cons, List.not_mem_nil, or_false] at he
      rcases he with rfl | rfl
      · refine ⟨?_, 1, by simpa using v 1 (by norm_num), one_pos, ?_, ?_⟩
        · rw [RFl.lt_def, v 1 (by norm_num), v 0 (by norm_num)]; simp
        · simpa using lo 1 (-900) le_rfl (by norm_num)
        · simpa using hi 1 900 (by norm_num) (by norm_num)
      · refine ⟨?_, 3, by simpa using v 3 (by norm_num), by norm_num, ?_, ?_⟩
        · rw [RFl.lt_def, v 3 (by norm_num), v 0 (by norm_num)]; simp
        · rw [d9]; exact lo 9 (-900) (by norm_num) (by norm_num)
        · rw [d9]; exact hi 9 900 (by norm_num) (by norm_num))) (hi _ _ (by norm_num) (by norm_num)) le_rfl (by simp) (by
      intro e he l hl
      simp only [List.mem_cons, List.not_mem_nil, or_false] at he
      rcases he with rfl | rfl
      · simp only [List.getElem?_cons_zero, Option.some.injEq] at hl
        subst hl
        simp [k, euclid]
      · simp only [List.getElem?_cons_zero, List.getElem?_cons_succ, Option.some.injEq] at hl
        subst hl
        simp [k, euclid])
  refine ⟨[z0, z1], r, hzz, hr1, hr2.trans ?_⟩
  have e : (2 : ℝ) ^ (-1050 : ℤ) ≤ 2 ^ (-20 : ℤ) := zpow_le_zpow_right₀ (by norm_num) (by norm_num)
  generalize (2 : ℝ) ^ (-1050 : ℤ) = t at *
  norm_num at e ⊢
  linarith

end Verif.Props
