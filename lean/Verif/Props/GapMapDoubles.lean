import Verif.Props.GapMap
import Verif.Props.GapsDoubles

/-!
# Property C173: rain maps from records with gaps in doubles
-/

namespace Verif.Props
open Verif Verif.Baseline Verif.Waa Verif.Bin Verif.KR Verif.Idw

/-- A cell computed in doubles lies, up to rounding, between bounds of the values used. -/
theorem idwVal_between [PyPow DblR] (hacc : PowAccurate) {sum : List DblR → DblR} {dot : List DblR → List DblR → DblR} (ha : Adds sum dot)
    (tiny p : DblR) (z : List DblR) (nb S : List (DblR × Nat)) (b M : ℝ)
    (hp : p.val = .fin b) (hSd : S = nb.filter fun e => decide (e.2 < z.length)) (hS : S ≠ []) (hk : S.length ≤ 2 ^ 20)
    (hd : (∃ e S', S = e :: S' ∧ (e.1 <ᶠ tiny) = true) ∨ ∀ e ∈ S, (e.1 <ᶠ tiny) = false ∧
      ∃ d, e.1.val = .fin d ∧ 0 < d ∧ (2 : ℝ) ^ (-900 : ℤ) ≤ d ^ b ∧ d ^ b ≤ 2 ^ (900 : ℤ))
    (hz : ∀ e ∈ S, ∃ x y, z[e.2]? = some x ∧ x.val = .fin y ∧ |y| ≤ M) (hM : M ≤ 2 ^ (1000 : ℤ)) :
    ∃ r, (idwVal sum dot tiny z p nb).val = .fin r ∧
      ∀ lo hi : ℝ, (∀ e ∈ S, ∀ y, (rd z e.2).val = .fin y → lo ≤ y ∧ y ≤ hi) →
        lo - ((S.length + 4) * 2 ^ (-50 : ℤ) * M + 2 ^ (-1050 : ℤ)) ≤ r ∧
        r ≤ hi + ((S.length + 4) * 2 ^ (-50 : ℤ) * M + 2 ^ (-1050 : ℤ)) := by
  have hM0 : 0 ≤ M := by
    obtain ⟨e, he⟩ := List.exists_mem_of_ne_nil S hS
    obtain ⟨x, y, -, -, h⟩ := hz e he
    exact (abs_nonneg _).trans h
  have hround : 0 ≤ ((S.length : ℝ) + 4) * 2 ^ (-50 : ℤ) * M + 2 ^ (-1050 : ℤ) := by positivity
  rcases hd with ⟨e, S', hS', he⟩ | hd
  · obtain ⟨x, y, hx, hy, -⟩ := hz e (by rw [hS']; simp)
    have hval : idwVal sum dot tiny z p nb = rd z e.2 := by
      unfold idwVal
      dsimp only
      rw [← hSd, hS']
      dsimp only
      rw [if_pos he]
    refine ⟨y, by rw [hval, rd_of_getElem? hx, hy], fun lo hi hb => ?_⟩
    have := hb e (by rw [hS']; simp) y (by rw [rd_of_getElem? hx, hy])
    constructor <;> linarith [this.1, this.2]
  · obtain ⟨r, hr, hre⟩ := C116_accuracy hacc ha tiny p z nb S b M hp hSd hS hk (fun e he => (hd e he).1) (fun e he => (hd e he).2) hz hM
    refine ⟨r, hr, fun lo hi hb => ?_⟩
    have hm := weighted_near S (fun e => 1 / numOf e.1 ^ b) (fun e => numOf (rd z e.2)) ((lo + hi) / 2) ((hi - lo) / 2) (by
      intro e he
      obtain ⟨-, d, hdv, hd0, -⟩ := hd e he
      have : numOf e.1 = d := by unfold numOf; rw [hdv]
      rw [this]
      have := Real.rpow_pos_of_pos hd0 b
      positivity) (by
      intro e he
      obtain ⟨x, y, hx, hy, -⟩ := hz e he
      have : numOf (rd z e.2) = y := by unfold numOf; rw [rd_of_getElem? hx, hy]
      rw [this]
      have := hb e he y (by rw [rd_of_getElem? hx, hy])
      rw [abs_le]
      constructor <;> linarith [this.1, this.2]) hS
    set m := (S.map fun e => 1 / numOf e.1 ^ b * numOf (rd z e.2)).sum / (S.map fun e => 1 / numOf e.1 ^ b).sum
    rw [abs_le] at hre hm
    constructor <;> linarith [hre.1, hre.2, hm.1, hm.2]

/-- A link with a record with gaps in doubles: the steps without a level, the rain rates (mm/h) and the level without rain. -/
structure GapDblLink extends DblLink where
  gap : ℕ → Prop
  R : ℕ → ℝ
  dryLevel : ℕ → ℝ

/-- The link has a level and a reference level at step `s`. -/
def GapDblLink.Reports (k : GapDblLink) (s : ℕ) : Prop := ¬ k.gap s ∧ ¬ NoBase k.wet k.gap k.n s

/-- No level is missing earlier in the event of step `s`. -/
def GapDblLink.Whole (k : GapDblLink) (s : ℕ) : Prop := ∀ i < s, (∀ j, i ≤ j → j ≤ s → WetAt k.wet j) → ¬ k.gap i

/-- The levels of the link are NaN at the gaps and elsewhere, up to `δ`, those made by rain of the rates `R` (and film of water, and a dry level
that stays constant from `n` steps before an event); the parameters are within the ranges of C157, and level and rounding errors change the rate
of step `s` by at most `η`. -/
structure GapDblLink.MadeBy (k : GapDblLink) (s : ℕ) (M d t B m l α β rm δ η : ℝ) : Prop where
  hs : s < k.trsl.length
  hn : 1 ≤ k.n
  hn2 : k.n ≤ 2 ^ 25
  hlen : k.trsl.length ≤ k.wet.length
  hM : k.waaMax.val = .fin M
  hd : k.deltaT.val = .fin d
  ht : k.tau.val = .fin t
  hr : RateRange k.L k.a k.b l α β
  hrm : k.Rmin.val = .fin rm
  hd0 : 0 ≤ d
  h3 : 3 * d ≤ t
  ht1 : (2 : ℝ) ^ (-100 : ℤ) ≤ t
  hd2 : d ≤ 2 ^ (500 : ℤ)
  hM0 : 0 ≤ M
  hMB : M ≤ B
  hB1 : (2 : ℝ) ^ (-900 : ℤ) ≤ B
  hB2 : B ≤ 2 ^ (290 : ℤ)
  hT : (8 * B / (α * l)) ^ (1 / β) ≤ 2 ^ (64 : ℤ)
  hm : (k.trsl.length : ℝ) ≤ m ∨ t ≤ 3 * d * m
  hm2 : m ≤ 2 ^ 47
  hδ : 0 ≤ δ
  hR : ∀ i < k.trsl.length, WetAt k.wet i → 0 ≤ k.R i
  h1 : ∀ i < k.n, ¬ WetAt k.wet i
  h2 : ∀ i < k.trsl.length, WetAt k.wet i → ∀ j, j < i → i ≤ j + k.n → k.dryLevel j = k.dryLevel i
  hx : ∀ i x, k.trsl[i]? = some x → (k.gap i ∧ x.val = .nan) ∨ (¬ k.gap i ∧ ∃ y, x.val = .fin y ∧ |y| ≤ B ∧
    |y - levelAt (WetAt k.wet) M (3 * d / t) k.dryLevel (fun i => α * k.R i ^ β * l) i| ≤ δ)
  lo : rainOn k.wet k.R s - η ≤ (1 - 2 ^ (-46 : ℤ)) *
    lawRate α β l (rainAtt k.wet α β l k.R s - (4 * δ + (10 * (k.n * k.n) + 48 * m + 11) * (2 ^ (-53 : ℤ) * B))) - 2 ^ (-99 : ℤ)
  hi : (1 + 2 ^ (-46 : ℤ)) *
    lawRate α β l (rainAtt k.wet α β l k.R s + (4 * δ + (10 * (k.n * k.n) + 48 * m + 11) * (2 ^ (-53 : ℤ) * B))) + 2 ^ (-99 : ℤ) ≤
      rainOn k.wet k.R s + η

/-- The rate of a link with gaps at step `s`. -/
theorem GapDblLink.MadeBy.rate [PyPow DblR] (hclose : PowClose) {k : GapDblLink} {s : ℕ} {M d t B m l α β rm δ η : ℝ}
    (h : k.MadeBy s M d t B m l α β rm δ η) :
    ∃ rs v, k.toDblLink.rates = .ok rs ∧ rs[s]? = some v ∧ (isNaN v = true ↔ ¬ k.Reports s) ∧
      (k.Reports s → ∃ y, v.val = .fin y ∧ 0 ≤ y ∧ y ≤ rainOn k.wet k.R s + η ∧
        (k.Whole s → ∀ Rm, 0 ≤ Rm → rm ≤ Rm → rainOn k.wet k.R s - η - Rm ≤ y)) := by
  obtain ⟨rs, est, hrs, hl, hv⟩ := C167_constant hclose k.trsl k.wet k.n k.waaMax k.deltaT k.tau k.L k.a k.b k.Rmin M d t B m l α β rm h.hn
    h.hn2 h.hlen h.hM h.hd h.ht h.hr h.hrm h.hd0 h.h3 h.ht1 h.hd2 h.hM0 h.hMB h.hB1 h.hB2 h.hT h.hm h.hm2 k.gap k.dryLevel k.R δ h.hδ h.hR
    h.h1 h.h2 h.hx
  have hlt : s < rs.length := by rw [hl]; exact h.hs
  obtain ⟨c1, c2⟩ := hv s _ (List.getElem?_eq_getElem hlt)
  have p300 : (0 : ℝ) < 2 ^ (-300 : ℤ) := by positivity
  have hα : 0 < α := p300.trans_le h.hr.α1
  have hl0 : 0 < l := p300.trans_le h.hr.l1
  have hβ : 0 < β := by have := h.hr.β1; linarith
  have hβ' : 0 < 1 / β := by positivity
  have key : k.Reports s → ∃ y, (rs[s]'hlt).val = .fin y ∧ 0 ≤ y ∧ y ≤ rainOn k.wet k.R s + η ∧
      (k.Whole s → ∀ Rm, 0 ≤ Rm → rm ≤ Rm → rainOn k.wet k.R s - η - Rm ≤ y) := by
    intro hr
    obtain ⟨⟨g1, g2⟩, ρ, e1, e2, e3, e4⟩ := c2 hr.1 hr.2
    have hest : est s ≤ rainAtt k.wet α β l k.R s := by
      unfold rainAtt
      split_ifs with hw
      · exact (g2 hw).1.2
      · exact (g1 hw).le
    have h0 : 0 ≤ rainOn k.wet k.R s + η := by
      refine le_trans ?_ h.hi
      have := lawRate_nonneg (β := β) (mul_pos hα hl0)
        (rainAtt k.wet α β l k.R s + (4 * δ + (10 * (k.n * k.n) + 48 * m + 11) * (2 ^ (-53 : ℤ) * B)))
      positivity
    have hup : ρ ≤ rainOn k.wet k.R s + η := by
      refine e4.trans (le_trans ?_ h.hi)
      have := lawRate_mono (mul_pos hα hl0) hβ'
        (add_le_add_left hest (4 * δ + (10 * (k.n * k.n) + 48 * m + 11) * (2 ^ (-53 : ℤ) * B)))
      have h46 : (0 : ℝ) ≤ 1 + 2 ^ (-46 : ℤ) := by positivity
      have := mul_le_mul_of_nonneg_left this h46
      linarith
    refine ⟨_, e1, ?_, ?_, fun hwh Rm hRm hrm => ?_⟩
    · split_ifs
      · exact le_rfl
      · exact e2
    · split_ifs
      · exact h0
      · exact hup
    · have he : est s = rainAtt k.wet α β l k.R s := by
        unfold rainAtt
        split_ifs with hw
        · exact (g2 hw).2.1 hwh
        · exact g1 hw
      rw [he] at e3
      have hlo := h.lo.trans e3
      split_ifs
      · linarith
      · linarith
  refine ⟨rs, rs[s], hrs, List.getElem?_eq_getElem hlt, ⟨fun hn hr => ?_, fun hr => ?_⟩, key⟩
  · obtain ⟨y, hy, -⟩ := key hr
    have := (Fl.isNaN_iff _).mp hn
    rw [hy] at this
    cases this
  · apply c1
    by_contra hc
    push Not at hc
    exact hr hc

/-- **C173** From records with gaps to a cell of the rain map, all in doubles: links without a rate are dropped before the search for neighbours
(`exclude_nan`), and these are the links without level or reference level. If, at step `s`, the rain on each of the other links is that of a
field `f` at the position of the link up to `E`, and `f` changes by at most `Λ` per unit of distance, the cell is not above `f` by more than
`Λ ρ + E + η` and the rounding errors `(k + 4) 2^-50 M + 2^-1050` of the interpolation, whatever levels are missing; it is not below 0 by more
than these rounding errors; and if no level is missing earlier in the event on the `k` links used, it is below `f` by at most
`Λ ρ + E + η + R_min` and the rounding errors. -/
theorem C173_cell [PyPow DblR] (hclose : PowClose) (hacc : PowAccurate) {sum : List DblR → DblR} {dot : List DblR → List DblR → DblR}
    (ha : Adds sum dot) (tiny p : DblR) (links : List GapDblLink) (s : ℕ) (z : List DblR) (good : List (GapDblLink × DblR))
    (nb S : List (DblR × Nat)) (b M E Rm η lam ρ : ℝ) (f : Pt → ℝ) (q : Pt) (hRm : 0 ≤ Rm)
    (hmade : ∀ k ∈ links, ∃ M' d t B m l α β rm δ, k.MadeBy s M' d t B m l α β rm δ η ∧ rm ≤ Rm ∧
      rainOn k.wet k.R s + η ≤ M ∧ |rainOn k.wet k.R s - f k.pos| ≤ E)
    (hz : List.Forall₂ (fun k v => ∃ rs, k.toDblLink.rates = .ok rs ∧ rs[s]? = some v) links z)
    (hgood : good = (links.zip z).filter fun e => !isNaN e.2)
    (hp : p.val = .fin b) (hSd : S = nb.filter fun e => decide (e.2 < good.length)) (hS : S ≠ []) (hk : S.length ≤ 2 ^ 20)
    (hd : (∃ e S', S = e :: S' ∧ (e.1 <ᶠ tiny) = true) ∨ ∀ e ∈ S, (e.1 <ᶠ tiny) = false ∧
      ∃ d, e.1.val = .fin d ∧ 0 < d ∧ (2 : ℝ) ^ (-900 : ℤ) ≤ d ^ b ∧ d ^ b ≤ 2 ^ (900 : ℤ)) (hM : M ≤ 2 ^ (1000 : ℤ))
    (hlam : 0 ≤ lam) (hf : ∀ u v, |f u - f v| ≤ lam * euclid u v)
    (hρ : ∀ e ∈ S, ∀ g, good[e.2]? = some g → euclid q g.1.pos ≤ ρ) :
    (∀ e ∈ links.zip z, isNaN e.2 = false ↔ e.1.Reports s) ∧
    ∃ r, (idwVal sum dot tiny (good.map (·.2)) p nb).val = .fin r ∧
      -((S.length + 4) * 2 ^ (-50 : ℤ) * M + 2 ^ (-1050 : ℤ)) ≤ r ∧
      r ≤ f q + (lam * ρ + E + η) + ((S.length + 4) * 2 ^ (-50 : ℤ) * M + 2 ^ (-1050 : ℤ)) ∧
      ((∀ e ∈ S, ∀ g, good[e.2]? = some g → g.1.Whole s) →
        f q - (lam * ρ + E + η + Rm) - ((S.length + 4) * 2 ^ (-50 : ℤ) * M + 2 ^ (-1050 : ℤ)) ≤ r) := by
  have hzip : ∀ e ∈ links.zip z, e.1 ∈ links ∧ ∃ rs, e.1.toDblLink.rates = .ok rs ∧ rs[s]? = some e.2 := by
    intro e he
    obtain ⟨j, hj, rfl⟩ := List.mem_iff_getElem.mp he
    rw [List.length_zip] at hj
    rw [List.getElem_zip]
    exact ⟨List.getElem_mem _, (List.forall₂_iff_get.mp hz).2 j (by omega) (by omega)⟩
  have hrate : ∀ e ∈ links.zip z, (isNaN e.2 = false ↔ e.1.Reports s) ∧ (e.1.Reports s → ∃ y, e.2.val = .fin y ∧ 0 ≤ y ∧
      y ≤ rainOn e.1.wet e.1.R s + η ∧ (e.1.Whole s → rainOn e.1.wet e.1.R s - η - Rm ≤ y)) := by
    intro e he
    obtain ⟨hl, rs, hrs, hv⟩ := hzip e he
    obtain ⟨M', d, t, B, m, l, α, β, rm, δ, hmk, hrm, -, -⟩ := hmade e.1 hl
    obtain ⟨rs', v, g1, g2, g3, g4⟩ := hmk.rate hclose
    rw [hrs] at g1
    cases g1
    rw [hv] at g2
    obtain rfl := Option.some.inj g2
    refine ⟨?_, fun hr => ?_⟩
    · rw [← not_iff_not, ← g3, Bool.not_eq_false]
    · obtain ⟨y, q1, q2, q3, q4⟩ := g4 hr
      exact ⟨y, q1, q2, q3, fun hw => q4 hw Rm hRm hrm⟩
  refine ⟨fun e he => (hrate e he).1, ?_⟩
  -- the values used
  have hused : ∀ e ∈ S, ∃ g, good[e.2]? = some g ∧ rd (good.map Prod.snd) e.2 = g.2 ∧ g ∈ links.zip z ∧ isNaN g.2 = false := by
    intro e he
    rw [hSd, List.mem_filter] at he
    have hlt := of_decide_eq_true he.2
    refine ⟨_, List.getElem?_eq_getElem hlt, ?_, ?_⟩
    · exact rd_of_getElem? (by rw [List.getElem?_map, List.getElem?_eq_getElem hlt]; rfl)
    · have := List.getElem_mem hlt
      generalize good[e.2] = g at this
      rw [hgood, List.mem_filter] at this
      exact ⟨this.1, by simpa using this.2⟩
  have hval : ∀ e ∈ S, ∃ g y, good[e.2]? = some g ∧ g.1 ∈ links ∧ (rd (good.map Prod.snd) e.2).val = .fin y ∧ g.2.val = .fin y ∧ 0 ≤ y ∧
      y ≤ rainOn g.1.wet g.1.R s + η ∧ (g.1.Whole s → rainOn g.1.wet g.1.R s - η - Rm ≤ y) := by
    intro e he
    obtain ⟨g, g1, g2, g3, g4⟩ := hused e he
    obtain ⟨h1, h2⟩ := hrate g g3
    obtain ⟨y, q1, q2, q3, q4⟩ := h2 (h1.mp g4)
    exact ⟨g, y, g1, (hzip g g3).1, by rw [g2, q1], q1, q2, q3, q4⟩
  have hfield : ∀ e ∈ S, ∀ g, good[e.2]? = some g → g.1 ∈ links → |rainOn g.1.wet g.1.R s - f q| ≤ lam * ρ + E := by
    intro e he g hg hl
    obtain ⟨M', d, t, B, m, l, α, β, rm, δ, -, -, -, hE⟩ := hmade g.1 hl
    have h1 := hf q g.1.pos
    have h2 := mul_le_mul_of_nonneg_left (hρ e he g hg) hlam
    have h3 := abs_add_le (rainOn g.1.wet g.1.R s - f g.1.pos) (f g.1.pos - f q)
    rw [sub_add_sub_cancel, abs_sub_comm (f g.1.pos)] at h3
    linarith
  obtain ⟨r, hr, hb⟩ := idwVal_between hacc ha tiny p (good.map Prod.snd) nb S b M hp (by rw [List.length_map]; exact hSd) hS hk hd (by
    intro e he
    obtain ⟨g, y, g1, g2, g3, g4, g5, g6, -⟩ := hval e he
    obtain ⟨M', d, t, B, m, l, α, β, rm, δ, -, -, hRM, -⟩ := hmade g.1 g2
    refine ⟨g.2, y, by rw [List.getElem?_map, g1]; rfl, g4, ?_⟩
    rw [abs_of_nonneg g5]
    linarith) hM
  have hup : ∀ e ∈ S, ∀ y, (rd (good.map Prod.snd) e.2).val = .fin y → 0 ≤ y ∧ y ≤ f q + (lam * ρ + E + η) := by
    intro e he y hy
    obtain ⟨g, y', g1, g2, g3, -, g5, g6, -⟩ := hval e he
    rw [hy] at g3
    injection g3 with g3
    subst g3
    have := abs_le.mp (hfield e he g g1 g2)
    exact ⟨g5, by linarith [this.2]⟩
  obtain ⟨b1, b2⟩ := hb 0 _ hup
  refine ⟨r, hr, by linarith, b2, fun hw => ?_⟩
  refine (hb (f q - (lam * ρ + E + η + Rm)) _ fun e he y hy => ⟨?_, (hup e he y hy).2⟩).1
  obtain ⟨g, y', g1, g2, g3, -, g5, g6, g7⟩ := hval e he
  rw [hy] at g3
  injection g3 with g3
  subst g3
  have := abs_le.mp (hfield e he g g1 g2)
  linarith [g7 (hw e he g g1), this.1]

/-- Two links with rain of 0.9024 mm/h at step 3, one without a level at step 2, the other without one at step 3: the cell gets the rate of the
first, which is at most 0.9024 mm/h, up to 0.002 mm/h (it is 0.8 mm/h, see the example of C167). -/
example : letI := correctPow (binary64 (K := ℝ))
    let D : ℕ → DblR := fun k => PyFloat.ofInt k
    let k : Pt → ℕ → List DblR → GapDblLink := fun x g xs => ⟨⟨x, xs, [false, true, true, true], 1, D 2, D 1, D 15, D 10, D 1, D 1, D 0⟩,
      (· = g), fun s => if s = 1 then 96 / 100 else if s = 2 then 928 / 1000 else 9024 / 10000, fun _ => 50⟩
    let links := [k (1, 0) 2 [D 50, D 60, PyFloat.nan, D 60], k (0, 3) 3 [D 50, D 60, D 60, PyFloat.nan]]
    ∃ z r, List.Forall₂ (fun k v => ∃ rs, DblLink.rates (GapDblLink.toDblLink k) = .ok rs ∧ rs[3]? = some v) links z ∧
      (idwVal fsum (fun w v => fsum (List.zipWith (· *ᶠ ·) w v)) (D 0) (((links.zip z).filter fun e => !isNaN e.2).map (·.2)) (D 2)
        [(D 1, 0), (D 9, 1)]).val = .fin r ∧ r ≤ 9024 / 10000 + 2 / 1000 := by
  let _ := correctPow (binary64 (K := ℝ))
  intro D k links
  have v : ∀ k : ℕ, k ≤ 60 → (D k).val = .fin (k : ℝ) := fun k hk => val_ofNat_b64 k (hk.trans (by norm_num))
  have lo : ∀ (x : ℝ) (j : ℤ), 1 ≤ x → j ≤ 0 → (2 : ℝ) ^ j ≤ x := fun x j hx hj =>
    le_trans (zpow_le_one_of_nonpos₀ (by norm_num) hj) hx
  have hi : ∀ (x : ℝ) (j : ℤ), x ≤ 2 ^ (10 : ℤ) → 10 ≤ j → x ≤ 2 ^ j := fun x j hx hj =>
    le_trans hx (zpow_le_zpow_right₀ (by norm_num) hj)
  have hr : RateRange (D 10) (D 1) (D 1) 10 1 1 :=
    ⟨by simpa using v 10 (by norm_num), by simpa using v 1 (by norm_num), by simpa using v 1 (by norm_num),
      lo _ _ (by norm_num) (by norm_num), hi _ _ (by norm_num) (by norm_num), lo _ _ (by norm_num) (by norm_num),
      hi _ _ (by norm_num) (by norm_num), by norm_num, by norm_num⟩
  have d0 : ¬ WetAt [false, true, true, true] 0 := by simp [WetAt]
  have w1 : WetAt [false, true, true, true] 1 := rfl
  have w2 : WetAt [false, true, true, true] 2 := rfl
  have w3 : WetAt [false, true, true, true] 3 := rfl
  have hmade : ∀ x g xs, xs.length = 4 → (∀ i x, xs[i]? = some x → (i = g ∧ x.val = .nan) ∨ (i ≠ g ∧ x = if i = 0 then D 50 else D 60)) →
      (k x g xs).MadeBy 3 2 1 15 64 4 10 1 1 0 0 (1 / 1000) := by
    intro x g xs hxs hlev
    refine ⟨by simp [k, hxs], by simp [k], by norm_num [k], by simp [k, hxs], by simpa using v 2 (by norm_num), by simpa using v 1 (by norm_num),
      by simpa using v 15 (by norm_num), hr, by simpa using v 0 (by norm_num), by norm_num, by norm_num, lo _ _ (by norm_num) (by norm_num),
      hi _ _ (by norm_num) (by norm_num), by norm_num, by norm_num, lo _ _ (by norm_num) (by norm_num), hi _ _ (by norm_num) (by norm_num),
      by norm_num, .inl (by norm_num [k, hxs]), by norm_num, by norm_num, ?_, ?_, fun _ _ _ _ _ _ => rfl, ?_, ?_, ?_⟩
    · intro s _ _
      simp only [k]
      split_ifs <;> norm_num
    · intro s hs
      obtain rfl : s = 0 := by simp only [k] at hs; omega
      exact d0
    · intro s y hs
      have hlt : s < 4 := by rw [← hxs]; exact (List.getElem?_eq_some_iff.mp hs).1
      rcases hlev s y hs with h | ⟨h1, rfl⟩
      · exact .inl h
      · right
        have : s = 0 ∨ s = 1 ∨ s = 2 ∨ s = 3 := by omega
        rcases this with rfl | rfl | rfl | rfl
        · refine ⟨h1, _, v 50 (by norm_num), by norm_num, ?_⟩
          unfold levelAt
          rw [if_neg d0]; norm_num [k]
        · refine ⟨h1, _, v 60 (by norm_num), by norm_num, ?_⟩
          unfold levelAt
          rw [if_pos w1]
          simp only [k, filmAt, if_pos w1]
          norm_num [Real.rpow_one]
        · refine ⟨h1, _, v 60 (by norm_num), by norm_num, ?_⟩
          unfold levelAt
          rw [if_pos w2]
          simp only [k, filmAt, if_pos w1, if_pos w2]
          norm_num [Real.rpow_one]
        · refine ⟨h1, _, v 60 (by norm_num), by norm_num, ?_⟩
          unfold levelAt
          rw [if_pos w3]
          simp only [k, filmAt, if_pos w1, if_pos w2, if_pos w3]
          norm_num [Real.rpow_one]
    · unfold lawRate rainAtt rainOn
      rw [if_pos w3, if_pos w3, show (1 : ℝ) / 1 = 1 by norm_num]
      simp only [Real.rpow_one]
      rw [max_eq_right (by norm_num [k])]
      norm_num [k]
    · unfold lawRate rainAtt rainOn
      rw [if_pos w3, if_pos w3, show (1 : ℝ) / 1 = 1 by norm_num]
      simp only [Real.rpow_one]
      rw [max_eq_right (by norm_num [k])]
      norm_num [k]
  have m0 : (k (1, 0) 2 [D 50, D 60, PyFloat.nan, D 60]).MadeBy 3 2 1 15 64 4 10 1 1 0 0 (1 / 1000) := hmade _ _ _ rfl (by
    intro i x hi
    rcases i with _ | _ | _ | _ | i <;> simp at hi <;> subst hi <;> first | exact .inl ⟨rfl, rfl⟩ | exact .inr ⟨by omega, by simp⟩)
  have m1 : (k (0, 3) 3 [D 50, D 60, D 60, PyFloat.nan]).MadeBy 3 2 1 15 64 4 10 1 1 0 0 (1 / 1000) := hmade _ _ _ rfl (by
    intro i x hi
    rcases i with _ | _ | _ | _ | i <;> simp at hi <;> subst hi <;> first | exact .inl ⟨rfl, rfl⟩ | exact .inr ⟨by omega, by simp⟩)
  obtain ⟨rs0, z0, a1, a2, a3, -⟩ := m0.rate correctPow_close
  obtain ⟨rs1, z1, b1, b2, b3, -⟩ := m1.rate correctPow_close
  have r0 : (k (1, 0) 2 [D 50, D 60, PyFloat.nan, D 60]).Reports 3 := ⟨by simp [k], gapDemo_base w2⟩
  have n0 : isNaN z0 = false := by rw [Bool.eq_false_iff]; exact fun h => a3.mp h r0
  have n1 : isNaN z1 = true := b3.mpr fun h => h.1 rfl
  have hzz : List.Forall₂ (fun k v => ∃ rs, DblLink.rates (GapDblLink.toDblLink k) = .ok rs ∧ rs[3]? = some v) links [z0, z1] :=
    .cons ⟨rs0, a1, a2⟩ (.cons ⟨rs1, b1, b2⟩ .nil)
  have hg : ((links.zip [z0, z1]).filter fun e => !isNaN e.2) = [(k (1, 0) 2 [D 50, D 60, PyFloat.nan, D 60], z0)] := by
    simp [links, n0, n1]
  obtain ⟨-, r, hr1, -, hr2, -⟩ := C173_cell correctPow_close correctPow_accurate adds_fsum (D 0) (D 2) links 3 [z0, z1] _
    [(D 1, 0), (D 9, 1)] [(D 1, 0)] 2 1 0 0 (1 / 1000) 0 1 (fun _ => 9024 / 10000) (0, 0) le_rfl (by
      intro l hl
      have e : ∀ x g xs, rainOn (k x g xs).wet (k x g xs).R 3 = 9024 / 10000 := by
        intro x g xs
        unfold rainOn
        rw [if_pos w3]; norm_num [k]
      simp only [links, List.mem_cons, List.not_mem_nil, or_false] at hl
      rcases hl with rfl | rfl
      · exact ⟨_, _, _, _, _, _, _, _, _, _, m0, le_rfl, by rw [e]; norm_num, by rw [e]; norm_num⟩
      · exact ⟨_, _, _, _, _, _, _, _, _, _, m1, le_rfl, by rw [e]; norm_num, by rw [e]; norm_num⟩) hzz rfl
    (by simpa using v 2 (by norm_num)) (by rw [hg]; simp) (by simp) (by simp) (.inr (by
      intro e he
      simp only [List.mem_cons, List.not_mem_nil, or_false] at he
      subst he
      refine ⟨?_, 1, by simpa using v 1 (by norm_num), one_pos, ?_, ?_⟩
      · rw [RFl.lt_def, v 1 (by norm_num), v 0 (by norm_num)]; simp
      · simpa using lo 1 (-900) le_rfl (by norm_num)
      · simpa using hi 1 900 (by norm_num) (by norm_num))) (hi _ _ (by norm_num) (by norm_num)) le_rfl (by simp) (by
      intro e he g hgg
      rw [hg] at hgg
      simp only [List.mem_cons, List.not_mem_nil, or_false] at he
      subst he
      simp only [List.getElem?_cons_zero, Option.some.injEq] at hgg
      subst hgg
      simp [k, euclid])
  refine ⟨[z0, z1], r, hzz, hr1, hr2.trans ?_⟩
  have e : (2 : ℝ) ^ (-1050 : ℤ) ≤ 2 ^ (-20 : ℤ) := zpow_le_zpow_right₀ (by norm_num) (by norm_num)
  generalize (2 : ℝ) ^ (-1050 : ℤ) = t at *
  norm_num at e ⊢
  linarith

end Verif.Props
