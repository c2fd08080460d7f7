import Verif.Props.Gaps
import Verif.Props.MapRecovery
import Verif.Props.DoubleMap

/-!
Rain maps from records with missing levels: the chain of C166 for each link, then the inverse-distance map of `spatial/interpolator.py`
of the rates of one time step.  Levels, rain and maps in exact arithmetic.
-/

namespace Verif.Props

open Verif Verif.Idw Verif.KR Verif.Baseline Verif.Waa Verif.Spec

/-- A link with a record in which some levels are missing: its position, the parameters of the processing, the wet flags, the number of steps,
the steps without level, the level without rain, and the rain rates (mm/h). -/
structure GapLink where
  pos : Pt
  p : ChainParams
  wet : List Bool
  T : ℕ
  gap : ℕ → Prop
  dryLevel : ℕ → ℝ
  R : ℕ → ℝ

/-- The record: the level of C166 at the steps with a level, NaN at the others. -/
noncomputable def GapLink.levels (l : GapLink) : List (Fl ℝ) :=
  gapSeries l.T l.gap (levelAt (WetAt l.wet) l.p.waaMax (3 * l.p.deltaT / l.p.tau) l.dryLevel fun t => l.p.a * l.R t ^ l.p.b * l.p.L)

/-- Usable parameters, rain rates that are not negative, dry first steps, a dry level that stays the same from `n` steps before an event to
its end, and a record that covers step `t`. -/
structure GapLink.Made (l : GapLink) (t : ℕ) : Prop where
  ok : l.p.Ok
  film : 3 * l.p.deltaT ≤ l.p.tau
  flags : l.T ≤ l.wet.length
  rain : ∀ s < l.T, WetAt l.wet s → 0 ≤ l.R s
  start : ∀ s < l.p.n, ¬ WetAt l.wet s
  still : ∀ s < l.T, WetAt l.wet s → ∀ u, u < s → s ≤ u + l.p.n → l.dryLevel u = l.dryLevel s
  now : t < l.T

/-- The link has a rate at step `t`: there is a level and a reference level. -/
def GapLink.Reports (l : GapLink) (t : ℕ) : Prop := ¬ l.gap t ∧ ¬ NoBase l.wet l.gap l.p.n t

/-- No level is missing earlier in the event of step `t`. -/
def GapLink.Whole (l : GapLink) (t : ℕ) : Prop := ∀ k < t, (∀ j, k ≤ j → j ≤ t → WetAt l.wet j) → ¬ l.gap k

/-- The rain map of step `t` from the records: every link is processed, the rates of the step are interpolated. -/
noncomputable def gapMap (knn : Knn) (cfg : Config) (sp : Spline) (links : List GapLink) (t : ℕ) (xg yg : Grid ℝ) :
    Except Err (Grid (Fl ℝ)) := do
  let z ← links.mapM fun l => (rainChain sp l.p l.levels l.wet).map fun rs => rd rs t
  (interpolate knn cfg (fun _ => []) none (.own (links.map (·.pos.1))) (.own (links.map (·.pos.2))) z (some xg) (some yg)
    none).1

open Classical in
/-- The true rain on the links that have a rate. -/
noncomputable def trueRain (links : List GapLink) (t : ℕ) : List (Pt × Option ℝ) :=
  links.map fun l => (l.pos, if l.Reports t then some (rainOn l.wet l.R t) else none)

open Classical in
/-- The rate of one link. -/
theorem gapLink_rate (sp : Spline) (l : GapLink) (t : ℕ) (h : l.Made t) :
    ∃ v : ℝ, ((rainChain sp l.p l.levels l.wet).map fun rs => rd rs t) = .ok (if l.Reports t then .fin v else .nan) ∧
      (l.Reports t → 0 ≤ v ∧ v ≤ rainOn l.wet l.R t ∧
        (l.Whole t → v = if rainOn l.wet l.R t < l.p.Rmin then 0 else rainOn l.wet l.R t)) := by
  obtain ⟨ρ, h1, h2⟩ := C166_gaps sp l.p h.ok h.film l.wet l.T l.gap l.dryLevel l.R h.flags h.rain h.start h.still
  refine ⟨if ρ t < l.p.Rmin then 0 else ρ t, ?_, ?_⟩
  · unfold GapLink.levels
    rw [h1]
    simp only [Except.map]
    rw [rd_of_getElem? (gapSeries_get _ _ h.now)]
    congr 1
    by_cases hr : l.Reports t
    · rw [if_pos hr, if_neg (by rintro (g | g); exacts [hr.1 g, hr.2 g])]
    · rw [if_neg hr, if_pos (by
        by_contra hc
        push Not at hc
        exact hr ⟨hc.1, hc.2⟩)]
  · intro hr
    obtain ⟨g1, g2⟩ := h2 t h.now hr.1 hr.2
    unfold rainOn
    by_cases hw : WetAt l.wet t
    · obtain ⟨⟨a1, a2⟩, a3, -⟩ := g2 hw
      have hR := h.rain t h.now hw
      have h0 : 0 ≤ ρ t := le_trans (lawRate_nonneg (mul_pos h.ok.a h.ok.L) _) a1
      rw [if_pos hw]
      refine ⟨?_, ?_, ?_⟩
      · split <;> simp [h0]
      · split
        · exact hR
        · exact a2
      · intro hwh
        rw [a3 hwh]
    · rw [if_neg hw, g1 hw]
      simp

/-- A cell of the map: NaN if no point with a value is within reach, otherwise between the bounds of the values within reach. -/
theorem idwMap_cell_bounds {knn : Knn} (hk : IsKnn knn) {nnear : Int} (hn : 1 < nnear) (p : ℝ) (D : Option (Fl ℝ))
    (pts : List (Pt × Option ℝ)) (xg yg : Grid ℝ) (hshape : xg.map List.length = yg.map List.length) (hne : xg.flatten ≠ []) :
    ∃ zg, idwMap knn nnear p D pts xg yg = .ok zg ∧ zg.map List.length = xg.map List.length ∧
      ∀ (i : Nat) a b, xg.flatten[i]? = some a → yg.flatten[i]? = some b →
        (zg.flatten[i]? = some .nan ∧ ∀ x z, (x, some z) ∈ pts → within D (euclid (a, b) x) = false) ∨
        ∃ r, zg.flatten[i]? = some (.fin r) ∧ (∃ x z, (x, some z) ∈ pts ∧ within D (euclid (a, b) x) = true) ∧
          ∀ lo hi : ℝ, (∀ x z, (x, some z) ∈ pts → within D (euclid (a, b) x) = true → lo ≤ z ∧ z ≤ hi) → lo ≤ r ∧ r ≤ hi := by
  obtain ⟨zg, h1, h2, h3⟩ := idwMap_is hk hn p D pts xg yg hshape hne
  refine ⟨zg, h1, h2, fun i a b ha hb => ?_⟩
  have hi : i < zg.flatten.length := by
    rw [List.length_flatten, h2, ← List.length_flatten]
    exact (List.getElem?_eq_some_iff.mp ha).1
  have hv := List.getElem?_eq_getElem hi
  obtain ⟨S, hS⟩ := h3 i a b _ ha hb hv
  obtain ⟨g1, g2⟩ := hS.bounds (by omega)
  have hd : ∀ j (hj : j < (withValue pts).length), dI ((withValue pts).map (·.1)) (a, b) j = euclid (a, b) (withValue pts)[j].1 := by
    intro j hj
    unfold dI
    rw [List.getD_eq_getElem _ _ (by simpa using hj), List.getElem_map]
  have hin : ∀ x z, (x, some z) ∈ pts → within D (euclid (a, b) x) = true → ∃ j, inRange ((withValue pts).map (·.1)) (a, b) D j := by
    intro x z hx hw
    obtain ⟨j, hj, hjx⟩ := List.mem_iff_getElem.mp (mem_withValue.mpr hx)
    refine ⟨j, ?_⟩
    rw [inRange_within, hd j hj, hjx]
    exact ⟨by simpa using hj, hw⟩
  have hout : ∀ j, inRange ((withValue pts).map (·.1)) (a, b) D j → ∃ x z, (x, some z) ∈ pts ∧
      within D (euclid (a, b) x) = true ∧ ((withValue pts).map (·.2)).getD j 0 = z := by
    intro j hj
    rw [inRange_within] at hj
    have hj' : j < (withValue pts).length := by simpa using hj.1
    rw [hd j hj'] at hj
    refine ⟨(withValue pts)[j].1, (withValue pts)[j].2, mem_withValue.mp (List.getElem_mem hj'), hj.2, ?_⟩
    rw [List.getD_eq_getElem _ _ (by simpa using hj'), List.getElem_map]
  by_cases hex : ∃ j, inRange ((withValue pts).map (·.1)) (a, b) D j
  · right
    have hb : ∀ lo hi : ℝ, (∀ x z, (x, some z) ∈ pts → within D (euclid (a, b) x) = true → lo ≤ z ∧ z ≤ hi) →
        ∃ r, zg.flatten[i] = .fin r ∧ lo ≤ r ∧ r ≤ hi := by
      intro lo hi hr
      refine g2 lo hi (fun j hj => ?_) hex
      obtain ⟨x, z, e1, e2, e3⟩ := hout j hj
      rw [e3]
      exact hr x z e1 e2
    cases hz : zg.flatten[i] with
    | fin r =>
      refine ⟨r, by rw [hv, hz], ?_, ?_⟩
      · obtain ⟨j, hj⟩ := hex
        obtain ⟨x, z, e1, e2, -⟩ := hout j hj
        exact ⟨x, z, e1, e2⟩
      · intro lo hi hr
        obtain ⟨r', e1, e2⟩ := hb lo hi hr
        rw [hz] at e1
        injection e1 with e1
        rw [e1]
        exact e2
    | nan =>
      obtain ⟨j, hj⟩ := hex
      exact absurd hj (g1.mp hz j)
    | pinf =>
      exfalso
      obtain ⟨r, hr, -⟩ := g2 (-(((withValue pts).map (·.2)).map abs).sum) ((((withValue pts).map (·.2)).map abs).sum) (fun j hj => by
        rw [inRange_within] at hj
        have hj' : j < ((withValue pts).map (·.2)).length := by simpa using hj.1
        rw [List.getD_eq_getElem _ _ hj', ← abs_le]
        exact List.single_le_sum (by
          intro x hx
          obtain ⟨y, -, rfl⟩ := List.mem_map.mp hx
          exact abs_nonneg y) _ (List.mem_map.mpr ⟨_, List.getElem_mem hj', rfl⟩)) hex
      rw [hz] at hr
      cases hr
    | ninf =>
      exfalso
      obtain ⟨r, hr, -⟩ := g2 (-(((withValue pts).map (·.2)).map abs).sum) ((((withValue pts).map (·.2)).map abs).sum) (fun j hj => by
        rw [inRange_within] at hj
        have hj' : j < ((withValue pts).map (·.2)).length := by simpa using hj.1
        rw [List.getD_eq_getElem _ _ hj', ← abs_le]
        exact List.single_le_sum (by
          intro x hx
          obtain ⟨y, -, rfl⟩ := List.mem_map.mp hx
          exact abs_nonneg y) _ (List.mem_map.mpr ⟨_, List.getElem_mem hj', rfl⟩)) hex
      rw [hz] at hr
      cases hr
  · left
    push Not at hex
    refine ⟨by rw [hv, g1.mpr hex], fun x z hx => ?_⟩
    rw [Bool.eq_false_iff]
    intro hw
    obtain ⟨j, hj⟩ := hin x z hx hw
    exact hex j hj

open Classical in
/-- The map of the records is that of the rates of the links that have one. -/
theorem gapMap_idw (knn : Knn) (cfg : Config) (hcfg : cfg.excludeNan = true) (sp : Spline) (links : List GapLink) (t : ℕ)
    (v : GapLink → ℝ)
    (h : ∀ l ∈ links, ((rainChain sp l.p l.levels l.wet).map fun rs => rd rs t) = .ok (if l.Reports t then .fin (v l) else .nan))
    (xg yg : Grid ℝ) :
    gapMap knn cfg sp links t xg yg = idwMap knn cfg.nnear cfg.p cfg.maxDistance
      (links.map fun l => (l.pos, if l.Reports t then some (v l) else none)) xg yg := by
  have hm : links.mapM (fun l : GapLink => (rainChain sp l.p l.levels l.wet).map fun rs => rd rs t) =
      .ok (links.map fun l => optF (if l.Reports t then some (v l) else none)) := by
    induction links with
    | nil => rfl
    | cons l ls ih =>
      rw [List.mapM_cons, h l (by simp), ih fun x hx => h x (List.mem_cons_of_mem _ hx)]
      by_cases hr : l.Reports t
      · simp only [List.map_cons, if_pos hr]; rfl
      · simp only [List.map_cons, if_neg hr]; rfl
  unfold gapMap idwMap
  rw [hm]
  obtain ⟨n, q, ex, D⟩ := cfg
  simp only at hcfg
  subst hcfg
  show (interpolate _ _ _ _ _ _ _ _ _ _).1 = _
  simp only [List.map_map]
  rfl

/-- **C172** The map made from records with missing levels, compared with the map of the true rain on the links that have a rate: NaN in the
same cells, which are those without such a link in reach; elsewhere not negative and never above it; and below it by at most `R_min` if no level
is missing earlier in the event on the links in reach. -/
theorem C172_map {knn : Knn} (hk : IsKnn knn) (cfg : Config) (hcfg : cfg.excludeNan = true) (hn : 1 < cfg.nnear)
    (sp : Spline) (links : List GapLink) (t : ℕ) (hmade : ∀ l ∈ links, l.Made t) (xg yg : Grid ℝ)
    (hshape : xg.map List.length = yg.map List.length) (hne : xg.flatten ≠ []) :
    ∃ zg zt, gapMap knn cfg sp links t xg yg = .ok zg ∧
      idwMap knn cfg.nnear cfg.p cfg.maxDistance (trueRain links t) xg yg = .ok zt ∧
      zg.map List.length = xg.map List.length ∧
      ∀ (i : Nat) a b, xg.flatten[i]? = some a → yg.flatten[i]? = some b →
        (zg.flatten[i]? = some .nan ∧ zt.flatten[i]? = some .nan ∧
          ∀ l ∈ links, l.Reports t → within cfg.maxDistance (euclid (a, b) l.pos) = false) ∨
        ∃ r r', zg.flatten[i]? = some (.fin r) ∧ zt.flatten[i]? = some (.fin r') ∧
          (∃ l ∈ links, l.Reports t ∧ within cfg.maxDistance (euclid (a, b) l.pos) = true) ∧
          0 ≤ r ∧ r ≤ r' ∧
          ∀ Rm : ℝ, 0 ≤ Rm → (∀ l ∈ links, l.p.Rmin ≤ Rm) →
            (∀ l ∈ links, l.Reports t → within cfg.maxDistance (euclid (a, b) l.pos) = true → l.Whole t) → r' - Rm ≤ r := by
  classical
  have hch : ∀ l : GapLink, ∃ v : ℝ, l ∈ links →
      ((rainChain sp l.p l.levels l.wet).map fun rs => rd rs t) = .ok (if l.Reports t then .fin v else .nan) ∧
      (l.Reports t → 0 ≤ v ∧ v ≤ rainOn l.wet l.R t ∧
        (l.Whole t → v = if rainOn l.wet l.R t < l.p.Rmin then 0 else rainOn l.wet l.R t)) := by
    intro l
    by_cases hl : l ∈ links
    · obtain ⟨v, hv⟩ := gapLink_rate sp l t (hmade l hl)
      exact ⟨v, fun _ => hv⟩
    · exact ⟨0, fun h => absurd h hl⟩
  choose v hv using hch
  rw [gapMap_idw knn cfg hcfg sp links t v (fun l hl => (hv l hl).1) xg yg]
  let pts : List (Pt × Option (ℝ × ℝ)) :=
    links.map fun l => (l.pos, if l.Reports t then some (v l, rainOn l.wet l.R t) else none)
  have e1 : valuesOf (·.1) pts = links.map fun l => (l.pos, if l.Reports t then some (v l) else none) := by
    simp only [pts, valuesOf, List.map_map]
    refine List.map_congr_left fun l _ => ?_
    simp only [Function.comp_apply]
    split <;> rfl
  have e2 : valuesOf (·.2) pts = trueRain links t := by
    simp only [pts, valuesOf, trueRain, List.map_map]
    refine List.map_congr_left fun l _ => ?_
    simp only [Function.comp_apply]
    split <;> rfl
  obtain ⟨zg, zt, h1, h2, h3⟩ := C133_difference hk hn cfg.p cfg.maxDistance pts xg yg hshape hne
  rw [e1] at h1
  rw [e2] at h2
  obtain ⟨zg', h4, h5, h6⟩ := idwMap_cell_bounds hk hn cfg.p cfg.maxDistance
    (links.map fun l => (l.pos, if l.Reports t then some (v l) else none)) xg yg hshape hne
  have : zg' = zg := by rw [h1] at h4; exact (Except.ok.inj h4).symm
  subst this
  have hmem : ∀ x z, (x, some z) ∈ (links.map fun l => (l.pos, if l.Reports t then some (v l) else none)) ↔
      ∃ l ∈ links, l.Reports t ∧ l.pos = x ∧ v l = z := by
    intro x z
    rw [List.mem_map]
    constructor
    · rintro ⟨l, hl, e⟩
      injection e with a1 a2
      by_cases hr : l.Reports t
      · rw [if_pos hr] at a2
        exact ⟨l, hl, hr, a1, Option.some.inj a2⟩
      · rw [if_neg hr] at a2
        cases a2
    · rintro ⟨l, hl, hr, rfl, rfl⟩
      exact ⟨l, hl, by rw [if_pos hr]⟩
  have hpts : ∀ e ∈ pts, ∀ w, e.2 = some w → ∃ l ∈ links, l.Reports t ∧ e.1 = l.pos ∧ w = (v l, rainOn l.wet l.R t) := by
    intro e he w hw
    obtain ⟨l, hl, rfl⟩ := List.mem_map.mp he
    by_cases hr : l.Reports t
    · simp only [if_pos hr, Option.some.injEq] at hw
      exact ⟨l, hl, hr, rfl, hw.symm⟩
    · simp only [if_neg hr] at hw
      cases hw
  refine ⟨zg', zt, h1, h2, h5, fun i a b ha hb => ?_⟩
  obtain ⟨B, hB⟩ : ∃ B : ℝ, ∀ l ∈ links, rainOn l.wet l.R t ≤ B := by
    clear hmade hv h1 h2 h3 h4 h5 h6 hmem hpts e1 e2
    induction links with
    | nil => exact ⟨0, by simp⟩
    | cons l ls ih =>
      obtain ⟨B, hB⟩ := ih
      refine ⟨max B (rainOn l.wet l.R t), fun x hx => ?_⟩
      rcases List.mem_cons.mp hx with rfl | hx
      · exact le_max_right _ _
      · exact (hB x hx).trans (le_max_left _ _)
  have hdiff := h3 i a b ha hb (-B) 0 (by
    intro e he w hw _
    obtain ⟨l, hl, hr, -, rfl⟩ := hpts e he w hw
    obtain ⟨g0, g1, -⟩ := (hv l hl).2 hr
    have := hB l hl
    simp only
    constructor <;> linarith)
  rcases h6 i a b ha hb with ⟨hz, hno⟩ | ⟨r, hz, ⟨x, z, hx, hw⟩, hbd⟩
  · left
    refine ⟨hz, ?_, fun l hl hr => hno l.pos (v l) ((hmem _ _).mpr ⟨l, hl, hr, rfl, rfl⟩)⟩
    rcases hdiff with ⟨-, q⟩ | ⟨r1, r2, q, -⟩
    · exact q
    · rw [hz] at q
      cases q
  · right
    rcases hdiff with ⟨q, -⟩ | ⟨r1, r2, q1, q2, -, q4⟩
    · rw [hz] at q
      cases q
    · rw [hz] at q1
      injection q1 with q1
      injection q1 with q1
      subst q1
      refine ⟨r, r2, hz, q2, ?_, ?_, by linarith, ?_⟩
      · obtain ⟨l, hl, hr, rfl, -⟩ := (hmem _ _).mp hx
        exact ⟨l, hl, hr, hw⟩
      · refine (hbd 0 B ?_).1
        intro x z hx _
        obtain ⟨l, hl, hr, rfl, rfl⟩ := (hmem _ _).mp hx
        obtain ⟨g0, g1, -⟩ := (hv l hl).2 hr
        exact ⟨g0, g1.trans (hB l hl)⟩
      · intro Rm hRm hmin hwhole
        rcases h3 i a b ha hb (-Rm) 0 (by
          intro e he w hw hwi
          obtain ⟨l, hl, hr, hp, rfl⟩ := hpts e he w hw
          obtain ⟨g0, g1, g2⟩ := (hv l hl).2 hr
          rw [hp] at hwi
          have g3 := g2 (hwhole l hl hr hwi)
          have := hmin l hl
          simp only
          refine ⟨?_, by linarith⟩
          rw [g3]
          split <;> linarith) with ⟨q, -⟩ | ⟨r1, r3, q1, q3, q5, -⟩
        · rw [hz] at q
          cases q
        · rw [hz] at q1
          rw [q2] at q3
          injection q1 with q1
          injection q1 with q1
          injection q3 with q3
          injection q3 with q3
          subst q1 q3
          linarith

open scoped Classical in
/-- **C172** Compared with a rain field that changes by at most `Λ` per unit of distance and is, on each link, the rain at step `t` up to `E`:
missing levels never raise the map beyond the error of the interpolation, `Λ ρ + E`; and if none is missing earlier in the event on the links
in reach, the map is below the field by at most `Λ ρ + E + R_min`. -/
theorem C172_field {knn : Knn} (hk : IsKnn knn) (cfg : Config) (hcfg : cfg.excludeNan = true) (hn : 1 < cfg.nnear)
    (sp : Spline) (links : List GapLink) (t : ℕ) (hmade : ∀ l ∈ links, l.Made t)
    (f : Pt → ℝ) (lam E : ℝ) (hlam : 0 ≤ lam) (hf : ∀ u v, |f u - f v| ≤ lam * euclid u v)
    (hval : ∀ l ∈ links, |(if WetAt l.wet t then l.R t else 0) - f l.pos| ≤ E) (xg yg : Grid ℝ)
    (hshape : xg.map List.length = yg.map List.length) (hne : xg.flatten ≠ []) :
    ∃ zg, gapMap knn cfg sp links t xg yg = .ok zg ∧ zg.map List.length = xg.map List.length ∧
      ∀ (i : Nat) a b, xg.flatten[i]? = some a → yg.flatten[i]? = some b →
        (∃ l ∈ links, l.Reports t ∧ within cfg.maxDistance (euclid (a, b) l.pos) = true) →
        ∃ r, zg.flatten[i]? = some (.fin r) ∧ 0 ≤ r ∧
          ∀ ρ : ℝ, (cfg.nnear.toNat ≤ links.countP (fun l => decide (l.Reports t ∧
                within cfg.maxDistance (euclid (a, b) l.pos) = true ∧ euclid (a, b) l.pos ≤ ρ)) ∨
              ∀ l ∈ links, l.Reports t → within cfg.maxDistance (euclid (a, b) l.pos) = true → euclid (a, b) l.pos ≤ ρ) →
            r ≤ f (a, b) + (lam * ρ + E) ∧
            ∀ Rm : ℝ, 0 ≤ Rm → (∀ l ∈ links, l.p.Rmin ≤ Rm) →
              (∀ l ∈ links, l.Reports t → within cfg.maxDistance (euclid (a, b) l.pos) = true → l.Whole t) →
              f (a, b) - (lam * ρ + E) - Rm ≤ r := by
  obtain ⟨zg, zt, h1, h2, h3, h4⟩ := C172_map hk cfg hcfg hn sp links t hmade xg yg hshape hne
  have hmem : ∀ x z, (x, some z) ∈ trueRain links t ↔ ∃ l ∈ links, l.Reports t ∧ l.pos = x ∧ rainOn l.wet l.R t = z := by
    intro x z
    unfold trueRain
    rw [List.mem_map]
    constructor
    · rintro ⟨l, hl, e⟩
      injection e with a1 a2
      by_cases hr : l.Reports t
      · rw [if_pos hr] at a2
        exact ⟨l, hl, hr, a1, Option.some.inj a2⟩
      · rw [if_neg hr] at a2
        cases a2
    · rintro ⟨l, hl, hr, rfl, rfl⟩
      exact ⟨l, hl, by rw [if_pos hr]⟩
  obtain ⟨zt', h5, -, h6⟩ := C136_field hk hn cfg.p cfg.maxDistance (trueRain links t) xg yg hshape hne f lam E hlam hf (by
    intro x z hx
    obtain ⟨l, hl, -, rfl, rfl⟩ := (hmem _ _).mp hx
    have := hval l hl
    unfold rainOn
    convert this)
  have : zt' = zt := by rw [h2] at h5; exact (Except.ok.inj h5).symm
  subst this
  refine ⟨zg, h1, h3, fun i a b ha hb hex => ?_⟩
  obtain ⟨r0, q1, q2⟩ := h6 i a b ha hb (by
    obtain ⟨l, hl, hr, hw⟩ := hex
    exact ⟨l.pos, _, (hmem _ _).mpr ⟨l, hl, hr, rfl, rfl⟩, hw⟩)
  rcases h4 i a b ha hb with ⟨-, hn', -⟩ | ⟨r, r', e1, e2, -, e4, e5, e6⟩
  · rw [hn'] at q1
    cases q1
  · rw [e2] at q1
    injection q1 with q1
    injection q1 with q1
    subst q1
    refine ⟨r, e1, e4, fun ρ hρ => ?_⟩
    have hb' := q2 ρ (by
      rcases hρ with hρ | hρ
      · left
        refine hρ.trans (le_of_eq ?_)
        unfold nWithin trueRain
        rw [List.countP_map]
        apply List.countP_congr
        intro l hl
        rw [decide_eq_true_iff]
        simp only [Function.comp_apply, Bool.and_eq_true, decide_eq_true_iff]
        by_cases hr : l.Reports t
        · simp [hr]
        · simp [hr]
      · right
        intro x z hx hw
        obtain ⟨l, hl, hr, rfl, rfl⟩ := (hmem _ _).mp hx
        exact hρ l hl hr hw)
    rw [abs_le] at hb'
    refine ⟨by linarith [hb'.2], fun Rm hRm hmin hwhole => ?_⟩
    have := e6 Rm hRm hmin hwhole
    linarith [hb'.1]

open Classical in
/-- **C172** Links without a rate at step `t` do not matter: without them the map is the same. -/
theorem C172_absent {knn : Knn} (cfg : Config) (hcfg : cfg.excludeNan = true) (hn : 1 < cfg.nnear)
    (sp : Spline) (links : List GapLink) (t : ℕ) (hmade : ∀ l ∈ links, l.Made t) (xg yg : Grid ℝ)
    (hshape : xg.map List.length = yg.map List.length) (hne : xg.flatten ≠ []) :
    gapMap knn cfg sp links t xg yg =
      gapMap knn cfg sp (links.filter fun l => decide (¬ l.gap t ∧ ¬ NoBase l.wet l.gap l.p.n t)) t xg yg := by
  have hch : ∀ l : GapLink, ∃ v : ℝ, l ∈ links →
      ((rainChain sp l.p l.levels l.wet).map fun rs => rd rs t) = .ok (if l.Reports t then .fin v else .nan) := by
    intro l
    by_cases hl : l ∈ links
    · obtain ⟨v, hv, -⟩ := gapLink_rate sp l t (hmade l hl)
      exact ⟨v, fun _ => hv⟩
    · exact ⟨0, fun h => absurd h hl⟩
  choose v hv using hch
  rw [gapMap_idw knn cfg hcfg sp links t v hv xg yg,
    gapMap_idw knn cfg hcfg sp _ t v (fun l hl => hv l (List.mem_of_mem_filter hl)) xg yg]
  obtain ⟨z1, a1, b1, c1⟩ := idwMap_cells knn hn cfg.p cfg.maxDistance
    (links.map fun l => (l.pos, if l.Reports t then some (v l) else none)) xg yg hshape hne
  obtain ⟨z2, a2, b2, c2⟩ := idwMap_cells knn hn cfg.p cfg.maxDistance
    ((links.filter fun l : GapLink => decide (¬ l.gap t ∧ ¬ NoBase l.wet l.gap l.p.n t)).map
      fun l => (l.pos, if l.Reports t then some (v l) else none)) xg yg hshape hne
  have hw : withValue (links.map fun l => (l.pos, if l.Reports t then some (v l) else none)) =
      withValue ((links.filter fun l : GapLink => decide (¬ l.gap t ∧ ¬ NoBase l.wet l.gap l.p.n t)).map
        fun l : GapLink => (l.pos, if l.Reports t then some (v l) else none)) := by
    clear hv hmade a1 a2 b1 b2 c1 c2
    induction links with
    | nil => rfl
    | cons l ls ih =>
      by_cases hr : l.Reports t
      · rw [List.filter_cons_of_pos (by unfold GapLink.Reports at hr; simpa using hr)]
        unfold withValue at ih ⊢
        simp only [List.map_cons, if_pos hr, List.filterMap_cons, Option.map_some]
        rw [ih]
      · rw [List.filter_cons_of_neg (by unfold GapLink.Reports at hr; simpa using hr)]
        unfold withValue at ih ⊢
        simp only [List.map_cons, if_neg hr, List.filterMap_cons, Option.map_none]
        exact ih
  rw [a1, a2]
  congr 1
  refine grid_ext (by rw [b1, b2]) ?_
  rw [c1, c2, hw]

/-- A link with rain of 3 mm/h at steps 1 to 3, without a level at step 2. -/
noncomputable def gapDemoA : GapLink :=
  ⟨(0, 0), ⟨1, 2, 1, 15, 10, 1/10, 1, 1/10⟩, [false, true, true, true], 4, (· = 2), fun _ => 50, fun _ => 3⟩

/-- A link with the same rain, without a level at step 3. -/
noncomputable def gapDemoB : GapLink :=
  ⟨(4, 0), ⟨1, 2, 1, 15, 10, 1/10, 1, 1/10⟩, [false, true, true, true], 4, (· = 3), fun _ => 60, fun _ => 3⟩

noncomputable def gapDemo : List GapLink := [gapDemoA, gapDemoB]

theorem gapDemo_wet {t : ℕ} : WetAt [false, true, true, true] t ↔ 1 ≤ t ∧ t < 4 := by
  unfold WetAt
  rcases t with _ | _ | _ | _ | t <;> simp

theorem gapDemo_made (t : ℕ) (ht : t < 4) : ∀ l ∈ gapDemo, l.Made t := by
  intro l hl
  simp only [gapDemo, List.mem_cons, List.not_mem_nil, or_false] at hl
  rcases hl with rfl | rfl
  all_goals
    refine ⟨by constructor <;> norm_num [gapDemoA, gapDemoB], by norm_num [gapDemoA, gapDemoB], le_rfl, by intros; norm_num [gapDemoA, gapDemoB], ?_, by intros; rfl, ht⟩
    intro s hs
    simp only [gapDemoA, gapDemoB] at hs ⊢
    rw [gapDemo_wet]
    omega

theorem gapDemo_base {g t : ℕ} (hg : WetAt [false, true, true, true] g) : ¬ NoBase [false, true, true, true] (· = g) 1 t := by
  intro h
  induction h with
  | dry h1 h2 => exact h1 (h2 ▸ hg)
  | event _ _ _ _ _ _ ih => exact ih

/-- `C172_field`: at step 1 both have a rate, and between them the map shows 3 mm/h up to `R_min`. -/
example (sp : Spline) : ∃ zg r, gapMap bruteKnn ⟨8, 2, true, none⟩ sp gapDemo 1 [[2]] [[0]] = .ok zg ∧
    zg.flatten[0]? = some (.fin r) ∧ r ≤ 3 ∧ 3 - 1/10 ≤ r := by
  obtain ⟨zg, h1, -, h2⟩ := C172_field bruteKnn_isKnn ⟨8, 2, true, none⟩ rfl (by norm_num) sp gapDemo 1 (gapDemo_made 1 (by norm_num))
    (fun _ => 3) 0 0 le_rfl (by simp) (by
      intro l hl
      simp only [gapDemo, List.mem_cons, List.not_mem_nil, or_false] at hl
      rcases hl with rfl | rfl <;> simp [WetAt, gapDemoA, gapDemoB]) [[2]] [[0]] rfl (by simp)
  obtain ⟨r, h3, -, h4⟩ := h2 0 2 0 rfl rfl ⟨_, List.mem_cons_self, ⟨by simp [gapDemoA], gapDemo_base (by rw [gapDemo_wet]; omega)⟩, rfl⟩
  obtain ⟨h5, h6⟩ := h4 2 (Or.inr (by
    intro l hl _ _
    simp only [gapDemo, List.mem_cons, List.not_mem_nil, or_false] at hl
    rcases hl with rfl | rfl <;> simp only [gapDemoA, gapDemoB] <;> rw [euclid_axis] <;> norm_num [abs_le]))
  have := h6 (1/10) (by norm_num) (by
    intro l hl
    simp only [gapDemo, List.mem_cons, List.not_mem_nil, or_false] at hl
    rcases hl with rfl | rfl <;> exact le_rfl) (by
    intro l hl _ _ k hk _
    simp only [gapDemo, List.mem_cons, List.not_mem_nil, or_false] at hl
    rcases hl with rfl | rfl <;> simp only [gapDemoA, gapDemoB] <;> omega)
  exact ⟨zg, r, h1, h3, by linarith, by linarith⟩

/-- `C172_absent`, `C172_map`: at step 3 only the first link has a rate, and the map is that of this link alone and at most 3 mm/h. -/
example (sp : Spline) : ∃ zg r, gapMap bruteKnn ⟨8, 2, true, none⟩ sp gapDemo 3 [[2]] [[0]] = .ok zg ∧
    gapMap bruteKnn ⟨8, 2, true, none⟩ sp [gapDemoA] 3 [[2]] [[0]] = .ok zg ∧
    zg.flatten[0]? = some (.fin r) ∧ r ≤ 3 := by
  classical
  have hm := gapDemo_made 3 (by norm_num)
  have ha := C172_absent (knn := bruteKnn) ⟨8, 2, true, none⟩ rfl (by norm_num) sp gapDemo 3 hm [[2]] [[0]] rfl (by simp)
  have hr : gapDemoA.Reports 3 := ⟨by simp [gapDemoA], gapDemo_base (by rw [gapDemo_wet]; omega)⟩
  have hf : (gapDemo.filter fun l => decide (¬ l.gap 3 ∧ ¬ NoBase l.wet l.gap l.p.n 3)) = [gapDemoA] := by
    unfold gapDemo
    rw [List.filter_cons_of_pos (by unfold GapLink.Reports at hr; simpa using hr), List.filter_cons_of_neg (by simp [gapDemoB])]
    rfl
  rw [hf] at ha
  obtain ⟨zg, zt, h1, h2, -, h4⟩ := C172_map bruteKnn_isKnn ⟨8, 2, true, none⟩ rfl (by norm_num) sp gapDemo 3 hm [[2]] [[0]] rfl (by simp)
  rcases h4 0 2 0 rfl rfl with ⟨-, -, h⟩ | ⟨r, r', e1, e2, -, e4, e5, -⟩
  · have := h _ List.mem_cons_self hr
    simp [within] at this
  · refine ⟨zg, r, h1, ha ▸ h1, e1, e5.trans ?_⟩
    obtain ⟨zt', g1, -, g2⟩ := C136_field bruteKnn_isKnn (nnear := 8) (by norm_num) 2 none (trueRain gapDemo 3) [[2]] [[0]] rfl (by simp)
      (fun _ => 3) 0 0 le_rfl (by simp) (by
        intro x z hx
        simp only [trueRain, gapDemo, gapDemoA, gapDemoB, List.map_cons, List.map_nil, List.mem_cons, List.not_mem_nil, or_false] at hx
        rcases hx with hx | hx
        all_goals
          injection hx with _ hx
          split at hx
          · injection hx with hx
            rw [hx, rainOn, if_pos (by rw [gapDemo_wet]; omega)]
            simp
          · cases hx)
    have : zt' = zt := by
      have h2' : idwMap bruteKnn 8 2 none (trueRain gapDemo 3) [[2]] [[0]] = .ok zt := h2
      rw [g1] at h2'
      exact Except.ok.inj h2'
    subst this
    obtain ⟨r0, q1, q2⟩ := g2 0 2 0 rfl rfl ⟨(0, 0), 3, by
      unfold trueRain gapDemo
      rw [List.map_cons, if_pos hr]
      have : rainOn gapDemoA.wet gapDemoA.R 3 = 3 := by
        rw [rainOn, if_pos (by show WetAt [false, true, true, true] 3; rw [gapDemo_wet]; omega)]
        rfl
      rw [this]
      exact List.mem_cons_self, rfl⟩
    rw [e2] at q1
    injection q1 with q1
    injection q1 with q1
    subst q1
    have := q2 4 (Or.inr (by
      intro x z hx _
      simp only [trueRain, gapDemo, gapDemoA, gapDemoB, List.map_cons, List.map_nil, List.mem_cons, List.not_mem_nil, or_false] at hx
      rcases hx with hx | hx
      all_goals
        injection hx with hx _
        rw [hx, euclid_axis]
        norm_num [abs_le]))
    rw [abs_le] at this
    linarith [this.2]

end Verif.Props
