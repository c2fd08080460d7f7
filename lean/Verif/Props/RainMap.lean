import Verif.Props.Interpolator
import Verif.Props.Chain

/-!
# Property C123: from the levels of a network to a rain map

The chain of C76 for every link, followed by `IdwKdtreeInterpolator` on the rain rates of one time step.
-/

namespace Verif.Props
open Verif Verif.Idw Verif.KR

/-- A link of the network: its position (the centre) and, unless it is out of order, its parameters, levels and wet flags. -/
structure Link where
  pos : Pt
  data : Option (ChainParams × List ℝ × List Bool)

/-- Levels for all steps and usable parameters. -/
def Link.Ok (l : Link) (t : Nat) : Prop :=
  ∀ p xs wet, l.data = some (p, xs, wet) → p.Ok ∧ xs.length ≤ wet.length ∧ t < xs.length

/-- The rain rate of a link at time step `t`; NaN if it is out of order. -/
noncomputable def linkRate (sp : Spline) (t : Nat) (l : Link) : Except Err (Fl ℝ) :=
  match l.data with
  | none => .ok .nan
  | some (p, xs, wet) => (rainChain sp p (xs.map Fl.fin) wet).map fun rs => rd rs t

/-- The rain map of time step `t`. -/
noncomputable def rainMap (knn : Knn) (cfg : Config) (sp : Spline) (links : List Link) (t : Nat) (xg yg : Grid ℝ) :
    Except Err (Grid (Fl ℝ)) := do
  let z ← links.mapM (linkRate sp t)
  (interpolate knn cfg (fun _ => []) none (.own (links.map (·.pos.1))) (.own (links.map (·.pos.2))) z (some xg) (some yg)
    none).1

/-- A link in order is within reach of the point `q`. -/
def Link.reaches (cfg : Config) (q : Pt) (l : Link) : Prop :=
  l.data ≠ none ∧ match cfg.maxDistance with
    | none => True
    | some d => (Fl.fin (euclid q l.pos)) <ᶠ d

/-- The link reports no rain at step `t`: not wet, or one of the first steps. -/
def Link.dry (t : Nat) (l : Link) : Prop :=
  ∀ p xs wet, l.data = some (p, xs, wet) → t < p.n ∨ wet[t]? = some false

theorem linkRate_ok (sp : Spline) (t : Nat) (l : Link) (h : l.Ok t) :
    (l.data = none ∧ linkRate sp t l = .ok .nan) ∨
    (l.data ≠ none ∧ ∃ r, linkRate sp t l = .ok (.fin r) ∧ 0 ≤ r ∧ (l.dry t → r = 0)) := by
  unfold linkRate
  cases hd : l.data with
  | none => exact .inl ⟨rfl, rfl⟩
  | some e =>
    obtain ⟨p, xs, wet⟩ := e
    obtain ⟨h1, h2, h3⟩ := h p xs wet hd
    obtain ⟨rs, e1, e2, e3, e4⟩ := C76_nonneg_and_dry sp p h1 xs wet h2
    refine .inr ⟨by simp, rs[t]'(by omega), ?_, e3 _ (List.getElem_mem _), ?_⟩
    · dsimp only
      rw [e1]
      show Except.ok (rd (rs.map Fl.fin) t) = _
      rw [rd_map_fin (by omega)]
    · intro hdry
      have := e4 t h3 (hdry p xs wet hd)
      rw [List.getElem?_eq_getElem (by omega)] at this
      exact Option.some.inj this

/-- The rates of the network and the points the interpolator uses. -/
theorem goodPoints (sp : Spline) (t : Nat) (links : List Link) (h : ∀ l ∈ links, l.Ok t) :
    ∃ (z : List (Fl ℝ)) (good : List (Pt × ℝ)), links.mapM (linkRate sp t) = .ok z ∧ z.length = links.length ∧
      (((links.map (·.pos)).zip z).filter fun e => !(isNaN e.2)) = good.map (fun e => (e.1, Fl.fin e.2)) ∧
      (∀ e ∈ good, ∃ l ∈ links, l.data ≠ none ∧ l.pos = e.1 ∧ linkRate sp t l = .ok (.fin e.2) ∧ 0 ≤ e.2 ∧
        (l.dry t → e.2 = 0)) ∧
      (∀ l ∈ links, l.data ≠ none → ∃ e ∈ good, e.1 = l.pos) ∧ (good = [] → ∀ v ∈ z, v = .nan) := by
  induction links with
  | nil => exact ⟨[], [], rfl, rfl, rfl, by simp, by simp, by simp⟩
  | cons l ls ih =>
    obtain ⟨z, good, e1, e2, e3, e4, e5, e6⟩ := ih fun x hx => h x (List.mem_cons_of_mem _ hx)
    rcases linkRate_ok sp t l (h l List.mem_cons_self) with ⟨h1, h2⟩ | ⟨h1, r, h2, h3, h4⟩
    · refine ⟨.nan :: z, good, ?_, by simp [e2], ?_, ?_, ?_, ?_⟩
      · rw [List.mapM_cons, h2, e1]; rfl
      · simpa using e3
      · intro e he
        obtain ⟨l', hl', hh⟩ := e4 e he
        exact ⟨l', List.mem_cons_of_mem _ hl', hh⟩
      · intro l' hl' hd
        rcases List.mem_cons.mp hl' with rfl | hl'
        · exact absurd h1 hd
        · exact e5 l' hl' hd
      · intro hg v hv
        rcases List.mem_cons.mp hv with rfl | hv
        · rfl
        · exact e6 hg v hv
    · refine ⟨.fin r :: z, (l.pos, r) :: good, ?_, by simp [e2], ?_, ?_, ?_, by simp⟩
      · rw [List.mapM_cons, h2, e1]; rfl
      · simpa using e3
      · intro e he
        rcases List.mem_cons.mp he with rfl | he
        · exact ⟨l, List.mem_cons_self, h1, rfl, h2, h3, h4⟩
        · obtain ⟨l', hl', hh⟩ := e4 e he
          exact ⟨l', List.mem_cons_of_mem _ hl', hh⟩
      · intro l' hl' hd
        rcases List.mem_cons.mp hl' with rfl | hl'
        · exact ⟨_, List.mem_cons_self, rfl⟩
        · obtain ⟨e, he, hh⟩ := e5 l' hl' hd
          exact ⟨e, List.mem_cons_of_mem _ he, hh⟩

/-- **C123** The map exists and has the shape of the grid. A cell is NaN exactly if no working link is within reach;
otherwise it holds a rain rate between 0 and the largest rate of the working links within reach, and exactly 0 if these are all
dry. Links that are out of order do not matter. -/
theorem C123_map {knn : Knn} (hk : IsKnn knn) (cfg : Config) (hcfg : cfg.excludeNan = true) (hn : 1 < cfg.nnear)
    (sp : Spline) (links : List Link) (t : Nat) (hok : ∀ l ∈ links, l.Ok t) (xg yg : Grid ℝ)
    (hshape : xg.map List.length = yg.map List.length) (hne : xg.flatten ≠ []) :
    ∃ zg, rainMap knn cfg sp links t xg yg = .ok zg ∧ zg.map List.length = xg.map List.length ∧
      ∀ (j : Nat) a b v, xg.flatten[j]? = some a → yg.flatten[j]? = some b → zg.flatten[j]? = some v →
        (v = .nan ↔ ∀ l ∈ links, ¬ l.reaches cfg (a, b)) ∧
        ∀ M : ℝ, (∀ l ∈ links, l.reaches cfg (a, b) → ∃ r, linkRate sp t l = .ok (.fin r) ∧ r ≤ M) →
          (∃ l ∈ links, l.reaches cfg (a, b)) →
          (∃ r, v = .fin r ∧ 0 ≤ r ∧ r ≤ M) ∧
          ((∀ l ∈ links, l.reaches cfg (a, b) → l.dry t) → v = .fin 0) := by
  obtain ⟨z, good, e1, e2, e3, e4, e5, e6⟩ := goodPoints sp t links hok
  unfold rainMap
  rw [e1]
  show ∃ zg, (interpolate knn cfg (fun _ => []) none (.own (links.map (·.pos.1))) (.own (links.map (·.pos.2))) z (some xg)
    (some yg) none).1 = .ok zg ∧ _
  by_cases hg : good = []
  · -- no working link
    have hnone : ∀ l ∈ links, l.data = none := by
      intro l hl
      by_contra hd
      obtain ⟨e, he, _⟩ := e5 l hl hd
      rw [hg] at he
      cases he
    refine ⟨_, C48_all_nan knn cfg (fun _ => []) none _ _ z xg yg none (by simp [Src.get, e2]) (by simp [Src.get, e2])
      (e6 hg), ?_, ?_⟩
    · rw [List.map_map]
      apply List.map_congr_left
      intro r _
      simp
    · intro j a b v _ _ hv
      have hv' : v = .nan := by
        have hm := List.mem_of_getElem? hv
        rw [List.mem_flatten] at hm
        obtain ⟨r, hr, hvr⟩ := hm
        obtain ⟨r', _, rfl⟩ := List.mem_map.mp hr
        exact List.eq_of_mem_replicate hvr
      refine ⟨⟨fun _ l hl hr => hr.1 (hnone l hl), fun _ => hv'⟩, ?_⟩
      rintro M _ ⟨l, hl, hr⟩
      exact absurd (hnone l hl) hr.1
  · have hx : ((links.map (·.pos)).zip z).map (·.1.1) = links.map (·.pos.1) := by
      rw [show (fun e : Pt × Fl ℝ => e.1.1) = (fun q : Pt => q.1) ∘ Prod.fst from rfl, ← List.map_map,
        List.map_fst_zip (by simp [e2]), List.map_map]
      rfl
    have hy : ((links.map (·.pos)).zip z).map (·.1.2) = links.map (·.pos.2) := by
      rw [show (fun e : Pt × Fl ℝ => e.1.2) = (fun q : Pt => q.2) ∘ Prod.fst from rfl, ← List.map_map,
        List.map_fst_zip (by simp [e2]), List.map_map]
      rfl
    have hz : ((links.map (·.pos)).zip z).map (·.2) = z := List.map_snd_zip (by simp [e2])
    obtain ⟨zg, f1, f2, f3⟩ := C48_value hk cfg hcfg hn (fun _ => []) ((links.map (·.pos)).zip z) xg yg hshape hne good e3 hg none
    rw [hx, hy, hz] at f1
    refine ⟨zg, f1, f2, ?_⟩
    intro j a b v ha hb hv
    obtain ⟨S, hS⟩ := f3 j a b v ha hb hv
    obtain ⟨b1, b2⟩ := hS.bounds (by omega)
    have hrange : ∀ i, inRange (good.map (·.1)) (a, b) cfg.maxDistance i ↔
        ∃ e, good[i]? = some e ∧ match cfg.maxDistance with
          | none => True
          | some d => (Fl.fin (euclid (a, b) e.1)) <ᶠ d := by
      intro i
      unfold inRange dI
      rw [List.length_map]
      constructor
      · rintro ⟨hi, hd⟩
        refine ⟨good[i], List.getElem?_eq_getElem hi, ?_⟩
        rw [List.getD_eq_getElem _ _ (by simpa using hi), List.getElem_map] at hd
        exact hd
      · rintro ⟨e, he, hd⟩
        obtain ⟨hi, rfl⟩ := List.getElem?_eq_some_iff.mp he
        refine ⟨hi, ?_⟩
        rw [List.getD_eq_getElem _ _ (by simpa using hi), List.getElem_map]
        exact hd
    have hreach : (∃ i, inRange (good.map (·.1)) (a, b) cfg.maxDistance i) ↔ ∃ l ∈ links, l.reaches cfg (a, b) := by
      constructor
      · rintro ⟨i, hi⟩
        obtain ⟨e, he, hd⟩ := (hrange i).mp hi
        obtain ⟨l, hl, hld, hp, _⟩ := e4 e (List.mem_of_getElem? he)
        exact ⟨l, hl, hld, by rw [hp]; exact hd⟩
      · rintro ⟨l, hl, hld, hd⟩
        obtain ⟨e, he, hp⟩ := e5 l hl hld
        obtain ⟨i, hi⟩ := List.mem_iff_getElem?.mp he
        exact ⟨i, (hrange i).mpr ⟨e, hi, by rw [hp]; exact hd⟩⟩
    have hval : ∀ i, inRange (good.map (·.1)) (a, b) cfg.maxDistance i → ∃ l ∈ links, l.reaches cfg (a, b) ∧
        linkRate sp t l = .ok (.fin ((good.map (·.2)).getD i 0)) ∧ 0 ≤ (good.map (·.2)).getD i 0 ∧
        (l.dry t → (good.map (·.2)).getD i 0 = 0) := by
      intro i hi
      obtain ⟨e, he, hd⟩ := (hrange i).mp hi
      obtain ⟨l, hl, hld, hp, hr, h0, hdry⟩ := e4 e (List.mem_of_getElem? he)
      have hge : (good.map (·.2)).getD i 0 = e.2 := by
        rw [List.getD_eq_getElem?_getD, List.getElem?_map, he]
        rfl
      rw [hge]
      exact ⟨l, hl, ⟨hld, by rw [hp]; exact hd⟩, hr, h0, hdry⟩
    refine ⟨?_, ?_⟩
    · rw [b1, ← not_exists, hreach]
      push Not
      rfl
    · intro M hM hex
      refine ⟨b2 0 M ?_ (hreach.mpr hex), ?_⟩
      · intro i hi
        obtain ⟨l, hl, hlr, hr, h0, _⟩ := hval i hi
        obtain ⟨r, hr', hrM⟩ := hM l hl hlr
        rw [hr] at hr'
        injection hr' with hr'
        injection hr' with hr'
        exact ⟨h0, by rw [hr']; exact hrM⟩
      · intro hdry
        obtain ⟨r, hr, r1, r2⟩ := b2 0 0 (by
          intro i hi
          obtain ⟨l, hl, hlr, _, _, hd⟩ := hval i hi
          rw [hd (hdry l hl hlr)]
          exact ⟨le_rfl, le_rfl⟩) (hreach.mpr hex)
        rw [hr, le_antisymm r2 r1]

/-- The levels of a link with an offset of `d` dB. -/
def Link.offset (d : ℝ) (l : Link) : Link :=
  { l with data := l.data.map fun e => (e.1, e.2.1.map (· + d), e.2.2) }

/-- **C123** The map does not depend on level offsets, different ones for the different links. -/
theorem C123_offset (knn : Knn) (cfg : Config) (sp : Spline) (links : List Link) (d : Link → ℝ) (t : Nat)
    (hok : ∀ l ∈ links, l.Ok t) (xg yg : Grid ℝ) :
    rainMap knn cfg sp (links.map fun l => l.offset (d l)) t xg yg = rainMap knn cfg sp links t xg yg := by
  have h : ∀ l ∈ links, linkRate sp t (l.offset (d l)) = linkRate sp t l := by
    intro l hl
    unfold linkRate Link.offset
    cases hd : l.data with
    | none => rfl
    | some e =>
      obtain ⟨p, xs, wet⟩ := e
      obtain ⟨h1, h2, h3⟩ := hok l hl p xs wet hd
      show (rainChain sp p ((xs.map (· + d l)).map Fl.fin) wet).map _ = _
      have e : (xs.map (· + d l)).map Fl.fin = xs.map fun x => Fl.fin (x + d l) := by
        rw [List.map_map]; rfl
      rw [e, C77_offset sp p h1.n xs wet h2]
  unfold rainMap
  have e : (links.map fun l => l.offset (d l)).mapM (linkRate sp t) = links.mapM (linkRate sp t) := by
    clear hok
    induction links with
    | nil => rfl
    | cons l ls ih =>
      rw [List.map_cons, List.mapM_cons, List.mapM_cons, h l List.mem_cons_self,
        ih fun x hx => h x (List.mem_cons_of_mem _ hx)]
  rw [e]
  simp only [List.map_map]
  rfl

/-- Three links: a dry one, a wet one that sees 5 dB more, and one out of order. A cell near the dry one holds 0, a cell near the
wet one at most its rate, and a cell out of reach of both NaN. -/
example (sp : Spline) : ∃ zg, rainMap bruteKnn ⟨8, 2, true, some (.fin 3)⟩ sp
    [⟨(0, 0), some (chainExample, [1, 6, 6], [false, false, false])⟩,
      ⟨(10, 0), some (chainExample, [1, 6, 6], [false, true, true])⟩, ⟨(1, 0), none⟩] 1 [[1, 9, 5]] [[0, 0, 0]] = .ok zg ∧
      zg.map List.length = [3] ∧ (∀ v, zg.flatten[0]? = some v → v = .fin 0) ∧
      (∀ v, zg.flatten[1]? = some v → ∃ r, v = .fin r ∧ 0 ≤ r ∧ r ≤ 24/5) ∧ ∀ v, zg.flatten[2]? = some v → v = .nan := by
  have hok : ∀ l ∈ [(⟨(0, 0), some (chainExample, [1, 6, 6], [false, false, false])⟩ : Link),
      ⟨(10, 0), some (chainExample, [1, 6, 6], [false, true, true])⟩, ⟨(1, 0), none⟩], l.Ok 1 := by
    intro l hl p xs wet hd
    rcases List.mem_cons.mp hl with rfl | hl
    · simp only [Option.some.injEq, Prod.mk.injEq] at hd
      obtain ⟨rfl, rfl, rfl⟩ := hd
      exact ⟨chainExample_ok, by simp, by simp⟩
    rcases List.mem_cons.mp hl with rfl | hl
    · simp only [Option.some.injEq, Prod.mk.injEq] at hd
      obtain ⟨rfl, rfl, rfl⟩ := hd
      exact ⟨chainExample_ok, by simp, by simp⟩
    · rw [List.mem_singleton] at hl
      subst hl
      simp at hd
  have he : ∀ x y : ℝ, euclid (x, 0) (y, 0) = |x - y| := by
    intro x y
    unfold euclid
    simp [Real.sqrt_sq_eq_abs]
  have hr : ∀ (x y : ℝ) d, Link.reaches ⟨8, 2, true, some (.fin 3)⟩ (x, 0) ⟨(y, 0), d⟩ ↔ d ≠ none ∧ |x - y| < 3 := by
    intro x y d
    unfold Link.reaches
    simp [he]
  obtain ⟨zg, h1, h2, h3⟩ := C123_map bruteKnn_isKnn ⟨8, 2, true, some (.fin 3)⟩ rfl (by norm_num) sp _ 1 hok [[1, 9, 5]]
    [[0, 0, 0]] rfl (by simp)
  refine ⟨zg, h1, h2, ?_, ?_, ?_⟩
  · intro v hv
    obtain ⟨_, g⟩ := h3 0 1 0 v rfl rfl hv
    refine (g 0 ?_ ⟨_, List.mem_cons_self, (hr _ _ _).mpr ⟨by simp, by norm_num⟩⟩).2 ?_
    · intro l hl hlr
      have hm := hl
      simp only [List.mem_cons, List.not_mem_nil, or_false] at hl
      rcases hl with rfl | rfl | rfl
      · rcases linkRate_ok sp 1 _ (hok _ hm) with ⟨h, _⟩ | ⟨_, r, e1, _, e2⟩
        · cases h
        · exact ⟨r, e1, (e2 fun p xs wet hd => by cases hd; right; rfl).le⟩
      · rw [hr] at hlr; norm_num at hlr
      · rw [hr] at hlr; norm_num at hlr
    · intro l hl hlr
      simp only [List.mem_cons, List.not_mem_nil, or_false] at hl
      rcases hl with rfl | rfl | rfl
      · intro p xs wet hd; cases hd; right; rfl
      · rw [hr] at hlr; norm_num at hlr
      · rw [hr] at hlr; norm_num at hlr
  · intro v hv
    obtain ⟨_, g⟩ := h3 1 9 0 v rfl rfl hv
    refine (g (24/5) ?_ ⟨_, List.mem_cons_of_mem _ List.mem_cons_self, (hr _ _ _).mpr ⟨by simp, by norm_num⟩⟩).1
    intro l hl hlr
    simp only [List.mem_cons, List.not_mem_nil, or_false] at hl
    rcases hl with rfl | rfl | rfl
    · rw [hr] at hlr; norm_num at hlr
    · refine ⟨24/5, ?_, le_rfl⟩
      show (rainChain sp chainExample ([1, 6, 6].map Fl.fin) [false, true, true]).map _ = _
      rw [(chainExample_run sp 1 6 6).1, rateR_example, rateR_example]
      show Except.ok (Fl.fin _) = _
      norm_num
    · rw [hr] at hlr; norm_num at hlr
  · intro v hv
    obtain ⟨g, _⟩ := h3 2 5 0 v rfl rfl hv
    rw [g]
    intro l hl
    simp only [List.mem_cons, List.not_mem_nil, or_false] at hl
    rcases hl with rfl | rfl | rfl <;> rw [hr] <;> norm_num

end Verif.Props
