import Verif.Props.RainMap
import Verif.Props.IdwDetermined
import Verif.Props.Recovery

/-!
# Property C136: accuracy of maps of smooth rain fields

The map interpolated from values of a field at some points compared with the field itself, and the map made from the
levels of a network compared with the rain that made these levels.
-/

namespace Verif.Props
open Verif Verif.Idw Verif.KR

/-! ## Lemmas -/

/-- The value lies between bounds of the values used. -/
theorem IdwIs.between {X : List Pt} {zs : List ℝ} {q : Pt} {D : Option (Fl ℝ)} {k : Nat} {p : ℝ}
    {v : Fl ℝ} {S : List Nat} (h : IdwIs X zs q D k p v S) (lo hi : ℝ)
    (hr : ∀ i ∈ S, lo ≤ zs.getD i 0 ∧ zs.getD i 0 ≤ hi) (hne : S ≠ []) : ∃ r, v = .fin r ∧ lo ≤ r ∧ r ≤ hi := by
  cases S with
  | nil => exact absurd rfl hne
  | cons i S' =>
    by_cases hd : dI X q i < 1 / 10 ^ 10
    · exact ⟨_, h.exact i S' rfl hd, hr i (by simp)⟩
    · have hge : ∀ j ∈ i :: S', 1 / 10 ^ 10 ≤ dI X q j := by
        intro j hj
        rcases List.mem_cons.mp hj with rfl | hj
        · exact not_lt.mp hd
        · exact (not_lt.mp hd).trans ((List.pairwise_cons.mp h.nearest.sorted).1 j hj)
      have hw : ∀ j ∈ i :: S', 0 < 1 / dI X q j ^ p := by
        intro j hj
        have : 0 < dI X q j := lt_of_lt_of_le (by positivity) (hge j hj)
        have := Real.rpow_pos_of_pos this p
        positivity
      refine ⟨_, h.mean (by simp) hge, ?_⟩
      have hpos : 0 < ((i :: S').map fun i => 1 / dI X q i ^ p).sum := by
        apply sum_pos_of_pos (by simp)
        intro x hx
        obtain ⟨j, hj, rfl⟩ := List.mem_map.mp hx
        exact hw j hj
      constructor
      · rw [le_div_iff₀ hpos, ← List.sum_map_mul_left]
        apply List.sum_le_sum
        intro j hj
        have := (hr j hj).1
        have := hw j hj
        nlinarith
      · rw [div_le_iff₀ hpos, ← List.sum_map_mul_left]
        apply List.sum_le_sum
        intro j hj
        have := (hr j hj).2
        have := hw j hj
        nlinarith

/-- If `k` points in range lie within `ρ`, the `k` nearest do. -/
theorem nearest_within {pts : List (Pt × Option ℝ)} {q : Pt} {D : Option (Fl ℝ)} {k : Nat} {S : List Nat}
    (hS : Nearest ((withValue pts).map (·.1)) q D k S) (ρ : ℝ) (hk : k ≤ upTo (ptsAround pts D q) ρ) :
    ∀ i ∈ S, dI ((withValue pts).map (·.1)) q i ≤ ρ := by
  classical
  intro i hi
  by_contra hc
  rw [not_le] at hc
  rw [around_idx] at hk
  unfold upTo at hk
  rw [Multiset.filter_coe, Multiset.coe_card, List.filter_map, List.length_map] at hk
  have hin : ∀ j, inRange ((withValue pts).map (·.1)) q D j ↔ j ∈ idxAround (withValue pts) D q := by
    intro j
    rw [inRange_within, idxAround, List.mem_filter, List.mem_range, List.length_map]
    rfl
  have hnd : (idxAround (withValue pts) D q).Nodup := (List.nodup_range).filter _
  have hsub : (i :: (idxAround (withValue pts) D q).filter
      ((fun e : ℝ × ℝ => decide (e.1 ≤ ρ)) ∘ pairOf (withValue pts) q)) ⊆ S := by
    intro j hj
    rcases List.mem_cons.mp hj with rfl | hj
    · exact hi
    · obtain ⟨h1, h2⟩ := List.mem_filter.mp hj
      by_contra hjS
      have h3 := (hS.best j ((hin j).mpr h1) hjS).2 i hi
      simp only [Function.comp_apply, decide_eq_true_eq] at h2
      exact absurd (lt_of_lt_of_le hc h3) (not_lt.mpr h2)
  have hnd' : (i :: (idxAround (withValue pts) D q).filter
      ((fun e : ℝ × ℝ => decide (e.1 ≤ ρ)) ∘ pairOf (withValue pts) q)).Nodup := by
    rw [List.nodup_cons]
    refine ⟨?_, hnd.filter _⟩
    intro h
    have := (List.mem_filter.mp h).2
    simp only [Function.comp_apply, decide_eq_true_eq] at this
    exact absurd hc (not_lt.mpr this)
  have h1 := (hnd'.subperm hsub).length_le
  rw [List.length_cons] at h1
  have := hS.le
  omega

/-- Number of data points with a value within `max_distance` and at most `ρ` from `q`. -/
noncomputable def nWithin (D : Option (Fl ℝ)) (q : Pt) (ρ : ℝ) (pts : List (Pt × Option ℝ)) : Nat :=
  pts.countP fun e => e.2.isSome && within D (euclid q e.1) && decide (euclid q e.1 ≤ ρ)

theorem nWithin_eq (D : Option (Fl ℝ)) (q : Pt) (ρ : ℝ) (pts : List (Pt × Option ℝ)) :
    nWithin D q ρ pts = upTo (ptsAround pts D q) ρ := by
  unfold upTo ptsAround nWithin
  rw [Multiset.filter_coe, Multiset.coe_card, List.filter_filter, List.filter_map, List.length_map,
    ← List.countP_eq_length_filter]
  induction pts with
  | nil => rfl
  | cons e l ih =>
    obtain ⟨x, z⟩ := e
    cases z with
    | none =>
      rw [List.countP_cons_of_neg (by simp)]
      exact ih
    | some z =>
      have hw : withValue ((x, some z) :: l) = (x, z) :: withValue l := rfl
      rw [hw, List.countP_cons, List.countP_cons, ih]
      congr 1
      simp only [Option.isSome_some, Bool.true_and, Function.comp_apply]
      rw [Bool.and_comm]

theorem mem_withValue {pts : List (Pt × Option ℝ)} {x : Pt} {z : ℝ} : (x, z) ∈ withValue pts ↔ (x, some z) ∈ pts := by
  unfold withValue
  rw [List.mem_filterMap]
  constructor
  · rintro ⟨⟨y, w⟩, h, e⟩
    cases w with
    | none => simp at e
    | some w =>
      simp only [Option.map_some, Option.some.injEq, Prod.mk.injEq] at e
      rw [← e.1, ← e.2]
      exact h
  · intro h
    exact ⟨_, h, rfl⟩

/-! ## Theorems -/

/-- **C136** Map of a smooth field: if the data are the values of `f` up to `E` and `f` changes by at most `Λ` per unit of
distance, a cell with a data point in reach differs from `f` there by at most `Λ ρ + E`, where `ρ` is any distance within which
`nnear` data points or all data points in reach lie. -/
theorem C136_field {knn : Knn} (hk : IsKnn knn) {nnear : Int} (hn : 1 < nnear) (p : ℝ) (D : Option (Fl ℝ))
    (pts : List (Pt × Option ℝ)) (xg yg : Grid ℝ) (hshape : xg.map List.length = yg.map List.length)
    (hne : xg.flatten ≠ []) (f : Pt → ℝ) (lam E : ℝ) (hlam : 0 ≤ lam)
    (hf : ∀ u v, |f u - f v| ≤ lam * euclid u v) (hval : ∀ x z, (x, some z) ∈ pts → |z - f x| ≤ E) :
    ∃ zg, idwMap knn nnear p D pts xg yg = .ok zg ∧ zg.map List.length = xg.map List.length ∧
      ∀ (i : Nat) a b, xg.flatten[i]? = some a → yg.flatten[i]? = some b →
        (∃ x z, (x, some z) ∈ pts ∧ within D (euclid (a, b) x) = true) →
        ∃ r, zg.flatten[i]? = some (.fin r) ∧
          ∀ ρ : ℝ, nnear.toNat ≤ nWithin D (a, b) ρ pts ∨
              (∀ x z, (x, some z) ∈ pts → within D (euclid (a, b) x) = true → euclid (a, b) x ≤ ρ) →
            |r - f (a, b)| ≤ lam * ρ + E := by
  obtain ⟨zg, h1, h2, h3⟩ := idwMap_is hk hn p D pts xg yg hshape hne
  refine ⟨zg, h1, h2, fun i a b ha hb hex => ?_⟩
  have hi : i < zg.flatten.length := by
    rw [List.length_flatten, h2, ← List.length_flatten]
    exact (List.getElem?_eq_some_iff.mp ha).1
  obtain ⟨S, hS⟩ := h3 i a b _ ha hb (List.getElem?_eq_getElem hi)
  have hSne : S ≠ [] := by
    rintro rfl
    obtain ⟨x, z, hx, hw⟩ := hex
    obtain ⟨j, hj, hjx⟩ := List.mem_iff_getElem.mp (mem_withValue.mpr hx)
    have hin : inRange ((withValue pts).map (·.1)) (a, b) D j := by
      rw [inRange_within]
      refine ⟨by simpa using hj, ?_⟩
      unfold dI
      rw [List.getD_eq_getElem _ _ (by simpa using hj), List.getElem_map, hjx]
      exact hw
    have := (hS.nearest.best j hin (by simp)).1
    simp only [List.length_nil] at this
    omega
  -- the points used
  have hused : ∀ j ∈ S, ∃ x z, (x, some z) ∈ pts ∧ ((withValue pts).map (·.2)).getD j 0 = z ∧
      dI ((withValue pts).map (·.1)) (a, b) j = euclid (a, b) x ∧ within D (euclid (a, b) x) = true := by
    intro j hj
    have hin := hS.nearest.mem j hj
    rw [inRange_within] at hin
    have hj' : j < (withValue pts).length := by simpa using hin.1
    have hd : dI ((withValue pts).map (·.1)) (a, b) j = euclid (a, b) (withValue pts)[j].1 := by
      unfold dI
      rw [List.getD_eq_getElem _ _ (by simpa using hj'), List.getElem_map]
    refine ⟨(withValue pts)[j].1, (withValue pts)[j].2, mem_withValue.mp (List.getElem_mem hj'), ?_, hd, ?_⟩
    · rw [List.getD_eq_getElem _ _ (by simpa using hj'), List.getElem_map]
    · rw [← hd]; exact hin.2
  have key : ∀ ρ : ℝ, nnear.toNat ≤ nWithin D (a, b) ρ pts ∨
      (∀ x z, (x, some z) ∈ pts → within D (euclid (a, b) x) = true → euclid (a, b) x ≤ ρ) →
      ∃ r, zg.flatten[i] = .fin r ∧ f (a, b) - (lam * ρ + E) ≤ r ∧ r ≤ f (a, b) + (lam * ρ + E) := by
    intro ρ hρ
    refine hS.between _ _ (fun j hj => ?_) hSne
    obtain ⟨x, z, hx, hz, hd, hw⟩ := hused j hj
    have hle : euclid (a, b) x ≤ ρ := by
      rcases hρ with hρ | hρ
      · rw [nWithin_eq] at hρ
        rw [← hd]
        exact nearest_within hS.nearest ρ hρ j hj
      · exact hρ x z hx hw
    have e1 := abs_le.mp (hval x z hx)
    have e2 := abs_le.mp (hf (a, b) x)
    have e3 := mul_le_mul_of_nonneg_left hle hlam
    rw [hz]
    constructor <;> linarith [e1.1, e1.2, e2.1, e2.2]
  obtain ⟨ρ0, hρ0⟩ : ∃ ρ : ℝ, ∀ x z, (x, some z) ∈ pts → within D (euclid (a, b) x) = true → euclid (a, b) x ≤ ρ := by
    refine ⟨(pts.map fun e => euclid (a, b) e.1).sum, fun x z hx _ => ?_⟩
    apply List.single_le_sum
    · intro y hy
      obtain ⟨e, _, rfl⟩ := List.mem_map.mp hy
      exact Real.sqrt_nonneg _
    · exact List.mem_map.mpr ⟨_, hx, rfl⟩
  obtain ⟨r, hr, -⟩ := key ρ0 (Or.inr hρ0)
  refine ⟨r, by rw [List.getElem?_eq_getElem hi, hr], fun ρ hρ => ?_⟩
  obtain ⟨r', hr', h4, h5⟩ := key ρ hρ
  obtain rfl : r = r' := by rw [hr] at hr'; injection hr'
  rw [abs_le]
  constructor <;> linarith

/-- The levels of the link are made by rain (up to step `t` and beyond) as in C130: a dry level that does not change from `n`
steps before an event to its end, the attenuation of rain of rate `R` and a film on the antennas; at step `t`
the rain on the path is that of the field `f` at the centre up to `E`. -/
def Link.MadeBy (l : Link) (t : Nat) (f : Pt → ℝ) (E Rm : ℝ) : Prop :=
  ∀ p xs wet, l.data = some (p, xs, wet) → p.Ok ∧ 3 * p.deltaT ≤ p.tau ∧ p.Rmin ≤ Rm ∧
    ∃ (T : Nat) (dryLevel R : Nat → ℝ), t < T ∧ T ≤ wet.length ∧ (∀ s < T, WetAt wet s → 0 ≤ R s) ∧
      (∀ s < p.n, ¬ WetAt wet s) ∧
      (∀ s < T, WetAt wet s → ∀ u, u < s → s ≤ u + p.n → dryLevel u = dryLevel s) ∧
      xs = (List.range T).map (levelAt (WetAt wet) p.waaMax (3 * p.deltaT / p.tau) dryLevel fun s => p.a * R s ^ p.b * p.L) ∧
      |(if WetAt wet t then R t else 0) - f l.pos| ≤ E

/-- The rain rate of a link whose levels are made by rain. -/
theorem linkRate_made (sp : Spline) (t : Nat) (l : Link) (f : Pt → ℝ) (E Rm : ℝ) (hRm : 0 ≤ Rm) (h : l.MadeBy t f E Rm) :
    ∃ o : Option ℝ, linkRate sp t l = .ok (optF o) ∧ (o = none ↔ l.data = none) ∧ ∀ z, o = some z → |z - f l.pos| ≤ E + Rm := by
  unfold linkRate
  cases hd : l.data with
  | none => exact ⟨none, rfl, by simp, by simp⟩
  | some e =>
    obtain ⟨p, xs, wet⟩ := e
    obtain ⟨h1, h2, h3, T, dl, R, ht, hT, hR, hw1, hw2, hxs, hE⟩ := h p xs wet hd
    have hc := C130_rain_constant sp p h1 h2 wet T dl R hT hR hw1 hw2
    have hx : xs.map Fl.fin = series T (levelAt (WetAt wet) p.waaMax (3 * p.deltaT / p.tau) dl fun s => p.a * R s ^ p.b * p.L) := by
      rw [hxs, List.map_map]
      rfl
    refine ⟨some (if WetAt wet t ∧ p.Rmin ≤ R t then R t else 0), ?_, by simp, ?_⟩
    · dsimp only
      rw [hx, hc]
      show Except.ok (rd _ t) = _
      rw [rd_of_getElem? (series_get _ ht)]
      rfl
    · intro z hz
      injection hz with hz
      rw [← hz]
      have := abs_le.mp hE
      rw [abs_le]
      by_cases hw : WetAt wet t
      · have hR0 := hR t ht hw
        rw [if_pos hw] at this
        by_cases hm : p.Rmin ≤ R t
        · rw [if_pos ⟨hw, hm⟩]
          constructor <;> linarith [this.1, this.2]
        · rw [if_neg (fun h => hm h.2)]
          push Not at hm
          constructor <;> linarith [this.1, this.2]
      · rw [if_neg hw] at this
        rw [if_neg (fun h => hw h.1)]
        constructor <;> linarith [this.1, this.2]

/-- The rain map is the interpolation of the rates of the links. -/
theorem rainMap_idw (knn : Knn) (cfg : Config) (hcfg : cfg.excludeNan = true) (sp : Spline) (links : List Link) (t : Nat)
    (o : Link → Option ℝ) (h : ∀ l ∈ links, linkRate sp t l = .ok (optF (o l))) (xg yg : Grid ℝ) :
    rainMap knn cfg sp links t xg yg = idwMap knn cfg.nnear cfg.p cfg.maxDistance (links.map fun l => (l.pos, o l)) xg yg := by
  have hm : links.mapM (linkRate sp t) = .ok (links.map fun l => optF (o l)) := by
    induction links with
    | nil => rfl
    | cons l ls ih =>
      rw [List.mapM_cons, h l (by simp), ih fun x hx => h x (List.mem_cons_of_mem _ hx)]
      rfl
  unfold rainMap idwMap
  rw [hm]
  obtain ⟨n, q, ex, D⟩ := cfg
  simp only at hcfg
  subst hcfg
  show (interpolate _ _ _ _ _ _ _ _ _ _).1 = _
  simp only [List.map_map]
  rfl

open scoped Classical in
/-- **C136** From the rain to the map: if the levels of all working links are made by rain that is, at step `t`, on each path
that of a field `f` at the centre of the link up to `E`, and `f` changes by at most `Λ` per unit of distance, the
map (baseline, wet antenna correction, rain rates, interpolation) differs from `f` in each cell with a working link in reach by at
most `Λ ρ + E + R_min`, where `ρ` is any distance within which `nnear` working links or all working links in reach
lie. -/
theorem C136_rain_map {knn : Knn} (hk : IsKnn knn) (cfg : Config) (hcfg : cfg.excludeNan = true) (hn : 1 < cfg.nnear)
    (sp : Spline) (links : List Link) (t : Nat) (f : Pt → ℝ) (lam E Rm : ℝ) (hlam : 0 ≤ lam) (hRm : 0 ≤ Rm)
    (hf : ∀ u v, |f u - f v| ≤ lam * euclid u v) (hmade : ∀ l ∈ links, l.MadeBy t f E Rm)
    (xg yg : Grid ℝ) (hshape : xg.map List.length = yg.map List.length) (hne : xg.flatten ≠ []) :
    ∃ zg, rainMap knn cfg sp links t xg yg = .ok zg ∧ zg.map List.length = xg.map List.length ∧
      ∀ (i : Nat) a b, xg.flatten[i]? = some a → yg.flatten[i]? = some b →
        (∃ l ∈ links, l.reaches cfg (a, b)) →
        ∃ r, zg.flatten[i]? = some (.fin r) ∧
          ∀ ρ : ℝ, cfg.nnear.toNat ≤ links.countP (fun l => decide (l.reaches cfg (a, b) ∧ euclid (a, b) l.pos ≤ ρ)) ∨
              (∀ l ∈ links, l.reaches cfg (a, b) → euclid (a, b) l.pos ≤ ρ) →
            |r - f (a, b)| ≤ lam * ρ + (E + Rm) := by
  have hch : ∀ l : Link, ∃ o : Option ℝ, l ∈ links → linkRate sp t l = .ok (optF o) ∧ (o = none ↔ l.data = none) ∧
      ∀ z, o = some z → |z - f l.pos| ≤ E + Rm := by
    intro l
    by_cases hl : l ∈ links
    · obtain ⟨o, ho⟩ := linkRate_made sp t l f E Rm hRm (hmade l hl)
      exact ⟨o, fun _ => ho⟩
    · exact ⟨none, fun h => absurd h hl⟩
  choose o ho using hch
  have hreach : ∀ l : Link, ∀ q, l.reaches cfg q ↔ l.data ≠ none ∧ within cfg.maxDistance (euclid q l.pos) = true := by
    intro l q
    unfold Link.reaches within
    cases cfg.maxDistance <;> simp
  rw [rainMap_idw knn cfg hcfg sp links t o (fun l hl => (ho l hl).1) xg yg]
  obtain ⟨zg, h1, h2, h3⟩ := C136_field hk hn cfg.p cfg.maxDistance (links.map fun l => (l.pos, o l)) xg yg hshape hne f lam
    (E + Rm) hlam hf (by
      intro x z hx
      obtain ⟨l, hl, e⟩ := List.mem_map.mp hx
      injection e with e1 e2
      rw [← e1]
      exact (ho l hl).2.2 z e2)
  refine ⟨zg, h1, h2, fun i a b ha hb => ?_⟩
  have hsome : ∀ l ∈ links, l.data ≠ none → ∃ z, o l = some z := by
    intro l hl hd
    cases hol : o l with
    | none => exact absurd ((ho l hl).2.1.mp hol) hd
    | some z => exact ⟨z, rfl⟩
  rintro ⟨l, hl, hr⟩
  obtain ⟨r, h4, h5⟩ := h3 i a b ha hb (by
    obtain ⟨z, hz⟩ := hsome l hl hr.1
    exact ⟨l.pos, z, List.mem_map.mpr ⟨l, hl, by rw [hz]⟩, ((hreach l (a, b)).mp hr).2⟩)
  refine ⟨r, h4, fun ρ hρ => h5 ρ ?_⟩
  rcases hρ with hρ | hρ
  · left
    refine hρ.trans (le_of_eq ?_)
    unfold nWithin
    rw [List.countP_map]
    apply List.countP_congr
    intro l hl
    rw [decide_eq_true_iff, hreach]
    simp only [Function.comp_apply, Bool.and_eq_true, decide_eq_true_iff]
    have : (o l).isSome = true ↔ l.data ≠ none := by
      rw [Ne, ← (ho l hl).2.1]
      cases o l <;> simp
    rw [this]
  · right
    intro x z hx hw
    obtain ⟨l, hl, e⟩ := List.mem_map.mp hx
    injection e with e1 e2
    rw [← e1] at hw ⊢
    refine hρ l hl ((hreach l (a, b)).mpr ⟨?_, hw⟩)
    rw [Ne, ← (ho l hl).2.1, e2]
    simp

/-- **C136** Uniform rain of rate `R0`, not below `R_min`, on all working links gives the rate `R0` in every cell in reach of one. -/
theorem C136_uniform {knn : Knn} (hk : IsKnn knn) (cfg : Config) (hcfg : cfg.excludeNan = true) (hn : 1 < cfg.nnear)
    (sp : Spline) (links : List Link) (t : Nat) (R0 : ℝ)
    (hmade : ∀ l ∈ links, ∀ p xs wet, l.data = some (p, xs, wet) → p.Ok ∧ 3 * p.deltaT ≤ p.tau ∧ p.Rmin ≤ R0 ∧
      ∃ (T : Nat) (dryLevel R : Nat → ℝ), t < T ∧ T ≤ wet.length ∧ (∀ s < T, WetAt wet s → 0 ≤ R s) ∧
        (∀ s < p.n, ¬ WetAt wet s) ∧
        (∀ s < T, WetAt wet s → ∀ u, u < s → s ≤ u + p.n → dryLevel u = dryLevel s) ∧
        xs = (List.range T).map (levelAt (WetAt wet) p.waaMax (3 * p.deltaT / p.tau) dryLevel fun s => p.a * R s ^ p.b * p.L) ∧
        WetAt wet t ∧ R t = R0)
    (xg yg : Grid ℝ) (hshape : xg.map List.length = yg.map List.length) (hne : xg.flatten ≠ []) :
    ∃ zg, rainMap knn cfg sp links t xg yg = .ok zg ∧ zg.map List.length = xg.map List.length ∧
      ∀ (i : Nat) a b, xg.flatten[i]? = some a → yg.flatten[i]? = some b →
        (∃ l ∈ links, l.reaches cfg (a, b)) → zg.flatten[i]? = some (.fin R0) := by
  have hrate : ∀ l ∈ links, linkRate sp t l = .ok (optF (l.data.map fun _ => R0)) := by
    intro l hl
    unfold linkRate
    cases hd : l.data with
    | none => rfl
    | some e =>
      obtain ⟨p, xs, wet⟩ := e
      obtain ⟨h1, h2, h3, T, dl, R, ht, hT, hR, hw1, hw2, hxs, hw, hRt⟩ := hmade l hl p xs wet hd
      have hc := C130_rain_constant sp p h1 h2 wet T dl R hT hR hw1 hw2
      have hx : xs.map Fl.fin = series T (levelAt (WetAt wet) p.waaMax (3 * p.deltaT / p.tau) dl fun s => p.a * R s ^ p.b * p.L) := by
        rw [hxs, List.map_map]
        rfl
      dsimp only
      rw [hx, hc]
      show Except.ok (rd _ t) = _
      rw [rd_of_getElem? (series_get _ ht), if_pos ⟨hw, by rw [hRt]; exact h3⟩, hRt]
      rfl
  rw [rainMap_idw knn cfg hcfg sp links t (fun l => l.data.map fun _ => R0) hrate xg yg]
  obtain ⟨zg, h1, h2, h3⟩ := C136_field hk hn cfg.p cfg.maxDistance (links.map fun l => (l.pos, l.data.map fun _ => R0)) xg yg
    hshape hne (fun _ => R0) 0 0 le_rfl (by intro u v; simp) (by
      intro x z hx
      obtain ⟨l, _, e⟩ := List.mem_map.mp hx
      injection e with _ e2
      cases hd : l.data with
      | none => rw [hd] at e2; simp at e2
      | some w =>
        rw [hd] at e2
        simp only [Option.map_some, Option.some.injEq] at e2
        rw [← e2]
        simp)
  refine ⟨zg, h1, h2, fun i a b ha hb => ?_⟩
  rintro ⟨l, hl, hr⟩
  obtain ⟨r, h4, h5⟩ := h3 i a b ha hb (by
    refine ⟨l.pos, R0, List.mem_map.mpr ⟨l, hl, ?_⟩, ?_⟩
    · obtain ⟨w, hw⟩ := Option.ne_none_iff_exists'.mp hr.1
      rw [hw]
      rfl
    · have := hr.2
      unfold within
      cases hD : cfg.maxDistance with
      | none => rfl
      | some m => rw [hD] at this; exact this)
  have := h5 ((links.map fun l => euclid (a, b) l.pos).sum) (Or.inr (by
    intro x z hx _
    obtain ⟨l', hl', e⟩ := List.mem_map.mp hx
    injection e with e1 _
    rw [← e1]
    apply List.single_le_sum
    · intro y hy
      obtain ⟨e, _, rfl⟩ := List.mem_map.mp hy
      exact Real.sqrt_nonneg _
    · exact List.mem_map.mpr ⟨_, hl', rfl⟩))
  rw [zero_mul, add_zero] at this
  have h6 : r = R0 := by
    have := abs_nonpos_iff.mp this
    linarith
  rw [h4, h6]

/-! ## Examples -/

theorem euclid_axis (x y : ℝ) : euclid (x, 0) (y, 0) = |x - y| := by
  unfold euclid
  simp [Real.sqrt_sq_eq_abs]

theorem first_le_euclid (u v : Pt) : |u.1 - v.1| ≤ 1 * euclid u v := by
  unfold euclid
  rw [one_mul, ← Real.sqrt_sq_eq_abs]
  exact Real.sqrt_le_sqrt (by nlinarith [sq_nonneg (u.2 - v.2)])

/-- `C136_field` for the field `f (x, y) = x` known up to 1/10 at two places. -/
example : ∃ zg r, idwMap bruteKnn 2 2 none [((0, 0), some (1 / 10)), ((0, 3), none), ((4, 0), some 4)] [[1]] [[0]] = .ok zg ∧
    zg.flatten[0]? = some (.fin r) ∧ |r - 1| ≤ 31 / 10 := by
  obtain ⟨zg, h1, -, h3⟩ := C136_field bruteKnn_isKnn (nnear := 2) (by norm_num) 2 none
    [((0, 0), some (1 / 10)), ((0, 3), none), ((4, 0), some 4)] [[1]] [[0]] rfl (by simp) (fun u => u.1) 1 (1 / 10) (by norm_num)
    first_le_euclid (by
      intro x z hx
      simp only [List.mem_cons, Prod.mk.injEq, Option.some.injEq, List.not_mem_nil, or_false, reduceCtorEq, and_false, false_or] at hx
      rcases hx with ⟨rfl, rfl⟩ | ⟨rfl, rfl⟩ <;> norm_num)
  obtain ⟨r, h4, h5⟩ := h3 0 1 0 rfl rfl ⟨(0, 0), 1 / 10, by simp, rfl⟩
  refine ⟨zg, r, h1, h4, ?_⟩
  have := h5 3 (Or.inr (by
    intro x z hx _
    simp only [List.mem_cons, Prod.mk.injEq, Option.some.injEq, List.not_mem_nil, or_false, reduceCtorEq, and_false, false_or] at hx
    rcases hx with ⟨rfl, rfl⟩ | ⟨rfl, rfl⟩ <;> rw [euclid_axis] <;> norm_num [abs_le]))
  norm_num at this ⊢
  exact this

/-- Two links, at (0, 0) and (4, 0), with rain of 5 and 3 mm/h at step 1, and one out of order. -/
noncomputable def demoLinks (x y : ℝ) : List Link :=
  [⟨(0, 0), some (⟨1, 2, 1, 15, 10, 1/10, 1, 1/10⟩, [50, 50 + (x + 2/5)], [false, true])⟩, ⟨(1, 0), none⟩,
    ⟨(4, 0), some (⟨1, 2, 1, 15, 10, 1/10, 1, 1/10⟩, [60, 60 + (y + 2/5)], [false, true])⟩]

theorem demo_level (d x : ℝ) : ([d, d + (x + 2/5)] : List ℝ) = (List.range 2).map (levelAt (WetAt [false, true])
    (ChainParams.waaMax ⟨1, 2, 1, 15, 10, 1/10, 1, 1/10⟩) (3 * (1 : ℝ) / 15) (fun _ => d) fun _ => 1/10 * x ^ (1 : ℝ) * 10) := by
  simp only [levelAt, filmAt, List.range, List.range.loop, List.map_cons, List.map_nil]
  norm_num [WetAt]
  ring

theorem demo_made (d x : ℝ) (hx : 0 ≤ x) : ∃ (T : Nat) (dryLevel R : Nat → ℝ), 1 < T ∧ T ≤ [false, true].length ∧
    (∀ s < T, WetAt [false, true] s → 0 ≤ R s) ∧ (∀ s < 1, ¬ WetAt [false, true] s) ∧
    (∀ s < T, WetAt [false, true] s → ∀ u, u < s → s ≤ u + 1 → dryLevel u = dryLevel s) ∧
    [d, d + (x + 2/5)] = (List.range T).map (levelAt (WetAt [false, true]) 2 (3 * (1 : ℝ) / 15) dryLevel
      fun s => 1/10 * R s ^ (1 : ℝ) * 10) ∧ WetAt [false, true] 1 ∧ R 1 = x := by
  refine ⟨2, fun _ => d, fun _ => x, by norm_num, by simp, fun _ _ _ => hx, ?_, fun _ _ _ _ _ _ => rfl, demo_level d x, rfl, rfl⟩
  intro s hs
  obtain rfl : s = 0 := by omega
  simp [WetAt]

/-- `C136_rain_map`: rain that falls from 5 to 3 mm/h over 4 km; at 1 km from the first link the map is within 1.6 mm/h of it. -/
example (sp : Spline) : ∃ zg r, rainMap bruteKnn ⟨8, 2, true, none⟩ sp (demoLinks 5 3) 1 [[1]] [[0]] = .ok zg ∧
    zg.flatten[0]? = some (.fin r) ∧ |r - 9 / 2| ≤ 8 / 5 := by
  obtain ⟨zg, h1, -, h3⟩ := C136_rain_map bruteKnn_isKnn ⟨8, 2, true, none⟩ rfl (by norm_num) sp (demoLinks 5 3) 1
    (fun u => 5 - u.1 / 2) (1 / 2) 0 (1 / 10) (by norm_num) (by norm_num) (by
      intro u v
      have := first_le_euclid u v
      rw [one_mul] at this
      rw [show 5 - u.1 / 2 - (5 - v.1 / 2) = -((u.1 - v.1) / 2) by ring, abs_neg, abs_div, abs_two]
      linarith) (by
      intro l hl p xs wet hd
      simp only [demoLinks, List.mem_cons, List.not_mem_nil, or_false] at hl
      rcases hl with rfl | rfl | rfl
      · cases hd
        obtain ⟨T, dl, R, e1, e2, e3, e4, e5, e6, e7, e8⟩ := demo_made 50 5 (by norm_num)
        exact ⟨by constructor <;> norm_num, by norm_num, le_rfl, T, dl, R, e1, e2, e3, e4, e5, e6, by rw [if_pos e7, e8]; norm_num⟩
      · cases hd
      · cases hd
        obtain ⟨T, dl, R, e1, e2, e3, e4, e5, e6, e7, e8⟩ := demo_made 60 3 (by norm_num)
        exact ⟨by constructor <;> norm_num, by norm_num, le_rfl, T, dl, R, e1, e2, e3, e4, e5, e6, by rw [if_pos e7, e8]; norm_num⟩)
    [[1]] [[0]] rfl (by simp)
  obtain ⟨r, h4, h5⟩ := h3 0 1 0 rfl rfl ⟨_, List.mem_cons_self, by simp, trivial⟩
  refine ⟨zg, r, h1, h4, ?_⟩
  have := h5 3 (Or.inr (by
    intro l hl _
    simp only [demoLinks, List.mem_cons, List.not_mem_nil, or_false] at hl
    rcases hl with rfl | rfl | rfl <;> rw [euclid_axis] <;> norm_num [abs_le]))
  norm_num at this ⊢
  exact this

/-- `C136_uniform`: 5 mm/h on both links and so everywhere. -/
example (sp : Spline) : ∃ zg, rainMap bruteKnn ⟨8, 2, true, none⟩ sp (demoLinks 5 5) 1 [[1]] [[7]] = .ok zg ∧
    zg.flatten[0]? = some (.fin 5) := by
  obtain ⟨zg, h1, -, h3⟩ := C136_uniform bruteKnn_isKnn ⟨8, 2, true, none⟩ rfl (by norm_num) sp (demoLinks 5 5) 1 5 (by
      intro l hl p xs wet hd
      simp only [demoLinks, List.mem_cons, List.not_mem_nil, or_false] at hl
      rcases hl with rfl | rfl | rfl
      · cases hd
        exact ⟨by constructor <;> norm_num, by norm_num, by norm_num, demo_made 50 5 (by norm_num)⟩
      · cases hd
      · cases hd
        exact ⟨by constructor <;> norm_num, by norm_num, by norm_num, demo_made 60 5 (by norm_num)⟩)
    [[1]] [[7]] rfl (by simp)
  exact ⟨zg, h1, h3 0 1 7 rfl rfl ⟨_, List.mem_cons_self, by simp, trivial⟩⟩

end Verif.Props
