import Verif.Props.KrigingExact
import Verif.Props.Grid
import Verif.Props.Idw

/-!
# Properties C103-C105: kriging with the spherical variogram
-/

namespace Verif.Props
open Verif Verif.Idw Verif.Kriging

theorem spherical_lookup (other : String → Dict ℝ → Except Err (ℝ → ℝ)) {d : Dict ℝ} {sill range nugget : ℝ}
    (h1 : d.lookup "sill" = some sill) (h2 : d.lookup "range" = some range) (h3 : d.lookup "nugget" = some nugget) :
    pykrigeVariogram other "spherical" d = .ok (sphericalVariogram (sill - nugget) range nugget) := by
  unfold pykrigeVariogram dictGet
  rw [if_pos rfl, h1, h2, h3]
  rfl

theorem krEstimate_fin (γ : ℝ → ℝ) (L : List (Pt × Fl ℝ)) (q : Pt) (hz : ∀ e ∈ L, ∃ x, e.2 = Fl.fin x) :
    ∃ x, (krEstimate γ L q).1 = Fl.fin x := by
  have hz' : ∀ i : Fin L.length, ∃ x, L[i].2 = Fl.fin x := fun i => hz _ (List.getElem_mem _)
  choose f hf using hz'
  unfold krEstimate
  have e1 : (fun i : Fin L.length => L[i].2) = fun i => Fl.fin (f i) := funext hf
  rw [e1, krEst_fin]
  exact ⟨_, rfl⟩

/-- with no more neighbours than points, none is missing -/
theorem krWindow_ok {knn : Knn} (hknn : IsKnn knn) (L : List (Pt × Fl ℝ)) {k : Nat} (hk : k ≤ L.length) (q : Pt) :
    ∃ sub, krWindow knn L k q = .ok sub ∧ sub.length = k := by
  have hall : ∀ e ∈ knn (L.map (·.1)) k 0 .pinf q, e.2 < L.length := by
    intro e he
    by_contra hc
    have hmiss : e.2 = (L.map (·.1)).length := by
      rcases hknn.entry (L.map (·.1)) k .pinf q e he with ⟨h, _⟩ | ⟨x, h, _⟩
      · exact h
      · have := (List.getElem?_eq_some_iff.1 h).1
        rw [List.length_map] at this
        omega
    have hin : ∀ i < L.length, i ∈ (knn (L.map (·.1)) k 0 .pinf q).map (·.2) := by
      intro i hi
      have hX : (L.map (·.1))[i]? = some (L[i].1) := by rw [List.getElem?_map, List.getElem?_eq_getElem hi]; rfl
      rcases hknn.complete (L.map (·.1)) k .pinf q i _ hX (by rfl) with h1 | h1
      · exact h1
      · have := (h1 e he).1
        omega
    have hsub : (List.range (L.length + 1)) ⊆ (knn (L.map (·.1)) k 0 .pinf q).map (·.2) := by
      intro i hi
      rw [List.mem_range] at hi
      by_cases hlt : i < L.length
      · exact hin i hlt
      · have : i = e.2 := by rw [hmiss, List.length_map]; omega
        rw [this]
        exact List.mem_map_of_mem he
    have := (List.nodup_range.subperm hsub).length_le
    rw [List.length_range, List.length_map, hknn.length_eq] at this
    omega
  obtain ⟨sub, hsub⟩ : ∃ sub, krWindow knn L k q = .ok sub := by
    unfold krWindow
    apply mapM_all_ok
    intro e he
    rw [List.getElem?_eq_getElem (hall e he)]
    exact ⟨_, rfl⟩
  refine ⟨sub, hsub, ?_⟩
  rw [(krWindow_mem knn L k q hsub).1, hknn.length_eq]

/-- **C103** With a spherical variogram with positive nugget and range, and a sill not below the nugget, the interpolator always
returns a complete field of numbers if at least two points have a value: the kriging system is never singular, also for
points with the same coordinates. With `n_closest_points`, this needs a number between 2 and the number of points. -/
theorem C103_total (other : String → Dict ℝ → Except Err (ℝ → ℝ)) (knn : Knn) (hknn : IsKnn knn) (w : World ℝ) (i : Nat)
    (o : Obj ℝ) (d : Dict ℝ) (ho : w.objs[i]? = some o) (hd : w.dicts[o.cfg.params]? = some d)
    (hex : o.cfg.excludeNan = true) (hmodel : o.cfg.variogramModel = "spherical") (sill range nugget : ℝ)
    (h1 : d.lookup "sill" = some sill) (h2 : d.lookup "range" = some range) (h3 : d.lookup "nugget" = some nugget)
    (hsill : nugget ≤ sill) (hrange : 0 < range) (hnugget : 0 < nugget)
    (pts : List (Pt × Fl ℝ)) (hz : ∀ e ∈ pts, e.2 ≠ .pinf ∧ e.2 ≠ .ninf)
    (htwo : 2 ≤ (pts.filter fun e => !(PyFloat.isNaN e.2)).length)
    (hnc : ∀ k, o.cfg.nClosest = some k → 2 ≤ k ∧ k ≤ (pts.filter fun e => !(PyFloat.isNaN e.2)).length)
    (xg yg : Grid ℝ) (res : Option ℝ) (hlen : xg.flatten.length = yg.flatten.length) :
    ∃ zg, w.callResult (pykrige (pykrigeVariogram other) knn) i (pts.map (·.1.1)) (pts.map (·.1.2)) (pts.map (·.2))
        (some xg) (some yg) res = .ok zg ∧ zg.map List.length = xg.map List.length ∧
      ∀ row ∈ zg, ∀ v ∈ row, ∃ x, v = Fl.fin x := by
  have htwo' : 2 ≤ (krGood pts).length := htwo
  have hsel : krSel o.cfg pts = krGood pts := by unfold krSel; rw [if_pos hex]
  have hgood : ∀ e ∈ krGood pts, ∃ x, e.2 = Fl.fin x := krGood_fin pts hz
  have hreg : ∀ L : List (Pt × Fl ℝ), L ≠ [] → KrRegular (sphericalVariogram (sill - nugget) range nugget) L := by
    intro L hL
    exact spherical_regular (by linarith) hrange hnugget (List.length_pos_iff.2 hL)
  have hquery : ∀ q, ∃ b : Fl ℝ × Fl ℝ, krQuery knn o.cfg.nClosest (sphericalVariogram (sill - nugget) range nugget)
      (krGood pts) q = .ok b ∧ ∃ x, b.1 = Fl.fin x := by
    intro q
    unfold krQuery
    cases hc : o.cfg.nClosest with
    | none =>
      dsimp only
      rw [if_pos (hreg _ (by intro h; rw [h] at htwo'; simp at htwo'))]
      exact ⟨_, rfl, krEstimate_fin _ _ q hgood⟩
    | some k =>
      obtain ⟨k1, k2⟩ := hnc k hc
      have k2' : k.toNat ≤ (krGood pts).length := by
        have : k ≤ ((krGood pts).length : Int) := k2
        omega
      obtain ⟨sub, hs, hl⟩ := krWindow_ok hknn (krGood pts) k2' q
      dsimp only
      rw [if_neg (by omega), hs]
      dsimp only
      rw [if_pos (hreg _ (by intro h; rw [h] at hl; simp at hl; omega))]
      exact ⟨_, rfl, krEstimate_fin _ _ q fun e he => hgood e (krWindow_sub knn _ _ q hs e he)⟩
  obtain ⟨r, hr⟩ := mapM_all_ok (krQuery knn o.cfg.nClosest (sphericalVariogram (sill - nugget) range nugget)
    (krGood pts)) (xg.flatten.zip yg.flatten) fun q _ => let ⟨b, hb, _⟩ := hquery q; ⟨b, hb⟩
  obtain ⟨hlr, hget⟩ := mapM_ok_get hr
  have hlr' : (r.map (·.1)).length = xg.flatten.length := by
    rw [List.length_map, hlr, List.length_zip, hlen, min_self]
  obtain ⟨s1, s2⟩ := reshape_get xg (r.map (·.1)) hlr'
  have hout : krOut (pykrigeVariogram other) knn o.cfg d pts (some xg) (some yg) res = .ok (xg, some r) := by
    unfold krOut
    have hp : parseGrid (pts.map (·.1.1)) (pts.map (·.1.2)) (some xg) (some yg) res = .ok (xg, yg) := rfl
    rw [hp]
    dsimp only
    rw [if_neg (by intro h; rw [h] at htwo'; simp at htwo'), hmodel, spherical_lookup other h1 h2 h3]
    dsimp only
    rw [hsel, if_neg (by push Not; exact ⟨htwo', hlen⟩), hr]
    rfl
  refine ⟨reshape xg (r.map (·.1)), ?_, s1, ?_⟩
  · rw [krResultForm (pykrigeVariogram other) knn w i o d ho hd, hout]
    rfl
  · intro row hrow v hv
    have hmem : v ∈ r.map (·.1) := by
      rw [← s2]
      exact List.mem_flatten.2 ⟨row, hrow, hv⟩
    obtain ⟨b, hb, rfl⟩ := List.mem_map.1 hmem
    obtain ⟨k, hk⟩ := List.mem_iff_getElem?.1 hb
    have hlt : k < (xg.flatten.zip yg.flatten).length := by
      rw [← hlr]; exact (List.getElem?_eq_some_iff.1 hk).1
    obtain ⟨b', hb', hq⟩ := hget k _ (List.getElem?_eq_getElem hlt)
    rw [hk] at hb'
    cases hb'
    obtain ⟨b', hb', hx⟩ := hquery (xg.flatten.zip yg.flatten)[k]
    rw [hq] at hb'
    cases hb'
    exact hx

/-- **C103** With the spherical model the dictionary must have `range`, `nugget`, and `sill` or `psill`: otherwise, if any point has a
value, the call raises `KeyError`, whatever the data and the grid. -/
theorem C103_missing (other : String → Dict ℝ → Except Err (ℝ → ℝ)) (knn : Knn) (w : World ℝ) (i : Nat)
    (o : Obj ℝ) (d : Dict ℝ) (ho : w.objs[i]? = some o) (hd : w.dicts[o.cfg.params]? = some d)
    (hmodel : o.cfg.variogramModel = "spherical")
    (hmiss : d.lookup "range" = none ∨ d.lookup "nugget" = none ∨ (d.lookup "sill" = none ∧ d.lookup "psill" = none))
    (pts : List (Pt × Fl ℝ)) (hsome : ∃ e ∈ pts, PyFloat.isNaN e.2 = false) (xg yg : Grid ℝ) (res : Option ℝ) :
    w.callResult (pykrige (pykrigeVariogram other) knn) i (pts.map (·.1.1)) (pts.map (·.1.2)) (pts.map (·.2))
        (some xg) (some yg) res = .error .keyError := by
  have hv : pykrigeVariogram other "spherical" d = .error .keyError := by
    unfold pykrigeVariogram dictGet
    rw [if_pos rfl]
    rcases hmiss with h | h | ⟨h, h'⟩
    · rw [h]; rfl
    · rw [h]
      cases d.lookup "range" <;> rfl
    · rw [h, h']
      cases d.lookup "range" with
      | none => rfl
      | some r => cases d.lookup "nugget" <;> rfl
  have hne : krGood pts ≠ [] := by
    obtain ⟨e, he, hn⟩ := hsome
    intro h
    have : e ∈ krGood pts := List.mem_filter.2 ⟨he, by rw [hn]; rfl⟩
    rw [h] at this
    cases this
  have hout : krOut (pykrigeVariogram other) knn o.cfg d pts (some xg) (some yg) res = .error .keyError := by
    unfold krOut
    have hp : parseGrid (pts.map (·.1.1)) (pts.map (·.1.2)) (some xg) (some yg) res = .ok (xg, yg) := rfl
    rw [hp]
    dsimp only
    rw [if_neg hne, hmodel, hv]
  rw [krResultForm (pykrigeVariogram other) knn w i o d ho hd, hout]
  rfl

/-- a dictionary without `nugget` -/
example (other : String → Dict ℝ → Except Err (ℝ → ℝ)) (knn : Knn) :
    (⟨[[("sill", 1), ("range", 5)]], [⟨{ params := 0 }, {}⟩]⟩ : World ℝ).callResult (pykrige (pykrigeVariogram other) knn) 0
      [0, 1] [0, 0] [.fin 1, .nan] (some [[2]]) (some [[0]]) none = .error .keyError :=
  C103_missing other knn _ 0 _ _ rfl rfl rfl (Or.inr (Or.inl rfl)) [((0, 0), .fin 1), ((1, 0), .nan)] ⟨_, .head _, rfl⟩ _ _ _

/-- **C103** The interpolator with default arguments returns a complete field for any data with at least two values. -/
theorem C103_default (other : String → Dict ℝ → Except Err (ℝ → ℝ)) (knn : Knn) (hknn : IsKnn knn)
    (pts : List (Pt × Fl ℝ)) (hz : ∀ e ∈ pts, e.2 ≠ .pinf ∧ e.2 ≠ .ninf)
    (htwo : 2 ≤ (pts.filter fun e => !(PyFloat.isNaN e.2)).length)
    (xg yg : Grid ℝ) (res : Option ℝ) (hlen : xg.flatten.length = yg.flatten.length) :
    ∃ zg, ((World.init : World ℝ).step (pykrige (pykrigeVariogram other) knn) (.new none { params := 0 })).callResult
        (pykrige (pykrigeVariogram other) knn) 0 (pts.map (·.1.1)) (pts.map (·.1.2)) (pts.map (·.2)) (some xg) (some yg) res
        = .ok zg ∧ zg.map List.length = xg.map List.length ∧
      ∀ row ∈ zg, ∀ v ∈ row, ∃ x, v = Fl.fin x := by
  refine C103_total other knn hknn _ 0 ⟨{ params := 0 }, {}⟩ [("sill", 0.9), ("range", 1), ("nugget", 0.1)] rfl rfl rfl rfl
    0.9 1 0.1 ?_ ?_ ?_ (by norm_num) (by norm_num) (by norm_num) pts hz htwo (fun k hk => by cases hk) xg yg res hlen
  · simp [List.lookup]
  · simp [List.lookup]
  · simp [List.lookup]

/-- **C103** The same with the parameters from `clim_var_param`, for every day and every time scale from one second. -/
theorem C103_clim (other : String → Dict ℝ → Except Err (ℝ → ℝ)) (knn : Knn) (hknn : IsKnn knn) (w : World ℝ) (i : Nat)
    (o : Obj ℝ) (d : Dict ℝ) (ho : w.objs[i]? = some o) (hd : w.dicts[o.cfg.params]? = some d)
    (hex : o.cfg.excludeNan = true) (hmodel : o.cfg.variogramModel = "spherical") (hnc : o.cfg.nClosest = none)
    (day hours : ℝ) (hh : 1 / 3600 ≤ hours)
    (hdict : d = [("sill", (climVarParam day hours).1), ("range", (climVarParam day hours).2.1),
      ("nugget", (climVarParam day hours).2.2)])
    (pts : List (Pt × Fl ℝ)) (hz : ∀ e ∈ pts, e.2 ≠ .pinf ∧ e.2 ≠ .ninf)
    (htwo : 2 ≤ (pts.filter fun e => !(PyFloat.isNaN e.2)).length)
    (xg yg : Grid ℝ) (res : Option ℝ) (hlen : xg.flatten.length = yg.flatten.length) :
    ∃ zg, w.callResult (pykrige (pykrigeVariogram other) knn) i (pts.map (·.1.1)) (pts.map (·.1.2)) (pts.map (·.2))
        (some xg) (some yg) res = .ok zg ∧ zg.map List.length = xg.map List.length ∧
      ∀ row ∈ zg, ∀ v ∈ row, ∃ x, v = Fl.fin x := by
  have hpos := C50_positive day hours hh
  have hn : (climVarParam day hours).2.2 = 0.1 * (climVarParam day hours).1 := rfl
  refine C103_total other knn hknn w i o d ho hd hex hmodel (climVarParam day hours).1 (climVarParam day hours).2.1
    (climVarParam day hours).2.2 ?_ ?_ ?_ ?_ hpos.2.1 ?_ pts hz htwo
    (fun k hk => by rw [hnc] at hk; cases hk) xg yg res hlen
  · rw [hdict]; simp [List.lookup]
  · rw [hdict]; simp [List.lookup]
  · rw [hdict]; simp [List.lookup]
  · rw [hn]; linarith [hpos.1]
  · rw [hn]; linarith [hpos.1]

/-- **C103** (negative) With exactly one value kriging raises `ValueError`, for every variogram that can be built. -/
theorem C103_single (variogram : String → Dict ℝ → Except Err (ℝ → ℝ)) (knn : Knn) (w : World ℝ) (i : Nat)
    (o : Obj ℝ) (d : Dict ℝ) (ho : w.objs[i]? = some o) (hd : w.dicts[o.cfg.params]? = some d)
    (hex : o.cfg.excludeNan = true) (γ : ℝ → ℝ) (hγ : variogram o.cfg.variogramModel d = .ok γ)
    (pts : List (Pt × Fl ℝ)) (hone : (pts.filter fun e => !(PyFloat.isNaN e.2)).length = 1)
    (xg yg : Grid ℝ) (res : Option ℝ) :
    w.callResult (pykrige variogram knn) i (pts.map (·.1.1)) (pts.map (·.1.2)) (pts.map (·.2)) (some xg) (some yg) res =
      .error .valueError := by
  have hone' : (krGood pts).length = 1 := hone
  rw [krResultForm variogram knn w i o d ho hd]
  unfold krOut
  have hp : parseGrid (pts.map (·.1.1)) (pts.map (·.1.2)) (some xg) (some yg) res = .ok (xg, yg) := rfl
  rw [hp]
  dsimp only
  rw [if_neg (by intro h; rw [h] at hone'; simp at hone'), hγ]
  dsimp only
  rw [if_pos]
  · rfl
  · left
    unfold krSel
    rw [if_pos hex, hone']
    omega

theorem mapM_one_error {α β : Type} {f : α → Except Err β} {e : Err} :
    ∀ (L : List α), (∀ x ∈ L, f x = .error e ∨ ∃ b, f x = .ok b) → (∃ x ∈ L, f x = .error e) → L.mapM f = .error e
  | [], _, h => by obtain ⟨x, hx, -⟩ := h; cases hx
  | a :: L, h, h' => by
    rw [List.mapM_cons]
    rcases h a (List.mem_cons_self ..) with ha | ⟨b, ha⟩
    · rw [ha]; rfl
    · obtain ⟨x, hx, hxe⟩ := h'
      have hxL : x ∈ L := by
        rcases List.mem_cons.1 hx with rfl | hx
        · rw [hxe] at ha; cases ha
        · exact hx
      rw [ha, mapM_one_error L (fun y hy => h y (List.mem_cons_of_mem _ hy)) ⟨x, hxL, hxe⟩]
      rfl

theorem krWindow_missing {knn : Knn} (hknn : IsKnn knn) (pts : List (Pt × Fl ℝ)) {k : Nat} (hk : pts.length < k) (q : Pt) :
    krWindow knn pts k q = .error .indexError := by
  unfold krWindow
  apply mapM_one_error
  · intro e he
    cases h : pts[e.2]? with
    | none => left; rfl
    | some v => right; exact ⟨v, rfl⟩
  · by_contra hne
    have hall : ∀ e ∈ knn (pts.map (·.1)) k 0 .pinf q, e.2 < pts.length := by
      intro e he
      by_contra hge
      refine hne ⟨e, he, ?_⟩
      rw [List.getElem?_eq_none (by omega)]
    have hnd := hknn.nodup (pts.map (·.1)) k .pinf q
    rw [List.filter_eq_self.2] at hnd
    · have hsub : (knn (pts.map (·.1)) k 0 .pinf q).map (·.2) ⊆ List.range pts.length := by
        intro i hi
        obtain ⟨e, he, rfl⟩ := List.mem_map.1 hi
        exact List.mem_range.2 (hall e he)
      have := (List.subperm_of_subset hnd hsub).length_le
      rw [List.length_map, hknn.length_eq, List.length_range] at this
      omega
    · intro i hi
      obtain ⟨e, he, rfl⟩ := List.mem_map.1 hi
      simpa using hall e he

/-- **C103** (negative) With `n_closest_points` below 2 every call for a grid with at least one cell raises `ValueError`, and with more
than the number of points that have a value it raises `IndexError`. -/
theorem C103_window (variogram : String → Dict ℝ → Except Err (ℝ → ℝ)) (knn : Knn) (hknn : IsKnn knn) (w : World ℝ) (i : Nat)
    (o : Obj ℝ) (d : Dict ℝ) (ho : w.objs[i]? = some o) (hd : w.dicts[o.cfg.params]? = some d)
    (hex : o.cfg.excludeNan = true) (γ : ℝ → ℝ) (hγ : variogram o.cfg.variogramModel d = .ok γ)
    (pts : List (Pt × Fl ℝ)) (htwo : 2 ≤ (pts.filter fun e => !(PyFloat.isNaN e.2)).length)
    (xg yg : Grid ℝ) (res : Option ℝ) (hlen : xg.flatten.length = yg.flatten.length) (hcell : xg.flatten ≠ [])
    (k : Int) (hk : o.cfg.nClosest = some k) :
    (k ≤ 1 → w.callResult (pykrige variogram knn) i (pts.map (·.1.1)) (pts.map (·.1.2)) (pts.map (·.2)) (some xg) (some yg) res
      = .error .valueError) ∧
    (((pts.filter fun e => !(PyFloat.isNaN e.2)).length : Int) < k →
      w.callResult (pykrige variogram knn) i (pts.map (·.1.1)) (pts.map (·.1.2)) (pts.map (·.2)) (some xg) (some yg) res
      = .error .indexError) := by
  have htwo' : 2 ≤ (krGood pts).length := htwo
  have hsel : krSel o.cfg pts = krGood pts := by unfold krSel; rw [if_pos hex]
  have hp : parseGrid (pts.map (·.1.1)) (pts.map (·.1.2)) (some xg) (some yg) res = .ok (xg, yg) := rfl
  obtain ⟨q, hq⟩ : ∃ q, q ∈ xg.flatten.zip yg.flatten := by
    apply List.exists_mem_of_ne_nil
    intro h
    have := congrArg List.length h
    rw [List.length_zip, hlen, min_self, List.length_nil, ← hlen] at this
    exact hcell (List.length_eq_zero_iff.1 this)
  have key : ∀ e, (∀ q, krQuery knn (some k) γ (krGood pts) q = .error e) →
      w.callResult (pykrige variogram knn) i (pts.map (·.1.1)) (pts.map (·.1.2)) (pts.map (·.2)) (some xg) (some yg) res
      = .error e := by
    intro e he
    rw [krResultForm variogram knn w i o d ho hd]
    unfold krOut
    rw [hp]
    dsimp only
    rw [if_neg (by intro h; rw [h] at htwo'; simp at htwo'), hγ]
    dsimp only
    rw [hsel, if_neg (by push Not; exact ⟨htwo', hlen⟩), hk, mapM_one_error _ (fun q _ => .inl (he q)) ⟨q, hq, he q⟩]
    rfl
  constructor
  · intro h
    apply key
    intro q
    unfold krQuery
    dsimp only
    rw [if_pos h]
  · intro h
    apply key
    intro q
    have h' : ((krGood pts).length : Int) < k := h
    unfold krQuery
    dsimp only
    rw [if_neg (by omega), krWindow_missing hknn _ (by omega)]

/-- the hypotheses can be met: three points, `n_closest_points=4` -/
example : (([((0, 0), Fl.fin 1), ((1, 0), Fl.fin 2), ((0, 1), Fl.fin 0), ((1, 1), Fl.nan)] : List (Pt × Fl ℝ)).filter
    fun e => !(PyFloat.isNaN e.2)).length = 3 := by
  simp

/-! ### C104 -/

/-- The variance of the error `Σ lᵢ Z(pᵢ) - Z(q)` of a weighted mean with weights `l` (of sum one), for a random field with variogram `γ`
and observations that carry the nugget. -/
noncomputable def errorVariance (γ : ℝ → ℝ) {n : Nat} (p : Fin n → Pt) (q : Pt) (l : Fin n → ℝ) : ℝ :=
  2 * ∑ i, l i * γ (euclid q (p i)) - ∑ i, ∑ j, l i * l j * (if i = j then 0 else γ (euclid (p i) (p j)))

/-- **C104** Kriging with a spherical variogram is the best linear unbiased estimate: the field is a weighted mean of the values, with
weights that depend on the locations only and have sum one; in cells not at a data point no other weights of sum one have a
smaller error variance, and `sigma` is this variance, which is not negative. -/
theorem C104_best (other : String → Dict ℝ → Except Err (ℝ → ℝ)) (knn : Knn) (w : World ℝ) (i : Nat)
    (o : Obj ℝ) (d : Dict ℝ) (ho : w.objs[i]? = some o) (hd : w.dicts[o.cfg.params]? = some d)
    (hmodel : o.cfg.variogramModel = "spherical") (hnc : o.cfg.nClosest = none) (sill range nugget : ℝ)
    (h1 : d.lookup "sill" = some sill) (h2 : d.lookup "range" = some range) (h3 : d.lookup "nugget" = some nugget)
    (hsill : nugget ≤ sill) (hrange : 0 < range) (hnugget : 0 < nugget)
    (γ : ℝ → ℝ) (hγ1 : ∀ h ≤ range, γ h = (sill - nugget) * (3 / 2 * (h / range) - 1 / 2 * (h / range) ^ 3) + nugget)
    (hγ2 : ∀ h > range, γ h = sill)
    (n : Nat) (hn : 2 ≤ n) (p : Fin n → Pt) (xg yg : Grid ℝ) (hlen : xg.flatten.length = yg.flatten.length) :
    ∃ L : Nat → Fin n → ℝ,
      (∀ k, k < xg.flatten.length → ∑ j, L k j = 1) ∧
      (∀ k q, xg.flatten[k]? = some q.1 → yg.flatten[k]? = some q.2 → (∀ j, 1 / 10 ^ 10 < euclid q (p j)) →
        0 ≤ errorVariance γ p q (L k) ∧
        ∀ l : Fin n → ℝ, ∑ j, l j = 1 → errorVariance γ p q (L k) ≤ errorVariance γ p q l) ∧
      ∀ (v : Fin n → ℝ) (res : Option ℝ) (pts : List (Pt × Fl ℝ)), (pts = List.ofFn fun j => (p j, Fl.fin (v j))) →
        ∃ zg s, w.callResult (pykrige (pykrigeVariogram other) knn) i (pts.map (·.1.1)) (pts.map (·.1.2)) (pts.map (·.2))
            (some xg) (some yg) res = .ok zg ∧
          sigmaAfter (pykrige (pykrigeVariogram other) knn) w i pts (some xg) (some yg) res = some s ∧
          zg.map List.length = xg.map List.length ∧ s.length = xg.flatten.length ∧
          (∀ k, k < xg.flatten.length → zg.flatten[k]? = some (Fl.fin (∑ j, L k j * v j))) ∧
          (∀ k q, xg.flatten[k]? = some q.1 → yg.flatten[k]? = some q.2 → (∀ j, 1 / 10 ^ 10 < euclid q (p j)) →
            s[k]? = some (Fl.fin (errorVariance γ p q (L k)))) := by
  have hγ : γ = sphericalVariogram (sill - nugget) range nugget := by
    funext h
    unfold sphericalVariogram
    by_cases hh : h ≤ range
    · rw [if_pos hh, hγ1 h hh]
      field_simp
    · rw [if_neg hh, hγ2 h (not_le.1 hh)]
      ring
  have hreg : IsUnit (krMatrix γ p).det := by
    rw [hγ]; exact spherical_regular (by linarith) hrange hnugget (by omega)
  have hvar : IsVariogram γ := by
    rw [hγ]; exact spherical_isVariogram (by linarith) hrange hnugget.le
  have hcell : ∀ k, k < xg.flatten.length → ∃ q, (xg.flatten.zip yg.flatten)[k]? = some q := by
    intro k hk
    have : k < (xg.flatten.zip yg.flatten).length := by rw [List.length_zip, ← hlen, min_self]; exact hk
    exact ⟨_, List.getElem?_eq_getElem this⟩
  refine ⟨fun k j => match (xg.flatten.zip yg.flatten)[k]? with
    | some q => krSolve γ p q (.inl j)
    | none => 0, ?_, ?_, ?_⟩
  · intro k hk
    obtain ⟨q, hq⟩ := hcell k hk
    simp only [hq]
    exact krSolve_sum hreg q
  · intro k q hx hy hfar
    simp only [zip_get hx hy]
    exact ⟨estVar_nonneg hvar q _ (krSolve_sum hreg q),
      fun l hl => krOptimal hvar hreg q (fun j => not_le.2 (hfar j)) l hl⟩
  · intro v res pts hpts
    have hquery : ∀ q, krQuery knn none γ pts q = .ok (krEst γ p (fun j => Fl.fin (v j)) q) := by
      intro q
      obtain ⟨e1, e2⟩ := krEstimate_ofFn γ (fun j => (p j, Fl.fin (v j))) q
      unfold krQuery
      dsimp only
      rw [hpts, if_pos (e2.2 hreg), e1]
    have hall : ∀ e ∈ pts, PyFloat.isNaN e.2 = false := by
      intro e he
      rw [hpts, List.mem_ofFn] at he
      obtain ⟨j, rfl⟩ := he
      rfl
    have hgood : krGood pts = pts := by
      unfold krGood
      rw [List.filter_eq_self]
      intro e he
      rw [hall e he]
      rfl
    have hsel : krSel o.cfg pts = pts := by
      unfold krSel
      rw [hgood]
      simp
    have hl : pts.length = n := by rw [hpts, List.length_ofFn]
    obtain ⟨r, hr⟩ := mapM_all_ok (krQuery knn none γ pts) (xg.flatten.zip yg.flatten)
      fun q _ => ⟨_, hquery q⟩
    obtain ⟨hlr, hget⟩ := mapM_ok_get hr
    have hlr' : r.length = xg.flatten.length := by
      rw [hlr, List.length_zip, hlen, min_self]
    obtain ⟨s1, s2⟩ := reshape_get xg (r.map (·.1)) (by rw [List.length_map, hlr'])
    have hout : krOut (pykrigeVariogram other) knn o.cfg d pts (some xg) (some yg) res = .ok (xg, some r) := by
      unfold krOut
      have hp : parseGrid (pts.map (·.1.1)) (pts.map (·.1.2)) (some xg) (some yg) res = .ok (xg, yg) := rfl
      rw [hp]
      dsimp only
      rw [if_neg (by rw [hgood]; intro h; rw [h] at hl; simp at hl; omega), hmodel, spherical_lookup other h1 h2 h3]
      dsimp only
      rw [hsel, if_neg (by push Not; exact ⟨by omega, hlen⟩), hnc, ← hγ, hr]
      rfl
    refine ⟨reshape xg (r.map (·.1)), r.map (·.2), ?_, ?_, s1, by rw [List.length_map, hlr'], ?_, ?_⟩
    · rw [krResultForm (pykrigeVariogram other) knn w i o d ho hd, hout]
      rfl
    · rw [krSigmaForm (pykrigeVariogram other) knn w i o d ho hd, hout]
    · intro k hk
      obtain ⟨q, hq⟩ := hcell k hk
      obtain ⟨b, hb, hbq⟩ := hget k q hq
      rw [hquery q] at hbq
      cases hbq
      rw [s2, List.getElem?_map, hb]
      simp only [hq, Option.map_some, krEst_fin]
    · intro k q hx hy hfar
      obtain ⟨b, hb, hbq⟩ := hget k q (zip_get hx hy)
      rw [hquery q] at hbq
      cases hbq
      rw [List.getElem?_map, hb]
      simp only [zip_get hx hy, Option.map_some]
      congr 1
      unfold krEst
      dsimp only
      rw [krSigma_eq hreg q fun j => not_le.2 (hfar j)]
      rfl

/-! ### C105 -/

theorem euclid_line (a b : ℝ) : euclid (a, 0) (b, 0) = |a - b| := by
  unfold euclid
  simp [Real.sqrt_sq_eq_abs]

/-- **C105** (negative) Kriging does not keep rain rates non-negative: with default arguments, rain at one point only and no rain at two
others, there is a cell with negative rain. -/
theorem C105_negative (other : String → Dict ℝ → Except Err (ℝ → ℝ)) (knn : Knn) (rain : ℝ) (res : Option ℝ) :
    ((World.init : World ℝ).step (pykrige (pykrigeVariogram other) knn) (.new none { params := 0 })).callResult
        (pykrige (pykrigeVariogram other) knn) 0 [0, 1 / 2, 4 / 5] [0, 0, 0] [Fl.fin 0, Fl.fin rain, Fl.fin 0]
        (some [[-3 / 10]]) (some [[0]]) res = .ok [[Fl.fin (-(1517 / 173185) * rain)]] := by
  have h1 : ([("sill", 0.9), ("range", 1), ("nugget", 0.1)] : Dict ℝ).lookup "sill" = some 0.9 := by simp [List.lookup]
  have h2 : ([("sill", 0.9), ("range", 1), ("nugget", 0.1)] : Dict ℝ).lookup "range" = some 1 := by simp [List.lookup]
  have h3 : ([("sill", 0.9), ("range", 1), ("nugget", 0.1)] : Dict ℝ).lookup "nugget" = some 0.1 := by simp [List.lookup]
  let p : Fin 3 → Pt := ![(0, 0), (1 / 2, 0), (4 / 5, 0)]
  let v : Fin 3 → ℝ := ![0, rain, 0]
  have hreg : IsUnit (krMatrix (sphericalVariogram (0.9 - 0.1) 1 0.1) p).det :=
    spherical_regular (by norm_num) (by norm_num) (by norm_num) (by norm_num)
  have hpts : [((0, 0), Fl.fin 0), ((1 / 2, 0), Fl.fin rain), ((4 / 5, 0), Fl.fin 0)] =
      List.ofFn fun j => (p j, Fl.fin (v j)) := by
    simp [List.ofFn_succ, p, v]
  have hsolve : krSolve (sphericalVariogram (0.9 - 0.1) 1 0.1) p (-3 / 10, 0) = fun a => match a with
      | .inl j => ![531273 / 692740, -(1517 / 173185), 33507 / 138548] j
      | .inr _ => -(42961769 / 173185000) := by
    apply krSolve_unique hreg
    · intro j
      fin_cases j <;>
      · simp [Fin.sum_univ_three, krRhs, p, euclid_line, sphericalVariogram]
        norm_num [abs_of_pos, abs_of_neg]
    · simp [Fin.sum_univ_three]
      norm_num
  have hquery : krQuery knn none (sphericalVariogram (0.9 - 0.1) 1 0.1)
      [((0, 0), Fl.fin 0), ((1 / 2, 0), Fl.fin rain), ((4 / 5, 0), Fl.fin 0)] (-3 / 10, 0) =
      .ok (krEst (sphericalVariogram (0.9 - 0.1) 1 0.1) p (fun j => Fl.fin (v j)) (-3 / 10, 0)) := by
    obtain ⟨e1, e2⟩ := krEstimate_ofFn (sphericalVariogram (0.9 - 0.1) 1 0.1) (fun j => (p j, Fl.fin (v j))) (-3 / 10, 0)
    unfold krQuery
    dsimp only
    rw [hpts, if_pos (e2.2 hreg), e1]
  have hf := krResultForm (pykrigeVariogram other) knn
    ((World.init : World ℝ).step (pykrige (pykrigeVariogram other) knn) (.new none { params := 0 })) 0
    ⟨{ params := 0 }, {}⟩ [("sill", 0.9), ("range", 1), ("nugget", 0.1)] rfl rfl
    [((0, 0), Fl.fin 0), ((1 / 2, 0), Fl.fin rain), ((4 / 5, 0), Fl.fin 0)] (some [[-3 / 10]]) (some [[0]]) res
  refine hf.trans ?_
  have hgood : krGood [(((0:ℝ), (0:ℝ)), Fl.fin (0:ℝ)), ((1 / 2, 0), Fl.fin rain), ((4 / 5, 0), Fl.fin 0)] =
    [((0, 0), Fl.fin 0), ((1 / 2, 0), Fl.fin rain), ((4 / 5, 0), Fl.fin 0)] := by simp [krGood]
  unfold krOut krSel
  have hp : ∀ xs ys : List ℝ, parseGrid xs ys (some [[-3 / 10]]) (some [[0]]) res = .ok ([[-3 / 10]], [[0]]) := fun _ _ => rfl
  rw [hp, hgood]
  dsimp only
  rw [if_neg (by simp), spherical_lookup other h1 h2 h3]
  simp only [if_true]
  rw [if_neg (by simp)]
  simp only [List.flatten_cons, List.flatten_nil, List.append_nil, List.zip_cons_cons, List.zip_nil_right, List.mapM_cons,
    List.mapM_nil]
  rw [hquery]
  have hval := krEst_fin (sphericalVariogram (0.9 - 0.1) 1 0.1) p v (-3 / 10, 0)
  rw [hsolve] at hval
  simp only [Fin.sum_univ_three, v, Matrix.cons_val_zero, Matrix.cons_val_one, Matrix.cons_val, mul_zero, add_zero,
    zero_add] at hval
  show Except.ok [[(krEst _ p (fun j => Fl.fin (v j)) _).1]] = _
  rw [hval]

/-! ### Examples -/

/-- a state with one interpolator with default arguments -/
noncomputable def krDefault : World ℝ :=
  (World.init : World ℝ).step (pykrige (pykrigeVariogram fun _ _ => .error .valueError) bruteKnn) (.new none { params := 0 })

/-- the objects and parameters meant in the hypotheses -/
example : krDefault.objs[0]? = some ⟨{ params := 0 }, {}⟩ ∧
    krDefault.dicts[0]? = some ([("sill", 0.9), ("range", 1), ("nugget", 0.1)] : Dict ℝ) := ⟨rfl, rfl⟩

/-- hypotheses of `C103_total`, `C103_default`: two values and a NaN, two of the points at the same place -/
example : ∃ zg, krDefault.callResult (pykrige (pykrigeVariogram fun _ _ => .error .valueError) bruteKnn) 0
    [0, 0, 5] [1, 1, 2] [Fl.fin 3, Fl.fin 4, Fl.nan] (some [[0, 7]]) (some [[1, 8]]) none = .ok zg ∧
    zg.map List.length = [2] ∧ ∀ row ∈ zg, ∀ v ∈ row, ∃ x, v = Fl.fin x :=
  C103_default (fun _ _ => .error .valueError) bruteKnn bruteKnn_isKnn
    [((0, 1), Fl.fin 3), ((0, 1), Fl.fin 4), ((5, 2), Fl.nan)] (by simp) (by simp) [[0, 7]] [[1, 8]] none rfl

/-- `C101_exact`: of the two cells, the first lies at the first data point and gets its value 3 -/
example : ∃ zg : Grid (Fl ℝ), krDefault.callResult (pykrige (pykrigeVariogram fun _ _ => .error .valueError) bruteKnn) 0
    [0, 5] [1, 2] [Fl.fin 3, Fl.fin 4] (some [[0, 7]]) (some [[1, 8]]) none = .ok zg ∧
    zg.flatten[0]? = some (Fl.fin 3) := by
  obtain ⟨zg, h, _⟩ := C103_default (fun _ _ => .error .valueError) bruteKnn bruteKnn_isKnn
    [((0, 1), Fl.fin 3), ((5, 2), Fl.fin 4)] (by simp) (by simp) [[0, 7]] [[1, 8]] none rfl
  refine ⟨zg, h, ?_⟩
  refine (C101_exact _ bruteKnn bruteKnn_isKnn krDefault 0 ⟨{ params := 0 }, {}⟩ rfl rfl [] [((5, 2), Fl.fin 4)] (0, 1) 3 _ rfl
    (by simp) ?_ [[0, 7]] [[1, 8]] none zg h 0 rfl rfl).2.1
  intro e he
  right
  simp only [List.nil_append, List.mem_singleton] at he
  subst he
  unfold euclid
  rw [show ((0:ℝ), (1:ℝ)).1 = 0 from rfl]
  have : (1 / 10 ^ 10 : ℝ) < 5 := by norm_num
  refine lt_of_lt_of_le this (Real.le_sqrt_of_sq_le ?_)
  norm_num

/-- `C100_affine` with a NaN: twice the values plus one -/
example : krDefault.callResult (pykrige (pykrigeVariogram fun _ _ => .error .valueError) bruteKnn) 0
    [0, 5, 6] [1, 2, 3] [Fl.fin 2 *ᶠ Fl.fin 3 +ᶠ Fl.fin 1, Fl.fin 2 *ᶠ Fl.fin 4 +ᶠ Fl.fin 1, Fl.fin 2 *ᶠ Fl.nan +ᶠ Fl.fin 1]
      (some [[0, 7]]) (some [[1, 8]]) none =
    (krDefault.callResult (pykrige (pykrigeVariogram fun _ _ => .error .valueError) bruteKnn) 0
      [0, 5, 6] [1, 2, 3] [Fl.fin 3, Fl.fin 4, Fl.nan] (some [[0, 7]]) (some [[1, 8]]) none).map
      (List.map (List.map fun v => Fl.fin 2 *ᶠ v +ᶠ Fl.fin 1)) :=
  C100_affine _ bruteKnn krDefault 0 [((0, 1), Fl.fin 3), ((5, 2), Fl.fin 4), ((6, 3), Fl.nan)] (by simp) 2 1
    (some [[0, 7]]) (some [[1, 8]]) none

/-- `C102_moved`: a shift by (10, -20) -/
example : krDefault.callResult (pykrige (pykrigeVariogram fun _ _ => .error .valueError) bruteKnn) 0
    [0 + 10, 5 + 10] [1 - 20, 2 - 20] [Fl.fin 3, Fl.fin 4] (some [[0 + 10, 7 + 10]]) (some [[1 - 20, 8 - 20]]) none =
    krDefault.callResult (pykrige (pykrigeVariogram fun _ _ => .error .valueError) bruteKnn) 0
      [0, 5] [1, 2] [Fl.fin 3, Fl.fin 4] (some [[0, 7]]) (some [[1, 8]]) none :=
  C102_moved _ bruteKnn krDefault 0 ⟨{ params := 0 }, {}⟩ rfl rfl (fun p => (p.1 + 10, p.2 - 20))
    (by intro a b; unfold euclid; congr 1; ring) [((0, 1), Fl.fin 3), ((5, 2), Fl.fin 4)] [[0, 7]] [[1, 8]]
    [[0 + 10, 7 + 10]] [[1 - 20, 8 - 20]] none none rfl rfl rfl rfl

/-- hypotheses of `C104_best`: the default parameters and their variogram -/
example : ∃ γ : ℝ → ℝ,
    (∀ h ≤ (1:ℝ), γ h = (0.9 - 0.1) * (3 / 2 * (h / 1) - 1 / 2 * (h / 1) ^ 3) + 0.1) ∧ ∀ h > (1:ℝ), γ h = 0.9 :=
  ⟨fun h => if h ≤ 1 then (0.9 - 0.1) * (3 / 2 * (h / 1) - 1 / 2 * (h / 1) ^ 3) + 0.1 else 0.9,
    fun _ hh => if_pos hh, fun _ hh => if_neg (not_le.2 hh)⟩

end Verif.Props
