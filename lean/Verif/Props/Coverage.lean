import Verif.Model.Coverage
import Mathlib.Data.Real.Basic
import Mathlib.Data.List.Basic

/-!
# Property C63: coverage mask
-/

namespace Verif.Coverage

theorem reshape_flatten {α β : Type} : ∀ (g : List (List α)) (flat : List β),
    flat.length = g.flatten.length →
    (reshape g flat).map List.length = g.map List.length ∧ (reshape g flat).flatten = flat
  | [], flat, h => by
    have : flat = [] := by simpa using h
    subst this
    exact ⟨rfl, rfl⟩
  | r :: rs, flat, h => by
    rw [List.flatten_cons, List.length_append] at h
    obtain ⟨e1, e2⟩ := reshape_flatten rs (flat.drop r.length) (by rw [List.length_drop]; omega)
    refine ⟨?_, ?_⟩
    · rw [reshape, List.map_cons, List.map_cons, e1, List.length_take]
      congr 1
      omega
    · rw [reshape, List.flatten_cons, e2, List.take_append_drop]

theorem reshape_map_zip {X β : Type} (f : X × X → β) : ∀ (xg yg : List (List X)),
    xg.map List.length = yg.map List.length →
    reshape xg ((xg.flatten.zip yg.flatten).map f) =
      List.zipWith (List.zipWith fun x y => f (x, y)) xg yg
  | [], yg, h => by
    have : yg = [] := by simpa using h.symm
    subst this
    rfl
  | x :: xs, [], h => by simp at h
  | x :: xs, y :: ys, h => by
    rw [List.map_cons, List.map_cons] at h
    injection h with h1 h2
    rw [List.flatten_cons, List.flatten_cons, List.zip_append h1, List.map_append]
    have hlen : ((x.zip y).map f).length = x.length := by
      rw [List.length_map, List.length_zip]; omega
    rw [reshape]
    rw [show List.take x.length ((x.zip y).map f ++ (xs.flatten.zip ys.flatten).map f) = (x.zip y).map f by
      rw [← hlen, List.take_left]]
    rw [show List.drop x.length ((x.zip y).map f ++ (xs.flatten.zip ys.flatten).map f) =
        (xs.flatten.zip ys.flatten).map f by
      rw [← hlen, List.drop_left], reshape_map_zip f xs ys h2, List.zipWith_cons_cons]
    congr 1
    rw [List.zip, List.map_zipWith]

end Verif.Coverage

namespace Verif.Props
open Verif Verif.Coverage

variable {X G : Type}

/-- **C63** For grids of equal shape the mask has that shape, and the entry for the grid point `(x, y)` is true exactly if
the point intersects the area around at least one CML. -/
theorem C63_mask (geo : Geometry X G) (hgeo : geo.Lawful) (cmls : List (Cml X)) (xg yg : List (List X))
    (hshape : xg.map List.length = yg.map List.length) (d : X) :
    ∃ mask, calcCoverageMask geo cmls xg yg d = .ok mask ∧ mask.map List.length = xg.map List.length ∧
      ∀ (i j : Nat) xr yr mr x y, xg[i]? = some xr → yg[i]? = some yr → xr[j]? = some x → yr[j]? = some y →
        mask[i]? = some mr →
        ∃ m, mr[j]? = some m ∧ (m = true ↔ ∃ c ∈ cmls, geo.intersects (x, y) (geo.buffer c.a c.b d) = true) := by
  have hlen : xg.flatten.length = yg.flatten.length := by
    rw [List.length_flatten, List.length_flatten, hshape]
  have hcov : ((xg.flatten.zip yg.flatten).map fun p =>
      if geo.intersects p (geo.union (cmls.map fun c => geo.buffer c.a c.b d)) then true else false).length =
      xg.flatten.length := by
    rw [List.length_map, List.length_zip]; omega
  refine ⟨List.zipWith (List.zipWith fun x y =>
      if geo.intersects (x, y) (geo.union (cmls.map fun c => geo.buffer c.a c.b d)) then true else false) xg yg,
    ?_, ?_, ?_⟩
  · unfold calcCoverageMask
    dsimp only
    rw [if_pos hcov, reshape_map_zip _ xg yg hshape]
  · rw [← reshape_map_zip (fun p =>
      if geo.intersects p (geo.union (cmls.map fun c => geo.buffer c.a c.b d)) then true else false) xg yg hshape]
    exact (reshape_flatten xg _ hcov).1
  · intro i j xr yr mr x y hx hy hxj hyj hm
    rw [List.getElem?_zipWith, hx, hy] at hm
    injection hm with hm
    subst hm
    rw [List.getElem?_zipWith, hxj, hyj]
    refine ⟨_, rfl, ?_⟩
    have h := hgeo (x, y) (cmls.map fun c => geo.buffer c.a c.b d)
    simp only [List.mem_map, exists_exists_and_eq_and] at h
    rw [← h]
    split_ifs with hi <;> simp [hi]

/-- **C63** Grids with fewer y than x values raise. -/
theorem C63_short_ygrid (geo : Geometry X G) (cmls : List (Cml X)) (xg yg : List (List X)) (d : X)
    (h : yg.flatten.length < xg.flatten.length) :
    calcCoverageMask geo cmls xg yg d = .error .valueError := by
  unfold calcCoverageMask
  dsimp only
  rw [if_neg]
  rw [List.length_map, List.length_zip]
  omega

/-- **C63** The mask depends only on the set of CMLs: not on order or repetition. -/
theorem C63_set (geo : Geometry X G) (hgeo : geo.Lawful) (cmls cmls' : List (Cml X)) (h : ∀ c, c ∈ cmls ↔ c ∈ cmls')
    (xg yg : List (List X)) (d : X) :
    calcCoverageMask geo cmls xg yg d = calcCoverageMask geo cmls' xg yg d := by
  have : (fun p : X × X => if geo.intersects p (geo.union (cmls.map fun c => geo.buffer c.a c.b d)) then true else false) =
      fun p => if geo.intersects p (geo.union (cmls'.map fun c => geo.buffer c.a c.b d)) then true else false := by
    funext p
    have e : geo.intersects p (geo.union (cmls.map fun c => geo.buffer c.a c.b d)) =
        geo.intersects p (geo.union (cmls'.map fun c => geo.buffer c.a c.b d)) := by
      rw [Bool.eq_iff_iff, hgeo, hgeo]
      simp only [List.mem_map, exists_exists_and_eq_and, h]
    rw [e]
  unfold calcCoverageMask
  dsimp only
  rw [this]

/-- **C63** The mask of two lists together is the elementwise "or" of their masks; adding CMLs only adds covered points. -/
theorem C63_union (geo : Geometry X G) (hgeo : geo.Lawful) (cmls cmls' : List (Cml X)) (xg yg : List (List X))
    (hshape : xg.map List.length = yg.map List.length) (d : X) :
    ∃ m m', calcCoverageMask geo cmls xg yg d = .ok m ∧ calcCoverageMask geo cmls' xg yg d = .ok m' ∧
      calcCoverageMask geo (cmls ++ cmls') xg yg d = .ok (List.zipWith (List.zipWith (· || ·)) m m') := by
  have hlen : xg.flatten.length = yg.flatten.length := by
    rw [List.length_flatten, List.length_flatten, hshape]
  have hform : ∀ cmls : List (Cml X), calcCoverageMask geo cmls xg yg d = .ok (List.zipWith (List.zipWith fun x y =>
      geo.intersects (x, y) (geo.union (cmls.map fun c => geo.buffer c.a c.b d))) xg yg) := by
    intro cmls
    unfold calcCoverageMask
    dsimp only
    rw [if_pos (by rw [List.length_map, List.length_zip]; omega), reshape_map_zip _ xg yg hshape]
    congr 3
    funext x y
    split_ifs with h <;> simp [h]
  refine ⟨_, _, hform cmls, hform cmls', ?_⟩
  rw [hform]
  congr 1
  apply List.ext_getElem
  · simp
  · intro i h1 h2
    simp only [List.getElem_zipWith]
    apply List.ext_getElem
    · simp
    · intro j h3 h4
      simp only [List.getElem_zipWith]
      rw [Bool.eq_iff_iff, Bool.or_eq_true, hgeo, hgeo, hgeo]
      simp only [List.map_append, List.mem_append]
      constructor
      · rintro ⟨g, hg | hg, h⟩
        · exact Or.inl ⟨g, hg, h⟩
        · exact Or.inr ⟨g, hg, h⟩
      · rintro (⟨g, hg, h⟩ | ⟨g, hg, h⟩)
        · exact ⟨g, Or.inl hg, h⟩
        · exact ⟨g, Or.inr hg, h⟩

/-- the point `p` is within distance `d` of the line from `a` to `b` -/
def Near (p a b : ℝ × ℝ) (d : ℝ) : Prop :=
  ∃ s : ℝ, 0 ≤ s ∧ s ≤ 1 ∧
    (p.1 - (a.1 + s * (b.1 - a.1))) ^ 2 + (p.2 - (a.2 + s * (b.2 - a.2))) ^ 2 ≤ d ^ 2

/-- **C63** In terms of distances: if the buffer polygon lies between the exact buffers of radius `r` and `d` (shapely
replaces the round caps by inscribed polygons), every grid point within `r` of a CML is covered and every covered
one is within `d` of a CML. -/
theorem C63_distance (geo : Geometry ℝ G) (hgeo : geo.Lawful) (r d : ℝ)
    (hinner : ∀ p a b, Near p a b r → geo.intersects p (geo.buffer a b d) = true)
    (houter : ∀ p a b, geo.intersects p (geo.buffer a b d) = true → Near p a b d)
    (cmls : List (Cml ℝ)) (xg yg : List (List ℝ)) (hshape : xg.map List.length = yg.map List.length) :
    ∃ mask, calcCoverageMask geo cmls xg yg d = .ok mask ∧
      ∀ (i j : Nat) xr yr mr x y m, xg[i]? = some xr → yg[i]? = some yr → xr[j]? = some x → yr[j]? = some y →
        mask[i]? = some mr → mr[j]? = some m →
        ((∃ c ∈ cmls, Near (x, y) c.a c.b r) → m = true) ∧ (m = true → ∃ c ∈ cmls, Near (x, y) c.a c.b d) := by
  obtain ⟨mask, h1, _, h3⟩ := C63_mask geo hgeo cmls xg yg hshape d
  refine ⟨mask, h1, ?_⟩
  intro i j xr yr mr x y m hx hy hxj hyj hm hmj
  obtain ⟨m', hm', hiff⟩ := h3 i j xr yr mr x y hx hy hxj hyj hm
  rw [hmj] at hm'
  injection hm' with hm'
  subst hm'
  constructor
  · rintro ⟨c, hc, hn⟩
    exact hiff.mpr ⟨c, hc, hinner _ _ _ hn⟩
  · intro h
    obtain ⟨c, hc, hi⟩ := hiff.mp h
    exact ⟨c, hc, houter _ _ _ hi⟩

/-! ## Examples -/

section examples

/-- one-dimensional toy geometry: intervals on the x axis -/
def exGeo : Geometry Int (List (Int × Int)) where
  buffer a b d := [(min a.1 b.1 - d, max a.1 b.1 + d)]
  union gs := gs.flatten
  intersects p g := g.any fun i => decide (i.1 ≤ p.1) && decide (p.1 ≤ i.2)

example : exGeo.Lawful := by
  intro p gs
  simp only [exGeo, List.any_eq_true, List.mem_flatten]
  constructor
  · rintro ⟨i, ⟨g, hg, hi⟩, h⟩
    exact ⟨g, hg, i, hi, h⟩
  · rintro ⟨g, hg, i, hi, h⟩
    exact ⟨i, ⟨g, hg, hi⟩, h⟩

example : calcCoverageMask exGeo [⟨(0, 0), (2, 0)⟩, ⟨(9, 0), (8, 0)⟩] [[-2, 0, 3], [4, 7, 9]] [[0, 0, 0], [1, 1, 1]] 1 =
    .ok [[false, true, true], [false, true, true]] := by decide

example : calcCoverageMask exGeo [] [[0, 1]] [[0]] 1 = .error .valueError := by decide

end examples

end Verif.Props
