import Verif.Model.Haversine
import Mathlib.Geometry.Euclidean.Angle.Unoriented.TriangleInequality
import Mathlib.Analysis.InnerProductSpace.PiL2
import Mathlib.Analysis.SpecialFunctions.Trigonometric.Bounds

/-!
# Properties C30 and C31: haversine distance and the CML distance matrix
-/

namespace Verif.Props
open Verif Verif.Haversine

/-! ### C30 -/

/-- the point on the unit sphere -/
noncomputable def unitVec (lon lat : ℝ) : EuclideanSpace ℝ (Fin 3) :=
  !₂[Real.cos (radians lat) * Real.cos (radians lon),
     Real.cos (radians lat) * Real.sin (radians lon), Real.sin (radians lat)]

theorem inner_unitVec (lon1 lat1 lon2 lat2 : ℝ) :
    inner ℝ (unitVec lon1 lat1) (unitVec lon2 lat2) =
      Real.cos (radians lat1) * Real.cos (radians lat2) * Real.cos (radians lon2 - radians lon1)
      + Real.sin (radians lat1) * Real.sin (radians lat2) := by
  simp only [unitVec, PiLp.inner_apply, Fin.sum_univ_three, RCLike.inner_apply, conj_trivial]
  simp [Real.cos_sub]
  ring

theorem norm_unitVec (lon lat : ℝ) : ‖unitVec lon lat‖ = 1 := by
  have h : ‖unitVec lon lat‖ ^ 2 = 1 := by
    rw [← real_inner_self_eq_norm_sq, inner_unitVec, sub_self, Real.cos_zero]
    nlinarith [Real.sin_sq_add_cos_sq (radians lat)]
  have h0 := norm_nonneg (unitVec lon lat)
  nlinarith

/-- the haversine of the central angle -/
theorem hav_eq (lon1 lat1 lon2 lat2 : ℝ) :
    Real.sin ((radians lat2 - radians lat1) / 2) ^ 2
      + Real.cos (radians lat1) * Real.cos (radians lat2)
        * Real.sin ((radians lon2 - radians lon1) / 2) ^ 2
    = (1 - inner ℝ (unitVec lon1 lat1) (unitVec lon2 lat2)) / 2 := by
  have hs : ∀ x : ℝ, Real.sin (x / 2) ^ 2 = (1 - Real.cos x) / 2 := by
    intro x
    have := Real.cos_sq (x / 2)
    rw [mul_div_cancel₀ x two_ne_zero] at this
    nlinarith [Real.sin_sq_add_cos_sq (x / 2)]
  rw [hs, hs, inner_unitVec, Real.cos_sub (radians lat2)]
  ring

theorem haversine_eq_angle (lon1 lat1 lon2 lat2 : ℝ) :
    haversine lon1 lat1 lon2 lat2 =
      6367 * InnerProductGeometry.angle (unitVec lon1 lat1) (unitVec lon2 lat2) := by
  set θ := InnerProductGeometry.angle (unitVec lon1 lat1) (unitVec lon2 lat2) with hθ
  have hcos : inner ℝ (unitVec lon1 lat1) (unitVec lon2 lat2) = Real.cos θ := by
    rw [hθ, InnerProductGeometry.cos_angle, norm_unitVec, norm_unitVec, mul_one, div_one]
  have h0 : 0 ≤ θ := InnerProductGeometry.angle_nonneg _ _
  have hpi : θ ≤ Real.pi := InnerProductGeometry.angle_le_pi _ _
  unfold haversine
  dsimp only
  rw [hav_eq, hcos]
  have hsq : (1 - Real.cos θ) / 2 = Real.sin (θ / 2) ^ 2 := by
    have := Real.cos_sq (θ / 2)
    rw [mul_div_cancel₀ θ two_ne_zero] at this
    nlinarith [Real.sin_sq_add_cos_sq (θ / 2)]
  have hcq : 1 - Real.sin (θ / 2) ^ 2 = Real.cos (θ / 2) ^ 2 := by
    nlinarith [Real.sin_sq_add_cos_sq (θ / 2)]
  have hs0 : 0 ≤ Real.sin (θ / 2) := Real.sin_nonneg_of_nonneg_of_le_pi (by linarith) (by linarith)
  have hc0 : 0 ≤ Real.cos (θ / 2) :=
    Real.cos_nonneg_of_neg_pi_div_two_le_of_le (by linarith) (by linarith)
  have e5 : (0.5 : ℝ) = 1 / 2 := by norm_num
  rw [hsq, hcq, e5, ← Real.sqrt_eq_rpow, ← Real.sqrt_eq_rpow, Real.sqrt_sq hs0, Real.sqrt_sq hc0]
  have : (⟨Real.cos (θ / 2), Real.sin (θ / 2)⟩ : ℂ) =
      Complex.cos (θ / 2 : ℝ) + Complex.sin (θ / 2 : ℝ) * Complex.I := by
    rw [← Complex.ofReal_cos, ← Complex.ofReal_sin]
    apply Complex.ext <;> simp only [Complex.add_re, Complex.add_im, Complex.mul_re,
      Complex.mul_im, Complex.ofReal_re, Complex.ofReal_im, Complex.I_re, Complex.I_im] <;> ring
  unfold arctan2
  rw [this, Complex.arg_cos_add_sin_mul_I ⟨by linarith [Real.pi_pos], by linarith⟩]
  ring

theorem unitVec_shift (lon lat : ℝ) (k : ℤ) : unitVec (lon + 360 * k) lat = unitVec lon lat := by
  have h : radians (lon + 360 * k) = radians lon + k * (2 * Real.pi) := by
    unfold radians; ring
  unfold unitVec
  rw [h, Real.cos_add_int_mul_two_pi, Real.sin_add_int_mul_two_pi]

/-- **C30** The haversine distance: non-negative, at most half the circumference, symmetric,
zero for identical points, invariant under shifting longitudes by full turns, and it
satisfies the triangle inequality. -/
theorem C30_metric (lon1 lat1 lon2 lat2 lon3 lat3 : ℝ) :
    0 ≤ haversine lon1 lat1 lon2 lat2 ∧
    haversine lon1 lat1 lon2 lat2 ≤ 6367 * Real.pi ∧
    haversine lon1 lat1 lon2 lat2 = haversine lon2 lat2 lon1 lat1 ∧
    haversine lon1 lat1 lon1 lat1 = 0 ∧
    (∀ k m : ℤ, haversine (lon1 + 360 * k) lat1 (lon2 + 360 * m) lat2 =
      haversine lon1 lat1 lon2 lat2) ∧
    haversine lon1 lat1 lon3 lat3 ≤
      haversine lon1 lat1 lon2 lat2 + haversine lon2 lat2 lon3 lat3 := by
  simp only [haversine_eq_angle]
  refine ⟨?_, ?_, ?_, ?_, ?_, ?_⟩
  · have := InnerProductGeometry.angle_nonneg (unitVec lon1 lat1) (unitVec lon2 lat2)
    positivity
  · have := InnerProductGeometry.angle_le_pi (unitVec lon1 lat1) (unitVec lon2 lat2)
    linarith
  · rw [InnerProductGeometry.angle_comm]
  · have hne : unitVec lon1 lat1 ≠ 0 := by
      intro h
      have := norm_unitVec lon1 lat1
      rw [h, norm_zero] at this
      norm_num at this
    rw [InnerProductGeometry.angle_self hne, mul_zero]
  · intro k m
    rw [unitVec_shift, unitVec_shift]
  · have := InnerProductGeometry.angle_le_angle_add_angle (unitVec lon1 lat1)
      (unitVec lon2 lat2) (unitVec lon3 lat3)
    linarith

/-- **C30** Along a meridian the distance is radius times latitude difference (in radians),
so the scale of the formula is the one of a sphere of radius 6367 km. -/
theorem C30_meridian (lon lat1 lat2 : ℝ) (h1 : lat1 ≤ lat2) (h2 : lat2 ≤ lat1 + 180) :
    haversine lon lat1 lon lat2 = 6367 * ((lat2 - lat1) * (Real.pi / 180)) := by
  rw [haversine_eq_angle, InnerProductGeometry.angle, norm_unitVec, norm_unitVec, inner_unitVec]
  have : Real.cos (radians lat1) * Real.cos (radians lat2) * Real.cos (radians lon - radians lon)
      + Real.sin (radians lat1) * Real.sin (radians lat2) = Real.cos (radians lat2 - radians lat1) := by
    rw [sub_self, Real.cos_zero, Real.cos_sub]; ring
  rw [this, mul_one, div_one, Real.arccos_cos]
  · unfold radians; ring
  · unfold radians
    have : 0 ≤ (lat2 - lat1) * (Real.pi / 180) := by
      have := Real.pi_pos
      have : 0 ≤ lat2 - lat1 := by linarith
      positivity
    linarith
  · unfold radians
    have := Real.pi_pos
    nlinarith

example : haversine 11 0 11 90 = 6367 * (90 * (Real.pi / 180)) := by
  have := C30_meridian 11 0 90 (by norm_num) (by norm_num)
  simpa using this

/-! ### C31 -/

theorem fillLoop_spec {V S Id : Type} [DecidableEq Id] (d : S → S → V) (ids : List Id) (hn : ids.Nodup)
    (dst : List S) (todo : List (Id × S)) (m : Matrix' V) (hm : m.length = ids.length)
    (i : Nat) (cid : Id) (s : S) (hi : ids[i]? = some cid) :
    (fillLoop d ids dst todo m).length = ids.length ∧
    ((todo.map (·.1)).Nodup → (cid, s) ∈ todo →
      (fillLoop d ids dst todo m)[i]? = some (dst.map fun q => d s q)) ∧
    (cid ∉ todo.map (·.1) → (fillLoop d ids dst todo m)[i]? = m[i]?) := by
  induction todo generalizing m with
  | nil => simp [fillLoop, hm]
  | cons p todo ih =>
    obtain ⟨c, t⟩ := p
    simp only [fillLoop]
    obtain ⟨h1, h2, h3⟩ := ih (setRow ids m c (dst.map fun q => d t q))
      (by simp [setRow, hm])
    refine ⟨h1, ?_, ?_⟩
    · intro hnd hmem
      rw [List.map_cons, List.nodup_cons] at hnd
      rcases List.mem_cons.mp hmem with he | hmem
      · cases he
        rw [h3 hnd.1]
        unfold setRow
        have hidx : ids.findIdx (· = cid) = i := by
          obtain ⟨b, c'⟩ := List.getElem?_eq_some_iff.mp hi
          have hlt : ids.findIdx (· = cid) < ids.length := by
            rw [List.findIdx_lt_length]
            exact ⟨cid, List.mem_of_getElem? hi, by simp⟩
          have hg := List.findIdx_getElem (w := hlt)
          simp only [decide_eq_true_eq] at hg
          exact (hn.getElem_inj_iff).mp (hg.trans c'.symm)
        rw [hidx, List.getElem?_set_self]
        rw [hm]
        exact (List.getElem?_eq_some_iff.mp hi).1
      · exact h2 hnd.2 hmem
    · intro hnot
      rw [List.map_cons, List.mem_cons, not_or] at hnot
      rw [h3 hnot.2]
      unfold setRow
      rw [List.getElem?_set_ne]
      intro he
      apply hnot.1
      have hlt : ids.findIdx (· = c) < ids.length := by
        rw [he]; exact (List.getElem?_eq_some_iff.mp hi).1
      have hg := List.findIdx_getElem (w := hlt)
      simp only [decide_eq_true_eq] at hg
      obtain ⟨b, c'⟩ := List.getElem?_eq_some_iff.mp hi
      simp only [he] at hg
      exact c'.symm.trans hg

/-- the entry of a matrix -/
def entry' {V : Type} (m : Matrix' V) (i j : Nat) : Option V := m[i]?.bind fun r => r[j]?

/-- the entry of a matrix with exact values -/
def entry (m : Matrix) (i j : Nat) : Option (Fl ℝ) := m[i]?.bind fun r => r[j]?

/-- Every entry of one distance matrix: 0 on the diagonal, the distance of the two end
points elsewhere; the matrix is `n × n`. -/
theorem distMatrixOf_entries {V S Id : Type} [DecidableEq Id] (nan zero : V) (d : S → S → V) (ids : List Id) (hn : ids.Nodup)
    (src dst : List S) (hs : src.length = ids.length) (hd : dst.length = ids.length) :
    (distMatrixOf nan zero d ids src dst).length = ids.length ∧
    (∀ r ∈ distMatrixOf nan zero d ids src dst, r.length = ids.length) ∧
    ∀ (i j : Nat) (p q : S), src[i]? = some p → dst[j]? = some q →
      entry' (distMatrixOf nan zero d ids src dst) i j =
        some (if i = j then zero else d p q) := by
  set m0 : Matrix' V := List.replicate ids.length (List.replicate ids.length nan) with hm0
  have hfst : (ids.zip src).map (·.1) = ids := List.map_fst_zip (by omega)
  have hlen : (fillLoop d ids dst (ids.zip src) m0).length = ids.length := by
    cases hid : ids with
    | nil => simp [fillLoop, hm0, hid]
    | cons c cs =>
      rw [← hid]
      exact (fillLoop_spec d ids hn dst _ m0 (by simp [hm0]) 0 c (src[0]'(by rw [hs, hid]; exact Nat.succ_pos _)) (by rw [hid]; rfl)).1
  have hrow : ∀ (i : Nat) (c : Id) (p : S), ids[i]? = some c → src[i]? = some p →
      (fillLoop d ids dst (ids.zip src) m0)[i]? = some (dst.map fun q => d p q) := by
    intro i c p hi hp
    refine (fillLoop_spec d ids hn dst _ m0 (by simp [hm0]) i c p hi).2.1 (by rwa [hfst]) ?_
    apply List.mem_of_getElem? (i := i)
    rw [List.getElem?_zip_eq_some]
    exact ⟨hi, hp⟩
  have hget : ∀ (i : Nat) (c : Id) (p : S), ids[i]? = some c → src[i]? = some p →
      (distMatrixOf nan zero d ids src dst)[i]? = some (List.zipWith
        (fun id2 x => if c = id2 then zero else x) ids
        (dst.map fun q => d p q)) := by
    intro i c p hi hp
    unfold distMatrixOf zeroDiag
    rw [List.getElem?_zipWith, hi, hrow i c p hi hp]
  refine ⟨?_, ?_, ?_⟩
  · unfold distMatrixOf zeroDiag
    simp [hm0] at hlen ⊢
    omega
  · intro r hr
    obtain ⟨i, hi⟩ := List.mem_iff_getElem?.mp hr
    have hlt : i < ids.length := by
      have := (List.getElem?_eq_some_iff.mp hi).1
      unfold distMatrixOf zeroDiag at this
      rw [List.length_zipWith] at this
      omega
    rw [hget i ids[i] (src[i]'(by omega)) (List.getElem?_eq_getElem hlt)
      (List.getElem?_eq_getElem (by omega))] at hi
    cases hi
    simp [hd]
  · intro i j p q hp hq
    have hi : i < ids.length := by have := (List.getElem?_eq_some_iff.mp hp).1; omega
    have hj : j < ids.length := by have := (List.getElem?_eq_some_iff.mp hq).1; omega
    unfold entry'
    rw [hget i ids[i] p (List.getElem?_eq_getElem hi) hp]
    simp only [Option.bind_some, List.getElem?_zipWith, List.getElem?_map, hq, Option.map_some,
      List.getElem?_eq_getElem hj]
    by_cases e : i = j
    · subst e; simp
    · have hne : ids[i] ≠ ids[j] := fun h => e ((hn.getElem_inj_iff).mp h)
      simp [hne, e]

/-- Every entry of one distance matrix: 0 on the diagonal, the haversine distance of the two end
points elsewhere; the matrix is `n × n`. -/
theorem distMatrix_entries {Id : Type} [DecidableEq Id] (ids : List Id) (hn : ids.Nodup)
    (src dst : List Site) (hs : src.length = ids.length) (hd : dst.length = ids.length) :
    (distMatrix ids src dst).length = ids.length ∧
    (∀ r ∈ distMatrix ids src dst, r.length = ids.length) ∧
    ∀ (i j : Nat) (p q : Site), src[i]? = some p → dst[j]? = some q →
      entry (distMatrix ids src dst) i j =
        some (.fin (if i = j then 0 else haversine p.lon p.lat q.lon q.lat)) := by
  obtain ⟨h1, h2, h3⟩ := distMatrixOf_entries (Fl.nan : Fl ℝ) (.fin 0) (fun p q => .fin (dist p q)) ids hn src dst hs hd
  refine ⟨h1, h2, fun i j p q hp hq => (h3 i j p q hp hq).trans ?_⟩
  split_ifs <;> rfl

/-- **C31** Every entry of the four matrices: 0 on the diagonal; elsewhere in row `i`, column `j` the
haversine distance from the named end point of link `i` to the named end point of link `j`; the
matrices are `n × n`. -/
theorem C31_entries {Id : Type} [DecidableEq Id] (ids : List Id) (hn : ids.Nodup)
    (siteA siteB : List Site) (ha : siteA.length = ids.length) (hb : siteB.length = ids.length) :
    (∀ m ∈ [(calcDistances ids siteA siteB).a_to_all_a, (calcDistances ids siteA siteB).a_to_all_b,
        (calcDistances ids siteA siteB).b_to_all_a, (calcDistances ids siteA siteB).b_to_all_b],
      m.length = ids.length ∧ ∀ r ∈ m, r.length = ids.length) ∧
    ∀ (i j : Nat) (p q p' q' : Site), siteA[i]? = some p → siteB[i]? = some q →
      siteA[j]? = some p' → siteB[j]? = some q' →
      entry (calcDistances ids siteA siteB).a_to_all_a i j =
        some (.fin (if i = j then 0 else haversine p.lon p.lat p'.lon p'.lat)) ∧
      entry (calcDistances ids siteA siteB).a_to_all_b i j =
        some (.fin (if i = j then 0 else haversine p.lon p.lat q'.lon q'.lat)) ∧
      entry (calcDistances ids siteA siteB).b_to_all_a i j =
        some (.fin (if i = j then 0 else haversine q.lon q.lat p'.lon p'.lat)) ∧
      entry (calcDistances ids siteA siteB).b_to_all_b i j =
        some (.fin (if i = j then 0 else haversine q.lon q.lat q'.lon q'.lat)) := by
  obtain ⟨a1, a2, a3⟩ := distMatrix_entries ids hn siteA siteA ha ha
  obtain ⟨b1, b2, b3⟩ := distMatrix_entries ids hn siteA siteB ha hb
  obtain ⟨c1, c2, c3⟩ := distMatrix_entries ids hn siteB siteA hb ha
  obtain ⟨d1, d2, d3⟩ := distMatrix_entries ids hn siteB siteB hb hb
  refine ⟨?_, fun i j p q p' q' h1 h2 h3 h4 =>
    ⟨a3 i j p p' h1 h3, b3 i j p q' h1 h4, c3 i j q p' h2 h3, d3 i j q q' h2 h4⟩⟩
  intro m hm
  simp only [calcDistances, List.mem_cons, List.not_mem_nil, or_false] at hm
  rcases hm with rfl | rfl | rfl | rfl
  · exact ⟨a1, a2⟩
  · exact ⟨b1, b2⟩
  · exact ⟨c1, c2⟩
  · exact ⟨d1, d2⟩

example : ["x", "y"].Nodup ∧ ([⟨11, 48⟩, ⟨11, 49⟩] : List Site)[0]? = some ⟨11, 48⟩ ∧
    ([⟨11, 48⟩, ⟨11, 49⟩] : List Site).length = ["x", "y"].length := ⟨by decide, rfl, rfl⟩

/-- **C31** Structure of the four matrices: non-negative finite entries, zero diagonals,
a-to-a and b-to-b symmetric, a-to-b the transpose of b-to-a. -/
theorem C31_structure {Id : Type} [DecidableEq Id] (ids : List Id) (hn : ids.Nodup)
    (siteA siteB : List Site) (ha : siteA.length = ids.length) (hb : siteB.length = ids.length)
    (i j : Nat) (hi : i < ids.length) (hj : j < ids.length) :
    (∀ m ∈ [(calcDistances ids siteA siteB).a_to_all_a, (calcDistances ids siteA siteB).a_to_all_b,
        (calcDistances ids siteA siteB).b_to_all_a, (calcDistances ids siteA siteB).b_to_all_b],
      entry m i i = some (.fin 0) ∧ ∃ x, entry m i j = some (.fin x) ∧ 0 ≤ x) ∧
    entry (calcDistances ids siteA siteB).a_to_all_a i j =
      entry (calcDistances ids siteA siteB).a_to_all_a j i ∧
    entry (calcDistances ids siteA siteB).b_to_all_b i j =
      entry (calcDistances ids siteA siteB).b_to_all_b j i ∧
    entry (calcDistances ids siteA siteB).a_to_all_b i j =
      entry (calcDistances ids siteA siteB).b_to_all_a j i := by
  have key : ∀ (s d : List Site), s.length = ids.length → d.length = ids.length →
      ∀ k l, k < ids.length → l < ids.length → ∃ p q : Site, s[k]? = some p ∧ d[l]? = some q ∧
        entry (distMatrix ids s d) k l =
          some (.fin (if k = l then 0 else haversine p.lon p.lat q.lon q.lat)) := by
    intro s d hs hd k l hk hl
    have e1 : s[k]? = some (s[k]'(by omega)) := List.getElem?_eq_getElem (by omega)
    have e2 : d[l]? = some (d[l]'(by omega)) := List.getElem?_eq_getElem (by omega)
    exact ⟨_, _, e1, e2, (distMatrix_entries ids hn s d hs hd).2.2 k l _ _ e1 e2⟩
  have hsym : ∀ (s d : List Site), s.length = ids.length → d.length = ids.length →
      entry (distMatrix ids s d) i j = entry (distMatrix ids d s) j i := by
    intro s d hs hd
    obtain ⟨p, q, e1, e2, e3⟩ := key s d hs hd i j hi hj
    obtain ⟨p', q', e1', e2', e3'⟩ := key d s hd hs j i hj hi
    rw [e1] at e2'; rw [e2] at e1'
    cases e2'; cases e1'
    rw [e3, e3']
    by_cases e : i = j
    · subst e; simp
    · rw [if_neg e, if_neg (Ne.symm e),
        (C30_metric p.lon p.lat q.lon q.lat 0 0).2.2.1]
  have hval : ∀ (s d : List Site), s.length = ids.length → d.length = ids.length →
      entry (distMatrix ids s d) i i = some (.fin 0) ∧
      ∃ x, entry (distMatrix ids s d) i j = some (.fin x) ∧ 0 ≤ x := by
    intro s d hs hd
    obtain ⟨p, q, _, _, e3⟩ := key s d hs hd i j hi hj
    obtain ⟨p', q', _, _, e3'⟩ := key s d hs hd i i hi hi
    refine ⟨by rw [e3']; simp, _, e3, ?_⟩
    split_ifs
    · exact le_rfl
    · exact (C30_metric p.lon p.lat q.lon q.lat 0 0).1
  refine ⟨?_, hsym siteA siteA ha ha, hsym siteB siteB hb hb, hsym siteA siteB ha hb⟩
  intro m hm
  simp only [calcDistances, List.mem_cons, List.not_mem_nil, or_false] at hm
  rcases hm with rfl | rfl | rfl | rfl
  · exact hval _ _ ha ha
  · exact hval _ _ ha hb
  · exact hval _ _ hb ha
  · exact hval _ _ hb hb

example : entry (calcDistances ["x", "y"] [⟨11, 48⟩, ⟨11, 49⟩] [⟨11.1, 48⟩, ⟨11.1, 49⟩]).a_to_all_b
    1 1 = some (.fin 0) :=
  ((C31_structure ["x", "y"] (by decide) [⟨11, 48⟩, ⟨11, 49⟩] [⟨11.1, 48⟩, ⟨11.1, 49⟩] rfl rfl 1 1
    (by decide) (by decide)).1 _ (by simp)).1

end Verif.Props
