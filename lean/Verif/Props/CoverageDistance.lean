import Verif.Model.CoverageBuffer
import Verif.Props.Coverage
import Mathlib.Analysis.Normed.Module.Convex
import Mathlib.Analysis.SpecialFunctions.Trigonometric.Bounds
import Mathlib.Analysis.Real.Pi.Bounds

/-!
# Property C151: the coverage mask in terms of distances
-/

namespace Verif.Props
open Verif Verif.Coverage
open scoped Pointwise

/-! ### The regular polygon with 64 vertices -/

/-- unit vector at `k` times 5.625° -/
noncomputable def spoke (k : ℤ) : ℂ := Complex.exp ((k * (Real.pi / 32) : ℝ) * Complex.I)

theorem spoke_add (k l : ℤ) : spoke (k + l) = spoke k * spoke l := by
  unfold spoke
  rw [← Complex.exp_add]
  congr 1
  push_cast
  ring

theorem spoke_32 : spoke 32 = -1 := by
  unfold spoke
  rw [show (((32 : ℤ) : ℝ) * (Real.pi / 32) : ℝ) = Real.pi by push_cast; ring, Complex.exp_pi_mul_I]

theorem spoke_64 : spoke 64 = 1 := by
  rw [show (64 : ℤ) = 32 + 32 by norm_num, spoke_add, spoke_32]
  norm_num

theorem spoke_mul_64 (m : ℤ) : spoke (64 * m) = 1 := by
  unfold spoke
  rw [show (((64 * m : ℤ) : ℝ) * (Real.pi / 32) : ℝ) * Complex.I = m * (2 * Real.pi * Complex.I) by push_cast; ring]
  exact Complex.exp_int_mul_two_pi_mul_I m

/-- directions can be reduced to one turn -/
theorem spoke_turn (k : ℤ) : ∃ l : ℤ, -48 ≤ l ∧ l < 16 ∧ spoke k = spoke l := by
  refine ⟨(k + 48) % 64 - 48, ?_, ?_, ?_⟩
  · have := Int.emod_nonneg (k + 48) (by norm_num : (64 : ℤ) ≠ 0)
    omega
  · have := Int.emod_lt_of_pos (k + 48) (by norm_num : (0 : ℤ) < 64)
    omega
  · have h : k = ((k + 48) % 64 - 48) + 64 * ((k + 48) / 64) := by
      have := Int.emod_add_mul_ediv (k + 48) 64
      omega
    conv_lhs => rw [h]
    rw [spoke_add, spoke_mul_64, mul_one]

theorem spoke_re (k : ℤ) : (spoke k).re = Real.cos (k * (Real.pi / 32)) := by
  unfold spoke
  rw [Complex.exp_ofReal_mul_I_re]

theorem norm_spoke (k : ℤ) : ‖spoke k‖ = 1 := Complex.norm_exp_ofReal_mul_I _

/-- the mirror image of a direction -/
theorem spoke_mirror (k : ℤ) : spoke k - spoke (32 - k) = ((2 * Real.cos (k * (Real.pi / 32)) : ℝ) : ℂ) := by
  rw [show 32 - k = 32 + -k by ring, spoke_add, spoke_32]
  have : spoke (-k) = (starRingEnd ℂ) (spoke k) := by
    unfold spoke
    rw [← Complex.exp_conj, map_mul, Complex.conj_ofReal, Complex.conj_I]
    congr 1
    push_cast
    ring
  rw [this, neg_one_mul, sub_neg_eq_add, Complex.add_conj, spoke_re]

theorem sin_add_sin_rest (δ x : ℝ) : Real.sin (δ - x) + Real.sin x = 2 * Real.sin (δ / 2) * Real.cos (δ / 2 - x) := by
  have h : ∀ h y : ℝ, Real.sin (h + y) + Real.sin (h - y) = 2 * Real.sin h * Real.cos y := by
    intro h y
    rw [Real.sin_add, Real.sin_sub]
    ring
  have := h (δ / 2) (δ / 2 - x)
  rwa [show δ / 2 + (δ / 2 - x) = δ - x by ring, show δ / 2 - (δ / 2 - x) = x by ring] at this

/-- a direction between two others -/
theorem exp_between (δ x : ℝ) (hs : Real.sin δ ≠ 0) : Complex.exp (x * Complex.I) =
    ((Real.sin (δ - x) / Real.sin δ : ℝ) : ℂ) + ((Real.sin x / Real.sin δ : ℝ) : ℂ) * Complex.exp (δ * Complex.I) := by
  apply Complex.ext
  · rw [Complex.exp_ofReal_mul_I_re, Complex.add_re, Complex.ofReal_re, Complex.re_ofReal_mul,
      Complex.exp_ofReal_mul_I_re, Real.sin_sub]
    field_simp
    ring
  · rw [Complex.exp_ofReal_mul_I_im, Complex.add_im, Complex.ofReal_im, Complex.im_ofReal_mul,
      Complex.exp_ofReal_mul_I_im]
    field_simp
    ring

/-- the disc of radius `cos (π/64)` lies in the polygon -/
theorem disc_in_polygon (v : ℂ) (hv : ‖v‖ ≤ Real.cos (Real.pi / 64)) : v ∈ convexHull ℝ (Set.range spoke) := by
  have hconv := convex_convexHull ℝ (Set.range spoke)
  have hs : ∀ k, spoke k ∈ convexHull ℝ (Set.range spoke) := fun k => subset_convexHull ℝ _ ⟨k, rfl⟩
  have h0 : (0 : ℂ) ∈ convexHull ℝ (Set.range spoke) := by
    have := hconv (hs 0) (hs 32) (by norm_num : (0 : ℝ) ≤ 1 / 2) (by norm_num : (0 : ℝ) ≤ 1 / 2) (by norm_num)
    rw [spoke_32] at this
    have e : spoke 0 = 1 := by simp [spoke]
    rw [e] at this
    simpa using this
  set δ := Real.pi / 32 with hδ
  have hpi := Real.pi_pos
  have hδ0 : 0 < δ := by rw [hδ]; positivity
  have hδ1 : δ < Real.pi := by rw [hδ]; linarith
  set φ := Complex.arg v with hφ
  set r := ‖v‖ with hr
  set k := ⌊φ / δ⌋ with hk
  set x := φ - k * δ with hx
  have hx0 : 0 ≤ x := by
    have := Int.floor_le (φ / δ)
    rw [le_div_iff₀ hδ0] at this
    rw [hx]; linarith
  have hx1 : x ≤ δ := by
    have := (Int.lt_floor_add_one (φ / δ)).le
    rw [div_le_iff₀ hδ0] at this
    rw [hx]; linarith
  have hsin : 0 < Real.sin δ := Real.sin_pos_of_pos_of_lt_pi hδ0 hδ1
  have hcos : 0 < Real.cos (δ / 2) := Real.cos_pos_of_mem_Ioo ⟨by linarith, by linarith⟩
  have ha : 0 ≤ r * Real.sin (δ - x) / Real.sin δ := by
    have : 0 ≤ Real.sin (δ - x) := Real.sin_nonneg_of_nonneg_of_le_pi (by linarith) (by linarith)
    have : 0 ≤ r := norm_nonneg _
    positivity
  have hb : 0 ≤ r * Real.sin x / Real.sin δ := by
    have : 0 ≤ Real.sin x := Real.sin_nonneg_of_nonneg_of_le_pi hx0 (by linarith)
    have : 0 ≤ r := norm_nonneg _
    positivity
  have hab : r * Real.sin (δ - x) / Real.sin δ + r * Real.sin x / Real.sin δ ≤ 1 := by
    rw [← add_div, div_le_one hsin, ← mul_add]
    have e1 := sin_add_sin_rest δ x
    have e2 : Real.sin δ = 2 * Real.sin (δ / 2) * Real.cos (δ / 2) := by
      rw [← Real.sin_two_mul]; congr 1; ring
    rw [e1, e2]
    have hs2 : 0 ≤ Real.sin (δ / 2) := Real.sin_nonneg_of_nonneg_of_le_pi (by linarith) (by linarith)
    have h1 : Real.cos (δ / 2 - x) ≤ 1 := Real.cos_le_one _
    have h2 : r ≤ Real.cos (δ / 2) := by
      rw [show δ / 2 = Real.pi / 64 by rw [hδ]; ring]; exact hv
    have h3 : 0 ≤ r := norm_nonneg _
    calc r * (2 * Real.sin (δ / 2) * Real.cos (δ / 2 - x)) ≤ r * (2 * Real.sin (δ / 2) * 1) := by gcongr
      _ = 2 * Real.sin (δ / 2) * r := by ring
      _ ≤ 2 * Real.sin (δ / 2) * Real.cos (δ / 2) := by gcongr
  have hrep : v = (r * Real.sin (δ - x) / Real.sin δ) • spoke k + (r * Real.sin x / Real.sin δ) • spoke (k + 1) +
      (1 - (r * Real.sin (δ - x) / Real.sin δ + r * Real.sin x / Real.sin δ)) • (0 : ℂ) := by
    have h1 : v = (r : ℂ) * (spoke k * Complex.exp ((x : ℝ) * Complex.I)) := by
      conv_lhs => rw [← Complex.norm_mul_exp_arg_mul_I v]
      rw [← hr, ← hφ]
      congr 1
      unfold spoke
      rw [← Complex.exp_add]
      congr 1
      rw [← add_mul]
      congr 1
      rw [← Complex.ofReal_add, hx, hδ]
      congr 1
      ring
    have h2 := exp_between δ x hsin.ne'
    have es : spoke 1 = Complex.exp ((δ : ℝ) * Complex.I) := by
      unfold spoke
      rw [Int.cast_one, one_mul]
    rw [← es] at h2
    rw [smul_zero, add_zero, spoke_add, h1, h2, Complex.real_smul, Complex.real_smul]
    push_cast
    ring
  rw [hrep]
  exact convexHull_three hconv (hs k) (hs (k + 1)) h0 ha hb hab
where
  convexHull_three {S : Set ℂ} (hS : Convex ℝ S) {p q o : ℂ} (hp : p ∈ S) (hq : q ∈ S) (ho : o ∈ S) {α β : ℝ}
      (ha : 0 ≤ α) (hb : 0 ≤ β) (hab : α + β ≤ 1) : α • p + β • q + (1 - (α + β)) • o ∈ S := by
    rcases eq_or_lt_of_le (add_nonneg ha hb) with h | h
    · have h1 : α = 0 := by linarith
      have h2 : β = 0 := by linarith
      simp [h1, h2, ho]
    · have hm : (α / (α + β)) • p + (β / (α + β)) • q ∈ S :=
        hS hp hq (by positivity) (by positivity) (by field_simp)
      have := hS hm ho h.le (by linarith : 0 ≤ 1 - (α + β)) (by ring)
      rw [smul_add, smul_smul, smul_smul, mul_div_cancel₀ _ h.ne', mul_div_cancel₀ _ h.ne'] at this
      exact this

/-! ### The polygon around one CML -/

theorem toC_injective {a b : ℝ × ℝ} (h : toC a = toC b) : a = b := by
  have h1 := congrArg Complex.re h
  have h2 := congrArg Complex.im h
  exact Prod.ext h1 h2

theorem toC_dist_sq (p q : ℝ × ℝ) : ‖toC p - toC q‖ ^ 2 = (p.1 - q.1) ^ 2 + (p.2 - q.2) ^ 2 := by
  rw [← Complex.normSq_eq_norm_sq, Complex.normSq_apply]
  simp [toC]
  ring

/-- distance from the path in the complex plane -/
theorem near_iff (p a b : ℝ × ℝ) {d : ℝ} (hd : 0 ≤ d) :
    Near p a b d ↔ ∃ s : ℝ, 0 ≤ s ∧ s ≤ 1 ∧ ‖toC p - (toC a + s * (toC b - toC a))‖ ≤ d := by
  have h : ∀ s : ℝ, toC a + s * (toC b - toC a) = toC (a.1 + s * (b.1 - a.1), a.2 + s * (b.2 - a.2)) := by
    intro s
    apply Complex.ext <;> simp [toC]
  unfold Near
  apply exists_congr
  intro s
  rw [h s]
  apply and_congr_right
  intro _
  apply and_congr_right
  intro _
  rw [← abs_of_nonneg (norm_nonneg (toC p - _)), ← abs_of_nonneg hd, ← sq_le_sq, toC_dist_sq, sq_abs]

theorem vertex_norm (c : ℂ) {d : ℝ} (hd : 0 ≤ d) (φ : ℝ) : ‖vertex c d φ - c‖ = d := by
  unfold vertex
  rw [add_sub_cancel_left, norm_mul, Complex.norm_exp_ofReal_mul_I, mul_one, Complex.norm_real, Real.norm_of_nonneg hd]

theorem mem_bufferRing {a b : ℝ × ℝ} {d : ℝ} {z : ℂ} (h : z ∈ bufferRing a b d) :
    0 < d ∧ (‖z - toC a‖ = d ∨ ‖z - toC b‖ = d) := by
  unfold bufferRing at h
  split_ifs at h with h1 h2
  · simp at h
  · push Not at h1
    obtain ⟨k, -, rfl⟩ := List.mem_map.mp h
    exact ⟨h1, Or.inl (vertex_norm _ h1.le _)⟩
  · push Not at h1
    rcases List.mem_append.mp h with h | h
    · obtain ⟨k, -, rfl⟩ := List.mem_map.mp h
      exact ⟨h1, Or.inr (vertex_norm _ h1.le _)⟩
    · obtain ⟨k, -, rfl⟩ := List.mem_map.mp h
      exact ⟨h1, Or.inl (vertex_norm _ h1.le _)⟩

/-- the polygon is not larger than the exact buffer -/
theorem buffer_outer {p a b : ℝ × ℝ} {d : ℝ} (h : toC p ∈ convexHull ℝ {z | z ∈ bufferRing a b d}) :
    0 < d ∧ Near p a b d := by
  have hd : 0 < d := by
    rcases Set.eq_empty_or_nonempty {z | z ∈ bufferRing a b d} with he | ⟨z, hz⟩
    · rw [he, convexHull_empty] at h
      exact h.elim
    · exact (mem_bufferRing hz).1
  refine ⟨hd, ?_⟩
  have hsub : {z | z ∈ bufferRing a b d} ⊆ segment ℝ (toC a) (toC b) + Metric.closedBall (0 : ℂ) d := by
    intro z hz
    rcases (mem_bufferRing hz).2 with h | h
    · exact ⟨toC a, left_mem_segment _ _ _, z - toC a, by simp [h], by simp⟩
    · exact ⟨toC b, right_mem_segment _ _ _, z - toC b, by simp [h], by simp⟩
  have := convexHull_min hsub ((convex_segment _ _).add (convex_closedBall _ _)) h
  obtain ⟨q, hq, v, hv, hqv⟩ := this
  rw [near_iff _ _ _ hd.le]
  rw [segment_eq_image'] at hq
  obtain ⟨s, ⟨hs0, hs1⟩, rfl⟩ := hq
  refine ⟨s, hs0, hs1, ?_⟩
  rw [← hqv]
  rw [mem_closedBall_zero_iff] at hv
  simpa using hv

/-- the vertices of the polygon, for a path of positive length -/
theorem vertex_right {a b : ℝ × ℝ} {d : ℝ} (hd : 0 < d) (hab : a ≠ b) {k : ℤ} (h1 : -16 ≤ k) (h2 : k ≤ 16) :
    toC b + d * (Complex.exp (Complex.arg (toC b - toC a) * Complex.I) * spoke k) ∈ bufferRing a b d := by
  unfold bufferRing
  rw [if_neg (by linarith), if_neg hab]
  apply List.mem_append_left
  refine List.mem_map.mpr ⟨(16 - k).toNat, List.mem_range.mpr (by omega), ?_⟩
  unfold vertex spoke
  rw [← Complex.exp_add, ← add_mul, ← Complex.ofReal_add]
  congr 5
  have : (((16 - k).toNat : ℕ) : ℝ) = 16 - k := by
    have : (((16 - k).toNat : ℤ) : ℝ) = ((16 - k : ℤ) : ℝ) := by rw [Int.toNat_of_nonneg (by omega)]
    push_cast at this
    exact this
  rw [this]
  ring

theorem vertex_left {a b : ℝ × ℝ} {d : ℝ} (hd : 0 < d) (hab : a ≠ b) {k : ℤ} (h1 : -48 ≤ k) (h2 : k ≤ -16) :
    toC a + d * (Complex.exp (Complex.arg (toC b - toC a) * Complex.I) * spoke k) ∈ bufferRing a b d := by
  unfold bufferRing
  rw [if_neg (by linarith), if_neg hab]
  apply List.mem_append_right
  refine List.mem_map.mpr ⟨(-16 - k).toNat, List.mem_range.mpr (by omega), ?_⟩
  unfold vertex spoke
  rw [← Complex.exp_add, ← add_mul, ← Complex.ofReal_add]
  congr 5
  have : (((-16 - k).toNat : ℕ) : ℝ) = -16 - k := by
    have : (((-16 - k).toNat : ℤ) : ℝ) = ((-16 - k : ℤ) : ℝ) := by rw [Int.toNat_of_nonneg (by omega)]
    push_cast at this
    exact this
  rw [this]
  ring

theorem vertex_point {a : ℝ × ℝ} {d : ℝ} (hd : 0 < d) (k : ℤ) : toC a + d * spoke k ∈ bufferRing a a d := by
  unfold bufferRing
  rw [if_neg (by linarith), if_pos rfl]
  have hm : spoke k = spoke (-((-k) % 64)) := by
    have h : k = -((-k) % 64) + 64 * (-((-k) / 64)) := by
      have := Int.emod_add_mul_ediv (-k) 64
      omega
    conv_lhs => rw [h]
    rw [spoke_add, spoke_mul_64, mul_one]
  have h0 := Int.emod_nonneg (-k) (by norm_num : (64 : ℤ) ≠ 0)
  have h1 := Int.emod_lt_of_pos (-k) (by norm_num : (0 : ℤ) < 64)
  refine List.mem_map.mpr ⟨((-k) % 64).toNat, List.mem_range.mpr (by omega), ?_⟩
  rw [hm]
  unfold vertex spoke
  congr 5
  have : ((((-k) % 64).toNat : ℕ) : ℝ) = (((-k) % 64 : ℤ) : ℝ) := by
    have : ((((-k) % 64).toNat : ℤ) : ℝ) = (((-k) % 64 : ℤ) : ℝ) := by rw [Int.toNat_of_nonneg h0]
    rw [← this]
    norm_cast
  rw [this]
  push_cast
  ring

/-- a point between two points of a convex set on a line in the direction of the path -/
theorem hull_between {S : Set ℂ} (hS : Convex ℝ S) {u v w : ℂ} {c L : ℝ} (hu : u ∈ S) (hv : v ∈ S) (hc : 0 ≤ c) (hL : 0 < L)
    (huv : v - u = ((c + L : ℝ) : ℂ) * w) : u + (c : ℂ) * w ∈ S ∧ v - (c : ℂ) * w ∈ S := by
  have hpos : 0 < c + L := by linarith
  have hne : ((c + L : ℝ) : ℂ) ≠ 0 := by exact_mod_cast hpos.ne'
  constructor
  · have := hS hu hv (by positivity : 0 ≤ L / (c + L)) (by positivity : 0 ≤ c / (c + L)) (by field_simp; ring)
    convert this using 1
    rw [show v = u + ((c + L : ℝ) : ℂ) * w by rw [← huv]; ring, Complex.real_smul, Complex.real_smul]
    push_cast at hne ⊢
    field_simp
    ring
  · have := hS hu hv (by positivity : 0 ≤ c / (c + L)) (by positivity : 0 ≤ L / (c + L)) (by field_simp)
    convert this using 1
    rw [show u = v - ((c + L : ℝ) : ℂ) * w by rw [← huv]; ring, Complex.real_smul, Complex.real_smul]
    push_cast at hne ⊢
    field_simp
    ring

/-- the whole polygon around each end point lies in the buffer polygon -/
theorem ends_in_hull {a b : ℝ × ℝ} {d : ℝ} (hd : 0 < d) (hab : a ≠ b) (k : ℤ) :
    toC a + d * (Complex.exp (Complex.arg (toC b - toC a) * Complex.I) * spoke k) ∈ convexHull ℝ {z | z ∈ bufferRing a b d} ∧
    toC b + d * (Complex.exp (Complex.arg (toC b - toC a) * Complex.I) * spoke k) ∈ convexHull ℝ {z | z ∈ bufferRing a b d} := by
  have hne : toC b - toC a ≠ 0 := by
    rw [sub_ne_zero]
    exact fun h => hab (toC_injective h.symm)
  have hL : 0 < ‖toC b - toC a‖ := norm_pos_iff.mpr hne
  have hw := Complex.norm_mul_exp_arg_mul_I (toC b - toC a)
  set w := Complex.exp (Complex.arg (toC b - toC a) * Complex.I) with hwdef
  set L := ‖toC b - toC a‖ with hLdef
  have hconv := convex_convexHull ℝ {z | z ∈ bufferRing a b d}
  have hsub : ∀ z ∈ bufferRing a b d, z ∈ convexHull ℝ {z | z ∈ bufferRing a b d} := fun z hz => subset_convexHull ℝ _ hz
  obtain ⟨l, h1, h2, e⟩ := spoke_turn k
  rw [e]
  have hpi := Real.pi_pos
  by_cases hl : -16 ≤ l
  · have hr := hsub _ (vertex_right hd hab hl h2.le)
    have hm := hsub _ (vertex_left hd hab (k := 32 - l - 64) (by omega) (by omega))
    have em : spoke (32 - l - 64) = spoke (32 - l) := by
      rw [show 32 - l - 64 = (32 - l) + 64 * (-1) by ring, spoke_add, spoke_mul_64, mul_one]
    rw [em, ← hwdef] at hm
    rw [← hwdef] at hr
    have hcos : 0 ≤ Real.cos (l * (Real.pi / 32)) := by
      have e1 : (-16 : ℝ) ≤ l := by exact_mod_cast hl
      have e2 : (l : ℝ) ≤ 16 := by exact_mod_cast h2.le
      apply Real.cos_nonneg_of_mem_Icc
      constructor <;> nlinarith
    have hmir := spoke_mirror l
    refine ⟨?_, hr⟩
    have := (hull_between hconv hm hr (c := d * (2 * Real.cos (l * (Real.pi / 32)))) (L := L) (w := w) (by positivity) hL ?_).1
    · convert this using 1
      rw [show spoke l = spoke (32 - l) + ((2 * Real.cos (l * (Real.pi / 32)) : ℝ) : ℂ) by rw [← hmir]; ring]
      push_cast
      ring
    · push_cast at hmir ⊢
      linear_combination (d * w) * hmir - hw
  · push Not at hl
    have hr := hsub _ (vertex_left hd hab h1 hl.le)
    have hm := hsub _ (vertex_right hd hab (k := 32 - l - 64) (by omega) (by omega))
    have em : spoke (32 - l - 64) = spoke (32 - l) := by
      rw [show 32 - l - 64 = (32 - l) + 64 * (-1) by ring, spoke_add, spoke_mul_64, mul_one]
    rw [em, ← hwdef] at hm
    rw [← hwdef] at hr
    have hcos : 0 ≤ -Real.cos (l * (Real.pi / 32)) := by
      have e1 : (-48 : ℝ) ≤ l := by exact_mod_cast h1
      have e2 : (l : ℝ) ≤ -16 := by exact_mod_cast hl.le
      rw [← Real.cos_add_pi]
      apply Real.cos_nonneg_of_mem_Icc
      constructor <;> nlinarith
    have hmir := spoke_mirror l
    refine ⟨hr, ?_⟩
    have := (hull_between hconv hr hm (c := d * (2 * -Real.cos (l * (Real.pi / 32)))) (L := L) (w := w) (by positivity) hL ?_).2
    · convert this using 1
      rw [show spoke l = spoke (32 - l) + ((2 * Real.cos (l * (Real.pi / 32)) : ℝ) : ℂ) by rw [← hmir]; ring]
      push_cast
      ring
    · push_cast at hmir ⊢
      linear_combination (-(d * w)) * hmir - hw

/-- the polygon contains the exact buffer of `cos (π/64)` times the distance -/
theorem buffer_inner {p a b : ℝ × ℝ} {d : ℝ} (hd : 0 < d) (h : Near p a b (Real.cos (Real.pi / 64) * d)) :
    toC p ∈ convexHull ℝ {z | z ∈ bufferRing a b d} := by
  have hpi := Real.pi_pos
  have hcos : 0 < Real.cos (Real.pi / 64) := Real.cos_pos_of_mem_Ioo ⟨by linarith, by linarith⟩
  rw [near_iff _ _ _ (by positivity)] at h
  obtain ⟨s, hs0, hs1, hs⟩ := h
  set q := toC a + s * (toC b - toC a) with hq
  have hconv := convex_convexHull ℝ {z | z ∈ bufferRing a b d}
  -- a unit vector for the orientation of the polygon
  obtain ⟨w, hw1, hw2⟩ : ∃ w : ℂ, ‖w‖ = 1 ∧ ∀ k, q + d * (w * spoke k) ∈ convexHull ℝ {z | z ∈ bufferRing a b d} := by
    by_cases hab : a = b
    · subst hab
      refine ⟨1, by simp, fun k => ?_⟩
      rw [hq, sub_self, mul_zero, add_zero, one_mul]
      exact subset_convexHull ℝ _ (vertex_point hd k)
    · refine ⟨_, Complex.norm_exp_ofReal_mul_I (Complex.arg (toC b - toC a)), fun k => ?_⟩
      obtain ⟨e1, e2⟩ := ends_in_hull hd hab k
      have := hconv e1 e2 (by linarith : 0 ≤ 1 - s) hs0 (by ring)
      convert this using 1
      rw [hq, Complex.real_smul, Complex.real_smul]
      push_cast
      ring
  have hwne : w ≠ 0 := by
    intro h0
    rw [h0, norm_zero] at hw1
    norm_num at hw1
  have hdne : (d : ℂ) ≠ 0 := by exact_mod_cast hd.ne'
  set v := (toC p - q) / (d * w) with hv
  have hnv : ‖v‖ ≤ Real.cos (Real.pi / 64) := by
    rw [hv, norm_div, norm_mul, hw1, mul_one, Complex.norm_real, Real.norm_of_nonneg hd.le, div_le_iff₀ hd]
    exact hs
  have hpv : toC p = q + d * (w * v) := by
    rw [hv]
    field_simp
    ring
  have hpre : Convex ℝ {x : ℂ | q + d * (w * x) ∈ convexHull ℝ {z | z ∈ bufferRing a b d}} := by
    intro x hx y hy α β hα hβ hαβ
    have := hconv hx hy hα hβ hαβ
    show q + d * (w * (α • x + β • y)) ∈ convexHull ℝ {z | z ∈ bufferRing a b d}
    convert this using 1
    have hc : (β : ℂ) = 1 - α := by
      rw [show β = 1 - α by linarith]
      push_cast
      ring
    rw [Complex.real_smul, Complex.real_smul, Complex.real_smul, Complex.real_smul, hc]
    ring
  have := convexHull_min (t := {x : ℂ | q + d * (w * x) ∈ convexHull ℝ {z | z ∈ bufferRing a b d}}) ?_ hpre
    (disc_in_polygon v hnv)
  · rw [hpv]
    exact this
  · rintro _ ⟨k, rfl⟩
    exact hw2 k

theorem near_mono {p a b : ℝ × ℝ} {r r' : ℝ} (h0 : 0 ≤ r) (h : r ≤ r') (hn : Near p a b r) : Near p a b r' := by
  obtain ⟨s, h1, h2, h3⟩ := hn
  exact ⟨s, h1, h2, h3.trans (by gcongr)⟩

theorem geos_lawful : geos.Lawful := by
  intro p gs
  simp only [geos, List.mem_flatten, decide_eq_true_eq]
  constructor
  · rintro ⟨ring, ⟨g, hg, hr⟩, h⟩
    exact ⟨g, hg, ring, hr, h⟩
  · rintro ⟨g, hg, ring, hr, h⟩
    exact ⟨ring, ⟨g, hg, hr⟩, h⟩

theorem geos_intersects (p a b : ℝ × ℝ) (d : ℝ) :
    geos.intersects p (geos.buffer a b d) = true ↔ toC p ∈ convexHull ℝ {z | z ∈ bufferRing a b d} := by
  simp [geos]

theorem cos_pi_64_gt : 0.998 < Real.cos (Real.pi / 64) := by
  have h := Real.one_sub_sq_div_two_le_cos (x := Real.pi / 64)
  have h1 := Real.pi_lt_d2
  have h0 := Real.pi_pos
  have : (Real.pi / 64) ^ 2 ≤ (3.15 / 64) ^ 2 := by
    apply pow_le_pow_left₀ (by positivity)
    linarith
  norm_num at this
  norm_num
  linarith

/-- **C151** The coverage mask in terms of distances, with the polygons that GEOS builds: for grids of equal shape the mask has
this shape; a grid point that is marked covered is within `max_dist_from_cml` of the path of some CML, and a grid point within
99.8 percent of `max_dist_from_cml` is marked. -/
theorem C151_distance (cmls : List (Cml ℝ)) (xg yg : List (List ℝ)) (hshape : xg.map List.length = yg.map List.length)
    {d : ℝ} (hd : 0 < d) :
    ∃ mask, calcCoverageMask geos cmls xg yg d = .ok mask ∧ mask.map List.length = xg.map List.length ∧
      ∀ (i j : Nat) xr yr mr x y m, xg[i]? = some xr → yg[i]? = some yr → xr[j]? = some x → yr[j]? = some y →
        mask[i]? = some mr → mr[j]? = some m →
        (m = true → ∃ c ∈ cmls, Near (x, y) c.a c.b d) ∧ ((∃ c ∈ cmls, Near (x, y) c.a c.b (0.998 * d)) → m = true) := by
  obtain ⟨mask, e1, e2, -⟩ := C63_mask geos geos_lawful cmls xg yg hshape d
  obtain ⟨mask', e1', e3⟩ := C63_distance geos geos_lawful (0.998 * d) d (fun p a b h => (geos_intersects p a b d).mpr
      (buffer_inner hd (near_mono (by positivity) (by nlinarith [cos_pi_64_gt]) h)))
    (fun p a b h => (buffer_outer ((geos_intersects p a b d).mp h)).2) cmls xg yg hshape
  rw [e1] at e1'
  injection e1' with e1'
  subst e1'
  refine ⟨mask, e1, e2, ?_⟩
  intro i j xr yr mr x y m h1 h2 h3 h4 h5 h6
  exact (e3 i j xr yr mr x y m h1 h2 h3 h4 h5 h6).symm

/-- **C151** With `max_dist_from_cml` zero or negative nothing is covered, not even the CML paths. -/
theorem C151_nothing (cmls : List (Cml ℝ)) (xg yg : List (List ℝ)) (hshape : xg.map List.length = yg.map List.length)
    {d : ℝ} (hd : d ≤ 0) :
    calcCoverageMask geos cmls xg yg d = .ok (xg.map fun r => List.replicate r.length false) := by
  obtain ⟨mask, e1, e2, e3⟩ := C63_mask geos geos_lawful cmls xg yg hshape d
  rw [e1]
  congr 1
  have hl : mask.length = xg.length := by simpa using congrArg List.length e2
  have hl' : xg.length = yg.length := by simpa using congrArg List.length hshape
  apply List.ext_getElem (by simpa using hl)
  intro i h1 h2
  have hi : i < xg.length := by omega
  have r1 : mask[i].length = xg[i].length := by
    have := List.getElem_of_eq e2 (i := i) (by simpa using h1)
    simpa using this
  have r2 : xg[i].length = yg[i].length := by
    have := List.getElem_of_eq hshape (i := i) (by simpa using hi)
    simpa using this
  apply List.ext_getElem (by simpa using r1)
  intro j h3 h4
  obtain ⟨m, hm, hiff⟩ := e3 i j xg[i] yg[i] mask[i] (xg[i][j]'(by omega)) (yg[i][j]'(by omega)) (List.getElem?_eq_getElem hi)
    (List.getElem?_eq_getElem (by omega)) (List.getElem?_eq_getElem (by omega)) (List.getElem?_eq_getElem (by omega))
    (List.getElem?_eq_getElem h1)
  rw [List.getElem?_eq_getElem h3] at hm
  injection hm with hm
  rw [hm]
  simp only [List.getElem_map, List.getElem_replicate]
  by_contra hne
  obtain ⟨c, -, h⟩ := hiff.mp (by simpa using hne)
  have := (buffer_outer ((geos_intersects _ _ _ _).mp h)).1
  linarith

/-- polygons grow with the distance -/
theorem buffer_mono {a b : ℝ × ℝ} {d d' : ℝ} (h : d ≤ d') :
    convexHull ℝ {z | z ∈ bufferRing a b d} ⊆ convexHull ℝ {z | z ∈ bufferRing a b d'} := by
  apply convexHull_min _ (convex_convexHull ℝ _)
  intro z hz
  have hd := (mem_bufferRing hz).1
  have hd' : 0 < d' := by linarith
  have hpi := Real.pi_pos
  have hcos : 0 < Real.cos (Real.pi / 64) := Real.cos_pos_of_mem_Ioo ⟨by linarith, by linarith⟩
  have ha : toC a ∈ convexHull ℝ {z | z ∈ bufferRing a b d'} :=
    buffer_inner hd' ⟨0, le_refl _, zero_le_one, by simp; positivity⟩
  have hb : toC b ∈ convexHull ℝ {z | z ∈ bufferRing a b d'} :=
    buffer_inner hd' ⟨1, zero_le_one, le_refl _, by simp; positivity⟩
  have hscale : ∀ (c : ℂ) (φ : ℝ), c ∈ convexHull ℝ {z | z ∈ bufferRing a b d'} → vertex c d' φ ∈ bufferRing a b d' →
      vertex c d φ ∈ convexHull ℝ {z | z ∈ bufferRing a b d'} := by
    intro c φ hc hv
    have hfrac : d / d' ≤ 1 := (div_le_one hd').mpr h
    have := convex_convexHull ℝ {z | z ∈ bufferRing a b d'} hc (subset_convexHull ℝ _ hv) (by linarith : 0 ≤ 1 - d / d')
      (by positivity : 0 ≤ d / d') (by ring)
    convert this using 1
    unfold vertex
    have hne : (d' : ℂ) ≠ 0 := by exact_mod_cast hd'.ne'
    rw [Complex.real_smul, Complex.real_smul]
    push_cast
    field_simp
    ring
  simp only [Set.mem_setOf_eq] at hz
  unfold bufferRing at hz
  rw [if_neg (by linarith)] at hz
  split_ifs at hz with hab
  · obtain ⟨k, hk, rfl⟩ := List.mem_map.mp hz
    apply hscale _ _ ha
    unfold bufferRing
    rw [if_neg (by linarith), if_pos hab]
    exact List.mem_map.mpr ⟨k, hk, rfl⟩
  · rcases List.mem_append.mp hz with hz | hz
    · obtain ⟨k, hk, rfl⟩ := List.mem_map.mp hz
      apply hscale _ _ hb
      unfold bufferRing
      rw [if_neg (by linarith), if_neg hab]
      exact List.mem_append_left _ (List.mem_map.mpr ⟨k, hk, rfl⟩)
    · obtain ⟨k, hk, rfl⟩ := List.mem_map.mp hz
      apply hscale _ _ ha
      unfold bufferRing
      rw [if_neg (by linarith), if_neg hab]
      exact List.mem_append_right _ (List.mem_map.mpr ⟨k, hk, rfl⟩)

/-- **C151** A larger `max_dist_from_cml` and more CMLs only add covered points. -/
theorem C151_monotone (cmls cmls' : List (Cml ℝ)) (hc : ∀ c ∈ cmls, c ∈ cmls') (xg yg : List (List ℝ))
    (hshape : xg.map List.length = yg.map List.length) {d d' : ℝ} (hd : d ≤ d') :
    ∃ mask mask', calcCoverageMask geos cmls xg yg d = .ok mask ∧ calcCoverageMask geos cmls' xg yg d' = .ok mask' ∧
      ∀ (i j : Nat) mr mr', mask[i]? = some mr → mask'[i]? = some mr' → mr[j]? = some true → mr'[j]? = some true := by
  obtain ⟨mask, e1, e2, e3⟩ := C63_mask geos geos_lawful cmls xg yg hshape d
  obtain ⟨mask', f1, f2, f3⟩ := C63_mask geos geos_lawful cmls' xg yg hshape d'
  refine ⟨mask, mask', e1, f1, ?_⟩
  intro i j mr mr' h1 h2 h3
  have hl : mask.length = xg.length := by simpa using congrArg List.length e2
  have hl' : xg.length = yg.length := by simpa using congrArg List.length hshape
  obtain ⟨hi, hmr⟩ := List.getElem?_eq_some_iff.mp h1
  obtain ⟨hj, -⟩ := List.getElem?_eq_some_iff.mp h3
  have r1 : mask[i].length = (xg[i]'(by omega)).length := by
    have := List.getElem_of_eq e2 (i := i) (by simpa using hi)
    simpa using this
  have r2 : (xg[i]'(by omega)).length = (yg[i]'(by omega)).length := by
    have := List.getElem_of_eq hshape (i := i) (by simp; omega)
    simpa using this
  rw [hmr] at r1
  have x1 : xg[i]? = some (xg[i]'(by omega)) := List.getElem?_eq_getElem _
  have y1 : yg[i]? = some (yg[i]'(by omega)) := List.getElem?_eq_getElem _
  have x2 : (xg[i]'(by omega))[j]? = some ((xg[i]'(by omega))[j]'(by omega)) := List.getElem?_eq_getElem _
  have y2 : (yg[i]'(by omega))[j]? = some ((yg[i]'(by omega))[j]'(by omega)) := List.getElem?_eq_getElem _
  obtain ⟨m, hm, hiff⟩ := e3 i j _ _ _ _ _ x1 y1 x2 y2 h1
  obtain ⟨m', hm', hiff'⟩ := f3 i j _ _ _ _ _ x1 y1 x2 y2 h2
  rw [h3] at hm
  injection hm with hm
  obtain ⟨c, hcm, hint⟩ := hiff.mp hm.symm
  rw [hm', hiff'.mpr ⟨c, hc c hcm, (geos_intersects _ _ _ _).mpr (buffer_mono hd ((geos_intersects _ _ _ _).mp hint))⟩]

/-! ### The polygon is smaller than the exact buffer -/

theorem cos_between_spokes (k : ℤ) : Real.cos (k * (Real.pi / 32) - Real.pi / 64) ≤ Real.cos (Real.pi / 64) := by
  have hpi := Real.pi_pos
  have hlt := Int.emod_lt_of_pos (k + 31) (by norm_num : (0 : ℤ) < 64)
  have hge := Int.emod_nonneg (k + 31) (by norm_num : (64 : ℤ) ≠ 0)
  set l := (k + 31) % 64 - 31 with hl
  have hk : k = l + 64 * ((k + 31) / 64) := by
    have := Int.emod_add_mul_ediv (k + 31) 64
    omega
  have hred : Real.cos (k * (Real.pi / 32) - Real.pi / 64) = Real.cos (l * (Real.pi / 32) - Real.pi / 64) := by
    conv_lhs => rw [hk]
    push_cast
    rw [show ((l : ℝ) + 64 * (((k + 31) / 64 : ℤ) : ℝ)) * (Real.pi / 32) - Real.pi / 64 =
      l * (Real.pi / 32) - Real.pi / 64 + (((k + 31) / 64 : ℤ) : ℝ) * (2 * Real.pi) by ring]
    exact Real.cos_add_int_mul_two_pi _ _
  rw [hred]
  by_cases h : l ≤ 0
  · rw [← Real.cos_neg (l * (Real.pi / 32) - Real.pi / 64)]
    have e1 : (l : ℝ) ≤ 0 := by exact_mod_cast h
    have e2 : (-31 : ℝ) ≤ l := by exact_mod_cast (by omega : (-31 : ℤ) ≤ l)
    apply Real.cos_le_cos_of_nonneg_of_le_pi (by positivity) <;> nlinarith
  · have e1 : (1 : ℝ) ≤ l := by exact_mod_cast (by omega : (1 : ℤ) ≤ l)
    have e2 : (l : ℝ) ≤ 32 := by exact_mod_cast (by omega : l ≤ (32 : ℤ))
    apply Real.cos_le_cos_of_nonneg_of_le_pi (by positivity) <;> nlinarith

/-- midway between two vertices the polygon ends at `cos (π/64)` times the distance -/
theorem buffer_edge {a b : ℝ × ℝ} {d r : ℝ} (hd : 0 < d) (hab : a ≠ b) (hr : Real.cos (Real.pi / 64) * d < r) :
    vertex (toC b) r (Complex.arg (toC b - toC a) + Real.pi / 64) ∉ convexHull ℝ {z | z ∈ bufferRing a b d} := by
  have hpi := Real.pi_pos
  have hcos : 0 < Real.cos (Real.pi / 64) := Real.cos_pos_of_mem_Ioo ⟨by linarith, by linarith⟩
  set θ := Complex.arg (toC b - toC a) with hθ
  have hw := Complex.norm_mul_exp_arg_mul_I (toC b - toC a)
  rw [← hθ] at hw
  have hconv : Convex ℝ {z : ℂ | ((z - toC b) * Complex.exp (-((θ + Real.pi / 64 : ℝ) : ℂ) * Complex.I)).re ≤ Real.cos (Real.pi / 64) * d} := by
    intro x hx y hy α β hα hβ hαβ
    simp only [Set.mem_setOf_eq] at hx hy ⊢
    have e : (α • x + β • y - toC b) * Complex.exp (-((θ + Real.pi / 64 : ℝ) : ℂ) * Complex.I) =
        (α : ℂ) * ((x - toC b) * Complex.exp (-((θ + Real.pi / 64 : ℝ) : ℂ) * Complex.I)) +
        (β : ℂ) * ((y - toC b) * Complex.exp (-((θ + Real.pi / 64 : ℝ) : ℂ) * Complex.I)) := by
      have hc : (β : ℂ) = 1 - α := by
        rw [show β = 1 - α by linarith]
        push_cast
        ring
      rw [Complex.real_smul, Complex.real_smul, hc]
      ring
    rw [e, Complex.add_re, Complex.re_ofReal_mul, Complex.re_ofReal_mul]
    calc _ ≤ α * (Real.cos (Real.pi / 64) * d) + β * (Real.cos (Real.pi / 64) * d) := by gcongr
      _ = (α + β) * (Real.cos (Real.pi / 64) * d) := by ring
      _ = _ := by rw [hαβ, one_mul]
  have hrot : ∀ φ : ℝ, (Complex.exp (φ * Complex.I) * Complex.exp (-((θ + Real.pi / 64 : ℝ) : ℂ) * Complex.I)).re =
      Real.cos (φ - θ - Real.pi / 64) := by
    intro φ
    rw [← Complex.exp_add, ← add_mul, ← Complex.ofReal_neg, ← Complex.ofReal_add, Complex.exp_ofReal_mul_I_re]
    congr 1
    ring
  intro hmem
  have hp := convexHull_min (t := {z : ℂ | ((z - toC b) * Complex.exp (-((θ + Real.pi / 64 : ℝ) : ℂ) * Complex.I)).re ≤
    Real.cos (Real.pi / 64) * d}) ?_ hconv hmem
  · simp only [Set.mem_setOf_eq, vertex] at hp
    rw [add_sub_cancel_left, mul_assoc, Complex.re_ofReal_mul, hrot, show θ + Real.pi / 64 - θ - Real.pi / 64 = 0 by ring,
      Real.cos_zero] at hp
    linarith
  · intro z hz
    simp only [Set.mem_setOf_eq] at hz ⊢
    unfold bufferRing at hz
    rw [if_neg (by linarith), if_neg hab] at hz
    rcases List.mem_append.mp hz with hz | hz
    · obtain ⟨k, -, rfl⟩ := List.mem_map.mp hz
      unfold vertex
      rw [add_sub_cancel_left, mul_assoc, Complex.re_ofReal_mul, hrot, ← hθ, mul_comm]
      have := cos_between_spokes (16 - k)
      push_cast at this
      rw [show θ + Real.pi / 2 - (k : ℝ) * (Real.pi / 32) - θ - Real.pi / 64 = (16 - (k : ℝ)) * (Real.pi / 32) - Real.pi / 64 by ring]
      gcongr
    · obtain ⟨k, -, rfl⟩ := List.mem_map.mp hz
      unfold vertex
      rw [← hθ, show toC a + (d : ℂ) * Complex.exp ((θ - Real.pi / 2 - k * (Real.pi / 32) : ℝ) * Complex.I) - toC b =
        -(toC b - toC a) + (d : ℂ) * Complex.exp ((θ - Real.pi / 2 - k * (Real.pi / 32) : ℝ) * Complex.I) by ring, ← hw,
        add_mul, Complex.add_re, neg_mul, Complex.neg_re, mul_assoc, Complex.re_ofReal_mul, hrot, mul_assoc,
        Complex.re_ofReal_mul, hrot, show θ - θ - Real.pi / 64 = -(Real.pi / 64) by ring, Real.cos_neg]
      have := cos_between_spokes (-16 - k)
      push_cast at this
      rw [show θ - Real.pi / 2 - (k : ℝ) * (Real.pi / 32) - θ - Real.pi / 64 = (-16 - (k : ℝ)) * (Real.pi / 32) - Real.pi / 64 by ring]
      have h1 : 0 ≤ ‖toC b - toC a‖ * Real.cos (Real.pi / 64) := by positivity
      nlinarith

theorem cos_pi_64_lt : Real.cos (Real.pi / 64) < 0.9996 := by
  have hpi := Real.pi_pos
  have h := Real.cos_le_one_sub_mul_cos_sq (x := Real.pi / 64) (by rw [abs_of_pos (by positivity)]; linarith)
  rw [show 2 / Real.pi ^ 2 * (Real.pi / 64) ^ 2 = 2 / 64 ^ 2 by field_simp] at h
  norm_num at h ⊢
  linarith

/-- **C151** The mask is not exactly the area within `max_dist_from_cml`: around every CML (with two different end points) there is
a point nearer than 99.97 percent of this distance that is not marked. -/
theorem C151_not_exact (c : Cml ℝ) (hc : c.a ≠ c.b) {d : ℝ} (hd : 0 < d) :
    ∃ x y, Near (x, y) c.a c.b (0.9997 * d) ∧ calcCoverageMask geos [c] [[x]] [[y]] d = .ok [[false]] := by
  set z := vertex (toC c.b) (0.9997 * d) (Complex.arg (toC c.b - toC c.a) + Real.pi / 64) with hz
  have hzc : toC (z.re, z.im) = z := rfl
  refine ⟨z.re, z.im, ?_, ?_⟩
  · rw [near_iff _ _ _ (by positivity)]
    refine ⟨1, zero_le_one, le_refl _, ?_⟩
    rw [hzc, hz]
    push_cast
    rw [one_mul, add_sub_cancel, vertex_norm _ (by positivity)]
  · obtain ⟨mask, e1, e2, e3⟩ := C63_mask geos geos_lawful [c] [[z.re]] [[z.im]] rfl d
    have hnot : geos.intersects (z.re, z.im) (geos.buffer c.a c.b d) ≠ true := by
      rw [ne_eq, geos_intersects, hzc]
      exact buffer_edge hd hc (by nlinarith [cos_pi_64_lt])
    rw [e1]
    congr 1
    match mask, e2, e3 with
    | [[m]], _, e3 =>
      obtain ⟨m', h1, h2⟩ := e3 0 0 [z.re] [z.im] [m] z.re z.im rfl rfl rfl rfl rfl
      have : m = m' := by simpa using h1
      subst this
      cases m
      · rfl
      · obtain ⟨c', hc', hi⟩ := h2.mp rfl
        rw [List.mem_singleton] at hc'
        subst hc'
        exact absurd hi hnot

/-! ### Examples -/

section examples

-- a point on the path is not covered for distance 0
example : calcCoverageMask geos [⟨(0, 0), (4, 0)⟩] [[1]] [[0]] 0 = .ok [[false]] :=
  C151_nothing _ [[1]] [[0]] rfl le_rfl

/-- the point (3, 0.5) and the end of the path -/
example : ∃ mask, calcCoverageMask geos [⟨(0, 0), (4, 0)⟩] [[3, 4], [3, 5.1]] [[0.5, 0.9], [-1.1, 0]] 1 = .ok mask ∧
    mask = [[true, true], [false, false]] := by
  obtain ⟨mask, e1, e2, e3⟩ := C151_distance [⟨(0, 0), (4, 0)⟩] [[3, 4], [3, 5.1]] [[0.5, 0.9], [-1.1, 0]] rfl (d := 1) one_pos
  refine ⟨mask, e1, ?_⟩
  match mask, e2, e3 with
  | [[m1, m2], [m3, m4]], _, e3 =>
    have a1 := (e3 0 0 _ _ _ _ _ _ rfl rfl rfl rfl rfl rfl).2 ⟨_, List.mem_singleton_self _, 3 / 4, by norm_num, by norm_num, by norm_num⟩
    have a2 := (e3 0 1 _ _ _ _ _ _ rfl rfl rfl rfl rfl rfl).2 ⟨_, List.mem_singleton_self _, 1, by norm_num, by norm_num, by norm_num⟩
    have a3 := (e3 1 0 _ _ _ _ _ _ rfl rfl rfl rfl rfl rfl).1
    have a4 := (e3 1 1 _ _ _ _ _ _ rfl rfl rfl rfl rfl rfl).1
    have b3 : m3 = false := by
      by_contra h
      obtain ⟨c, hc, s, -, -, h3⟩ := a3 (by simpa using h)
      rw [List.mem_singleton] at hc
      subst hc
      norm_num at h3
      nlinarith [sq_nonneg (3 - s * 4)]
    have b4 : m4 = false := by
      by_contra h
      obtain ⟨c, hc, s, h1, h2, h3⟩ := a4 (by simpa using h)
      rw [List.mem_singleton] at hc
      subst hc
      have h4 : (5.1 - (0 + s * (4 - 0))) ^ 2 + (0 - (0 + s * (0 - 0))) ^ 2 ≤ (1 : ℝ) ^ 2 := h3
      nlinarith
    rw [a1, a2, b3, b4]

end examples

end Verif.Props
