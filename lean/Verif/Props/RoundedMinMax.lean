import Verif.Props.MinMax
import Verif.Props.RoundedWaa
import Verif.Props.RoundedIdw

/-!
# Property C121: `_calc_A_min_max` in floating point arithmetic
-/

namespace Verif.Props
open Verif Verif.MinMax Verif.Bin

/-- **C121** Whatever the arithmetic (any rounding, overflow included): the result has the length of the input, the
first `window` values are NaN and no value is negative. -/
theorem C121_nonneg {F : Type} [PyFloat F] [LawfulPyFloat F] [PyRint F] (txMin txMax rxMin rxMax : List F) (gT gR : F)
    (window : Nat) (h1 : txMax.length = rxMin.length) (h2 : txMin.length = rxMax.length)
    (h3 : txMax.length = txMin.length) :
    ∃ out, calcAMinMax txMin txMax rxMin rxMax gT gR window = .ok out ∧
      out.length = txMax.length ∧
      (∀ i, i < window → i < txMax.length → out[i]? = some PyFloat.nan) ∧
      (∀ x ∈ out, (x <ᶠ PyFloat.ofInt 0) = false) := by
  obtain ⟨out, e1, e2, e3, e4⟩ := minMax_out txMin txMax rxMin rxMax gT gR window h1 h2 h3
  refine ⟨out, e1, e2, e3, ?_⟩
  intro x hx
  obtain ⟨i, hi, rfl⟩ := List.mem_iff_getElem.mp hx
  have hi2 : i < txMax.length := by omega
  have hget : out[i]? = some out[i] := List.getElem?_eq_getElem hi
  rcases Nat.lt_or_ge i window with h | h
  · rw [e3 i h hi2] at hget
    rw [← Option.some.inj hget]
    by_contra hc
    have := (LawfulPyFloat.lt_not_nan _ _ (by simpa using hc)).1
    rw [LawfulPyFloat.isNaN_nan] at this
    cases this
  · obtain ⟨m, _, hv⟩ := e4 i h hi2
    rw [hv] at hget
    rw [← Option.some.inj hget]
    dsimp only
    split_ifs with hc
    · exact LawfulPyFloat.lt_irrefl _
    · simpa using hc

variable {K : Type} [Field K] [LinearOrder K] [IsStrictOrderedRing K] [FloorRing K] {R : Rounding K}

omit [IsStrictOrderedRing K] [FloorRing K] in
theorem val_npMinimum (a b : RFl R) : (npMinimum a b).val = npMinimum a.val b.val := by
  unfold npMinimum
  rw [RFl.isNaN_def, RFl.isNaN_def]
  split_ifs
  · rfl
  · rfl
  · unfold pyMin
    rw [RFl.lt_def]
    split_ifs <;> rfl

omit [IsStrictOrderedRing K] [FloorRing K] in
theorem val_npMin (l : List (RFl R)) : (npMin l).map RFl.val = npMin (l.map RFl.val) := by
  cases l with
  | nil => rfl
  | cons x xs =>
    show Except.ok (xs.foldl npMinimum x).val = Except.ok ((xs.map RFl.val).foldl npMinimum x.val)
    congr 1
    induction xs generalizing x with
    | nil => rfl
    | cons y ys ih => rw [List.foldl_cons, ih, List.map_cons, List.foldl_cons, val_npMinimum]

omit [IsStrictOrderedRing K] in
theorem fillNan_self {xs : List (RFl R)} (h : ∀ x ∈ xs, isNaN x = false) : fillNan xs = xs := by
  unfold fillNan
  conv_rhs => rw [← List.map_id xs]
  apply List.map_congr_left
  intro x hx
  rw [h x hx]
  rfl

omit [FloorRing K] in
/-- The two corrected levels: error of the computed values. -/
theorem minmax_level {u eta big imax : K} (hR : R.Precision u eta big imax) {t r gT gR : RFl R} {T r' g1 g2 B : K}
    (ht : t.val = .fin T) (hr : r.val = .fin r') (h1 : gT.val = .fin g1) (h2 : gR.val = .fin g2)
    (hu : u ≤ 1 / 100) (he : eta ≤ u * B) (hbig : 8 * B ≤ big) (h2i : 2 ≤ imax) (hB : 0 ≤ B)
    (bT : |T| ≤ B) (br : |r'| ≤ B) (b1 : |g1| ≤ B) (b2 : |g2| ≤ B) :
    (∃ z, (t -ᶠ r -ᶠ (gT +ᶠ gR) /ᶠ PyFloat.ofInt 2).val = .fin z ∧
      |z - (T - r' - (g1 + g2) / 2)| ≤ 9 * (u * B)) ∧
    ∃ z, (t -ᶠ r +ᶠ (gT +ᶠ gR) /ᶠ PyFloat.ofInt 2).val = .fin z ∧
      |z - (T - r' + (g1 + g2) / 2)| ≤ 9 * (u * B) := by
  have hu0 := hR.u_nonneg
  set w := u * B with hw
  have hw0 : 0 ≤ w := mul_nonneg hu0 hB
  have hwB : w ≤ B / 100 := by
    have := mul_le_mul_of_nonneg_right hu hB
    linarith
  have uB : ∀ x c : K, x ≤ c * B → u * x ≤ c * w := by
    intro x c h
    have := mul_le_mul_of_nonneg_left h hu0
    rw [hw]; linarith
  clear_value w
  have bd : |T - r'| ≤ 2 * B := (abs_sub _ _).trans (by linarith)
  obtain ⟨d, hd, ed⟩ := hR.sub_err T r' (RFl.rnd_of_val ht) (RFl.rnd_of_val hr) (by linarith)
  have vd : (t -ᶠ r).val = .fin d := by rw [RFl.val_sub, ht, hr, Fl.pf_sub_fin]; exact hd
  have ed' := ed.trans (uB _ _ bd)
  have bg : |g1 + g2| ≤ 2 * B := (abs_add_le _ _).trans (by linarith)
  obtain ⟨g, hg, eg⟩ := hR.add_err g1 g2 (RFl.rnd_of_val h1) (RFl.rnd_of_val h2) (by linarith)
  have vg : (gT +ᶠ gR).val = .fin g := by rw [RFl.val_add, h1, h2, Fl.pf_add_fin]; exact hg
  have eg' := eg.trans (uB _ _ bg)
  have v2 : (PyFloat.ofInt 2 : RFl R).val = .fin 2 := by
    rw [RFl.val_ofInt]
    have := hR.int_exact 2 (by exact_mod_cast h2i)
    simpa using this
  have bg' : |g| ≤ 202 / 100 * B := by
    have := abs_add_le (g - (g1 + g2)) (g1 + g2)
    rw [sub_add_cancel] at this
    linarith
  have bg2 : |g / 2| ≤ 101 / 100 * B := by
    rw [abs_div, abs_of_pos (by norm_num : (0 : K) < 2)]
    linarith
  obtain ⟨s, hs, es⟩ := hR.err (g / 2) (by linarith)
  have vs : ((gT +ᶠ gR) /ᶠ PyFloat.ofInt 2).val = .fin s := by
    rw [RFl.val_div, vg, v2, Fl.pf_div_fin_ne _ _ (by norm_num)]; exact hs
  have es' : |s - g / 2| ≤ 201 / 100 * w := by
    have := uB _ _ bg2
    linarith
  have es2 : |s - (g1 + g2) / 2| ≤ 301 / 100 * w := by
    have e : s - (g1 + g2) / 2 = (s - g / 2) + (g - (g1 + g2)) / 2 := by ring
    rw [e]
    refine (abs_add_le _ _).trans ?_
    rw [abs_div, abs_of_pos (by norm_num : (0 : K) < 2)]
    linarith
  have bd' : |d| ≤ 202 / 100 * B := by
    have := abs_add_le (d - (T - r')) (T - r')
    rw [sub_add_cancel] at this
    linarith
  have bs' : |s| ≤ 104 / 100 * B := by
    have := abs_add_le (s - g / 2) (g / 2)
    rw [sub_add_cancel] at this
    linarith
  constructor
  · have bx : |d - s| ≤ 306 / 100 * B := (abs_sub _ _).trans (by linarith)
    obtain ⟨z, hz, ez⟩ := hR.sub_err d s (RFl.rnd_of_val vd) (RFl.rnd_of_val vs) (by linarith)
    have ez' := ez.trans (uB _ _ bx)
    refine ⟨z, by rw [RFl.val_sub, vd, vs, Fl.pf_sub_fin]; exact hz, ?_⟩
    have e : z - (T - r' - (g1 + g2) / 2) = (z - (d - s)) + ((d - (T - r')) - (s - (g1 + g2) / 2)) := by ring
    rw [e]
    have k1 := abs_add_le (z - (d - s)) ((d - (T - r')) - (s - (g1 + g2) / 2))
    have k2 := abs_sub (d - (T - r')) (s - (g1 + g2) / 2)
    linarith
  · have bx : |d + s| ≤ 306 / 100 * B := (abs_add_le _ _).trans (by linarith)
    obtain ⟨z, hz, ez⟩ := hR.add_err d s (RFl.rnd_of_val vd) (RFl.rnd_of_val vs) (by linarith)
    have ez' := ez.trans (uB _ _ bx)
    refine ⟨z, by rw [RFl.val_add, vd, vs, Fl.pf_add_fin]; exact hz, ?_⟩
    have e : z - (T - r' + (g1 + g2) / 2) = (z - (d + s)) + ((d - (T - r')) + (s - (g1 + g2) / 2)) := by ring
    rw [e]
    have k1 := abs_add_le (z - (d + s)) ((d - (T - r')) + (s - (g1 + g2) / 2))
    have k2 := abs_add_le (d - (T - r')) (s - (g1 + g2) / 2)
    linarith

/-- A series of finite floats. -/
def FinVals (xs : List (RFl R)) (ys : List K) : Prop := xs.map RFl.val = ys.map Fl.fin

omit [IsStrictOrderedRing K] [FloorRing K] in
theorem FinVals.len {xs : List (RFl R)} {ys : List K} (h : FinVals xs ys) : xs.length = ys.length := by
  have := congrArg List.length h
  simpa using this

omit [IsStrictOrderedRing K] [FloorRing K] in
theorem FinVals.get {xs : List (RFl R)} {ys : List K} (h : FinVals xs ys) (i : Nat) (h1 : i < xs.length) (h2 : i < ys.length) :
    (xs[i]).val = .fin ys[i] := by
  have := congrArg (fun l => l[i]?) h
  simp only [List.getElem?_map, List.getElem?_eq_getElem h1, List.getElem?_eq_getElem h2, Option.map_some,
    Option.some.injEq] at this
  exact this

omit [FloorRing K] in
theorem finVals_numOf {xs : List (RFl R)} (h : ∀ x ∈ xs, ∃ y, x.val = .fin y) : FinVals xs (xs.map numOf) := by
  unfold FinVals
  rw [List.map_map]
  apply List.map_congr_left
  intro x hx
  obtain ⟨y, hy⟩ := h x hx
  show x.val = Fl.fin (numOf x)
  rw [numOf_fin hy, hy]

omit [Field K] [LinearOrder K] [IsStrictOrderedRing K] [FloorRing K] in
theorem mem_slice_iff {lm : List K} {i window : Nat} {z : K} : z ∈ slice lm (i - window) (i + 1) ↔
    ∃ k, i - window ≤ k ∧ k ≤ i ∧ lm[k]? = some z := by
  rw [List.mem_iff_getElem?]
  constructor
  · rintro ⟨j, hj⟩
    rw [slice, List.getElem?_drop, List.getElem?_take] at hj
    split_ifs at hj with hc
    exact ⟨i - window + j, by omega, by omega, hj⟩
  · rintro ⟨k, k1, k2, k3⟩
    refine ⟨k - (i - window), ?_⟩
    rw [slice, List.getElem?_drop, List.getElem?_take, if_pos (by omega)]
    rw [(by omega : i - window + (k - (i - window)) = k)]
    exact k3

/-- What is computed at step `i` if the corrected levels are finite. -/
theorem minmax_core (txMin txMax rxMin rxMax : List (RFl R)) (gT gR : RFl R) (window : Nat)
    (l1 : txMax.length = rxMin.length) (l2 : txMin.length = rxMax.length) (l3 : txMax.length = txMin.length)
    (fU : ∀ k (hk : k < txMax.length) (hk2 : k < rxMin.length), ∃ z,
      (txMax[k] -ᶠ rxMin[k] -ᶠ (gT +ᶠ gR) /ᶠ PyFloat.ofInt 2).val = .fin z)
    (fL : ∀ k (hk : k < txMin.length) (hk2 : k < rxMax.length), ∃ z,
      (txMin[k] -ᶠ rxMax[k] +ᶠ (gT +ᶠ gR) /ᶠ PyFloat.ofInt 2).val = .fin z) :
    ∃ out, calcAMinMax txMin txMax rxMin rxMax gT gR window = .ok out ∧ out.length = txMax.length ∧
      ∀ i (_ : window ≤ i) (hM : i < txMax.length) (hr : i < rxMin.length), ∃ mf : RFl R, ∃ m,
        mf.val = .fin m ∧
        IsLeast {z | ∃ k, ∃ (ha : k < txMin.length) (hb : k < rxMax.length), i - window ≤ k ∧ k ≤ i ∧
          (txMin[k] -ᶠ rxMax[k] +ᶠ (gT +ᶠ gR) /ᶠ PyFloat.ofInt 2).val = .fin z} m ∧
        out[i]? = some (if (txMax[i] -ᶠ rxMin[i] -ᶠ (gT +ᶠ gR) /ᶠ PyFloat.ofInt 2) -ᶠ mf <ᶠ PyFloat.ofInt 0 then
          PyFloat.ofInt 0 else (txMax[i] -ᶠ rxMin[i] -ᶠ (gT +ᶠ gR) /ᶠ PyFloat.ofInt 2) -ᶠ mf) := by
  obtain ⟨out, o1, o2, o3, o4⟩ := minMax_out txMin txMax rxMin rxMax gT gR window l1 l2 l3
  refine ⟨out, o1, o2, ?_⟩
  intro i hw hM hr
  set U := List.zipWith (fun a b => a -ᶠ b -ᶠ (gT +ᶠ gR) /ᶠ PyFloat.ofInt 2) txMax rxMin with hU
  set L := List.zipWith (fun a b => a -ᶠ b +ᶠ (gT +ᶠ gR) /ᶠ PyFloat.ofInt 2) txMin rxMax with hL
  have lU : U.length = txMax.length := by rw [hU, List.length_zipWith]; omega
  have lL : L.length = txMin.length := by rw [hL, List.length_zipWith]; omega
  have gL : ∀ k (hk : k < L.length), L[k] = txMin[k]'(by omega) -ᶠ rxMax[k]'(by omega) +ᶠ (gT +ᶠ gR) /ᶠ PyFloat.ofInt 2 := by
    intro k hk; simp [hL]
  have fU' : ∀ x ∈ U, ∃ y, x.val = .fin y := by
    intro x hx
    obtain ⟨k, hk, rfl⟩ := List.mem_iff_getElem.mp hx
    obtain ⟨z, hz⟩ := fU k (by omega) (by omega)
    exact ⟨z, by rw [← hz]; simp [hU]⟩
  have fL' : ∀ x ∈ L, ∃ y, x.val = .fin y := by
    intro x hx
    obtain ⟨k, hk, rfl⟩ := List.mem_iff_getElem.mp hx
    obtain ⟨z, hz⟩ := fL k (by omega) (by omega)
    exact ⟨z, by rw [← hz, gL]⟩
  have nn : ∀ xs : List (RFl R), (∀ x ∈ xs, ∃ y, x.val = .fin y) → fillNan xs = xs := by
    intro xs h
    apply fillNan_self
    intro x hx
    obtain ⟨y, hy⟩ := h x hx
    rw [RFl.isNaN_def, hy]; rfl
  rw [nn U fU', nn L fL'] at o4
  obtain ⟨mf, hm, hv⟩ := o4 i hw (by omega)
  have hrd : rd U i = txMax[i]'(by omega) -ᶠ rxMin[i]'(by omega) -ᶠ (gT +ᶠ gR) /ᶠ PyFloat.ofInt 2 := by
    apply rd_of_getElem?
    rw [List.getElem?_eq_getElem (by omega : i < U.length)]
    simp [hU]
  rw [hrd] at hv
  have vL := finVals_numOf fL'
  set zs := L.map numOf with hzs
  have lz : zs.length = txMin.length := by rw [hzs, List.length_map, lL]
  have hmv := congrArg (Except.map RFl.val) hm
  rw [val_npMin] at hmv
  have hsl : (slice L (i - window) (i + 1)).map RFl.val = (slice zs (i - window) (i + 1)).map Fl.fin := by
    simp only [slice, List.map_drop, List.map_take]
    rw [show L.map RFl.val = zs.map Fl.fin from vL]
  rw [hsl] at hmv
  have hne : slice zs (i - window) (i + 1) ≠ [] := by
    intro h
    have := congrArg List.length h
    simp [slice] at this
    omega
  obtain ⟨y, ys, hys⟩ := List.exists_cons_of_ne_nil hne
  obtain ⟨m1, hm1, hl1⟩ := npMin_map_fin y ys
  rw [hys, hm1] at hmv
  have vm : mf.val = .fin m1 := by
    have : Except.ok (ε := Err) (Fl.fin m1) = Except.ok mf.val := hmv
    injection this with this
    exact this.symm
  rw [← hys] at hl1
  refine ⟨mf, m1, vm, ?_, hv⟩
  convert hl1 using 1
  ext z
  rw [Set.mem_ofPred_eq, Set.mem_ofPred_eq, mem_slice_iff]
  constructor
  · rintro ⟨k, ha, hb, k1, k2, hz⟩
    refine ⟨k, k1, k2, ?_⟩
    rw [List.getElem?_eq_getElem (by omega : k < zs.length)]
    have h := vL.get k (by omega) (by omega)
    rw [gL k (by omega), hz] at h
    injection h with h
    rw [h]
  · rintro ⟨k, k1, k2, k3⟩
    have hk : k < zs.length := by
      by_contra hc
      rw [List.getElem?_eq_none (by omega)] at k3; cases k3
    rw [List.getElem?_eq_getElem hk, Option.some.injEq] at k3
    refine ⟨k, by omega, by omega, k1, k2, ?_⟩
    have h := vL.get k (by omega) hk
    rw [gL k (by omega), k3] at h
    exact h

/-- Finite levels and bias of size at most `B`. -/
structure MinMaxIn (txMin txMax rxMin rxMax : List (RFl R)) (tm tM rm rM : List K) (gT gR : RFl R) (g1 g2 B : K) : Prop where
  v1 : FinVals txMin tm
  v2 : FinVals txMax tM
  v3 : FinVals rxMin rm
  v4 : FinVals rxMax rM
  h1 : gT.val = .fin g1
  h2 : gR.val = .fin g2
  l1 : tM.length = rm.length
  l2 : tm.length = rM.length
  l3 : tM.length = tm.length
  b1 : |g1| ≤ B
  b2 : |g2| ≤ B
  c1 : ∀ x ∈ tm, |x| ≤ B
  c2 : ∀ x ∈ tM, |x| ≤ B
  c3 : ∀ x ∈ rm, |x| ≤ B
  c4 : ∀ x ∈ rM, |x| ≤ B

omit [FloorRing K] in
theorem MinMaxIn.levels {u eta big imax : K} (hR : R.Precision u eta big imax) {txMin txMax rxMin rxMax : List (RFl R)}
    {tm tM rm rM : List K} {gT gR : RFl R} {g1 g2 B : K} (h : MinMaxIn txMin txMax rxMin rxMax tm tM rm rM gT gR g1 g2 B)
    (hu : u ≤ 1 / 100) (he : eta ≤ u * B) (hbig : 8 * B ≤ big) (h2i : 2 ≤ imax) (hB : 0 ≤ B) :
    (∀ k (hk : k < txMax.length) (hk2 : k < rxMin.length) (hk3 : k < tM.length) (hk4 : k < rm.length), ∃ z,
      (txMax[k] -ᶠ rxMin[k] -ᶠ (gT +ᶠ gR) /ᶠ PyFloat.ofInt 2).val = .fin z ∧
      |z - (tM[k] - rm[k] - (g1 + g2) / 2)| ≤ 9 * (u * B)) ∧
    ∀ k (hk : k < txMin.length) (hk2 : k < rxMax.length) (hk3 : k < tm.length) (hk4 : k < rM.length), ∃ z,
      (txMin[k] -ᶠ rxMax[k] +ᶠ (gT +ᶠ gR) /ᶠ PyFloat.ofInt 2).val = .fin z ∧
      |z - (tm[k] - rM[k] + (g1 + g2) / 2)| ≤ 9 * (u * B) :=
  ⟨fun k hk hk2 _ _ => (minmax_level hR (h.v2.get k hk (by omega)) (h.v3.get k hk2 (by omega)) h.h1 h.h2 hu he hbig h2i hB
      (h.c2 _ (List.getElem_mem _)) (h.c3 _ (List.getElem_mem _)) h.b1 h.b2).1,
   fun k hk hk2 _ _ => (minmax_level hR (h.v1.get k hk (by omega)) (h.v4.get k hk2 (by omega)) h.h1 h.h2 hu he hbig h2i hB
      (h.c1 _ (List.getElem_mem _)) (h.c4 _ (List.getElem_mem _)) h.b1 h.b2).2⟩

/-- **C121** Accuracy. Finite levels, everything of absolute value at most `B`: from step `window` on the computed value is
finite, not negative, and differs by at most `25 u B` from the exact one, the upper level `txMax - rxMin - (gT + gR) / 2`
minus the smallest lower level `txMin - rxMax + (gT + gR) / 2` of the last `window + 1` steps, or 0 if that is negative. -/
theorem C121_accuracy {u eta big imax : K} (hR : R.Precision u eta big imax)
    (txMin txMax rxMin rxMax : List (RFl R)) (tm tM rm rM : List K) (gT gR : RFl R) (g1 g2 B : K) (window : Nat)
    (h : MinMaxIn txMin txMax rxMin rxMax tm tM rm rM gT gR g1 g2 B)
    (hu : u ≤ 1 / 100) (he : eta ≤ u * B) (hbig : 8 * B ≤ big) (h2i : 2 ≤ imax) (hB : 0 ≤ B) :
    ∃ out, calcAMinMax txMin txMax rxMin rxMax gT gR window = .ok out ∧
      ∀ i (_ : window ≤ i) (hM : i < tM.length) (hr : i < rm.length), ∃ v p m, out[i]? = some v ∧ v.val = .fin p ∧ 0 ≤ p ∧
        IsLeast {z | ∃ k, ∃ (ha : k < tm.length) (hb : k < rM.length), i - window ≤ k ∧ k ≤ i ∧
          z = tm[k] - rM[k] + (g1 + g2) / 2} m ∧
        |p - max 0 (tM[i] - rm[i] - (g1 + g2) / 2 - m)| ≤ 25 * (u * B) := by
  obtain ⟨up, lo⟩ := h.levels hR hu he hbig h2i hB
  have e1 := h.v1.len
  have e2 := h.v2.len
  have e3 := h.v3.len
  have e4 := h.v4.len
  have l1 := h.l1
  have l2 := h.l2
  have l3 := h.l3
  obtain ⟨out, o1, -, o4⟩ := minmax_core txMin txMax rxMin rxMax gT gR window (by omega) (by omega) (by omega)
    (fun k a b => (up k a b (by omega) (by omega)).imp fun _ => And.left)
    (fun k a b => (lo k a b (by omega) (by omega)).imp fun _ => And.left)
  refine ⟨out, o1, ?_⟩
  intro i hw hM hr
  have hu0 := hR.u_nonneg
  generalize hwd : u * B = w at *
  have hw0 : 0 ≤ w := by rw [← hwd]; exact mul_nonneg hu0 hB
  have hwB : w ≤ B / 100 := by
    have := mul_le_mul_of_nonneg_right hu hB
    linarith
  have uB : ∀ x c : K, x ≤ c * B → u * x ≤ c * w := by
    intro x c h
    have := mul_le_mul_of_nonneg_left h hu0
    rw [← hwd]; linarith
  obtain ⟨mf, m1, vm, hl1, hv⟩ := o4 i hw (by omega) (by omega)
  obtain ⟨a, ha, ea⟩ := up i (by omega) (by omega) hM hr
  -- the exact minimum
  set xs := List.zipWith (fun a b => a - b + (g1 + g2) / 2) tm rM with hxs
  have lx : xs.length = tm.length := by rw [hxs, List.length_zipWith]; omega
  have gx : ∀ k (hk : k < xs.length), xs[k] = tm[k]'(by omega) - rM[k]'(by omega) + (g1 + g2) / 2 := by
    intro k hk; simp [hxs]
  have hne2 : slice xs (i - window) (i + 1) ≠ [] := by
    intro h
    have := congrArg List.length h
    simp [slice] at this
    omega
  obtain ⟨y', ys', hys'⟩ := List.exists_cons_of_ne_nil hne2
  obtain ⟨m0, -, hl0⟩ := npMin_map_fin y' ys'
  rw [← hys'] at hl0
  have hset : IsLeast {z | ∃ k, ∃ (ha : k < tm.length) (hb : k < rM.length), i - window ≤ k ∧ k ≤ i ∧
          z = tm[k] - rM[k] + (g1 + g2) / 2} m0 := by
    convert hl0 using 1
    ext z
    rw [Set.mem_ofPred_eq, Set.mem_ofPred_eq, mem_slice_iff]
    constructor
    · rintro ⟨k, ha, hb, k1, k2, rfl⟩
      refine ⟨k, k1, k2, ?_⟩
      rw [List.getElem?_eq_getElem (by omega : k < xs.length), gx]
    · rintro ⟨k, k1, k2, k3⟩
      have hk : k < xs.length := by
        by_contra hc
        rw [List.getElem?_eq_none (by omega)] at k3; cases k3
      rw [List.getElem?_eq_getElem hk, Option.some.injEq] at k3
      exact ⟨k, by omega, by omega, k1, k2, by rw [← k3, gx]⟩
  clear hl0 hys' hne2
  have mm : |m1 - m0| ≤ 9 * w := by
    rw [abs_le]
    constructor
    · obtain ⟨k, k1, k2, k3, k4, k5⟩ := hl1.1
      have h0 := hset.2 ⟨k, by omega, by omega, k3, k4, rfl⟩
      obtain ⟨z, hz, ez⟩ := lo k k1 k2 (by omega) (by omega)
      rw [hz] at k5
      injection k5 with k5
      have := abs_le.mp ez
      linarith
    · obtain ⟨k, k1, k2, k3, k4, k5⟩ := hset.1
      obtain ⟨z, hz, ez⟩ := lo k (by omega) (by omega) k1 k2
      have h0 := hl1.2 ⟨k, by omega, by omega, k3, k4, hz⟩
      have := abs_le.mp ez
      linarith
  -- sizes
  have i3 := abs_le.mp h.b1
  have i4 := abs_le.mp h.b2
  have hlev : ∀ x y : K, |x| ≤ B → |y| ≤ B → |x - y - (g1 + g2) / 2| ≤ 3 * B ∧ |x - y + (g1 + g2) / 2| ≤ 3 * B := by
    intro x y hx hy
    have i1 := abs_le.mp hx
    have i2 := abs_le.mp hy
    constructor <;> (rw [abs_le]; constructor <;> linarith)
  have bA := (hlev _ _ (h.c2 _ (List.getElem_mem hM)) (h.c3 _ (List.getElem_mem hr))).1
  have bm0 : |m0| ≤ 3 * B := by
    obtain ⟨k, k1, k2, k3, k4, k5⟩ := hset.1
    rw [k5]
    exact (hlev _ _ (h.c1 _ (List.getElem_mem _)) (h.c4 _ (List.getElem_mem _))).2
  generalize tM[i] - rm[i] - (g1 + g2) / 2 = A at *
  have dd : |(a - m1) - (A - m0)| ≤ 18 * w := by
    have i1 := abs_le.mp ea
    have i2 := abs_le.mp mm
    rw [abs_le]; constructor <;> linarith
  have ba : |a - m1| ≤ 62 / 10 * B := by
    have i1 := abs_le.mp dd
    have i2 := abs_le.mp bA
    have i3 := abs_le.mp bm0
    rw [abs_le]; constructor <;> linarith
  obtain ⟨p, hp, ep⟩ := hR.sub_err a m1 (RFl.rnd_of_val ha) (RFl.rnd_of_val vm) (by linarith)
  have ep' := ep.trans (uB _ _ ba)
  generalize hx : txMax[i]'(by omega) -ᶠ rxMin[i]'(by omega) -ᶠ (gT +ᶠ gR) /ᶠ PyFloat.ofInt 2 = x at *
  have vp : (x -ᶠ mf).val = .fin p := by
    rw [RFl.val_sub, ha, vm, Fl.pf_sub_fin]; exact hp
  have pd : |p - (A - m0)| ≤ 25 * w := by
    have i1 := abs_le.mp dd
    have i2 := abs_le.mp ep'
    rw [abs_le]; constructor <;> linarith
  by_cases hneg : p < 0
  · rw [if_pos (by rw [RFl.lt_def, vp, RFl.val_zero, Fl.pf_lt_fin]; simpa using hneg)] at hv
    refine ⟨_, 0, m0, hv, RFl.val_zero, le_refl _, hset, ?_⟩
    have i2 := abs_le.mp pd
    rw [abs_le]
    constructor
    · have : max 0 (A - m0) ≤ 25 * w := max_le (by linarith) (by linarith)
      linarith
    · have := le_max_left 0 (A - m0)
      linarith
  · rw [if_neg (by rw [RFl.lt_def, vp, RFl.val_zero, Fl.pf_lt_fin]; simpa using hneg)] at hv
    refine ⟨_, p, m0, hv, vp, not_lt.mp hneg, hset, ?_⟩
    have i2 := abs_le.mp pd
    have hp0 := not_lt.mp hneg
    rw [abs_le]
    constructor
    · have : max 0 (A - m0) ≤ p + 25 * w := max_le (by linarith) (by linarith)
      linarith
    · have := le_max_right 0 (A - m0)
      linarith

omit [IsStrictOrderedRing K] [FloorRing K] in
theorem rnd_le_rnd {x y a b : K} (h : x ≤ y) (hx : R.rnd x = .fin a) (hy : R.rnd y = .fin b) : a ≤ b := by
  have := R.mono x y h
  rw [hx, hy, Fl.pf_le_fin] at this
  simpa using this

/-- **C121** No spurious attenuation. If no upper difference `txMax - rxMin` of the present step exceeds a lower difference
`txMin - rxMax` of the last `window + 1` steps (for example when the levels do not change) and the bias is not negative,
then the computed value is exactly 0. -/
theorem C121_steady {u eta big imax : K} (hR : R.Precision u eta big imax)
    (txMin txMax rxMin rxMax : List (RFl R)) (tm tM rm rM : List K) (gT gR : RFl R) (g1 g2 B : K) (window : Nat)
    (h : MinMaxIn txMin txMax rxMin rxMax tm tM rm rM gT gR g1 g2 B)
    (hu : u ≤ 1 / 100) (he : eta ≤ u * B) (hbig : 8 * B ≤ big) (h2i : 2 ≤ imax) (hB : 0 ≤ B) (hg : 0 ≤ g1 + g2)
    (i : Nat) (hw : window ≤ i) (hM : i < tM.length) (hr : i < rm.length)
    (hs : ∀ k (ha : k < tm.length) (hb : k < rM.length), i - window ≤ k → k ≤ i → tM[i] - rm[i] ≤ tm[k] - rM[k]) :
    ∃ out, calcAMinMax txMin txMax rxMin rxMax gT gR window = .ok out ∧ out[i]? = some (PyFloat.ofInt 0) := by
  obtain ⟨up, lo⟩ := h.levels hR hu he hbig h2i hB
  have e1 := h.v1.len
  have e2 := h.v2.len
  have e3 := h.v3.len
  have e4 := h.v4.len
  have l1 := h.l1
  have l2 := h.l2
  have l3 := h.l3
  obtain ⟨out, o1, -, o4⟩ := minmax_core txMin txMax rxMin rxMax gT gR window (by omega) (by omega) (by omega)
    (fun k a b => (up k a b (by omega) (by omega)).imp fun _ => And.left)
    (fun k a b => (lo k a b (by omega) (by omega)).imp fun _ => And.left)
  refine ⟨out, o1, ?_⟩
  obtain ⟨mf, m1, vm, hl1, hv⟩ := o4 i hw (by omega) (by omega)
  obtain ⟨a, ha, -⟩ := up i (by omega) (by omega) hM hr
  obtain ⟨k, k1, k2, k3, k4, k5⟩ := hl1.1
  -- the pieces of the two levels are finite
  have ti := h.v2.get i (by omega) hM
  have ri := h.v3.get i (by omega) hr
  have tk := h.v1.get k k1 (by omega)
  have rk := h.v4.get k k2 (by omega)
  have hsub : ∀ x y : K, R.rnd x = .fin x → R.rnd y = .fin y → |x| ≤ B → |y| ≤ B → ∃ z, R.rnd (x - y) = .fin z := by
    intro x y hx hy bx by'
    obtain ⟨z, hz, _⟩ := hR.sub_err x y hx hy ((abs_sub _ _).trans (by linarith))
    exact ⟨z, hz⟩
  obtain ⟨d1, hd1⟩ := hsub _ _ (RFl.rnd_of_val ti) (RFl.rnd_of_val ri) (h.c2 _ (List.getElem_mem _)) (h.c3 _ (List.getElem_mem _))
  obtain ⟨d2, hd2⟩ := hsub _ _ (RFl.rnd_of_val tk) (RFl.rnd_of_val rk) (h.c1 _ (List.getElem_mem _)) (h.c4 _ (List.getElem_mem _))
  obtain ⟨g, hg', eg⟩ := hR.add_err g1 g2 (RFl.rnd_of_val h.h1) (RFl.rnd_of_val h.h2)
    ((abs_add_le _ _).trans (by linarith [h.b1, h.b2]))
  have g0 : 0 ≤ g := rnd_nonneg hg' hg
  have v2 : (PyFloat.ofInt 2 : RFl R).val = .fin 2 := by
    rw [RFl.val_ofInt]
    have := hR.int_exact 2 (by exact_mod_cast h2i)
    simpa using this
  have bgg : |g / 2| ≤ big := by
    have h1 := abs_add_le (g - (g1 + g2)) (g1 + g2)
    rw [sub_add_cancel] at h1
    have h2 : |g1 + g2| ≤ 2 * B := (abs_add_le _ _).trans (by linarith [h.b1, h.b2])
    have h3 : u * |g1 + g2| ≤ 1 * (2 * B) :=
      mul_le_mul (by linarith) h2 (abs_nonneg _) (by norm_num)
    rw [abs_div, abs_of_pos (by norm_num : (0 : K) < 2)]
    linarith
  obtain ⟨s, hs', -⟩ := hR.err (g / 2) bgg
  have s0 : 0 ≤ s := rnd_nonneg hs' (by linarith)
  have vs : ((gT +ᶠ gR) /ᶠ PyFloat.ofInt 2).val = .fin s := by
    have vg : (gT +ᶠ gR).val = .fin g := by rw [RFl.val_add, h.h1, h.h2, Fl.pf_add_fin]; exact hg'
    rw [RFl.val_div, vg, v2, Fl.pf_div_fin_ne _ _ (by norm_num)]; exact hs'
  have w1 : (txMax[i]'(by omega) -ᶠ rxMin[i]'(by omega)).val = .fin d1 := by
    rw [RFl.val_sub, ti, ri, Fl.pf_sub_fin]; exact hd1
  have w2 : (txMin[k] -ᶠ rxMax[k]).val = .fin d2 := by
    rw [RFl.val_sub, tk, rk, Fl.pf_sub_fin]; exact hd2
  have ha' : R.rnd (d1 - s) = .fin a := by
    have := ha
    rw [RFl.val_sub, w1, vs, Fl.pf_sub_fin] at this
    exact this
  have hm' : R.rnd (d2 + s) = .fin m1 := by
    have := k5
    rw [RFl.val_add, w2, vs, Fl.pf_add_fin] at this
    exact this
  have hd := rnd_le_rnd (hs k (by omega) (by omega) k3 k4) hd1 hd2
  have ham : a ≤ m1 := rnd_le_rnd (by linarith) ha' hm'
  generalize hx : txMax[i]'(by omega) -ᶠ rxMin[i]'(by omega) -ᶠ (gT +ᶠ gR) /ᶠ PyFloat.ofInt 2 = x at *
  have hle := OrderedPyFloat.sub_nonpos x mf (by rw [RFl.le_def, ha, vm, Fl.pf_le_fin]; simpa using ham)
    (by rw [RFl.isNaN_def, RFl.val_sub, R.isNaN_round, ha, vm]; rfl)
  by_cases hneg : (x -ᶠ mf) <ᶠ PyFloat.ofInt 0
  · rw [if_pos hneg] at hv; exact hv
  · rw [if_neg hneg] at hv
    rw [hv]
    congr 1
    apply RFl.ext
    rw [RFl.le_def, RFl.val_zero] at hle
    rw [RFl.lt_def, RFl.val_zero] at hneg
    rw [RFl.val_zero]
    generalize (x -ᶠ mf).val = v at *
    cases v with
    | nan => exact absurd hle Bool.false_ne_true
    | ninf => exact absurd rfl hneg
    | pinf => exact absurd hle Bool.false_ne_true
    | fin y =>
      rw [Fl.pf_lt_fin] at hneg
      rw [Fl.pf_le_fin] at hle
      have : y = 0 := le_antisymm (by simpa using hle) (not_lt.mp (by simpa using hneg))
      rw [this]

/-- **C121** IEEE doubles, levels and bias of at most 1000 dB: the computed attenuations are right to `2^-38` dB. -/
theorem C121_doubles (txMin txMax rxMin rxMax : List (RFl (binary64 (K := K)))) (tm tM rm rM : List K)
    (gT gR : RFl (binary64 (K := K))) (g1 g2 : K) (window : Nat)
    (h : MinMaxIn txMin txMax rxMin rxMax tm tM rm rM gT gR g1 g2 1000) :
    ∃ out, calcAMinMax txMin txMax rxMin rxMax gT gR window = .ok out ∧
      ∀ i (_ : window ≤ i) (hM : i < tM.length) (hr : i < rm.length), ∃ v p m, out[i]? = some v ∧ v.val = .fin p ∧ 0 ≤ p ∧
        IsLeast {z | ∃ k, ∃ (ha : k < tm.length) (hb : k < rM.length), i - window ≤ k ∧ k ≤ i ∧
          z = tm[k] - rM[k] + (g1 + g2) / 2} m ∧
        |p - max 0 (tM[i] - rm[i] - (g1 + g2) / 2 - m)| ≤ 2 ^ (-38 : ℤ) := by
  have he : (2 : K) ^ (-1075 : ℤ) ≤ 2 ^ (-53 : ℤ) * 1000 := by
    have h1 : (2 : K) ^ (-1075 : ℤ) ≤ 2 ^ (-53 : ℤ) := zpow_le_zpow_right₀ one_le_two (by norm_num)
    have h2 : (0 : K) < 2 ^ (-53 : ℤ) := zpow_pos two_pos _
    linarith only [h1, h2]
  have hbig : (8 : K) * 1000 ≤ 2 ^ (1023 : ℤ) :=
    le_trans (by norm_num : (8 : K) * 1000 ≤ 2 ^ (13 : ℤ)) (zpow_le_zpow_right₀ one_le_two (by norm_num))
  obtain ⟨out, o1, o2⟩ := C121_accuracy binary64_precision txMin txMax rxMin rxMax tm tM rm rM gT gR g1 g2 1000 window h
    (by norm_num) he hbig (by norm_num) (by norm_num)
  refine ⟨out, o1, fun i hw hM hr => ?_⟩
  obtain ⟨v, p, m, q1, q2, q3, q4, q5⟩ := o2 i hw hM hr
  exact ⟨v, p, m, q1, q2, q3, q4, q5.trans (by norm_num)⟩

/-- Two links of three steps with levels 0, -50 and -60: in doubles the attenuation of the second step is (nearly) 8 dB and
that of the third, back at the old level, exactly 0. -/
example : ∃ out : List (RFl (binary64 (K := ℚ))), calcAMinMax [PyFloat.ofInt (0 : ℕ), PyFloat.ofInt (0 : ℕ), PyFloat.ofInt (0 : ℕ)]
    [PyFloat.ofInt (0 : ℕ), PyFloat.ofInt (0 : ℕ), PyFloat.ofInt (0 : ℕ)]
    [PyFloat.ofInt (60 : ℕ), PyFloat.ofInt (50 : ℕ), PyFloat.ofInt (60 : ℕ)]
    [PyFloat.ofInt (60 : ℕ), PyFloat.ofInt (50 : ℕ), PyFloat.ofInt (60 : ℕ)]
    (PyFloat.ofInt (1 : ℕ)) (PyFloat.ofInt (1 : ℕ)) 1 = .ok out ∧
      (∃ o p, out[1]? = some o ∧ o.val = .fin p ∧ |p - 8| ≤ 1 / 10 ^ 11) ∧ out[2]? = some (PyFloat.ofInt 0) := by
  have v := val_ofNat_binary64
  have v0 := v 0 (by norm_num)
  have v1 := v 1 (by norm_num)
  have v50 := v 50 (by norm_num)
  have v60 := v 60 (by norm_num)
  have hin : MinMaxIn (R := binary64 (K := ℚ)) [PyFloat.ofInt (0 : ℕ), PyFloat.ofInt (0 : ℕ), PyFloat.ofInt (0 : ℕ)]
      [PyFloat.ofInt (0 : ℕ), PyFloat.ofInt (0 : ℕ), PyFloat.ofInt (0 : ℕ)]
      [PyFloat.ofInt (60 : ℕ), PyFloat.ofInt (50 : ℕ), PyFloat.ofInt (60 : ℕ)]
      [PyFloat.ofInt (60 : ℕ), PyFloat.ofInt (50 : ℕ), PyFloat.ofInt (60 : ℕ)]
      [((0 : ℕ) : ℚ), ((0 : ℕ) : ℚ), ((0 : ℕ) : ℚ)] [((0 : ℕ) : ℚ), ((0 : ℕ) : ℚ), ((0 : ℕ) : ℚ)]
      [((60 : ℕ) : ℚ), ((50 : ℕ) : ℚ), ((60 : ℕ) : ℚ)] [((60 : ℕ) : ℚ), ((50 : ℕ) : ℚ), ((60 : ℕ) : ℚ)]
      (PyFloat.ofInt (1 : ℕ)) (PyFloat.ofInt (1 : ℕ)) ((1 : ℕ) : ℚ) ((1 : ℕ) : ℚ) 1000 := by
    constructor
    · simp only [FinVals, List.map_cons, List.map_nil, v0]
    · simp only [FinVals, List.map_cons, List.map_nil, v0]
    · simp only [FinVals, List.map_cons, List.map_nil, v50, v60]
    · simp only [FinVals, List.map_cons, List.map_nil, v50, v60]
    · exact v1
    · exact v1
    all_goals first | rfl | (norm_num; done) | (simp; norm_num; done) | (simp; done)
  have he : (2 : ℚ) ^ (-1075 : ℤ) ≤ 2 ^ (-53 : ℤ) * 1000 := by
    have h1 : (2 : ℚ) ^ (-1075 : ℤ) ≤ 2 ^ (-53 : ℤ) := zpow_le_zpow_right₀ one_le_two (by norm_num)
    have h2 : (0 : ℚ) < 2 ^ (-53 : ℤ) := zpow_pos two_pos _
    linarith only [h1, h2]
  have hbig : (8 : ℚ) * 1000 ≤ 2 ^ (1023 : ℤ) :=
    le_trans (by norm_num : (8 : ℚ) * 1000 ≤ 2 ^ (13 : ℤ)) (zpow_le_zpow_right₀ one_le_two (by norm_num))
  obtain ⟨out, o1, o2⟩ := C121_doubles _ _ _ _ _ _ _ _ _ _ _ _ 1 hin
  obtain ⟨out', o1', o2'⟩ := C121_steady binary64_precision _ _ _ _ _ _ _ _ _ _ _ _ _ 1 hin
    (by norm_num) he hbig (by norm_num) (by norm_num) (by norm_num) 2 (by norm_num) (by simp) (by simp) (by
      intro k ha hb k1 k2
      interval_cases k <;> norm_num)
  rw [o1] at o1'
  injection o1' with o1'
  subst o1'
  refine ⟨out, o1, ?_, o2'⟩
  obtain ⟨o, p, m, q1, q2, q3, q4, q5⟩ := o2 1 le_rfl (by simp) (by simp)
  refine ⟨o, p, q1, q2, ?_⟩
  have hm : m = -59 := by
    refine IsLeast.unique q4 ⟨⟨0, by simp, by simp, by norm_num, by norm_num, by norm_num⟩, ?_⟩
    rintro z ⟨k, ha, hb, k1, k2, rfl⟩
    interval_cases k <;> norm_num
  rw [hm] at q5
  refine le_trans ?_ (q5.trans (by norm_num))
  norm_num

end Verif.Props
