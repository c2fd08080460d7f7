import Verif.Props.NearbyLocal
import Verif.Props.Recovery
import Verif.Props.MinMax

/-!
# Property C140: the nearby approach detects rain seen by most links, ignores failures of few, and retrieves the rain
-/

namespace Verif.Props
open Verif Verif.Nearby Verif.KR

section median
variable {K : Type} [Field K] [LinearOrder K] [IsStrictOrderedRing K]

theorem sorted_ge_from {s : List K} (hs : s.Pairwise (· ≤ ·)) (θ : K) (k : ℕ) (x : K) (hk : s[k]? = some x) (hx : θ ≤ x) :
    s.countP (fun z => decide (z < θ)) ≤ k := by
  obtain ⟨hl, rfl⟩ := List.getElem?_eq_some_iff.mp hk
  have h2 : (s.drop k).countP (fun z => decide (z < θ)) = 0 := by
    rw [List.countP_eq_zero]
    intro z hz
    obtain ⟨i, hi, rfl⟩ := List.getElem_of_mem hz
    rw [List.getElem_drop]
    have : s[k] ≤ s[k + i]'(by rw [List.length_drop] at hi; omega) := by
      rcases Nat.eq_zero_or_pos i with rfl | h0
      · exact le_rfl
      · exact List.pairwise_iff_getElem.mp hs k (k + i) hl _ (by omega)
    simp only [decide_eq_true_eq, not_lt]
    exact hx.trans this
  rw [← List.take_append_drop k s, List.countP_append, h2, add_zero]
  exact List.countP_le_length.trans (by rw [List.length_take]; omega)

theorem sorted_lt_upto {s : List K} (hs : s.Pairwise (· ≤ ·)) (θ : K) (k : ℕ) (x : K) (hk : s[k]? = some x) (hx : x < θ) :
    s.countP (fun z => decide (θ ≤ z)) + (k + 1) ≤ s.length := by
  obtain ⟨hl, rfl⟩ := List.getElem?_eq_some_iff.mp hk
  have h2 : (s.take (k + 1)).countP (fun z => decide (θ ≤ z)) = 0 := by
    rw [List.countP_eq_zero]
    intro z hz
    obtain ⟨i, hi, rfl⟩ := List.getElem_of_mem hz
    rw [List.length_take] at hi
    rw [List.getElem_take]
    have : s[i]'(by omega) ≤ s[k] := by
      rcases Nat.lt_or_ge i k with h0 | h0
      · exact List.pairwise_iff_getElem.mp hs i k _ hl h0
      · have : i = k := by omega
        subst this
        exact le_rfl
    simp only [decide_eq_true_eq, not_le]
    exact this.trans_lt hx
  have h3 := List.countP_append (p := fun z => decide (θ ≤ z)) (l₁ := s.take (k + 1)) (l₂ := s.drop (k + 1))
  rw [List.take_append_drop, h2, zero_add] at h3
  have h4 : (s.drop (k + 1)).countP (fun z => decide (θ ≤ z)) ≤ s.length - (k + 1) :=
    List.countP_le_length.trans (by rw [List.length_drop])
  omega

/-- The median of finite numbers follows the majority. -/
theorem median_majority {w : List K} {m : Fl K} (h : IsMedian (w.map Fl.fin) m) (θ : K) :
    ∃ r, m = .fin r ∧ (w.length < 2 * w.countP (fun z => decide (z < θ)) → r < θ) ∧
      (w.length < 2 * w.countP (fun z => decide (θ ≤ z)) → θ ≤ r) := by
  obtain ⟨s, hp, hs, x, y, hx, hy, rfl⟩ := h
  have hfin : ∀ z ∈ s, ∃ r, z = Fl.fin r := by
    intro z hz
    obtain ⟨r, _, rfl⟩ := List.mem_map.mp (hp.mem_iff.mp hz)
    exact ⟨r, rfl⟩
  obtain ⟨u, rfl⟩ : ∃ u : List K, s = u.map Fl.fin := by
    clear hp hs hx hy
    induction s with
    | nil => exact ⟨[], rfl⟩
    | cons z s ih =>
      obtain ⟨r, rfl⟩ := hfin z (by simp)
      obtain ⟨u, rfl⟩ := ih fun z hz => hfin z (by simp [hz])
      exact ⟨r :: u, rfl⟩
  have hu : u.Pairwise (· ≤ ·) := by
    rw [List.pairwise_map] at hs
    exact hs.imp fun h => by simpa using h
  have hpu : u.Perm w := by
    have hinj : Function.Injective (Fl.fin : K → Fl K) := fun a b h => Fl.fin.inj h
    exact (List.map_perm_map_iff hinj).mp hp
  rw [List.length_map, List.getElem?_map] at hx hy
  obtain ⟨x', hx', rfl⟩ := Option.map_eq_some_iff.mp hx
  obtain ⟨y', hy', rfl⟩ := Option.map_eq_some_iff.mp hy
  have hxy : x' ≤ y' := by
    obtain ⟨a1, rfl⟩ := List.getElem?_eq_some_iff.mp hx'
    obtain ⟨a2, rfl⟩ := List.getElem?_eq_some_iff.mp hy'
    rcases Nat.lt_or_ge ((u.length - 1) / 2) (u.length / 2) with h0 | h0
    · exact List.pairwise_iff_getElem.mp hu _ _ _ _ h0
    · have : (u.length - 1) / 2 = u.length / 2 := by omega
      simp only [this]
      exact le_rfl
  refine ⟨(x' + y') / 2, by rw [Fl.pf_add_fin, Fl.pf_ofInt, Fl.pf_div_fin_ne _ _ (by norm_num)]; norm_num, ?_, ?_⟩
  · intro hc
    rw [← hpu.countP_eq, ← hpu.length_eq] at hc
    have : y' < θ := by
      by_contra hn
      have := sorted_ge_from hu θ _ _ hy' (not_lt.mp hn)
      omega
    linarith
  · intro hc
    rw [← hpu.countP_eq, ← hpu.length_eq] at hc
    have : θ ≤ x' := by
      by_contra hn
      have := sorted_lt_upto hu θ _ _ hx' (not_le.mp hn)
      omega
    linarith

end median

section flags
variable {K Id : Type} [Field K] [LinearOrder K] [IsStrictOrderedRing K] [DecidableEq Id]

/-- number of steps of the look-back period -/
abbrev lookBack (p : Params (Fl K)) : ℕ := p.timeperiod * 60 / p.interval

/-- Link `j` has a level at step `t` and enough levels in the look-back period. -/
def HasData (N : Net (Fl K) Id) (p : Params (Fl K)) (j t : ℕ) : Prop :=
  (∃ y, rd (N.pmin.getD j []) t = .fin y) ∧
    p.minHours * 60 / p.interval ≤ available (N.pmin.getD j []) (lookBack p) t

/-- The level of link `j` at step `t` is more than `δ` below its level at some step of the look-back period. -/
def FellBy (N : Net (Fl K) Id) (p : Params (Fl K)) (j t : ℕ) (δ : K) : Prop :=
  ∃ s y z, t < s + lookBack p ∧ s ≤ t ∧ rd (N.pmin.getD j []) t = .fin y ∧ rd (N.pmin.getD j []) s = .fin z ∧ δ < z - y

open Classical in
/-- how many links within the radius of link `i` have data at step `t` and satisfy `P` -/
noncomputable def nearCount (N : Net (Fl K) Id) (d : Nearby.Dist (Fl K) Id) (p : Params (Fl K)) (i t : ℕ) (P : ℕ → Prop) : ℕ :=
  ((List.range N.ids.length).filter (near d p.radius i)).countP fun j => decide (HasData N p j t ∧ P j)

omit [DecidableEq Id] in
/-- the drop of a link with data, in terms of its levels -/
theorem drop_of_data {N : Net (Fl K) Id} {p : Params (Fl K)} {j t : ℕ} {v : Fl K} (hneed : 0 < p.minHours * 60 / p.interval)
    (hper : 0 < p.timeperiod * 60 / p.interval)
    (hnum : NumOrNan (N.pmin.getD j [])) (hd : DropIs N p j t v) :
    (isNaN v = false ↔ HasData N p j t) ∧
      (HasData N p j t → ∃ r, v = .fin r ∧ ∀ δ, (r < -δ ↔ FellBy N p j t δ)) := by
  have hrd : ∀ s, rd (N.pmin.getD j []) s = .nan ∨ ∃ y, rd (N.pmin.getD j []) s = .fin y := by
    intro s
    by_cases hs : s < (N.pmin.getD j []).length
    · exact hnum _ (List.mem_of_getElem? (getElem?_eq_rd hs))
    · left
      unfold rd
      rw [List.getD_eq_getElem?_getD, List.getElem?_eq_none (by omega)]
      rfl
  rcases hd with ⟨c, rfl⟩ | ⟨c, M, ⟨s, s1, s2, s3⟩, hM, rfl⟩
  · refine ⟨⟨fun h => by simp at h, fun h => ?_⟩, fun h => ?_⟩
    · rcases c with c | c
      · obtain ⟨⟨y, hy⟩, _⟩ := h
        rw [c] at hy
        cases hy
      · exact absurd h.2 (by unfold lookBack; omega)
    · rcases c with c | c
      · obtain ⟨⟨y, hy⟩, _⟩ := h
        rw [c] at hy
        cases hy
      · exact absurd h.2 (by unfold lookBack; omega)
  · rcases hrd t with ht | ⟨y, ht⟩
    · rw [ht]
      have hno : ¬ HasData N p j t := by
        rintro ⟨⟨y, hy⟩, _⟩
        rw [ht] at hy
        cases hy
      exact ⟨⟨fun h => by simp at h, fun h => absurd h hno⟩, fun h => absurd h hno⟩
    · have htl : (N.pmin.getD j [])[t]? = some (.fin y) := by
        rw [getElem?_eq_rd, ht]
        by_contra hc
        unfold rd at ht
        rw [List.getD_eq_getElem?_getD, List.getElem?_eq_none (by omega)] at ht
        cases ht
      have hMfin : ∃ m, M = .fin m := by
        rcases hnum M (List.mem_of_getElem? s3) with rfl | h
        · rcases hM t _ (by omega) le_rfl htl with h | h
          · cases h
          · simp at h
        · exact h
      obtain ⟨m, rfl⟩ := hMfin
      have hdat : HasData N p j t := ⟨⟨y, ht⟩, c⟩
      rw [ht, Fl.pf_sub_fin]
      refine ⟨⟨fun _ => hdat, fun _ => rfl⟩, fun _ => ⟨y - m, rfl, fun δ => ⟨fun h => ?_, ?_⟩⟩⟩
      · refine ⟨s, y, m, s1, s2, ht, rd_of_getElem? s3, by linarith⟩
      · rintro ⟨s', y', z, u1, u2, u3, u4, u5⟩
        rw [ht] at u3
        obtain rfl := Fl.fin.inj u3
        have hs' : (N.pmin.getD j [])[s']? = some (.fin z) := by
          rw [getElem?_eq_rd, u4]
          by_contra hc
          unfold rd at u4
          rw [List.getD_eq_getElem?_getD, List.getElem?_eq_none (by omega)] at u4
          cases u4
        rcases hM s' _ u1 u2 hs' with h | h
        · cases h
        · have : z ≤ m := by simpa using h
          linarith

/-- links with a positive length -/
def HasLengths (N : Net (Fl K) Id) (ℓ : ℕ → K) : Prop := ∀ j < N.ids.length, 0 < ℓ j ∧ rd N.length j = .fin (ℓ j)

theorem rule_counts {N : Net (Fl K) Id} {d : Nearby.Dist (Fl K) Id} {p : Params (Fl K)} {ℓ : ℕ → K} {δP δL : K}
    (hneed : 0 < p.minHours * 60 / p.interval) (hper : 0 < p.timeperiod * 60 / p.interval) (hℓ : HasLengths N ℓ)
    (hnum : ∀ j < N.ids.length, NumOrNan (N.pmin.getD j [])) (hP : p.threshP = .fin (-δP)) (hL : p.threshPL = .fin (-δL))
    {drop : ℕ → ℕ → Fl K} (hdrop : ∀ j t, DropIs N p j t (drop j t)) {i t : ℕ} {w : Fl K} (hw : RuleIs N d p drop i t w) :
    (nearCount N d p i t (fun _ => True) ≤ p.minLinks → w = .nan) ∧
    (p.minLinks < nearCount N d p i t (fun _ => True) →
      (w = .fin 1 ∨ w = .fin 0) ∧
      (nearCount N d p i t (fun _ => True) < 2 * nearCount N d p i t (fun j => FellBy N p j t δP) →
        nearCount N d p i t (fun _ => True) < 2 * nearCount N d p i t (fun j => FellBy N p j t (δL * ℓ j)) → w = .fin 1) ∧
      (nearCount N d p i t (fun _ => True) < 2 * nearCount N d p i t (fun j => ¬ FellBy N p j t δP) ∨
        nearCount N d p i t (fun _ => True) < 2 * nearCount N d p i t (fun j => ¬ FellBy N p j t (δL * ℓ j)) → w = .fin 0)) := by
  classical
  have hmem : ∀ j ∈ nbrs N d p i, j < N.ids.length := fun j hj => by
    simpa using (List.mem_filter.mp hj).1
  have key := fun j (hj : j ∈ nbrs N d p i) => drop_of_data hneed hper (hnum j (hmem j hj)) (hdrop j t)
  let r : ℕ → K := fun j => match drop j t with
    | .fin x => x
    | _ => 0
  have hr : ∀ j ∈ nbrs N d p i, HasData N p j t → drop j t = .fin (r j) ∧ ∀ δ, (r j < -δ ↔ FellBy N p j t δ) := by
    intro j hj hd
    obtain ⟨x, hx, hx2⟩ := (key j hj).2 hd
    have : r j = x := by simp only [r, hx]
    rw [this]
    exact ⟨hx, hx2⟩
  have hdl : dataLinks N d p drop i t = (nbrs N d p i).filter fun j => decide (HasData N p j t) := by
    unfold dataLinks
    apply List.filter_congr
    intro j hj
    rw [Bool.eq_iff_iff, decide_eq_true_eq, ← (key j hj).1, Bool.not_eq_true']
  have hcount : ∀ P : ℕ → Prop, (dataLinks N d p drop i t).countP (fun j => decide (P j)) = nearCount N d p i t P := by
    intro P
    unfold nearCount
    rw [hdl, List.countP_filter]
    apply List.countP_congr
    intro j _
    simp [and_comm]
  have hlen : (dataLinks N d p drop i t).length = nearCount N d p i t (fun _ => True) := by
    rw [← hcount fun _ => True]
    simp
  have hin : ∀ j ∈ dataLinks N d p drop i t, j ∈ nbrs N d p i ∧ HasData N p j t := by
    intro j hj
    rw [hdl] at hj
    obtain ⟨a, b⟩ := List.mem_filter.mp hj
    exact ⟨a, by simpa using b⟩
  have e1 : (dataLinks N d p drop i t).map (fun j => drop j t) = ((dataLinks N d p drop i t).map r).map Fl.fin := by
    rw [List.map_map]
    apply List.map_congr_left
    intro j hj
    exact (hr j (hin j hj).1 (hin j hj).2).1
  have e2 : (dataLinks N d p drop i t).map (fun j => drop j t /ᶠ rd N.length j) =
      ((dataLinks N d p drop i t).map fun j => r j / ℓ j).map Fl.fin := by
    rw [List.map_map]
    apply List.map_congr_left
    intro j hj
    obtain ⟨l1, l2⟩ := hℓ j (hmem j (hin j hj).1)
    rw [(hr j (hin j hj).1 (hin j hj).2).1, l2, Fl.pf_div_fin_ne _ _ l1.ne']
    rfl
  have c1 : ((dataLinks N d p drop i t).map r).countP (fun z => decide (z < -δP)) =
      nearCount N d p i t (fun j => FellBy N p j t δP) := by
    rw [List.countP_map, ← hcount]
    apply List.countP_congr
    intro j hj
    simp only [Function.comp, decide_eq_true_eq]
    exact (hr j (hin j hj).1 (hin j hj).2).2 δP
  have c2 : ((dataLinks N d p drop i t).map r).countP (fun z => decide (-δP ≤ z)) =
      nearCount N d p i t (fun j => ¬ FellBy N p j t δP) := by
    rw [List.countP_map, ← hcount]
    apply List.countP_congr
    intro j hj
    simp only [Function.comp, decide_eq_true_eq]
    rw [← (hr j (hin j hj).1 (hin j hj).2).2 δP, not_lt]
  have hdiv : ∀ j ∈ dataLinks N d p drop i t, (r j / ℓ j < -δL ↔ FellBy N p j t (δL * ℓ j)) := by
    intro j hj
    obtain ⟨l1, l2⟩ := hℓ j (hmem j (hin j hj).1)
    rw [← (hr j (hin j hj).1 (hin j hj).2).2, div_lt_iff₀ l1, neg_mul]
  have c3 : ((dataLinks N d p drop i t).map fun j => r j / ℓ j).countP (fun z => decide (z < -δL)) =
      nearCount N d p i t (fun j => FellBy N p j t (δL * ℓ j)) := by
    rw [List.countP_map, ← hcount]
    apply List.countP_congr
    intro j hj
    simp only [Function.comp, decide_eq_true_eq]
    exact hdiv j hj
  have c4 : ((dataLinks N d p drop i t).map fun j => r j / ℓ j).countP (fun z => decide (-δL ≤ z)) =
      nearCount N d p i t (fun j => ¬ FellBy N p j t (δL * ℓ j)) := by
    rw [List.countP_map, ← hcount]
    apply List.countP_congr
    intro j hj
    simp only [Function.comp, decide_eq_true_eq]
    rw [← hdiv j hj, not_lt]
  rcases hw with ⟨h1, rfl⟩ | ⟨h1, mP, mPL, m1, m2, rfl⟩
  · refine ⟨fun _ => rfl, fun h => absurd h (by omega)⟩
  · refine ⟨fun h => absurd h (by omega), fun _ => ?_⟩
    rw [e1] at m1
    rw [e2] at m2
    obtain ⟨x, rfl, x1, x2⟩ := median_majority m1 (-δP)
    obtain ⟨y, rfl, y1, y2⟩ := median_majority m2 (-δL)
    rw [List.length_map, hlen] at x1 x2 y1 y2
    rw [c1] at x1
    rw [c2] at x2
    rw [c3] at y1
    rw [c4] at y2
    rw [hP, hL, Fl.pf_lt_fin, Fl.pf_lt_fin]
    refine ⟨?_, ?_, ?_⟩
    · split_ifs
      · exact Or.inl rfl
      · exact Or.inr rfl
    · intro a b
      rw [if_pos]
      simp [x1 a, y1 b]
    · rintro (a | b)
      · rw [if_neg]
        simp [x2 a]
      · rw [if_neg]
        simp [y2 b]

theorem nearCount_le {N : Net (Fl K) Id} {d : Nearby.Dist (Fl K) Id} {p : Params (Fl K)} (i t : ℕ) (P : ℕ → Prop) :
    nearCount N d p i t P ≤ (nbrs N d p i).length := List.countP_le_length

/-- **C140** The flag of link `i` at a step at which more than `min_links` of the links within the radius have data, in terms
of the levels. It is wet if more than half of these links have a level more than `thresh_median_P` below that at some
step of the look-back period, and more than half (perhaps others) more than `thresh_median_PL` times their length, whatever the
levels of all other links, also of link `i` itself. It is dry if more than half of them do not, at this step and at
those of the steps one before, one after and two after it at which link `i` itself has fallen by more than 2 dB, unless
the step is the first or one of the last two of the series. At a step where at most `min_links` links have data it
is unknown. -/
theorem C140_flags {N : Net (Fl K) Id} {d : Nearby.Dist (Fl K) Id} {p : Params (Fl K)} {ℓ : ℕ → K} {δP δL : K}
    (h : Consistent N d p) (hneed : 0 < p.minHours * 60 / p.interval) (hper : 0 < p.timeperiod * 60 / p.interval)
    (hℓ : HasLengths N ℓ) (hnum : ∀ j < N.ids.length, NumOrNan (N.pmin.getD j [])) (hP : p.threshP = .fin (-δP))
    (hL : p.threshPL = .fin (-δL)) (i : ℕ) (hi : i < N.ids.length) :
    ∃ out wet F, nearby_wetdry N d p = .ok out ∧ out[i]? = some (wet, F) ∧ wet.length = N.T ∧ ∀ t < N.T,
      (nearCount N d p i t (fun _ => True) ≤ p.minLinks → wet[t]? = some .nan) ∧
      (p.minLinks < nearCount N d p i t (fun _ => True) →
        (wet[t]? = some (.fin 1) ∨ wet[t]? = some (.fin 0)) ∧
        (nearCount N d p i t (fun _ => True) < 2 * nearCount N d p i t (fun j => FellBy N p j t δP) →
          nearCount N d p i t (fun _ => True) < 2 * nearCount N d p i t (fun j => FellBy N p j t (δL * ℓ j)) →
            wet[t]? = some (.fin 1)) ∧
        (0 < t → t + 2 < N.T →
          (∀ s, s = t ∨ ((s + 1 = t ∨ s = t + 1 ∨ s = t + 2) ∧ FellBy N p i s 2) →
            p.minLinks < nearCount N d p i s (fun _ => True) →
            nearCount N d p i s (fun _ => True) < 2 * nearCount N d p i s (fun j => ¬ FellBy N p j s δP) ∨
            nearCount N d p i s (fun _ => True) < 2 * nearCount N d p i s (fun j => ¬ FellBy N p j s (δL * ℓ j))) →
          wet[t]? = some (.fin 0))) := by
  have hpl : PosLengths N := fun j hj => ⟨ℓ j, (hℓ j hj).1, (hℓ j hj).2⟩
  have hdrop := fun j t => dropAt_spec N p hneed j t
  obtain ⟨out, wet, F, h1, h2, h3, h4, h5⟩ := C34_smear h hpl hneed hper (dropAt N p) hdrop i hi
  refine ⟨out, wet, F, h1, h2, h3, ?_⟩
  intro t ht
  rcases Nat.lt_or_ge p.minLinks (nbrs N d p i).length with hm | hm
  · obtain ⟨rule, hrule, hwet⟩ := h5 hm
    have rc := fun s => rule_counts hneed hper hℓ hnum hP hL hdrop (hrule s)
    obtain ⟨w1, w2⟩ := hwet t ht
    refine ⟨fun hn => w1 ((rc t).1 hn), fun hd => ?_⟩
    obtain ⟨r1, r2, r3⟩ := (rc t).2 hd
    have hne : rule t ≠ .nan := by
      rcases r1 with e | e <;> rw [e] <;> exact fun h => by cases h
    obtain ⟨v1, v2⟩ := w2 hne
    refine ⟨?_, fun a b => v1 (Or.inl (r2 a b)), ?_⟩
    · by_cases hc : rule t = .fin 1 ∨ (∃ s < N.T, (s + 1 = t ∨ s = t + 1 ∨ s = t + 2) ∧ rule s = .fin 1 ∧
        (dropAt N p i s <ᶠ .fin (-2)) = true) ∨ t = 0 ∨ N.T ≤ t + 2
      · exact Or.inl (v1 hc)
      · exact Or.inr (v2 hc)
    · intro t0 t2 hmaj
      apply v2
      have one0 : ∀ s, rule s = .fin 1 → rule s = .fin 0 → False := by
        intro s a b
        rw [a] at b
        exact one_ne_zero (Fl.fin.inj b)
      have some1 : ∀ s, rule s = .fin 1 → p.minLinks < nearCount N d p i s (fun _ => True) := by
        intro s hs
        by_contra hc
        have := (rc s).1 (by omega)
        rw [this] at hs
        cases hs
      rintro (e | ⟨s, hs, hst, e, hdr⟩ | e | e)
      · exact one0 t e (r3 (hmaj t (Or.inl rfl) hd))
      · have hsd := some1 s e
        have hown : FellBy N p i s 2 := by
          have kd := drop_of_data hneed hper (hnum i hi) (hdrop i s)
          have hdat : HasData N p i s := by
            rw [← kd.1]
            by_contra hc
            have hnn : dropAt N p i s = .nan := by
              cases hx : dropAt N p i s with
              | nan => rfl
              | ninf => rw [hx] at hc; exact absurd rfl hc
              | pinf => rw [hx] at hc; exact absurd rfl hc
              | fin x => rw [hx] at hc; exact absurd rfl hc
            rw [hnn] at hdr
            simp at hdr
          obtain ⟨x, hx, hx2⟩ := kd.2 hdat
          rw [hx] at hdr
          exact (hx2 2).mp (by simpa using hdr)
        exact one0 s e (((rc s).2 hsd).2.2 (hmaj s (Or.inr ⟨hst, hown⟩) hsd))
      · omega
      · omega
  · have hle := nearCount_le (N := N) (d := d) (p := p) i t (fun _ => True)
    exact ⟨fun _ => h4 hm t ht, fun hd => absurd hd (by omega)⟩

end flags

section rain
variable {Id : Type} [DecidableEq Id]

theorem rd_series {T : ℕ} (x : ℕ → ℝ) {t : ℕ} (ht : t < T) : rd (series T x) t = .fin (x t) :=
  rd_of_getElem? (series_get x ht)

/-- what the retrieval makes of one step, given the flags and the reference level -/
theorem retrieve_step (sp : Spline) (q : RetrievalParams) (i T : ℕ) (wet : List (Fl ℝ)) (D a b L waa alpha : ℝ) (x y : ℕ → ℝ)
    (F : List (Fl ℝ)) (hw : wet.length = T) (hmp : 1 ≤ q.minPeriods) (ha : 0 < a) (hb : 0 < b) (hL : 0 < L) (h0 : 0 ≤ waa)
    (hdry : ∀ s < T, rd wet s = .fin 0 → x s = D ∧ y s = D)
    (hq : q.f_GHz i = none ∧ q.pol i = none ∧ q.a i = some [.fin a] ∧ q.b i = some [.fin b] ∧ q.waaMax = .fin waa ∧
      q.alpha = .fin alpha ∧ q.threshold = none) :
    ∃ R, retrieveLink sp q i (series T x) (series T y) wet F (.fin L) = .ok R ∧ R.length = T ∧ ∀ t < T,
      q.minPeriods ≤ (List.range (t + 1)).countP (fun s => decide (t < s + q.nAverageDry ∧ rd wet s = .fin 0)) →
      (∀ Rhi Rlo, rd wet t = .fin 1 → 0 ≤ Rlo → Rlo ≤ Rhi → x t = D - (waa + a * Rhi ^ b * L) →
        y t = D - (waa + a * Rlo ^ b * L) → R[t]? = some (.fin (alpha * Rhi + (1 - alpha) * Rlo))) ∧
      (x t = D → y t = D → R[t]? = some (.fin 0)) := by
  obtain ⟨q1, q2, q3, q4, q5, q6, q7⟩ := hq
  unfold retrieveLink
  dsimp only
  rw [q1, q2, q3, q4, q5, q6, q7]
  obtain ⟨lp, hmed⟩ := C36_median (series T x) (series T y) wet (by simp [series_length]) (by rw [series_length, hw])
    q.nAverageDry q.minPeriods (by omega)
  rw [series_length] at lp hmed
  set pref := Nearby.determine_reference_level (series T x) (series T y) wet q.nAverageDry q.minPeriods with hpref
  unfold Nearby.correct_received_signals
  dsimp only
  have lm : (Nearby.zip3 Nearby.corrMin (series T x) wet pref).length = T := by
    rw [length_zip3 _ _ _ _ (by rw [series_length]; exact hw) (by rw [series_length]; exact lp), series_length]
  have lx : (Nearby.zip3 Nearby.corrMax (Nearby.zip3 Nearby.corrMin (series T x) wet pref) (series T y) pref).length = T := by
    rw [length_zip3 _ _ _ _ (by rw [lm, series_length]) (by rw [lm, lp]), lm]
  rw [retrival_scalar sp pref _ _ _ _ _ _ _ _ _ _ (by omega) (by omega) (fun h => absurd rfl h), lp]
  refine ⟨_, rfl, by simp, ?_⟩
  intro t ht hcount
  have hsteps : drySteps (series T x) (series T y) wet q.nAverageDry t =
      (List.range (t + 1)).filter fun s => decide (t < s + q.nAverageDry ∧ rd wet s = .fin 0) := by
    unfold drySteps
    apply List.filter_congr
    intro s hs
    have hsT : s < T := by
      have := List.mem_range.mp hs
      omega
    have hlev : PyFloat.isNaN (level (series T x) (series T y) s) = false := by
      unfold level
      rw [rd_series x hsT, rd_series y hsT, Fl.pf_add_fin, Fl.pf_ofInt, Fl.pf_div_fin_ne _ _ (by norm_num)]
      rfl
    rw [hlev]
    simp
  obtain ⟨m, hm, hmm⟩ := (hmed t ht).2 (by rw [hsteps, ← List.countP_eq_length_filter]; exact hcount)
  obtain ⟨r, rfl, r1, r2⟩ := hmm.between (lo := D) (hi := D) (by
    intro z hz
    obtain ⟨s, hs, rfl⟩ := List.mem_map.mp hz
    rw [hsteps] at hs
    obtain ⟨s1, s2⟩ := List.mem_filter.mp hs
    simp only [decide_eq_true_eq] at s2
    have hsT : s < T := by
      have := List.mem_range.mp s1
      omega
    obtain ⟨xs, ys⟩ := hdry s hsT s2.2
    refine ⟨D, ?_, le_rfl, le_rfl⟩
    unfold level
    rw [rd_series x hsT, rd_series y hsT, xs, ys, Fl.pf_add_fin, Fl.pf_ofInt, Fl.pf_div_fin_ne _ _ (by norm_num)]
    norm_num)
  obtain rfl : r = D := le_antisymm r2 r1
  have ew : wet[t]? = some (rd wet t) := getElem?_eq_rd (by omega)
  have em := getElem?_zip3 Nearby.corrMin (series_get x ht) ew hm
  have ex := getElem?_zip3 Nearby.corrMax em (series_get y ht) hm
  rw [List.getElem?_map, List.getElem?_range ht, Option.map_some, rd_of_getElem? hm, rd_of_getElem? em, rd_of_getElem? ex]
  simp only [Bool.false_eq_true, if_false]
  constructor
  · intro Rhi Rlo hwt h1 h2 xt yt
    have hA : a * Rlo ^ b * L ≤ a * Rhi ^ b * L :=
      mul_le_mul_of_nonneg_right (mul_le_mul_of_nonneg_left (Real.rpow_le_rpow h1 h2 hb.le) ha.le) hL.le
    have hA0 : 0 ≤ a * Rlo ^ b * L := by positivity
    have m1 : Nearby.corrMin (.fin (x t)) (rd wet t) (.fin r) = Fl.fin (x t) := by
      unfold Nearby.corrMin
      rw [hwt]
      split_ifs with h
      · rfl
      · have : ¬ x t < r := by simpa using h
        congr 1
        rw [xt] at this ⊢
        linarith
    have m2 : Nearby.corrMax (.fin (x t)) (.fin (y t)) (.fin r) = Fl.fin (y t) := by
      unfold Nearby.corrMax
      split_ifs with h
      · rfl
      · have : x t < r → ¬ y t < r := by simpa using h
        congr 1
        by_cases h1 : x t < r
        · have := this h1
          rw [yt] at this ⊢
          linarith
        · rw [xt] at h1
          rw [yt]
          linarith
    have rate : ∀ R : ℝ, 0 ≤ R → pw a b L (r - (r - (waa + a * R ^ b * L)) - waa) = R := by
      intro R hR0
      unfold pw
      rw [show r - (r - (waa + a * R ^ b * L)) - waa = a * R ^ b * L by ring, max_eq_left (by positivity),
        show a * R ^ b * L / (a * L) = R ^ b by field_simp, ← Real.rpow_mul hR0, mul_one_div_cancel hb.ne', Real.rpow_one]
    rw [m1, m2]
    unfold mixRate
    rw [oneRate_fin ha hb hL, oneRate_fin ha hb hL, xt, yt, rate _ (h1.trans h2), rate _ h1]
    simp
  · intro xt yt
    have m1 : Nearby.corrMin (.fin (x t)) (rd wet t) (.fin r) = Fl.fin r := by
      unfold Nearby.corrMin
      rw [xt]
      simp
    have m2 : Nearby.corrMax (.fin r) (.fin (y t)) (.fin r) = Fl.fin r := by
      unfold Nearby.corrMax
      rw [yt]
      simp
    rw [m1, m2]
    unfold mixRate
    rw [oneRate_fin ha hb hL]
    have : pw a b L (r - r - waa) = 0 := by
      unfold pw
      rw [max_eq_right (by linarith), zero_div, Real.zero_rpow (by positivity)]
    rw [this]
    simp

theorem available_series {T : ℕ} (x : ℕ → ℝ) {period t : ℕ} (ht : t < T) :
    available (series T x) period t = min (t + 1) period := by
  unfold available
  have : (List.range (t + 1)).filter (fun s => decide (t < s + period) && !(isNaN (rd (series T x) s))) =
      (List.range (t + 1)).filter fun s => decide (t + 1 - period ≤ s) := by
    apply List.filter_congr
    intro s hs
    have := List.mem_range.mp hs
    rw [rd_series x (show s < T by omega)]
    simp only [Fl.pf_isNaN_fin, Bool.not_false, Bool.and_true, decide_eq_decide]
    omega
  rw [this, range_filter_le]
  simp
  omega

open Classical in
/-- **C140** The whole nearby approach recovers the rain. Let the dry level of each link within the radius of link `i` be
constant and its minimum level be lowered by `A j t >= 0` at the rainy steps, there for more than half of these links by more
than `thresh_median_P` and for more than half by more than `thresh_median_PL` times the length; and let each rainy
step have a dry step in its look-back period. Let the levels of link `i` be lowered by `waa_max` and the attenuation of the
largest and smallest rain rate of the step. Then the rain rate of link `i` is `alpha` times the largest plus `1 - alpha` times the
smallest rate at rainy steps and 0 at the others, as soon as `min_hours` of data have passed and at least
`min_periods` of the last `n_average_dry` steps are dry and not next to rain or to the ends of the series. -/
theorem C140_rain (sp : Spline) {N : Net (Fl ℝ) Id} {d : Nearby.Dist (Fl ℝ) Id} {p : Params (Fl ℝ)} {ℓ : ℕ → ℝ} {δP δL : ℝ}
    (q : RetrievalParams) (pmax : List (List (Fl ℝ))) (h : Consistent N d p) (hneed : 0 < p.minHours * 60 / p.interval)
    (hper : p.minHours * 60 / p.interval ≤ p.timeperiod * 60 / p.interval)
    (hℓ : HasLengths N ℓ) (hnum : ∀ j < N.ids.length, NumOrNan (N.pmin.getD j [])) (hP : p.threshP = .fin (-δP))
    (hδ : 0 ≤ δP) (hL : p.threshPL = .fin (-δL)) (i : ℕ) (hi : i < N.ids.length) (hml : p.minLinks < (nbrs N d p i).length)
    (a b : ℕ → ℝ) (waa alpha : ℝ) (ha : 0 < a i) (hb : 0 < b i) (h0 : 0 ≤ waa) (hmp : 1 ≤ q.minPeriods)
    (hav : 0 < q.nAverageDry) (hT : 0 < N.T)
    (hq : ∀ j, q.f_GHz j = none ∧ q.pol j = none ∧ q.a j = some [.fin (a j)] ∧ q.b j = some [.fin (b j)])
    (hq2 : q.waaMax = .fin waa ∧ q.alpha = .fin alpha ∧ q.threshold = none)
    (hmax : pmax.length = N.ids.length ∧ ∀ xs ∈ pmax, xs.length = N.T)
    (rainy : ℕ → Prop) (D : ℕ → ℝ) (A : ℕ → ℕ → ℝ) (Rhi Rlo : ℕ → ℝ)
    (hlev : ∀ j ∈ nbrs N d p i, N.pmin.getD j [] = series N.T fun t => D j - A j t)
    (hA : ∀ j ∈ nbrs N d p i, ∀ t < N.T, 0 ≤ A j t ∧ (¬ rainy t → A j t = 0))
    (hrain : ∀ t < N.T, rainy t → (nbrs N d p i).length < 2 * (nbrs N d p i).countP (fun j => decide (δP < A j t)) ∧
      (nbrs N d p i).length < 2 * (nbrs N d p i).countP (fun j => decide (δL * ℓ j < A j t)))
    (hprev : ∀ t < N.T, rainy t → ∃ s, s ≤ t ∧ t < s + p.timeperiod * 60 / p.interval ∧ ¬ rainy s)
    (hown : ∀ t < N.T, rainy t → 0 ≤ Rlo t ∧ Rlo t ≤ Rhi t ∧ A i t = waa + a i * Rhi t ^ b i * ℓ i)
    (hown2 : pmax.getD i [] = series N.T fun t => D i - if rainy t then waa + a i * Rlo t ^ b i * ℓ i else 0) :
    ∃ Rs R, nearbyChain sp N pmax d p q = .ok Rs ∧ Rs[i]? = some R ∧ R.length = N.T ∧ ∀ t < N.T,
      p.minHours * 60 / p.interval ≤ t + 1 →
      q.minPeriods ≤ (List.range (t + 1)).countP (fun s => decide (t < s + q.nAverageDry ∧
        p.minHours * 60 / p.interval ≤ s + 1 ∧ 0 < s ∧ s + 2 < N.T ∧ ¬ rainy (s - 1) ∧ ¬ rainy s ∧ ¬ rainy (s + 1) ∧
        ¬ rainy (s + 2))) →
      R[t]? = some (.fin (if rainy t then alpha * Rhi t + (1 - alpha) * Rlo t else 0)) := by
  obtain ⟨out, wet, F, o1, o2, o3, o4⟩ := C140_flags h hneed (by omega) hℓ hnum hP hL i hi
  have hii : i ∈ nbrs N d p i := List.mem_filter.mpr ⟨List.mem_range.mpr hi, h.own i hi⟩
  -- which links have data
  have data : ∀ j ∈ nbrs N d p i, ∀ t < N.T, (HasData N p j t ↔ p.minHours * 60 / p.interval ≤ t + 1) := by
    intro j hj t ht
    unfold HasData lookBack
    rw [hlev j hj, available_series _ ht, rd_series _ ht]
    simp only [Fl.fin.injEq, exists_eq', true_and]
    omega
  have fell : ∀ j ∈ nbrs N d p i, ∀ t < N.T, rainy t → ∀ δ, δ < A j t → FellBy N p j t δ := by
    intro j hj t ht hr δ hδ
    obtain ⟨s, s1, s2, s3⟩ := hprev t ht hr
    refine ⟨s, D j - A j t, D j - A j s, s2, s1, ?_, ?_, ?_⟩
    · rw [hlev j hj, rd_series _ ht]
    · rw [hlev j hj, rd_series _ (show s < N.T by omega)]
    · rw [(hA j hj s (by omega)).2 s3]
      linarith
  have stayed : ∀ j ∈ nbrs N d p i, ∀ t < N.T, ¬ rainy t → ∀ δ, 0 ≤ δ → ¬ FellBy N p j t δ := by
    rintro j hj t ht hr δ hδ ⟨s, y, z, s1, s2, s3, s4, s5⟩
    rw [hlev j hj, rd_series _ ht] at s3
    rw [hlev j hj, rd_series _ (show s < N.T by omega)] at s4
    have e1 := Fl.fin.inj s3
    have e2 := Fl.fin.inj s4
    have := (hA j hj t ht).2 hr
    have := (hA j hj s (by omega)).1
    linarith
  have cnt : ∀ t < N.T, p.minHours * 60 / p.interval ≤ t + 1 → ∀ P : ℕ → Prop,
      nearCount N d p i t P = (nbrs N d p i).countP fun j => decide (P j) := by
    intro t ht hn P
    unfold nearCount
    apply List.countP_congr
    intro j hj
    have := (data j hj t ht).mpr hn
    simp [this]
  have cntT : ∀ t < N.T, p.minHours * 60 / p.interval ≤ t + 1 → nearCount N d p i t (fun _ => True) = (nbrs N d p i).length := by
    intro t ht hn
    rw [cnt t ht hn]
    simp
  have cntNot : ∀ t < N.T, p.minHours * 60 / p.interval ≤ t + 1 → ¬ rainy t →
      nearCount N d p i t (fun j => ¬ FellBy N p j t δP) = (nbrs N d p i).length := by
    intro t ht hn hr
    rw [cnt t ht hn, List.countP_eq_length]
    intro j hj
    simpa using stayed j hj t ht hr δP hδ
  -- the flags
  have flagRain : ∀ t < N.T, p.minHours * 60 / p.interval ≤ t + 1 → rainy t → rd wet t = .fin 1 := by
    intro t ht hn hr
    apply rd_of_getElem?
    refine ((o4 t ht).2 (by rw [cntT t ht hn]; exact hml)).2.1 ?_ ?_
    · rw [cntT t ht hn, cnt t ht hn]
      refine (hrain t ht hr).1.trans_le (Nat.mul_le_mul_left 2 (List.countP_mono_left fun j hj hc => ?_))
      simp only [decide_eq_true_eq] at hc ⊢
      exact fell j hj t ht hr _ hc
    · rw [cntT t ht hn, cnt t ht hn]
      refine (hrain t ht hr).2.trans_le (Nat.mul_le_mul_left 2 (List.countP_mono_left fun j hj hc => ?_))
      simp only [decide_eq_true_eq] at hc ⊢
      exact fell j hj t ht hr _ hc
  have flagDry : ∀ t < N.T, rd wet t = .fin 0 → ¬ rainy t := by
    intro t ht h0 hr
    by_cases hn : p.minHours * 60 / p.interval ≤ t + 1
    · rw [flagRain t ht hn hr] at h0
      exact one_ne_zero (Fl.fin.inj h0)
    · have hz : nearCount N d p i t (fun _ => True) = 0 := by
        unfold nearCount
        rw [List.countP_eq_zero]
        intro j hj
        have := (data j hj t ht).not.mpr hn
        simp [this]
      have := rd_of_getElem? ((o4 t ht).1 (by omega))
      rw [this] at h0
      cases h0
  have flagIs0 : ∀ s, s < N.T → p.minHours * 60 / p.interval ≤ s + 1 → 0 < s → s + 2 < N.T → ¬ rainy (s - 1) → ¬ rainy s →
      ¬ rainy (s + 1) → ¬ rainy (s + 2) → rd wet s = .fin 0 := by
    intro s hs hn s0 s2 r1 r2 r3 r4
    apply rd_of_getElem?
    refine ((o4 s hs).2 (by rw [cntT s hs hn]; exact hml)).2.2 s0 s2 ?_
    intro u hu hud
    have hur : ¬ rainy u ∧ u < N.T := by
      rcases hu with rfl | ⟨h | rfl | rfl, _⟩
      · exact ⟨r2, hs⟩
      · rw [show u = s - 1 by omega]
        exact ⟨r1, by omega⟩
      · exact ⟨r3, by omega⟩
      · exact ⟨r4, by omega⟩
    by_cases hun : p.minHours * 60 / p.interval ≤ u + 1
    · left
      rw [cntT u hur.2 hun, cntNot u hur.2 hun hur.1]
      omega
    · exfalso
      have hz : nearCount N d p i u (fun _ => True) = 0 := by
        unfold nearCount
        rw [List.countP_eq_zero]
        intro j hj
        have := (data j hj u hur.2).not.mpr hun
        simp [this]
      omega
  -- the pipeline
  obtain ⟨out', hout, hol, hrows⟩ := nearby_rows_length h
  rw [o1] at hout
  obtain rfl := Except.ok.inj hout
  obtain ⟨l1, l2⟩ := hℓ i hi
  obtain ⟨R, e1, e2, e3⟩ := retrieve_step sp q i N.T wet (D i) (a i) (b i) (ℓ i) waa alpha (fun t => D i - A i t)
    (fun t => D i - if rainy t then waa + a i * Rlo t ^ b i * ℓ i else 0) F o3 hmp ha hb l1 h0 (by
      intro s hs hz
      have hr := flagDry s hs hz
      rw [(hA i hii s hs).2 hr, if_neg hr, sub_zero]
      exact ⟨rfl, rfl⟩) ⟨(hq i).1, (hq i).2.1, (hq i).2.2.1, (hq i).2.2.2, hq2.1, hq2.2.1, hq2.2.2⟩
  obtain ⟨Rs, hRs, -, hR⟩ := nearbyChain_ok sp (pmax := pmax) (q := q) o1 (by
    intro j hj
    rw [hol] at hj
    obtain ⟨w, Fv, a1, a2, a3⟩ := hrows j hj
    have p1 : (N.pmin.getD j []).length = N.T := by
      rw [List.getD_eq_getElem?_getD, List.getElem?_eq_getElem (by rw [h.pmin]; exact hj), Option.getD_some]
      exact h.times _ (List.getElem_mem _)
    have p2 : (pmax.getD j []).length = N.T := by
      rw [List.getD_eq_getElem?_getD, List.getElem?_eq_getElem (by rw [hmax.1]; exact hj), Option.getD_some]
      exact hmax.2 _ (List.getElem_mem _)
    obtain ⟨q1, q2, q3, q4⟩ := hq j
    rw [show out.getD j ([], []) = (w, Fv) by rw [List.getD_eq_getElem?_getD, a1]; rfl]
    obtain ⟨R', -, h1, -⟩ := retrieveLink_local sp q (off := 0) (t := 0) q1 q2 q3 q4 p1 p2 a2 a3 p1 p2 a2 a3 hav (Or.inl rfl)
      (by omega) (by omega) (fun s _ _ => by simp) (by simp) (L := N.length.getD j .nan)
    exact ⟨R', h1⟩)
  refine ⟨Rs, R, hRs, hR i (by omega) R ?_, e2, ?_⟩
  · rw [List.getD_eq_getElem?_getD (l := out), o2, hlev i hii, hown2]
    have : N.length.getD i .nan = .fin (ℓ i) := l2
    rw [this]
    exact e1
  · intro t ht hn hc
    obtain ⟨f1, f2⟩ := e3 t ht (hc.trans (List.countP_mono_left fun s hs hd => by
      have := List.mem_range.mp hs
      simp only [decide_eq_true_eq] at hd ⊢
      obtain ⟨d1, d2, d3, d4, d5, d6, d7, d8⟩ := hd
      exact ⟨d1, flagIs0 s (by omega) d2 d3 d4 d5 d6 d7 d8⟩))
    by_cases hr : rainy t
    · rw [if_pos hr]
      obtain ⟨u1, u2, u3⟩ := hown t ht hr
      refine f1 _ _ (flagRain t ht hn hr) u1 u2 ?_ ?_
      · rw [u3]
      · simp only [if_pos hr]
    · rw [if_neg hr]
      refine f2 ?_ ?_
      · rw [(hA i hii t ht).2 hr, sub_zero]
      · simp only [if_neg hr, sub_zero]

/-- attenuation of three links in the same rain at step 4; the third one does not see it -/
noncomputable def trioA (j t : ℕ) : ℝ := if t = 4 ∧ j < 2 then 5 else 0

/-- three links of 2 km with a dry level of -50 dBm -/
noncomputable def trioNet : Net (Fl ℝ) ℕ :=
  ⟨[0, 1, 2], [.fin 2, .fin 2, .fin 2], [series 9 fun t => -50 - trioA 0 t, series 9 fun t => -50 - trioA 1 t,
    series 9 fun t => -50 - trioA 2 t]⟩

/-- all of them at the same place -/
noncomputable def trioDist : Nearby.Dist (Fl ℝ) ℕ :=
  ⟨[0, 1, 2], List.replicate 3 (List.replicate 3 (.fin 0)), List.replicate 3 (List.replicate 3 (.fin 0)),
    List.replicate 3 (List.replicate 3 (.fin 0)), List.replicate 3 (List.replicate 3 (.fin 0))⟩

/-- half-hourly levels, a look-back period of two hours, of which one is needed -/
noncomputable def trioParams : Params (Fl ℝ) := ⟨.fin 15, .fin (-(7/5)), .fin (-(7/10)), 2, 30, 2, 1⟩

theorem trio_near (i j : ℕ) (hi : i < 3) (hj : j < 3) : near trioDist trioParams.radius i j = true := by
  have : at2 (List.replicate 3 (List.replicate 3 (Fl.fin (0 : ℝ)))) i j = .fin 0 := by
    interval_cases i <;> interval_cases j <;> rfl
  simp only [near, trioDist, trioParams, this]
  simp

theorem trio_consistent : Consistent trioNet trioDist trioParams where
  nodup := by simp [trioNet]
  same := rfl
  aa := by simp [Square, trioNet, trioDist]
  ab := by simp [Square, trioNet, trioDist]
  ba := by simp [Square, trioNet, trioDist]
  bb := by simp [Square, trioNet, trioDist]
  pmin := rfl
  len := rfl
  times := by simp [trioNet, Net.T, series_length]
  own := fun i hi => trio_near i i hi hi
  interval := by decide
  need := by decide
  need_le := by decide
  period_le := by simp [trioNet, Net.T, trioParams, series_length]
  F_le := by simp [trioNet, Net.T, trioParams, series_length]

theorem trio_nbrs : nbrs trioNet trioDist trioParams 0 = [0, 1, 2] := by
  unfold nbrs
  rw [show trioNet.ids.length = 3 from rfl, List.filter_eq_self.mpr]
  · rfl
  · intro j hj
    exact trio_near 0 j (by decide) (List.mem_range.mp hj)

/-- rain of 10 to 20 mm/h at step 4, seen by two of the three links, is found and retrieved -/
example (sp : Spline) : ∃ Rs R, nearbyChain sp trioNet [series 9 fun t => -50 - if t = 4 then 3 else 0, series 9 fun _ => 0,
      series 9 fun _ => 0] trioDist trioParams
    ⟨9, 1, fun _ => none, fun _ => none, fun _ => some [.fin (1/10)], fun _ => some [.fin 1], "ITU_2005", .fin 1, .fin (1/4), none⟩ =
      .ok Rs ∧ Rs[0]? = some R ∧ R[4]? = some (.fin (25/2)) ∧ R[5]? = some (.fin 0) := by
  have T9 : trioNet.T = 9 := by simp [trioNet, Net.T, series_length]
  obtain ⟨Rs, R, r1, r2, -, r3⟩ := C140_rain sp (N := trioNet) (d := trioDist) (p := trioParams) (ℓ := fun _ => 2) (δP := 7/5)
    (δL := 7/10) ⟨9, 1, fun _ => none, fun _ => none, fun _ => some [.fin (1/10)], fun _ => some [.fin 1], "ITU_2005", .fin 1,
      .fin (1/4), none⟩ [series 9 fun t => -50 - if t = 4 then 3 else 0, series 9 fun _ => 0, series 9 fun _ => 0]
    trio_consistent (by decide) (by decide) (by
      intro j hj
      have : j < 3 := hj
      refine ⟨by norm_num, ?_⟩
      interval_cases j <;> rfl) (by
      intro j hj
      have : j < 3 := hj
      interval_cases j <;> (intro x hx; obtain ⟨s, -, rfl⟩ := List.mem_map.mp hx; exact Or.inr ⟨_, rfl⟩)) rfl (by norm_num) rfl 0
    (by decide) (by rw [trio_nbrs]; decide) (fun _ => 1/10) (fun _ => 1) 1 (1/4) (by norm_num) (by norm_num) (by norm_num)
    le_rfl (by decide) (by omega) (fun _ => ⟨rfl, rfl, rfl, rfl⟩) ⟨rfl, rfl, rfl⟩ ⟨rfl, by simp [T9, series_length]⟩
    (fun t => t = 4) (fun _ => -50) trioA (fun _ => 20) (fun _ => 10) (by
      rw [trio_nbrs, T9]
      intro j hj
      simp only [List.mem_cons, List.not_mem_nil, or_false] at hj
      rcases hj with rfl | rfl | rfl <;> rfl) (by
      intro j _ t _
      unfold trioA
      constructor
      · split_ifs <;> norm_num
      · intro h
        rw [if_neg]
        exact fun hh => h hh.1) (by
      rintro t - rfl
      rw [trio_nbrs]
      norm_num [trioA]) (by
      rintro t - rfl
      exact ⟨3, by decide, by decide, by decide⟩) (by
      rintro t - rfl
      norm_num [trioA]) (by
      rw [T9]
      simp only [List.getD_cons_zero]
      congr 1
      funext t
      congr 1
      norm_num)
  rw [T9] at r3
  refine ⟨Rs, R, r1, r2, ?_, ?_⟩
  · rw [r3 4 (by decide) (by decide) (by
      simp only [show trioParams.minHours * 60 / trioParams.interval = 2 from rfl]
      decide)]
    norm_num
  · rw [r3 5 (by decide) (by decide) (by
      simp only [show trioParams.minHours * 60 / trioParams.interval = 2 from rfl]
      decide)]
    norm_num

end rain

/-- one of three links fails by 30 dB: all stay dry; when two fall, also the third one is wet -/
example :
    (nearby_wetdry (Id := ℕ) ⟨[0, 1, 2], [.fin 2, .fin 2, .fin 2], [[.fin (-50), .fin (-50), .fin (-80), .fin (-50), .fin (-50)],
        [.fin (-50), .fin (-50), .fin (-50), .fin (-50), .fin (-50)], [.fin (-50), .fin (-50), .fin (-50), .fin (-50), .fin (-50)]]⟩
      ⟨[0, 1, 2], List.replicate 3 (List.replicate 3 (Fl.fin (0 : ℚ))), List.replicate 3 (List.replicate 3 (.fin 0)),
        List.replicate 3 (List.replicate 3 (.fin 0)), List.replicate 3 (List.replicate 3 (.fin 0))⟩
      ⟨.fin 15, .fin (-(7/5)), .fin (-(7/10)), 2, 30, 1, 1⟩).toOption.map (fun o => o.map fun r => r.1.getD 2 .nan) =
      some [.fin 0, .fin 0, .fin 0] ∧
    (nearby_wetdry (Id := ℕ) ⟨[0, 1, 2], [.fin 2, .fin 2, .fin 2], [[.fin (-50), .fin (-50), .fin (-80), .fin (-50), .fin (-50)],
        [.fin (-50), .fin (-50), .fin (-52), .fin (-50), .fin (-50)], [.fin (-50), .fin (-50), .fin (-50), .fin (-50), .fin (-50)]]⟩
      ⟨[0, 1, 2], List.replicate 3 (List.replicate 3 (Fl.fin (0 : ℚ))), List.replicate 3 (List.replicate 3 (.fin 0)),
        List.replicate 3 (List.replicate 3 (.fin 0)), List.replicate 3 (List.replicate 3 (.fin 0))⟩
      ⟨.fin 15, .fin (-(7/5)), .fin (-(7/10)), 2, 30, 1, 1⟩).toOption.map (fun o => o.map fun r => r.1.getD 2 .nan) =
      some [.fin 1, .fin 1, .fin 1] := by
  constructor <;> decide +kernel

end Verif.Props
