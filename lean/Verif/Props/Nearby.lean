import Verif.Props.NearbyDelta
import Verif.Props.Haversine
import Verif.Lemmas.KR

/-!
# Properties C31 (own neighbour), C33, C34, C35, C67: nearby wet/dry classification
-/

namespace Verif.Props
open Verif Verif.Nearby

section
variable {K Id : Type} [Field K] [LinearOrder K] [DecidableEq Id]

/-- Element `(i, j)` of a matrix. -/
def at2 (m : List (List (Fl K))) (i j : Nat) : Fl K := rd (m.getD i []) j

/-- All four end point distances between links `i` and `j` are below the radius. -/
def near (d : Nearby.Dist (Fl K) Id) (radius : Fl K) (i j : Nat) : Bool :=
  (at2 d.aa i j <ᶠ radius) && (at2 d.ab i j <ᶠ radius) && (at2 d.ba i j <ᶠ radius) &&
    (at2 d.bb i j <ᶠ radius)

/-- A square matrix. -/
def Square (n : Nat) (m : List (List (Fl K))) : Prop :=
  m.length = n ∧ ∀ r ∈ m, r.length = n

/-- The windows of the maximum and of `F` are not longer than a series of `T` steps, and at least one value is needed. -/
def WindowsFit {F : Type} (p : Params F) (T : Nat) : Prop :=
  0 < p.minHours * 60 / p.interval ∧ p.minHours * 60 / p.interval ≤ p.timeperiod * 60 / p.interval ∧
    p.timeperiod * 60 / p.interval ≤ T ∧ p.timeperiod * 4 ≤ T

/-- Well-formed input of `nearby_wetdry`: distinct ids, distances in the order of the links,
all arrays of the right shape, each link within the radius of itself (see `C31_own_neighbour`). -/
structure Shaped (N : Net (Fl K) Id) (d : Nearby.Dist (Fl K) Id) (p : Params (Fl K)) : Prop where
  nodup : N.ids.Nodup
  same : d.ids = N.ids
  aa : Square N.ids.length d.aa
  ab : Square N.ids.length d.ab
  ba : Square N.ids.length d.ba
  bb : Square N.ids.length d.bb
  pmin : N.pmin.length = N.ids.length
  len : N.length.length = N.ids.length
  times : ∀ xs ∈ N.pmin, xs.length = N.T
  own : ∀ i, i < N.ids.length → near d p.radius i i = true

/-- Well-formed input with windows (of the maximum and of `F`) that are not longer than the series. Exactly when calls
succeed is said by C150. -/
structure Consistent (N : Net (Fl K) Id) (d : Nearby.Dist (Fl K) Id) (p : Params (Fl K)) : Prop extends Shaped N d p where
  interval : 0 < p.interval
  need : 0 < p.minHours * 60 / p.interval
  need_le : p.minHours * 60 / p.interval ≤ p.timeperiod * 60 / p.interval
  period_le : p.timeperiod * 60 / p.interval ≤ N.T
  F_le : p.timeperiod * 4 ≤ N.T

/-- Links within the radius of link `i`, including itself. -/
def nbrs (N : Net (Fl K) Id) (d : Nearby.Dist (Fl K) Id) (p : Params (Fl K)) (i : Nat) : List Nat :=
  (List.range N.ids.length).filter (near d p.radius i)

theorem Square.row {n : Nat} {m : List (List (Fl K))} (h : Square n m) {i : Nat} (hi : i < n) :
    (m.getD i []).length = n := by
  have hi' : i < m.length := by rw [h.1]; exact hi
  rw [List.getD_eq_getElem?_getD, List.getElem?_eq_getElem hi', Option.getD_some]
  exact h.2 _ (List.getElem_mem hi')

omit [DecidableEq Id] in
theorem withinRow_eq {N : Net (Fl K) Id} {d : Nearby.Dist (Fl K) Id} {p : Params (Fl K)}
    (h : Square N.ids.length d.aa) (h2 : Square N.ids.length d.ab) (h3 : Square N.ids.length d.ba)
    (h4 : Square N.ids.length d.bb) {i : Nat} (hi : i < N.ids.length) :
    withinRow p.radius (d.aa.getD i []) (d.ab.getD i []) (d.ba.getD i []) (d.bb.getD i []) =
      (List.range N.ids.length).map (near d p.radius i) := by
  have l1 := h.row hi
  have l2 := h2.row hi
  have l3 := h3.row hi
  have l4 := h4.row hi
  apply List.ext_getElem?
  intro j
  unfold withinRow near at2
  by_cases hj : j < N.ids.length
  · simp only [List.getElem?_zipWith, List.getElem?_map]
    rw [getElem?_eq_rd (by omega : j < (d.aa.getD i []).length),
      getElem?_eq_rd (by omega : j < (d.ab.getD i []).length),
      getElem?_eq_rd (by omega : j < (d.ba.getD i []).length),
      getElem?_eq_rd (by omega : j < (d.bb.getD i []).length), List.getElem?_range hj]
    simp
  · rw [List.getElem?_eq_none (by simp only [List.length_zipWith, List.length_map]; omega),
      List.getElem?_eq_none (by simp; omega)]

theorem within_eq {N : Net (Fl K) Id} {d : Nearby.Dist (Fl K) Id} {p : Params (Fl K)}
    (h : Shaped N d p) {i : Nat} {c : Id} (hc : N.ids[i]? = some c) :
    within d p.radius c = .ok ((List.range N.ids.length).map (near d p.radius i)) := by
  obtain ⟨hi, he⟩ := List.getElem?_eq_some_iff.mp hc
  have hidx : d.ids.idxOf? c = some i := by
    rw [h.same, ← he]
    unfold List.idxOf?
    rw [List.findIdx?_eq_some_iff_getElem]
    refine ⟨hi, by simp, ?_⟩
    intro j hj
    have hne : N.ids[j] ≠ N.ids[i] := fun e => by
      have := (h.nodup.getElem_inj_iff).mp e
      omega
    simpa using hne
  unfold within
  rw [hidx]
  simp only
  rw [withinRow_eq h.aa h.ab h.ba h.bb hi]

/-- selecting rows by a mask computed from positions -/
theorem select_range {α : Type} (rows : List α) (dflt : α) (n : Nat) (hn : rows.length = n)
    (f : Nat → Bool) :
    KR.select rows ((List.range n).map f) =
      ((List.range n).filter f).map fun j => rows.getD j dflt := by
  have : rows = (List.range n).map fun j => rows.getD j dflt := by
    apply List.ext_getElem?
    intro k
    rw [List.getElem?_map]
    by_cases hk : k < n
    · rw [List.getElem?_range hk, Option.map_some, List.getD_eq_getElem?_getD,
        List.getElem?_eq_getElem (by omega)]; rfl
    · rw [List.getElem?_eq_none (by omega), List.getElem?_eq_none (by simp; omega)]; rfl
  conv_lhs => rw [this]
  unfold KR.select
  rw [List.zip_map', List.filter_map, List.map_map]
  rfl

/-- `deltaP` of link `j` at step `t`. -/
def dropAt (N : Net (Fl K) Id) (p : Params (Fl K)) (j t : Nat) : Fl K :=
  rd (deltaP p.period p.need (N.pmin.getD j [])) t

/-- `deltaP` per path length. -/
def dropPerLength (N : Net (Fl K) Id) (p : Params (Fl K)) (j t : Nat) : Fl K :=
  dropAt N p j t /ᶠ rd N.length j

theorem Consistent.fits {N : Net (Fl K) Id} {d : Nearby.Dist (Fl K) Id} {p : Params (Fl K)} (h : Consistent N d p) :
    windowFits p.period p.need N.T = true ∧ windowFits (p.timeperiod * 4) (p.timeperiod * 4) N.T = true := by
  have h1 := h.need
  have h2 := h.need_le
  have h3 := h.period_le
  have h4 := h.F_le
  have h5 : 0 < p.timeperiod := by
    rcases Nat.eq_zero_or_pos p.timeperiod with h0 | h0
    · rw [h0, Nat.zero_mul, Nat.zero_div] at h2; exact absurd h2 (by omega)
    · exact h0
  simp only [windowFits, Params.period, Params.need, Bool.and_eq_true, decide_eq_true_eq]
  simp [lt_of_lt_of_le h1 h2, h1, h2, h3, h4, h5]

/-- The rows of one link in terms of the neighbour list. -/
theorem linkRows_shaped {N : Net (Fl K) Id} {d : Nearby.Dist (Fl K) Id} {p : Params (Fl K)}
    (h : Shaped N d p) {i : Nat} {c : Id} (hc : N.ids[i]? = some c) :
    linkRows N d p i c = if p.minLinks < (nbrs N d p i).length then
        if windowFits (p.timeperiod * 4) (p.timeperiod * 4) N.T then
      .ok (smear (rowRule p N.T ((nbrs N d p i).map fun j => (dPs N p).getD j [])
          ((nbrs N d p i).map fun j => (dPLs N p).getD j [])) ((dPs N p).getD i []),
        rowF p N.T ((nbrs N d p i).map fun j => (dPs N p).getD j [])
          ((nbrs N d p i).map fun j => (dPLs N p).getD j []) ((dPLs N p).getD i []))
        else .error .valueError
      else .ok (List.replicate N.T .nan, List.replicate N.T .nan) := by
  obtain ⟨hi, he⟩ := List.getElem?_eq_some_iff.mp hc
  unfold linkRows
  rw [within_eq h hc]
  have hcount : ((List.range N.ids.length).map (near d p.radius i)).count true =
      (nbrs N d p i).length := KR.count_map _ _
  have hown : rdB ((List.range N.ids.length).map (near d p.radius i)) i = true := by
    unfold rdB
    rw [List.getD_eq_getElem?_getD, List.getElem?_map, List.getElem?_range hi]
    simpa using h.own i hi
  show (if _ then _ else _) = _
  rw [hcount]
  have e1 := select_range (dPs N p) [] N.ids.length (by simp [dPs, h.pmin]) (near d p.radius i)
  have e2 := select_range (dPLs N p) [] N.ids.length (by simp [dPLs, h.pmin, h.len])
    (near d p.radius i)
  by_cases h1 : p.minLinks < (nbrs N d p i).length
  · rw [if_pos h1, if_pos h1, if_neg (by simp), if_neg (by simp [hown])]
    cases hw : windowFits (p.timeperiod * 4) (p.timeperiod * 4) N.T
    · rfl
    · rw [e1, e2]
      rfl
  · rw [if_neg h1, if_neg h1]
    rfl

/-- The rows of one link when the windows fit. -/
theorem linkRows_eq {N : Net (Fl K) Id} {d : Nearby.Dist (Fl K) Id} {p : Params (Fl K)}
    (h : Consistent N d p) {i : Nat} {c : Id} (hc : N.ids[i]? = some c) :
    linkRows N d p i c = .ok (if p.minLinks < (nbrs N d p i).length then
      (smear (rowRule p N.T ((nbrs N d p i).map fun j => (dPs N p).getD j [])
          ((nbrs N d p i).map fun j => (dPLs N p).getD j [])) ((dPs N p).getD i []),
        rowF p N.T ((nbrs N d p i).map fun j => (dPs N p).getD j [])
          ((nbrs N d p i).map fun j => (dPLs N p).getD j []) ((dPLs N p).getD i []))
      else (List.replicate N.T .nan, List.replicate N.T .nan)) := by
  rw [linkRows_shaped h.toShaped hc, h.fits.2, if_pos rfl]
  split_ifs <;> rfl

theorem mapM_ok_eq {α β : Type} (f : α → Except Err β) (g : α → β) (l : List α)
    (h : ∀ x ∈ l, f x = .ok (g x)) : l.mapM f = .ok (l.map g) := by
  induction l with
  | nil => rfl
  | cons x l ih =>
    rw [List.mapM_cons, h x (by simp), ih fun y hy => h y (by simp [hy])]
    rfl

/-- The result of the function, link by link. -/
theorem nearby_ok {N : Net (Fl K) Id} {d : Nearby.Dist (Fl K) Id} {p : Params (Fl K)}
    (h : Consistent N d p) :
    ∃ out, nearby_wetdry N d p = .ok out ∧ out.length = N.ids.length ∧
      ∀ i < N.ids.length, out[i]? = some (if p.minLinks < (nbrs N d p i).length then
      (smear (rowRule p N.T ((nbrs N d p i).map fun j => (dPs N p).getD j [])
          ((nbrs N d p i).map fun j => (dPLs N p).getD j [])) ((dPs N p).getD i []),
        rowF p N.T ((nbrs N d p i).map fun j => (dPs N p).getD j [])
          ((nbrs N d p i).map fun j => (dPLs N p).getD j []) ((dPLs N p).getD i []))
      else (List.replicate N.T .nan, List.replicate N.T .nan)) := by
  have hint := h.interval
  unfold nearby_wetdry
  rw [if_neg (by omega), h.fits.1, if_neg (by simp)]
  rw [mapM_ok_eq _ (fun q : Nat × Id => if p.minLinks < (nbrs N d p q.1).length then
      (smear (rowRule p N.T ((nbrs N d p q.1).map fun j => (dPs N p).getD j [])
          ((nbrs N d p q.1).map fun j => (dPLs N p).getD j [])) ((dPs N p).getD q.1 []),
        rowF p N.T ((nbrs N d p q.1).map fun j => (dPs N p).getD j [])
          ((nbrs N d p q.1).map fun j => (dPLs N p).getD j []) ((dPLs N p).getD q.1 []))
      else (List.replicate N.T .nan, List.replicate N.T .nan))]
  · refine ⟨_, rfl, by simp, ?_⟩
    intro i hi
    rw [List.getElem?_map]
    have : ((List.range N.ids.length).zip N.ids)[i]? = some (i, N.ids[i]) := by
      rw [List.getElem?_zip_eq_some]
      exact ⟨List.getElem?_range hi, List.getElem?_eq_getElem hi⟩
    rw [this]
    rfl
  · rintro ⟨i, c⟩ hm
    obtain ⟨k, hk⟩ := List.mem_iff_getElem?.mp hm
    rw [List.getElem?_zip_eq_some] at hk
    have hik : k = i := by
      obtain ⟨hl, he⟩ := List.getElem?_eq_some_iff.mp hk.1
      simpa using he
    subst hik
    exact linkRows_eq h hk.2

/-! ### C33, C34 -/

/-- What the drop (`deltaP`) of link `j` at step `t` should be: with `timeperiod * 60 / interval`
steps per look-back period and at least `minHours * 60 / interval` values needed in it, NaN if the
current value is missing or too few values are available, else the current value minus the largest
available value of the period. -/
def DropIs (N : Net (Fl K) Id) (p : Params (Fl K)) (j t : Nat) (v : Fl K) : Prop :=
  ((rd (N.pmin.getD j []) t = .nan ∨
      available (N.pmin.getD j []) (p.timeperiod * 60 / p.interval) t <
        p.minHours * 60 / p.interval) ∧ v = .nan) ∨
  (p.minHours * 60 / p.interval ≤
      available (N.pmin.getD j []) (p.timeperiod * 60 / p.interval) t ∧
    ∃ M, (∃ s, t < s + p.timeperiod * 60 / p.interval ∧ s ≤ t ∧
        (N.pmin.getD j [])[s]? = some M) ∧
      (∀ s y, t < s + p.timeperiod * 60 / p.interval → s ≤ t →
        (N.pmin.getD j [])[s]? = some y → y = .nan ∨ y ≤ᶠ M) ∧
      v = rd (N.pmin.getD j []) t -ᶠ M)

omit [DecidableEq Id] in
theorem dropAt_spec (N : Net (Fl K) Id) (p : Params (Fl K))
    (hneed : 0 < p.minHours * 60 / p.interval) (j t : Nat) : DropIs N p j t (dropAt N p j t) := by
  unfold DropIs dropAt
  set xs := N.pmin.getD j []
  by_cases ht : t < xs.length
  · obtain ⟨h1, h2⟩ := C32_value p.period p.need xs hneed t _ (getElem?_eq_rd ht)
    by_cases hav : available xs (p.timeperiod * 60 / p.interval) t < p.minHours * 60 / p.interval
    · exact .inl ⟨.inr hav, rd_of_getElem? (h1 (.inr hav))⟩
    · obtain ⟨M, hM1, hM2, e⟩ := h2 (not_lt.mp hav)
      exact .inr ⟨not_lt.mp hav, M, hM1, hM2, rd_of_getElem? e⟩
  · have e1 : rd xs t = .nan := by
      unfold rd
      rw [List.getD_eq_getElem?_getD, List.getElem?_eq_none (by omega)]
      rfl
    have e2 : rd (deltaP p.period p.need xs) t = .nan := by
      unfold rd
      rw [List.getD_eq_getElem?_getD, List.getElem?_eq_none (by rw [length_deltaP]; omega)]
      rfl
    exact .inl ⟨.inl e1, e2⟩

omit [DecidableEq Id] in
theorem DropIs.unique {N : Net (Fl K) Id} {p : Params (Fl K)} {j t : Nat} {v v' : Fl K}
    (h : DropIs N p j t v) (h' : DropIs N p j t v') : v = v' := by
  unfold DropIs at h h'
  set xs := N.pmin.getD j []
  have hn : ∀ M : Fl K, (.nan -ᶠ M : Fl K) = .nan := fun M => by simp
  rcases h with ⟨c, rfl⟩ | ⟨c, M, ⟨s, s1, s2, s3⟩, hM, rfl⟩ <;>
    rcases h' with ⟨c', rfl⟩ | ⟨c', M', ⟨s', s1', s2', s3'⟩, hM', rfl⟩
  · rfl
  · rcases c with c | c
    · rw [c, hn]
    · omega
  · rcases c' with c' | c'
    · rw [c', hn]
    · omega
  · rcases hM s' M' s1' s2' s3' with e | a <;> rcases hM' s M s1 s2 s3 with e' | b
    · rw [e, e']
    · rw [e] at b; exact absurd b (by simp)
    · rw [e'] at a; exact absurd a (by simp)
    · rw [fl_le_antisymm a b]

omit [DecidableEq Id] in
theorem drop_eq {N : Net (Fl K) Id} {p : Params (Fl K)}
    (hneed : 0 < p.minHours * 60 / p.interval) {drop : Nat → Nat → Fl K}
    (h : ∀ j t, DropIs N p j t (drop j t)) : drop = dropAt N p :=
  funext fun j => funext fun t => (h j t).unique (dropAt_spec N p hneed j t)

/-- Links within the radius of link `i` that have a drop at step `t`. -/
def dataLinks (N : Net (Fl K) Id) (d : Nearby.Dist (Fl K) Id) (p : Params (Fl K))
    (drop : Nat → Nat → Fl K) (i t : Nat) : List Nat :=
  (nbrs N d p i).filter fun j => !(isNaN (drop j t))

/-- The classification rule before smearing: undecided (NaN) if at most `minLinks` of the links
within the radius have data; else wet (1) if the median of `deltaP` and the median of
`deltaP / length` of those links are below their thresholds, else dry (0). -/
def RuleIs (N : Net (Fl K) Id) (d : Nearby.Dist (Fl K) Id) (p : Params (Fl K))
    (drop : Nat → Nat → Fl K) (i t : Nat) (w : Fl K) : Prop :=
  ((dataLinks N d p drop i t).length ≤ p.minLinks ∧ w = .nan) ∨
  (p.minLinks < (dataLinks N d p drop i t).length ∧ ∃ mP mPL,
    IsMedian ((dataLinks N d p drop i t).map fun j => drop j t) mP ∧
    IsMedian ((dataLinks N d p drop i t).map fun j => drop j t /ᶠ rd N.length j) mPL ∧
    w = if (mP <ᶠ p.threshP) && (mPL <ᶠ p.threshPL) then .fin 1 else .fin 0)

theorem rd_map_nan (xs : List (Fl K)) (f : Fl K → Fl K) (hf : f .nan = .nan) (t : Nat) :
    rd (xs.map f) t = f (rd xs t) := by
  unfold rd
  rw [List.getD_eq_getElem?_getD, List.getD_eq_getElem?_getD, List.getElem?_map]
  cases xs[t]? with
  | none => exact hf.symm
  | some x => rfl

omit [DecidableEq Id] in
theorem dPs_getD (N : Net (Fl K) Id) (p : Params (Fl K)) (j t : Nat) :
    rd ((dPs N p).getD j []) t = dropAt N p j t := by
  unfold dPs dropAt
  congr 1
  rw [List.getD_eq_getElem?_getD, List.getD_eq_getElem?_getD, List.getElem?_map]
  cases N.pmin[j]? with
  | none => rfl
  | some x => rfl

omit [DecidableEq Id] in
theorem dPLs_getD (N : Net (Fl K) Id) (p : Params (Fl K)) (h1 : N.pmin.length = N.ids.length)
    (h2 : N.length.length = N.ids.length) (j t : Nat) :
    rd ((dPLs N p).getD j []) t = dropAt N p j t /ᶠ rd N.length j := by
  by_cases hj : j < N.ids.length
  · unfold dPLs dropAt
    rw [List.getD_eq_getElem?_getD, List.getD_eq_getElem?_getD, List.getElem?_zipWith,
      List.getElem?_eq_getElem (by omega : j < N.pmin.length), getElem?_eq_rd (by omega)]
    simp only [Option.getD_some]
    unfold deltaPL
    rw [rd_map_nan _ _ (by simp)]
  · unfold dPLs dropAt
    rw [List.getD_eq_getElem?_getD, List.getD_eq_getElem?_getD, List.getElem?_zipWith,
      List.getElem?_eq_none (by omega : N.pmin.length ≤ j)]
    simp only [Option.getD_none]
    show Fl.nan = rd (deltaP _ _ []) t /ᶠ _
    have : rd (deltaP p.period p.need ([] : List (Fl K))) t = .nan := by
      unfold rd
      rw [List.getD_eq_getElem?_getD, List.getElem?_eq_none (by rw [length_deltaP]; simp)]
      rfl
    rw [this]
    simp

variable [IsStrictOrderedRing K]

theorem median_ne_nan {v : List (Fl K)} {m : Fl K} (h : IsMedian v m)
    (hv : ∀ x ∈ v, x ≠ .nan ∧ x ≠ .pinf) : m ≠ .nan := by
  obtain ⟨s, hp, _, x, y, hx, hy, rfl⟩ := h
  have a := hv x (hp.mem_iff.mp (List.mem_of_getElem? hx))
  have b := hv y (hp.mem_iff.mp (List.mem_of_getElem? hy))
  have h2 : ¬ (((2 : Int) : K) < 0) := by norm_num
  have e : ((.ninf : Fl K) /ᶠ PyFloat.ofInt 2 : Fl K) = .ninf := by
    show (if ((2 : Int) : K) < 0 then _ else _) = _
    rw [if_neg h2]
  cases x <;> cases y <;> simp_all only [ne_eq, not_true_eq_false, not_false_eq_true, and_self,
    false_and, and_false, reduceCtorEq]
  · rw [show ((.ninf : Fl K) +ᶠ .ninf) = .ninf from rfl, e]; simp
  · show ¬ ((.ninf : Fl K) /ᶠ PyFloat.ofInt 2) = _
    rw [e]; simp
  · show ¬ ((.ninf : Fl K) /ᶠ PyFloat.ofInt 2) = _
    rw [e]; simp
  · rw [Fl.pf_add_fin, Fl.pf_ofInt, Fl.pf_div_fin_ne _ _ (by norm_num)]; simp

omit [DecidableEq Id] in
theorem dropAt_ne_pinf (N : Net (Fl K) Id) (p : Params (Fl K)) (hneed : 0 < p.need)
    (hper : 0 < p.period) (j t : Nat) : dropAt N p j t ≠ .pinf := by
  intro he
  unfold dropAt at he
  have hlt : t < (deltaP p.period p.need (N.pmin.getD j [])).length := by
    by_contra hc
    unfold rd at he
    rw [List.getD_eq_getElem?_getD, List.getElem?_eq_none (by omega)] at he
    cases he
  have := (C32_nonpos p.period p.need (N.pmin.getD j []) hneed hper t _ (getElem?_eq_rd hlt)).1
  rw [he] at this
  rcases this with h | h
  · cases h
  · exact Bool.false_ne_true h

omit [IsStrictOrderedRing K] in
theorem isNaN_div_pos {l : K} (hl : 0 < l) (x : Fl K) :
    PyFloat.isNaN (x /ᶠ Fl.fin l) = PyFloat.isNaN x := by
  cases x with
  | nan => simp
  | fin x => rw [Fl.pf_div_fin_ne _ _ hl.ne']; rfl
  | ninf => show PyFloat.isNaN (if l < 0 then _ else _) = _; rw [if_neg (not_lt.mpr hl.le)]
  | pinf => show PyFloat.isNaN (if l < 0 then _ else _) = _; rw [if_neg (not_lt.mpr hl.le)]

omit [IsStrictOrderedRing K] in
theorem div_pos_ne_pinf {l : K} (hl : 0 < l) {x : Fl K} (h : x ≠ .pinf) :
    (x /ᶠ Fl.fin l) ≠ .pinf := by
  cases x with
  | nan => simp
  | fin x => rw [Fl.pf_div_fin_ne _ _ hl.ne']; simp
  | ninf =>
    show (if l < 0 then _ else _) ≠ _; rw [if_neg (not_lt.mpr hl.le)]; simp
  | pinf => exact absurd rfl h

/-- Path lengths are positive numbers. -/
def PosLengths (N : Net (Fl K) Id) : Prop :=
  ∀ j, j < N.ids.length → ∃ l : K, 0 < l ∧ rd N.length j = .fin l

theorem rule_spec {N : Net (Fl K) Id} {d : Nearby.Dist (Fl K) Id} {p : Params (Fl K)}
    (h : Consistent N d p) (hl : PosLengths N) (hneed : 0 < p.need) (hper : 0 < p.period)
    (i t : Nat) :
    RuleIs N d p (dropAt N p) i t (classify p.threshP p.threshPL
      (medianAt p.minLinks ((nbrs N d p i).map fun j => (dPs N p).getD j [])
        ((nbrs N d p i).map fun j => (dPs N p).getD j []) t)
      (medianAt p.minLinks ((nbrs N d p i).map fun j => (dPs N p).getD j [])
        ((nbrs N d p i).map fun j => (dPLs N p).getD j []) t)) := by
  have hmem : ∀ j ∈ nbrs N d p i, j < N.ids.length := fun j hj => by
    simpa using (List.mem_filter.mp hj).1
  have c1 : column ((nbrs N d p i).map fun j => (dPs N p).getD j []) t =
      (nbrs N d p i).map fun j => dropAt N p j t := by
    unfold column
    rw [List.map_map]
    exact List.map_congr_left fun j _ => dPs_getD N p j t
  have c2 : column ((nbrs N d p i).map fun j => (dPLs N p).getD j []) t =
      (nbrs N d p i).map fun j => dropAt N p j t /ᶠ rd N.length j := by
    unfold column
    rw [List.map_map]
    exact List.map_congr_left fun j _ => dPLs_getD N p h.pmin h.len j t
  have v1 : valid ((nbrs N d p i).map fun j => dropAt N p j t) =
      (dataLinks N d p (dropAt N p) i t).map fun j => dropAt N p j t := by
    unfold valid dataLinks
    rw [List.filter_map]
    rfl
  have v2 : valid ((nbrs N d p i).map fun j => dropAt N p j t /ᶠ rd N.length j) =
      (dataLinks N d p (dropAt N p) i t).map fun j => dropAt N p j t /ᶠ rd N.length j := by
    unfold valid dataLinks
    rw [List.filter_map]
    congr 1
    apply List.filter_congr
    intro j hj
    obtain ⟨l, hl0, hle⟩ := hl j (hmem j hj)
    show (!PyFloat.isNaN (dropAt N p j t /ᶠ rd N.length j)) = _
    rw [hle, isNaN_div_pos hl0]
  unfold medianAt
  rw [c1, c2, v1, List.length_map]
  by_cases hc : p.minLinks < (dataLinks N d p (dropAt N p) i t).length
  · right
    rw [if_pos hc, if_pos hc]
    unfold nanMedian
    rw [v1, v2]
    have hne : dataLinks N d p (dropAt N p) i t ≠ [] := by
      intro e; rw [e] at hc; simp at hc
    have hdl : ∀ j ∈ dataLinks N d p (dropAt N p) i t, dropAt N p j t ≠ .nan ∧ j < N.ids.length := by
      intro j hj
      obtain ⟨a, b⟩ := List.mem_filter.mp hj
      refine ⟨fun e => ?_, hmem j a⟩
      rw [e] at b
      simp at b
    have g1 : ∀ x ∈ (dataLinks N d p (dropAt N p) i t).map fun j => dropAt N p j t, x ≠ .nan ∧ x ≠ .pinf := by
      intro x hx
      obtain ⟨j, hj, rfl⟩ := List.mem_map.mp hx
      exact ⟨(hdl j hj).1, dropAt_ne_pinf N p hneed hper j t⟩
    have g2 : ∀ x ∈ (dataLinks N d p (dropAt N p) i t).map fun j => dropAt N p j t /ᶠ rd N.length j,
        x ≠ .nan ∧ x ≠ .pinf := by
      intro x hx
      obtain ⟨j, hj, rfl⟩ := List.mem_map.mp hx
      obtain ⟨l, hl0, hle⟩ := hl j (hdl j hj).2
      rw [hle]
      refine ⟨fun e => (hdl j hj).1 ?_, div_pos_ne_pinf hl0 (dropAt_ne_pinf N p hneed hper j t)⟩
      rw [← Fl.isNaN_iff, ← isNaN_div_pos hl0, e]
      rfl
    have nn : ∀ x : Fl K, x ≠ .nan → PyFloat.isNaN x = false := by
      intro x hx
      cases x <;> simp_all
    have m1 := median_spec (v := (dataLinks N d p (dropAt N p) i t).map fun j => dropAt N p j t)
      (by simpa using hne) (fun x hx => nn x (g1 x hx).1)
    have m2 := median_spec (v := (dataLinks N d p (dropAt N p) i t).map fun j => dropAt N p j t /ᶠ rd N.length j)
      (by simpa using hne) (fun x hx => nn x (g2 x hx).1)
    refine ⟨hc, _, _, m1, m2, ?_⟩
    unfold classify
    rw [nn _ (median_ne_nan m1 g1), nn _ (median_ne_nan m2 g2)]
    simp only [Bool.or_false, Bool.false_eq_true, if_false]
    rw [Fl.pf_ofInt, Fl.pf_ofInt]
    norm_num
  · left
    rw [if_neg hc]
    refine ⟨by omega, ?_⟩
    unfold classify
    simp

omit [IsStrictOrderedRing K] [DecidableEq Id] in
theorem RuleIs.unique {N : Net (Fl K) Id} {d : Nearby.Dist (Fl K) Id} {p : Params (Fl K)}
    {i t : Nat} {w w' : Fl K} (h : RuleIs N d p (dropAt N p) i t w) (h' : RuleIs N d p (dropAt N p) i t w') : w = w' := by
  rcases h with ⟨a, rfl⟩ | ⟨a, m1, m2, b1, b2, rfl⟩ <;>
    rcases h' with ⟨a', rfl⟩ | ⟨a', m1', m2', b1', b2', rfl⟩
  · rfl
  · omega
  · omega
  · rw [b1.unique b1', b2.unique b2']

omit [IsStrictOrderedRing K] in
theorem smear_get (wet dP : List (Fl K)) (t : Nat)
    (ht : t < wet.length) :
    let cond := List.zipWith
      (fun w d : Fl K => (w ==ᶠ PyFloat.ofInt 1) && (d <ᶠ PyFloat.ofInt (-2))) wet dP
    (smear wet dP)[t]? = some (if isNaN (rd wet t) then .nan
      else if shifted cond 1 t || shifted cond (-1) t || shifted cond (-2) t then .fin 1
      else rd wet t) := by
  intro cond
  unfold smear
  dsimp only [List.foldl_cons, List.foldl_nil, smearStep]
  rw [List.getElem?_zipWith, List.getElem?_mapIdx, List.getElem?_mapIdx, List.getElem?_mapIdx,
    getElem?_eq_rd ht]
  simp only [Option.map_some]
  congr 1
  by_cases hn : isNaN (rd wet t) = true
  · rw [if_pos hn, if_pos hn]; rfl
  · rw [if_neg hn, if_neg hn]
    have e1 : (PyFloat.ofInt 1 : Fl K) = .fin 1 := by rw [Fl.pf_ofInt, Int.cast_one]
    show (if shifted cond (-2) t = true then PyFloat.ofInt 1 else if shifted cond (-1) t = true then
      PyFloat.ofInt 1 else if shifted cond 1 t = true then PyFloat.ofInt 1 else _) = _
    rw [e1]
    cases shifted cond 1 t <;> cases shifted cond (-1) t <;> cases shifted cond (-2) t <;> simp

/-- **C34** (with C33) The classification of link `i`: all NaN if at most `minLinks` links are
within the radius; otherwise, with `rule` the classification before smearing, NaN exactly where the
rule is undecided, and a decided step is wet exactly if the rule says wet, or a step one before or
one or two after it is wet by the rule with `deltaP < -2`, or it is the first or one of the last
two steps of the series. -/
theorem C34_smear {N : Net (Fl K) Id} {d : Nearby.Dist (Fl K) Id} {p : Params (Fl K)}
    (h : Consistent N d p) (hl : PosLengths N) (hneed : 0 < p.minHours * 60 / p.interval)
    (hper : 0 < p.timeperiod * 60 / p.interval) (drop : Nat → Nat → Fl K)
    (hdrop : ∀ j t, DropIs N p j t (drop j t)) (i : Nat) (hi : i < N.ids.length) :
    ∃ out wet Fv, nearby_wetdry N d p = .ok out ∧ out[i]? = some (wet, Fv) ∧ wet.length = N.T ∧
      ((nbrs N d p i).length ≤ p.minLinks → ∀ t < N.T, wet[t]? = some .nan) ∧
      (p.minLinks < (nbrs N d p i).length → ∃ rule : Nat → Fl K,
        (∀ t, RuleIs N d p drop i t (rule t)) ∧
        ∀ t < N.T,
          (rule t = .nan → wet[t]? = some .nan) ∧
          (rule t ≠ .nan →
            ((rule t = .fin 1 ∨
              (∃ s < N.T, (s + 1 = t ∨ s = t + 1 ∨ s = t + 2) ∧ rule s = .fin 1 ∧
                (drop i s <ᶠ .fin (-2)) = true) ∨
              t = 0 ∨ N.T ≤ t + 2) → wet[t]? = some (.fin 1)) ∧
            (¬ (rule t = .fin 1 ∨
              (∃ s < N.T, (s + 1 = t ∨ s = t + 1 ∨ s = t + 2) ∧ rule s = .fin 1 ∧
                (drop i s <ᶠ .fin (-2)) = true) ∨
              t = 0 ∨ N.T ≤ t + 2) → wet[t]? = some (.fin 0)))) := by
  obtain rfl := drop_eq hneed hdrop
  obtain ⟨out, ho, _, hrow⟩ := nearby_ok h
  have hr := hrow i hi
  by_cases hc : p.minLinks < (nbrs N d p i).length
  · rw [if_pos hc] at hr
    set dP := (nbrs N d p i).map fun j => (dPs N p).getD j [] with hdP
    set dPL := (nbrs N d p i).map fun j => (dPLs N p).getD j [] with hdPL
    set rule : Nat → Fl K := fun t => classify p.threshP p.threshPL
      (medianAt p.minLinks dP dP t) (medianAt p.minLinks dP dPL t) with hrule
    have hspec : ∀ t, RuleIs N d p (dropAt N p) i t (rule t) := fun t => rule_spec h hl hneed hper i t
    have hlr : (rowRule p N.T dP dPL).length = N.T := by simp [rowRule]
    have hrd : ∀ t < N.T, rd (rowRule p N.T dP dPL) t = rule t := by
      intro t ht
      apply rd_of_getElem?
      simp [rowRule, ht, hrule]
    have hown : ((dPs N p).getD i []).length = N.T := by
      unfold dPs
      rw [List.getD_eq_getElem?_getD, List.getElem?_map,
        List.getElem?_eq_getElem (by rw [h.pmin]; exact hi)]
      rw [Option.map_some, Option.getD_some, length_deltaP]
      exact h.times _ (List.getElem_mem _)
    have hval : ∀ t, rule t = .nan ∨ rule t = .fin 0 ∨ rule t = .fin 1 := by
      intro t
      rcases hspec t with ⟨_, e⟩ | ⟨_, _, _, _, _, e⟩
      · exact Or.inl e
      · rw [e]; split_ifs <;> simp
    refine ⟨out, _, _, ho, hr, ?_, fun hc' => by omega, fun _ => ⟨rule, hspec, ?_⟩⟩
    · simp [smear, smearStep, hlr]
    · intro t ht
      have hg := smear_get (rowRule p N.T dP dPL) ((dPs N p).getD i []) t
        (by rw [hlr]; exact ht)
      dsimp only at hg
      rw [hrd t ht] at hg
      set cond := List.zipWith
        (fun w d : Fl K => (w ==ᶠ PyFloat.ofInt 1) && (d <ᶠ PyFloat.ofInt (-2)))
        (rowRule p N.T dP dPL) ((dPs N p).getD i []) with hcond
      have hclen : cond.length = N.T := by rw [hcond, List.length_zipWith, hlr, hown]; simp
      have hcget : ∀ s < N.T, rdB cond s = true ↔
          (rule s = .fin 1 ∧ (dropAt N p i s <ᶠ .fin (-2)) = true) := by
        intro s hs
        have : cond[s]? = some ((rule s ==ᶠ PyFloat.ofInt 1) &&
            (dropAt N p i s <ᶠ PyFloat.ofInt (-2))) := by
          rw [hcond, List.getElem?_zipWith, getElem?_eq_rd (by omega), getElem?_eq_rd (by omega),
            hrd s hs, dPs_getD]
        unfold rdB
        rw [List.getD_eq_getElem?_getD, this, Option.getD_some, Bool.and_eq_true, Fl.pf_ofInt,
          Fl.pf_ofInt]
        have e2 : (((-2 : Int)) : K) = -2 := by norm_num
        rw [e2]
        have : (rule s ==ᶠ Fl.fin ((1 : Int) : K)) = true ↔ rule s = .fin 1 := by
          rcases hval s with e | e | e <;> rw [e] <;> simp
        rw [this]
      have hany : (shifted cond 1 t || shifted cond (-1) t || shifted cond (-2) t) = true ↔
          ((∃ s < N.T, (s + 1 = t ∨ s = t + 1 ∨ s = t + 2) ∧ rule s = .fin 1 ∧
            (dropAt N p i s <ᶠ .fin (-2)) = true) ∨ t = 0 ∨ N.T ≤ t + 2) := by
        rw [Bool.or_eq_true, Bool.or_eq_true]
        have s1 : shifted cond 1 t = true ↔ (t = 0 ∨ (rule (t - 1) = .fin 1 ∧
            (dropAt N p i (t - 1) <ᶠ .fin (-2)) = true)) := by
          unfold shifted
          rw [hclen]
          split_ifs with hh
          · have e : ((t : Int) - 1).toNat = t - 1 := by omega
            rw [e, hcget (t - 1) (by omega)]
            have : t ≠ 0 := by omega
            simp [this]
          · simp only [true_iff]; left; omega
        have s2 : shifted cond (-1) t = true ↔ (N.T ≤ t + 1 ∨ (rule (t + 1) = .fin 1 ∧
            (dropAt N p i (t + 1) <ᶠ .fin (-2)) = true)) := by
          unfold shifted
          rw [hclen]
          split_ifs with hh
          · have e : ((t : Int) - -1).toNat = t + 1 := by omega
            rw [e, hcget (t + 1) (by omega)]
            have : ¬ N.T ≤ t + 1 := by omega
            simp [this]
          · simp only [true_iff]; left; omega
        have s3 : shifted cond (-2) t = true ↔ (N.T ≤ t + 2 ∨ (rule (t + 2) = .fin 1 ∧
            (dropAt N p i (t + 2) <ᶠ .fin (-2)) = true)) := by
          unfold shifted
          rw [hclen]
          split_ifs with hh
          · have e : ((t : Int) - -2).toNat = t + 2 := by omega
            rw [e, hcget (t + 2) (by omega)]
            have : ¬ N.T ≤ t + 2 := by omega
            simp [this]
          · simp only [true_iff]; left; omega
        rw [s1, s2, s3]
        constructor
        · rintro (((h0 | h1) | (h2 | h2)) | (h3 | h3))
          · exact Or.inr (Or.inl h0)
          · by_cases h0 : t = 0
            · exact Or.inr (Or.inl h0)
            · exact Or.inl ⟨t - 1, by omega, Or.inl (by omega), h1⟩
          · exact Or.inr (Or.inr (by omega))
          · by_cases h0 : t + 1 < N.T
            · exact Or.inl ⟨t + 1, h0, Or.inr (Or.inl rfl), h2⟩
            · exact Or.inr (Or.inr (by omega))
          · exact Or.inr (Or.inr h3)
          · by_cases h0 : t + 2 < N.T
            · exact Or.inl ⟨t + 2, h0, Or.inr (Or.inr rfl), h3⟩
            · exact Or.inr (Or.inr (by omega))
        · rintro (⟨s, hs, (rfl | rfl | rfl), hh⟩ | h0 | h0)
          · exact Or.inl (Or.inl (Or.inr (by simpa using hh)))
          · exact Or.inl (Or.inr (Or.inr hh))
          · exact Or.inr (Or.inr hh)
          · exact Or.inl (Or.inl (Or.inl h0))
          · exact Or.inr (Or.inl h0)
      refine ⟨fun hn => ?_, fun hn => ⟨fun hw => ?_, fun hw => ?_⟩⟩
      · rw [hg, hn]; rfl
      · have hnn : PyFloat.isNaN (rule t) = false := by
          rcases hval t with e | e | e
          · exact absurd e hn
          · rw [e]; rfl
          · rw [e]; rfl
        rw [hg, hnn]
        simp only [Bool.false_eq_true, if_false]
        by_cases ha : (shifted cond 1 t || shifted cond (-1) t || shifted cond (-2) t) = true
        · rw [if_pos ha]
        · rw [if_neg ha]
          rcases hw with hw | hw
          · rw [hw]
          · exact absurd (hany.mpr hw) ha
      · have hnn : PyFloat.isNaN (rule t) = false := by
          rcases hval t with e | e | e
          · exact absurd e hn
          · rw [e]; rfl
          · rw [e]; rfl
        rw [not_or] at hw
        rw [hg, hnn]
        simp only [Bool.false_eq_true, if_false]
        rw [if_neg (fun ha => hw.2 (hany.mp ha))]
        rcases hval t with e | e | e
        · exact absurd e hn
        · rw [e]
        · exact absurd e hw.1
  · rw [if_neg hc] at hr
    refine ⟨out, _, _, ho, hr, by simp, fun _ t ht => by simp [ht], fun hc' => absurd hc' hc⟩

/-- **C33** The rule, without its smearing part: too few links within the radius or too few
links with data give NaN, otherwise both medians below their thresholds give wet; a step is 0, 1 or
NaN, and a step dry by the rule stays dry unless smeared. -/
theorem C33_rule {N : Net (Fl K) Id} {d : Nearby.Dist (Fl K) Id} {p : Params (Fl K)}
    (h : Consistent N d p) (hl : PosLengths N) (hneed : 0 < p.minHours * 60 / p.interval)
    (hper : 0 < p.timeperiod * 60 / p.interval) (drop : Nat → Nat → Fl K)
    (hdrop : ∀ j t, DropIs N p j t (drop j t)) (i : Nat) (hi : i < N.ids.length) :
    ∃ out wet Fv, nearby_wetdry N d p = .ok out ∧ out[i]? = some (wet, Fv) ∧ wet.length = N.T ∧
      ∀ t < N.T, ∃ w, wet[t]? = some w ∧
        (w = .nan ↔ ((nbrs N d p i).length ≤ p.minLinks ∨
          (dataLinks N d p drop i t).length ≤ p.minLinks)) ∧
        (∀ mP mPL, w ≠ .nan →
          IsMedian ((dataLinks N d p drop i t).map fun j => drop j t) mP →
          IsMedian ((dataLinks N d p drop i t).map fun j => drop j t /ᶠ rd N.length j) mPL →
          (mP <ᶠ p.threshP) = true → (mPL <ᶠ p.threshPL) = true → w = .fin 1) ∧
        (∀ mP mPL, w ≠ .nan → 0 < t → t + 2 < N.T →
          IsMedian ((dataLinks N d p drop i t).map fun j => drop j t) mP →
          IsMedian ((dataLinks N d p drop i t).map fun j => drop j t /ᶠ rd N.length j) mPL →
          ¬ ((mP <ᶠ p.threshP) = true ∧ (mPL <ᶠ p.threshPL) = true) →
          (∀ s < N.T, (s + 1 = t ∨ s = t + 1 ∨ s = t + 2) →
            (drop i s <ᶠ .fin (-2)) = false) → w = .fin 0) := by
  obtain rfl := drop_eq hneed hdrop
  obtain ⟨out, wet, Fv, ho, hr, hlen, hA, hB⟩ := C34_smear h hl hneed hper _ hdrop i hi
  refine ⟨out, wet, Fv, ho, hr, hlen, ?_⟩
  intro t ht
  by_cases hc : p.minLinks < (nbrs N d p i).length
  · obtain ⟨rule, hspec, hw⟩ := hB hc
    obtain ⟨w1, w2⟩ := hw t ht
    rcases hspec t with ⟨a, e⟩ | ⟨a, m1, m2, b1, b2, e⟩
    · refine ⟨.nan, w1 e, ⟨fun _ => Or.inr a, fun _ => rfl⟩, ?_, ?_⟩
      · intro mP mPL hn; exact absurd rfl hn
      · intro mP mPL hn; exact absurd rfl hn
    · have hn : rule t ≠ .nan := by rw [e]; split_ifs <;> simp
      obtain ⟨w3, w4⟩ := w2 hn
      have hnot : ¬ ((nbrs N d p i).length ≤ p.minLinks ∨
          (dataLinks N d p (dropAt N p) i t).length ≤ p.minLinks) := by omega
      by_cases hcond : (rule t = .fin 1 ∨
              (∃ s < N.T, (s + 1 = t ∨ s = t + 1 ∨ s = t + 2) ∧ rule s = .fin 1 ∧
                (dropAt N p i s <ᶠ .fin (-2)) = true) ∨
              t = 0 ∨ N.T ≤ t + 2)
      · refine ⟨.fin 1, w3 hcond, ?_, ?_, ?_⟩
        · constructor
          · intro h; cases h
          · intro h; exact absurd h hnot
        · intros; rfl
        · intro mP mPL _ h0 hT c1 c2 hnr hs
          exfalso
          rcases hcond with h1 | ⟨s, hs1, hs2, _, hs4⟩ | h1 | h1
          · rw [e, b1.unique c1, b2.unique c2] at h1
            rw [if_neg (by simpa using hnr)] at h1
            simp at h1
          · rw [hs s hs1 hs2] at hs4; cases hs4
          · omega
          · omega
      · refine ⟨.fin 0, w4 hcond, ?_, ?_, ?_⟩
        · constructor
          · intro h; cases h
          · intro h; exact absurd h hnot
        · intro mP mPL _ c1 c2 l1 l2
          exfalso
          apply hcond
          left
          rw [e, b1.unique c1, b2.unique c2, l1, l2]
          rfl
        · intros; rfl
  · refine ⟨.nan, hA (by omega) t ht, ⟨fun _ => Or.inl (by omega), fun _ => rfl⟩, ?_, ?_⟩
    · intro mP mPL hn; exact absurd rfl hn
    · intro mP mPL hn; exact absurd rfl hn

end

end Verif.Props
