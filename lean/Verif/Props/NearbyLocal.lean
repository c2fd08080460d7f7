import Verif.Props.NearbyChain

/-!
# Property C129: what the nearby approach depends on in space and time
-/

namespace Verif.Props
open Verif Verif.Nearby

section
variable {K Id : Type} [Field K] [LinearOrder K] [DecidableEq Id]

omit [DecidableEq Id] in
theorem rd_nil (t : Nat) : rd ([] : List (Fl K)) t = .nan := rfl

/-- As far as link `i` and the steps `lo .. hi` are concerned, `N'` is a piece of `N` that starts at step `off` of `N`: the same links
are within the radius, with the same lengths and the same levels. -/
structure PieceFor (N N' : Net (Fl K) Id) (d d' : Nearby.Dist (Fl K) Id) (p : Params (Fl K)) (i off lo hi : Nat) : Prop where
  ids : N'.ids.length = N.ids.length
  near : ∀ j < N.ids.length, near d' p.radius i j = near d p.radius i j
  len : ∀ j ∈ nbrs N d p i, N'.length[j]? = N.length[j]?
  data : ∀ j ∈ nbrs N d p i, ∀ s, lo ≤ s → s ≤ hi → (N.pmin.getD j [])[off + s]? = (N'.pmin.getD j [])[s]?
  hiN : off + hi < N.T
  hiN' : hi < N'.T

/-- the window of a piece is the window of the whole series, if the piece starts early enough -/
theorem window_shift {α : Type} {xs ys : List α} {n off s : Nat} (hn : 0 < n) (h0 : off = 0 ∨ n ≤ s + 1)
    (h : ∀ r, s < r + n → r ≤ s → xs[off + r]? = ys[r]?) : window xs n (off + s) = window ys n s := by
  rcases h0 with rfl | h0
  · rw [Nat.zero_add]
    exact window_congr hn fun r h1 h2 => by have := h r h1 h2; rwa [Nat.zero_add] at this
  · unfold window slice
    apply List.ext_getElem?
    intro k
    rw [List.getElem?_drop, List.getElem?_drop]
    by_cases hk : k < n
    · rw [List.getElem?_take_of_lt (by omega), List.getElem?_take_of_lt (by omega), ← h _ (by omega) (by omega)]
      congr 1
      omega
    · rw [List.getElem?_eq_none (by simp; omega), List.getElem?_eq_none (by simp; omega)]

variable {N N' : Net (Fl K) Id} {d d' : Nearby.Dist (Fl K) Id} {p : Params (Fl K)} {i off lo hi : Nat}

omit [DecidableEq Id] in
theorem getD_len (h : ∀ xs ∈ N.pmin, xs.length = N.T) {j : Nat} (hj : j < N.pmin.length) :
    (N.pmin.getD j []).length = N.T := by
  rw [List.getD_eq_getElem?_getD, List.getElem?_eq_getElem hj, Option.getD_some]
  exact h _ (List.getElem_mem hj)

theorem mem_nbrs_lt {j : Nat} (hj : j ∈ nbrs N d p i) : j < N.ids.length := by
  simpa using (List.mem_filter.mp hj).1

theorem PieceFor.nbrs_eq (h : PieceFor N N' d d' p i off lo hi) : nbrs N' d' p i = nbrs N d p i := by
  unfold nbrs
  rw [h.ids]
  apply List.filter_congr
  intro j hj
  exact h.near j (by simpa using hj)

theorem PieceFor.drop_eq (h : PieceFor N N' d d' p i off lo hi) (c : Consistent N d p) (c' : Consistent N' d' p)
    (hper : 0 < p.period) {j s : Nat} (hj : j ∈ nbrs N d p i) (h0 : off = 0 ∨ p.period ≤ s + 1) (hlo : lo ≤ s + 1 - p.period)
    (hhi : s ≤ hi) : dropAt N p j (off + s) = dropAt N' p j s := by
  have hjl := mem_nbrs_lt hj
  have l1 := getD_len c.times (j := j) (by rw [c.pmin]; exact hjl)
  have l2 := getD_len c'.times (j := j) (by rw [c'.pmin, h.ids]; exact hjl)
  have b1 := h.hiN
  have b2 := h.hiN'
  unfold dropAt
  have hx : off + s < (N.pmin.getD j []).length := by omega
  have hy : s < (N'.pmin.getD j []).length := by omega
  have hd := h.data j hj
  rw [rd_of_getElem? (getElem?_deltaP _ _ _ _ hx), rd_of_getElem? (getElem?_deltaP _ _ _ _ hy), available_eq _ _ _ hx,
    available_eq _ _ _ hy, window_shift hper h0 fun r h1 h2 => hd r (by omega) (by omega)]
  have : rd (N.pmin.getD j []) (off + s) = rd (N'.pmin.getD j []) s := by
    have := hd s (by omega) hhi
    rw [getElem?_eq_rd hx, getElem?_eq_rd hy] at this
    exact Option.some.inj this
  rw [this]

/-- the two medians at a step -/
theorem PieceFor.median_eq (h : PieceFor N N' d d' p i off lo hi) (c : Consistent N d p) (c' : Consistent N' d' p)
    (hper : 0 < p.period) {s : Nat} (h0 : off = 0 ∨ p.period ≤ s + 1) (hlo : lo ≤ s + 1 - p.period) (hhi : s ≤ hi) :
    medianAt p.minLinks ((nbrs N d p i).map fun j => (dPs N p).getD j []) ((nbrs N d p i).map fun j => (dPs N p).getD j []) (off + s) =
      medianAt p.minLinks ((nbrs N' d' p i).map fun j => (dPs N' p).getD j []) ((nbrs N' d' p i).map fun j => (dPs N' p).getD j []) s ∧
    medianAt p.minLinks ((nbrs N d p i).map fun j => (dPs N p).getD j []) ((nbrs N d p i).map fun j => (dPLs N p).getD j []) (off + s) =
      medianAt p.minLinks ((nbrs N' d' p i).map fun j => (dPs N' p).getD j []) ((nbrs N' d' p i).map fun j => (dPLs N' p).getD j []) s := by
  have e1 : column ((nbrs N d p i).map fun j => (dPs N p).getD j []) (off + s) =
      column ((nbrs N' d' p i).map fun j => (dPs N' p).getD j []) s := by
    unfold column
    rw [h.nbrs_eq, List.map_map, List.map_map]
    refine List.map_congr_left fun j hj => ?_
    simp only [Function.comp]
    rw [dPs_getD, dPs_getD, h.drop_eq c c' hper hj h0 hlo hhi]
  have e2 : column ((nbrs N d p i).map fun j => (dPLs N p).getD j []) (off + s) =
      column ((nbrs N' d' p i).map fun j => (dPLs N' p).getD j []) s := by
    unfold column
    rw [h.nbrs_eq, List.map_map, List.map_map]
    refine List.map_congr_left fun j hj => ?_
    simp only [Function.comp]
    rw [dPLs_getD N p c.pmin c.len, dPLs_getD N' p c'.pmin c'.len, h.drop_eq c c' hper hj h0 hlo hhi]
    congr 1
    unfold rd
    rw [List.getD_eq_getElem?_getD, List.getD_eq_getElem?_getD, h.len j hj]
  unfold medianAt
  rw [e1, e2]
  exact ⟨rfl, rfl⟩

omit [DecidableEq Id] in
theorem rd_rowRule (p : Params (Fl K)) (T : Nat) (dP dPL : List (List (Fl K))) {t : Nat} (ht : t < T) :
    rd (rowRule p T dP dPL) t = classify p.threshP p.threshPL (medianAt p.minLinks dP dP t) (medianAt p.minLinks dP dPL t) := by
  apply rd_of_getElem?
  unfold rowRule
  rw [List.getElem?_map, List.getElem?_range ht]
  rfl

/-- **C129** The wet/dry decision for link `i` at a step depends only on the levels and lengths of the links within the radius (and on
which these are), at the steps from one look-back period before to two steps after it. This holds for every network that contains
this data, at whatever step its series start: if the piece `N'` starts at the first step of `N` (`off = 0`) or at least one look-back
period before the step, and neither series ends within two steps after it, the decisions are the same. -/
theorem C129_wet (h : PieceFor N N' d d' p i off (t - p.timeperiod * 60 / p.interval) (t + 2)) (c : Consistent N d p)
    (c' : Consistent N' d' p) (hper : 0 < p.timeperiod * 60 / p.interval) (hi : i < N.ids.length)
    (h0 : off = 0 ∨ p.timeperiod * 60 / p.interval ≤ t) :
    ∃ out out' w F w' F', nearby_wetdry N d p = .ok out ∧ nearby_wetdry N' d' p = .ok out' ∧
      out[i]? = some (w, F) ∧ out'[i]? = some (w', F') ∧ w.length = N.T ∧ w'.length = N'.T ∧ w[off + t]? = w'[t]? := by
  obtain ⟨out, ho, -, hrow⟩ := nearby_ok c
  obtain ⟨out', ho', -, hrow'⟩ := nearby_ok c'
  have hself : i ∈ nbrs N d p i := List.mem_filter.mpr ⟨by simpa using hi, c.own i hi⟩
  have hr := hrow i hi
  have hr' := hrow' i (by rw [h.ids]; exact hi)
  have hnb := h.nbrs_eq
  have b1 := h.hiN
  have b2 := h.hiN'
  have per : p.period = p.timeperiod * 60 / p.interval := rfl
  rw [← per] at hper h0 h
  have l1 : ∀ s, s ≤ t + 2 → off + s < N.T := fun s hs => by omega
  have l2 : ∀ s, s ≤ t + 2 → s < N'.T := fun s hs => by omega
  by_cases hm : p.minLinks < (nbrs N d p i).length
  · rw [if_pos hm] at hr
    rw [if_pos (by rw [hnb]; exact hm)] at hr'
    have smear_len : ∀ (w x : List (Fl K)), (smear w x).length = w.length := by
      intro w x; simp [smear, smearStep]
    refine ⟨out, out', _, _, _, _, ho, ho', hr, hr', by rw [smear_len]; simp [rowRule], by rw [smear_len]; simp [rowRule], ?_⟩
    rw [smear_get _ _ _ (by simp [rowRule]; exact l1 t (by omega)), smear_get _ _ _ (by simp [rowRule]; exact l2 t (by omega))]
    -- the rule and the drop of the link itself at the steps used
    have rule : ∀ s, (off = 0 ∨ p.period ≤ s + 1) → t - p.period ≤ s + 1 - p.period → s ≤ t + 2 →
        rd (rowRule p N.T ((nbrs N d p i).map fun j => (dPs N p).getD j []) ((nbrs N d p i).map fun j => (dPLs N p).getD j []))
          (off + s) =
        rd (rowRule p N'.T ((nbrs N' d' p i).map fun j => (dPs N' p).getD j [])
          ((nbrs N' d' p i).map fun j => (dPLs N' p).getD j [])) s := by
      intro s s1 s2 s3
      obtain ⟨m1, m2⟩ := h.median_eq c c' hper s1 s2 s3
      rw [rd_rowRule _ _ _ _ (l1 s s3), rd_rowRule _ _ _ _ (l2 s s3), m1, m2]
    have own : ∀ s, (off = 0 ∨ p.period ≤ s + 1) → t - p.period ≤ s + 1 - p.period → s ≤ t + 2 →
        rd ((dPs N p).getD i []) (off + s) = rd ((dPs N' p).getD i []) s := by
      intro s s1 s2 s3
      rw [dPs_getD, dPs_getD, h.drop_eq c c' hper hself s1 s2 s3]
    have dlen : ((dPs N p).getD i []).length = N.T := by
      unfold dPs
      rw [List.getD_eq_getElem?_getD, List.getElem?_map, List.getElem?_eq_getElem (by rw [c.pmin]; exact hi), Option.map_some,
        Option.getD_some, length_deltaP]
      exact c.times _ (List.getElem_mem _)
    have dlen' : ((dPs N' p).getD i []).length = N'.T := by
      unfold dPs
      rw [List.getD_eq_getElem?_getD, List.getElem?_map, List.getElem?_eq_getElem (by rw [c'.pmin, h.ids]; exact hi),
        Option.map_some, Option.getD_some, length_deltaP]
      exact c'.times _ (List.getElem_mem _)
    set R := rowRule p N.T ((nbrs N d p i).map fun j => (dPs N p).getD j []) ((nbrs N d p i).map fun j => (dPLs N p).getD j []) with hR
    set R' := rowRule p N'.T ((nbrs N' d' p i).map fun j => (dPs N' p).getD j [])
      ((nbrs N' d' p i).map fun j => (dPLs N' p).getD j []) with hR'
    have Rlen : R.length = N.T := by rw [hR]; simp [rowRule]
    have Rlen' : R'.length = N'.T := by rw [hR']; simp [rowRule]
    -- the strong wet steps
    have strong : ∀ s, (off = 0 ∨ p.period ≤ s + 1) → t - p.period ≤ s + 1 - p.period → s ≤ t + 2 →
        rdB (List.zipWith (fun w d : Fl K => (w ==ᶠ PyFloat.ofInt 1) && (d <ᶠ PyFloat.ofInt (-2))) R ((dPs N p).getD i [])) (off + s) =
        rdB (List.zipWith (fun w d : Fl K => (w ==ᶠ PyFloat.ofInt 1) && (d <ᶠ PyFloat.ofInt (-2))) R' ((dPs N' p).getD i [])) s := by
      intro s s1 s2 s3
      have a1 := l1 s s3
      have a2 := l2 s s3
      have q1 : R[off + s]? = some (rd R (off + s)) := getElem?_eq_rd (by omega)
      have q2 : R'[s]? = some (rd R' s) := getElem?_eq_rd (by omega)
      have q3 : ((dPs N p).getD i [])[off + s]? = some (rd ((dPs N p).getD i []) (off + s)) := getElem?_eq_rd (by omega)
      have q4 : ((dPs N' p).getD i [])[s]? = some (rd ((dPs N' p).getD i []) s) := getElem?_eq_rd (by omega)
      generalize (dPs N p).getD i [] = D at *
      generalize (dPs N' p).getD i [] = D' at *
      unfold rdB
      simp only [List.getD_eq_getElem?_getD, List.getElem?_zipWith, q1, q2, q3, q4, rule s s1 s2 s3, own s s1 s2 s3]
    have zlen : (List.zipWith (fun w d : Fl K => (w ==ᶠ PyFloat.ofInt 1) && (d <ᶠ PyFloat.ofInt (-2))) R
        ((dPs N p).getD i [])).length = N.T := by rw [List.length_zipWith, Rlen, dlen, Nat.min_self]
    have zlen' : (List.zipWith (fun w d : Fl K => (w ==ᶠ PyFloat.ofInt 1) && (d <ᶠ PyFloat.ofInt (-2))) R'
        ((dPs N' p).getD i [])).length = N'.T := by rw [List.length_zipWith, Rlen', dlen', Nat.min_self]
    set C := List.zipWith (fun w d : Fl K => (w ==ᶠ PyFloat.ofInt 1) && (d <ᶠ PyFloat.ofInt (-2))) R ((dPs N p).getD i []) with hC
    set C' := List.zipWith (fun w d : Fl K => (w ==ᶠ PyFloat.ofInt 1) && (d <ᶠ PyFloat.ofInt (-2))) R' ((dPs N' p).getD i []) with hC'
    have t0 : off = 0 ∨ p.period ≤ t + 1 := by omega
    have s1 : shifted C 1 (off + t) = shifted C' 1 t := by
      unfold shifted
      rw [zlen, zlen']
      by_cases ht0 : t = 0
      · have : off = 0 := by omega
        subst ht0 this
        rfl
      · rw [if_pos (by omega), if_pos (by omega), show ((off + t : Nat) - 1 : Int).toNat = off + (t - 1) by omega,
          show ((t : Int) - 1).toNat = t - 1 by omega]
        exact strong (t - 1) (by omega) (by omega) (by omega)
    have s2 : shifted C (-1) (off + t) = shifted C' (-1) t := by
      unfold shifted
      rw [zlen, zlen', if_pos (by omega), if_pos (by omega), show ((off + t : Nat) - (-1) : Int).toNat = off + (t + 1) by omega,
        show ((t : Int) - (-1)).toNat = t + 1 by omega]
      exact strong (t + 1) (by omega) (by omega) (by omega)
    have s3 : shifted C (-2) (off + t) = shifted C' (-2) t := by
      unfold shifted
      rw [zlen, zlen', if_pos (by omega), if_pos (by omega), show ((off + t : Nat) - (-2) : Int).toNat = off + (t + 2) by omega,
        show ((t : Int) - (-2)).toNat = t + 2 by omega]
      exact strong (t + 2) (by omega) (by omega) (by omega)
    rw [s1, s2, s3, rule t t0 (by omega) (by omega)]
  · rw [if_neg hm] at hr
    rw [if_neg (by rw [hnb]; exact hm)] at hr'
    refine ⟨out, out', _, _, _, _, ho, ho', hr, hr', by simp, by simp, ?_⟩
    rw [List.getElem?_replicate, List.getElem?_replicate, if_pos (l1 t (by omega)), if_pos (l2 t (by omega))]

/-- **C129** The outlier measure `F` of link `i` at a step depends only on the links within the radius at the last
`4 * timeperiod` steps and the look-back periods before these. -/
theorem C129_F (h : PieceFor N N' d d' p i off (t + 2 - 4 * p.timeperiod - p.timeperiod * 60 / p.interval) t) (c : Consistent N d p)
    (c' : Consistent N' d' p) (hper : 0 < p.timeperiod * 60 / p.interval) (hi : i < N.ids.length)
    (h0 : off = 0 ∨ 4 * p.timeperiod + p.timeperiod * 60 / p.interval ≤ t + 2) :
    ∃ out out' w F w' F', nearby_wetdry N d p = .ok out ∧ nearby_wetdry N' d' p = .ok out' ∧
      out[i]? = some (w, F) ∧ out'[i]? = some (w', F') ∧ F.length = N.T ∧ F'.length = N'.T ∧ F[off + t]? = F'[t]? := by
  obtain ⟨out, ho, -, hrow⟩ := nearby_ok c
  obtain ⟨out', ho', -, hrow'⟩ := nearby_ok c'
  have hself : i ∈ nbrs N d p i := List.mem_filter.mpr ⟨by simpa using hi, c.own i hi⟩
  have hr := hrow i hi
  have hr' := hrow' i (by rw [h.ids]; exact hi)
  have hnb := h.nbrs_eq
  have b1 := h.hiN
  have b2 := h.hiN'
  have htp : 0 < p.timeperiod := by
    rcases Nat.eq_zero_or_pos p.timeperiod with e | e
    · rw [e] at hper; simp at hper
    · exact e
  have per : p.period = p.timeperiod * 60 / p.interval := rfl
  rw [← per] at hper h0 h
  by_cases hm : p.minLinks < (nbrs N d p i).length
  · rw [if_pos hm] at hr
    rw [if_pos (by rw [hnb]; exact hm)] at hr'
    have dlen : ((dPLs N p).getD i []).length = N.T := by
      unfold dPLs deltaPL
      rw [List.getD_eq_getElem?_getD, List.getElem?_zipWith, List.getElem?_eq_getElem (by rw [c.pmin]; exact hi),
        List.getElem?_eq_getElem (by rw [c.len]; exact hi)]
      simp only [Option.getD_some, List.length_map, length_deltaP]
      exact c.times _ (List.getElem_mem _)
    have dlen' : ((dPLs N' p).getD i []).length = N'.T := by
      unfold dPLs deltaPL
      rw [List.getD_eq_getElem?_getD, List.getElem?_zipWith, List.getElem?_eq_getElem (by rw [c'.pmin, h.ids]; exact hi),
        List.getElem?_eq_getElem (by rw [c'.len, h.ids]; exact hi)]
      simp only [Option.getD_some, List.length_map, length_deltaP]
      exact c'.times _ (List.getElem_mem _)
    have flen : (rowF p N.T ((nbrs N d p i).map fun j => (dPs N p).getD j [])
        ((nbrs N d p i).map fun j => (dPLs N p).getD j []) ((dPLs N p).getD i [])).length = N.T := by
      unfold rowF
      rw [List.length_map, length_rolling, List.length_zipWith, dlen]; simp
    have flen' : (rowF p N'.T ((nbrs N' d' p i).map fun j => (dPs N' p).getD j [])
        ((nbrs N' d' p i).map fun j => (dPLs N' p).getD j []) ((dPLs N' p).getD i [])).length = N'.T := by
      unfold rowF
      rw [List.length_map, length_rolling, List.length_zipWith, dlen']; simp
    refine ⟨out, out', _, _, _, _, ho, ho', hr, hr', flen, flen', ?_⟩
    unfold rowF
    rw [List.getElem?_map, List.getElem?_map, getElem?_rolling _ _ _ _ _ (by rw [List.length_zipWith, dlen]; simp; omega),
      getElem?_rolling _ _ _ _ _ (by rw [List.length_zipWith, dlen']; simp; omega)]
    rw [window_shift (n := p.timeperiod * 4) (by omega) (by omega)]
    intro r r1 r2
    obtain ⟨m1, m2⟩ := h.median_eq c c' hper (s := r) (by omega) (by omega) r2
    have q3 : ((dPLs N p).getD i [])[off + r]? = some (rd ((dPLs N p).getD i []) (off + r)) := getElem?_eq_rd (by omega)
    have q4 : ((dPLs N' p).getD i [])[r]? = some (rd ((dPLs N' p).getD i []) r) := getElem?_eq_rd (by omega)
    have u1 : off + r < N.T := by omega
    have u2 : r < N'.T := by omega
    simp only [List.getElem?_zipWith, List.getElem?_map, List.getElem?_range u1, List.getElem?_range u2, q3, q4, Option.map_some]
    rw [m2, dPLs_getD N p c.pmin c.len, dPLs_getD N' p c'.pmin c'.len, h.drop_eq c c' hper hself (by omega) (by omega) r2]
    congr 3
    unfold rd
    rw [List.getD_eq_getElem?_getD, List.getD_eq_getElem?_getD, h.len i hself]
  · rw [if_neg hm] at hr
    rw [if_neg (by rw [hnb]; exact hm)] at hr'
    refine ⟨out, out', _, _, _, _, ho, ho', hr, hr', by simp, by simp, ?_⟩
    rw [List.getElem?_replicate, List.getElem?_replicate, if_pos (by omega), if_pos (by omega)]

omit [DecidableEq Id] in
/-- fewer steps -/
theorem PieceFor.mono {lo' hi' : Nat} (h : PieceFor N N' d d' p i off lo hi) (h1 : lo ≤ lo') (h2 : hi' ≤ hi) :
    PieceFor N N' d d' p i off lo' hi' :=
  ⟨h.ids, h.near, h.len, fun j hj s a b => h.data j hj s (by omega) (by omega), by have := h.hiN; omega, by have := h.hiN'; omega⟩

/-- the steps 1 .. 7 of the chain and one more, except that link 0 carries other data -/
def chainPiece : Net (Fl ℚ) Nat where
  ids := [0, 1, 2, 3]
  length := [.fin 77, .fin 1, .fin 1, .fin 1]
  pmin := [[.fin 5, .nan, .fin (-30), .fin 5, .fin 0, .fin 0, .fin 0, .fin 0],
    [.fin 0, .fin 0, .fin (-1), .fin 0, .fin 0, .fin 0, .fin 0, .fin 0],
    [.fin 0, .fin 0, .fin (-9), .fin 0, .fin 0, .fin 0, .fin 0, .fin 0],
    [.fin 0, .fin 0, .fin 0, .fin 0, .fin 0, .fin 0, .fin 0, .fin 0]]

theorem chainPiece_consistent : Consistent chainPiece distA chainParams where
  nodup := by decide
  same := rfl
  aa := by constructor <;> decide
  ab := by constructor <;> decide
  ba := by constructor <;> decide
  bb := by constructor <;> decide
  pmin := rfl
  len := rfl
  times := by decide
  own := by decide +kernel
  interval := by decide
  need := by decide
  need_le := by decide
  period_le := by decide
  F_le := by decide

/-- as far as link 3 (neighbours 2 and 3) is concerned this is the piece of the chain that starts at step 1 -/
theorem chainPiece_piece : PieceFor chainNet chainPiece distA distA chainParams 3 1 0 4 where
  ids := rfl
  near := fun _ _ => rfl
  len := by decide +kernel
  data := by
    have h : ∀ j ∈ nbrs chainNet distA chainParams 3, ∀ s < 5,
        (chainNet.pmin.getD j [])[1 + s]? = (chainPiece.pmin.getD j [])[s]? := by decide +kernel
    exact fun j hj s _ h2 => h j hj s (by omega)
  hiN := by decide
  hiN' := by decide

/-- step 2 of the piece is step 3 of the chain: wet in both, although link 0 differs -/
example : ∃ out out' w F w' F', nearby_wetdry chainNet distA chainParams = .ok out ∧
    nearby_wetdry chainPiece distA chainParams = .ok out' ∧
    out[3]? = some (w, F) ∧ out'[3]? = some (w', F') ∧ w.length = 8 ∧ w'.length = 8 ∧ w[1 + 2]? = w'[2]? :=
  C129_wet (chainPiece_piece.mono (by decide) (by decide)) chain_consistent chainPiece_consistent (by decide) (by decide)
    (Or.inr (by decide))

/-- half-hourly levels and a look-back period of one hour -/
def halfHourParams : Params (Fl ℚ) := { chainParams with interval := 30, timeperiod := 1 }

/-- **C129** The two steps after the decided one are needed: cut after step 4 the series of the chain give link 0 the flag wet at the
steps 3 and 4, which are dry in the whole series. -/
theorem C129_end_effect :
    ((nearby_wetdry chainNet distA halfHourParams).toOption.map fun o => (o.getD 0 ([], [])).1.take 5) =
      some [.nan, .fin 0, .fin 0, .fin 0, .fin 0] ∧
    ((nearby_wetdry { chainNet with pmin := chainNet.pmin.map (·.take 5) } distA halfHourParams).toOption.map
      fun o => (o.getD 0 ([], [])).1) = some [.nan, .fin 0, .fin 0, .fin 1, .fin 1] := by
  constructor <;> decide +kernel

end

/-! ### The rain rates -/

/-- one link: reference level, corrected levels and rain rate at a step depend on the last `nAverageDry` steps only -/
theorem retrieveLink_local (sp : KR.Spline) (q : RetrievalParams) {i off t T T' : Nat} {a b L : Fl ℝ}
    {pmin pmax wet F pmin' pmax' wet' F' : List (Fl ℝ)} (hf : q.f_GHz i = none) (hp : q.pol i = none) (ha : q.a i = some [a])
    (hb : q.b i = some [b]) (l1 : pmin.length = T) (l2 : pmax.length = T) (l3 : wet.length = T) (l4 : F.length = T)
    (l1' : pmin'.length = T') (l2' : pmax'.length = T') (l3' : wet'.length = T') (l4' : F'.length = T') (hn : 0 < q.nAverageDry)
    (h0 : off = 0 ∨ q.nAverageDry ≤ t + 1) (ht : off + t < T) (ht' : t < T')
    (e : ∀ s, t < s + q.nAverageDry → s ≤ t → rd pmin (off + s) = rd pmin' s ∧ rd pmax (off + s) = rd pmax' s ∧
      rd wet (off + s) = rd wet' s) (eF : rd F (off + t) = rd F' t) :
    ∃ R R', retrieveLink sp q i pmin pmax wet F L = .ok R ∧ retrieveLink sp q i pmin' pmax' wet' F' L = .ok R' ∧
      R.length = T ∧ R'.length = T' ∧ R[off + t]? = R'[t]? := by
  have z : ∀ {T : Nat} {u v w : List (Fl ℝ)} (f : Fl ℝ → Fl ℝ → Fl ℝ → Fl ℝ) (h1 : u.length = T) (h2 : v.length = T)
      (h3 : w.length = T), (zip3 f u v w).length = T ∧
        ∀ s < T, (zip3 f u v w)[s]? = some (f (rd u s) (rd v s) (rd w s)) := by
    intro T u v w f h1 h2 h3
    exact ⟨by rw [length_zip3 _ _ _ _ (by omega) (by omega)]; exact h1, fun s hs =>
      getElem?_zip3 f (getElem?_eq_rd (by omega)) (getElem?_eq_rd (by omega)) (getElem?_eq_rd (by omega))⟩
  obtain ⟨d1, d2⟩ := z dryLevel l1 l2 l3
  obtain ⟨d1', d2'⟩ := z dryLevel l1' l2' l3'
  unfold retrieveLink
  dsimp only
  rw [hf, hp, ha, hb]
  have r1 : (determine_reference_level pmin pmax wet q.nAverageDry q.minPeriods).length = T := by
    unfold determine_reference_level; rw [length_rolling]; exact d1
  have r1' : (determine_reference_level pmin' pmax' wet' q.nAverageDry q.minPeriods).length = T' := by
    unfold determine_reference_level; rw [length_rolling]; exact d1'
  have er : rd (determine_reference_level pmin pmax wet q.nAverageDry q.minPeriods) (off + t) =
      rd (determine_reference_level pmin' pmax' wet' q.nAverageDry q.minPeriods) t := by
    have : (determine_reference_level pmin pmax wet q.nAverageDry q.minPeriods)[off + t]? =
        (determine_reference_level pmin' pmax' wet' q.nAverageDry q.minPeriods)[t]? := by
      unfold determine_reference_level
      rw [getElem?_rolling _ _ _ _ _ (by omega), getElem?_rolling _ _ _ _ _ (by omega), window_shift hn h0]
      intro r r1 r2
      obtain ⟨e1, e2, e3⟩ := e r r1 r2
      rw [d2 _ (by omega), d2' _ (by omega), e1, e2, e3]
    rw [getElem?_eq_rd (by omega), getElem?_eq_rd (by omega)] at this
    exact Option.some.inj this
  set pref := determine_reference_level pmin pmax wet q.nAverageDry q.minPeriods
  set pref' := determine_reference_level pmin' pmax' wet' q.nAverageDry q.minPeriods
  unfold correct_received_signals
  dsimp only
  obtain ⟨m1, m2⟩ := z corrMin l1 l3 r1
  obtain ⟨m1', m2'⟩ := z corrMin l1' l3' r1'
  obtain ⟨x1, x2⟩ := z corrMax m1 l2 r1
  obtain ⟨x1', x2'⟩ := z corrMax m1' l2' r1'
  obtain ⟨e1, e2, e3⟩ := e t (by omega) (le_refl t)
  have em : rd (zip3 corrMin pmin wet pref) (off + t) = rd (zip3 corrMin pmin' wet' pref') t := by
    rw [rd_of_getElem? (m2 _ ht), rd_of_getElem? (m2' _ ht'), e1, e3, er]
  have ex : rd (zip3 corrMax (zip3 corrMin pmin wet pref) pmax pref) (off + t) =
      rd (zip3 corrMax (zip3 corrMin pmin' wet' pref') pmax' pref') t := by
    rw [rd_of_getElem? (x2 _ ht), rd_of_getElem? (x2' _ ht'), em, e2, er]
  refine ⟨_, _, retrival_scalar sp _ _ _ _ _ _ _ _ _ _ _ (by omega) (by omega) (fun _ => by omega),
    retrival_scalar sp _ _ _ _ _ _ _ _ _ _ _ (by omega) (by omega) (fun _ => by omega), by simp [r1], by simp [r1'], ?_⟩
  rw [List.getElem?_map, List.getElem?_map, List.getElem?_range (by omega), List.getElem?_range (by omega), Option.map_some,
    Option.map_some, er, em, ex, eF]

section
variable {Id : Type} [DecidableEq Id]

/-- with scalar `a`, `b` per link the pipeline gives a series of rain rates for every link -/
theorem nearbyChain_ok (sp : KR.Spline) {N : Net (Fl ℝ) Id} {pmax : List (List (Fl ℝ))} {d : Nearby.Dist (Fl ℝ) Id}
    {p : Params (Fl ℝ)} {q : RetrievalParams} {out : List (List (Fl ℝ) × List (Fl ℝ))} (ho : nearby_wetdry N d p = .ok out)
    (h : ∀ i < out.length, ∃ R, retrieveLink sp q i (N.pmin.getD i []) (pmax.getD i []) ((out.getD i ([], [])).1)
      ((out.getD i ([], [])).2) (N.length.getD i .nan) = .ok R) :
    ∃ Rs, nearbyChain sp N pmax d p q = .ok Rs ∧ Rs.length = out.length ∧ ∀ i < out.length, ∀ R,
      retrieveLink sp q i (N.pmin.getD i []) (pmax.getD i []) ((out.getD i ([], [])).1)
      ((out.getD i ([], [])).2) (N.length.getD i .nan) = .ok R → Rs[i]? = some R := by
  classical
  choose g hg using h
  refine ⟨(List.range out.length).map fun i => if hi : i < out.length then g i hi else [], ?_, by simp, ?_⟩
  · unfold nearbyChain
    rw [ho]
    simp only [bind, Except.bind]
    apply mapM_ok_eq
    intro i hi
    have hi' : i < out.length := by simpa using hi
    rw [hg i hi', dif_pos hi']
  · intro i hi R hR
    rw [List.getElem?_map, List.getElem?_range hi, Option.map_some, dif_pos hi]
    rw [hg i hi] at hR
    rw [Except.ok.inj hR]

/-- all rows of the classification have the length of the series -/
theorem nearby_rows_length {N : Net (Fl ℝ) Id} {d : Nearby.Dist (Fl ℝ) Id} {p : Params (Fl ℝ)} (c : Consistent N d p) :
    ∃ out, nearby_wetdry N d p = .ok out ∧ out.length = N.ids.length ∧
      ∀ i < N.ids.length, ∃ w F, out[i]? = some (w, F) ∧ w.length = N.T ∧ F.length = N.T := by
  obtain ⟨out, ho, hl, hrow⟩ := nearby_ok c
  refine ⟨out, ho, hl, fun i hi => ?_⟩
  have hr := hrow i hi
  split_ifs at hr with hm
  · refine ⟨_, _, hr, by simp [smear, smearStep, rowRule], ?_⟩
    unfold rowF dPLs deltaPL
    rw [List.length_map, length_rolling, List.length_zipWith, List.getD_eq_getElem?_getD, List.getElem?_zipWith,
      List.getElem?_eq_getElem (by rw [c.pmin]; exact hi), List.getElem?_eq_getElem (by rw [c.len]; exact hi)]
    simp only [Option.getD_some, List.length_map, length_deltaP, List.length_range]
    rw [c.times _ (List.getElem_mem _), Nat.min_self]
  · exact ⟨_, _, hr, by simp, by simp⟩

variable {N N' : Net (Fl ℝ) Id} {d d' : Nearby.Dist (Fl ℝ) Id} {p : Params (Fl ℝ)}

/-- **C129** The rain rate that the whole nearby pipeline gives for link `i` at a step depends only on the links within the radius and
on the last `m` steps (the averaging time of the reference level and the `4 * timeperiod` steps of the outlier filter) plus one
look-back period before and two steps after. So a network can be processed in overlapping pieces, and each link with only the links
within the radius. -/
theorem C129_rain (sp : KR.Spline) (q : RetrievalParams) (a b : Nat → Fl ℝ) {pmax pmax' : List (List (Fl ℝ))} {i off t m : Nat}
    (h : PieceFor N N' d d' p i off (t + 1 - m - p.timeperiod * 60 / p.interval) (t + 2)) (c : Consistent N d p)
    (c' : Consistent N' d' p) (hper : 0 < p.timeperiod * 60 / p.interval) (hi : i < N.ids.length)
    (hq : ∀ j, q.f_GHz j = none ∧ q.pol j = none ∧ q.a j = some [a j] ∧ q.b j = some [b j])
    (hmax : pmax.length = N.ids.length ∧ ∀ xs ∈ pmax, xs.length = N.T)
    (hmax' : pmax'.length = N'.ids.length ∧ ∀ xs ∈ pmax', xs.length = N'.T) (hn : 0 < q.nAverageDry)
    (hm1 : q.nAverageDry ≤ m) (hm2 : 4 * p.timeperiod ≤ m + 1) (h0 : off = 0 ∨ m + p.timeperiod * 60 / p.interval ≤ t + 1)
    (e : ∀ s, t < s + q.nAverageDry → s ≤ t → (pmax.getD i [])[off + s]? = (pmax'.getD i [])[s]?) :
    ∃ Rs Rs' R R', nearbyChain sp N pmax d p q = .ok Rs ∧ nearbyChain sp N' pmax' d' p q = .ok Rs' ∧ Rs[i]? = some R ∧
      Rs'[i]? = some R' ∧ R.length = N.T ∧ R'.length = N'.T ∧ R[off + t]? = R'[t]? := by
  obtain ⟨out, ho, hl, hrow⟩ := nearby_rows_length c
  obtain ⟨out', ho', hl', hrow'⟩ := nearby_rows_length c'
  have hi' : i < N'.ids.length := by rw [h.ids]; exact hi
  have b1 := h.hiN
  have b2 := h.hiN'
  have lmax : ∀ j < N.ids.length, (pmax.getD j []).length = N.T := fun j hj => by
    rw [List.getD_eq_getElem?_getD, List.getElem?_eq_getElem (by omega), Option.getD_some]
    exact hmax.2 _ (List.getElem_mem _)
  have lmax' : ∀ j < N'.ids.length, (pmax'.getD j []).length = N'.T := fun j hj => by
    rw [List.getD_eq_getElem?_getD, List.getElem?_eq_getElem (by omega), Option.getD_some]
    exact hmax'.2 _ (List.getElem_mem _)
  have lmin : ∀ j < N.ids.length, (N.pmin.getD j []).length = N.T := fun j hj => getD_len c.times (by rw [c.pmin]; exact hj)
  have lmin' : ∀ j < N'.ids.length, (N'.pmin.getD j []).length = N'.T := fun j hj => getD_len c'.times (by rw [c'.pmin]; exact hj)
  obtain ⟨Rs, hRs, -, hR⟩ := nearbyChain_ok sp (pmax := pmax) (q := q) ho (by
    intro j hj
    rw [hl] at hj
    obtain ⟨w, F, hwF, hw, hF⟩ := hrow j hj
    obtain ⟨q1, q2, q3, q4⟩ := hq j
    rw [show out.getD j ([], []) = (w, F) by rw [List.getD_eq_getElem?_getD, hwF]; rfl]
    obtain ⟨R, -, h1, -⟩ := retrieveLink_local sp q (off := 0) (t := 0) q1 q2 q3 q4 (lmin j hj) (lmax j hj) hw hF (lmin j hj)
      (lmax j hj) hw hF hn (Or.inl rfl) (by omega) (by omega) (fun s _ _ => by simp) (by simp) (L := N.length.getD j .nan)
    exact ⟨R, h1⟩)
  obtain ⟨Rs', hRs', -, hR'⟩ := nearbyChain_ok sp (pmax := pmax') (q := q) ho' (by
    intro j hj
    rw [hl'] at hj
    obtain ⟨w, F, hwF, hw, hF⟩ := hrow' j hj
    obtain ⟨q1, q2, q3, q4⟩ := hq j
    rw [show out'.getD j ([], []) = (w, F) by rw [List.getD_eq_getElem?_getD, hwF]; rfl]
    obtain ⟨R, -, h1, -⟩ := retrieveLink_local sp q (off := 0) (t := 0) q1 q2 q3 q4 (lmin' j hj) (lmax' j hj) hw hF (lmin' j hj)
      (lmax' j hj) hw hF hn (Or.inl rfl) (by omega) (by omega) (fun s _ _ => by simp) (by simp) (L := N'.length.getD j .nan)
    exact ⟨R, h1⟩)
  obtain ⟨w, F, hwF, hw, hF⟩ := hrow i hi
  obtain ⟨w', F', hwF', hw', hF'⟩ := hrow' i hi'
  obtain ⟨q1, q2, q3, q4⟩ := hq i
  have hself : i ∈ nbrs N d p i := List.mem_filter.mpr ⟨by simpa using hi, c.own i hi⟩
  have eL : N'.length.getD i .nan = N.length.getD i .nan := by
    rw [List.getD_eq_getElem?_getD, List.getD_eq_getElem?_getD, h.len i hself]
  have sub : ∀ s, t < s + q.nAverageDry → s ≤ t → rd w (off + s) = rd w' s := by
    intro s s1 s2
    obtain ⟨o, o', v, G, v', G', k1, k2, k3, k4, -, -, k5⟩ := C129_wet (t := s) (h.mono (by omega) (by omega)) c c' hper hi (by omega)
    rw [ho] at k1; obtain rfl := Except.ok.inj k1
    rw [ho'] at k2; obtain rfl := Except.ok.inj k2
    rw [hwF] at k3; obtain ⟨rfl, rfl⟩ := Prod.mk.inj (Option.some.inj k3)
    rw [hwF'] at k4; obtain ⟨rfl, rfl⟩ := Prod.mk.inj (Option.some.inj k4)
    rw [getElem?_eq_rd (by omega), getElem?_eq_rd (by omega)] at k5
    exact Option.some.inj k5
  have eF : rd F (off + t) = rd F' t := by
    obtain ⟨o, o', v, G, v', G', k1, k2, k3, k4, -, -, k5⟩ := C129_F (t := t) (h.mono (by omega) (by omega)) c c' hper hi (by omega)
    rw [ho] at k1; obtain rfl := Except.ok.inj k1
    rw [ho'] at k2; obtain rfl := Except.ok.inj k2
    rw [hwF] at k3; obtain ⟨rfl, rfl⟩ := Prod.mk.inj (Option.some.inj k3)
    rw [hwF'] at k4; obtain ⟨rfl, rfl⟩ := Prod.mk.inj (Option.some.inj k4)
    rw [getElem?_eq_rd (by omega), getElem?_eq_rd (by omega)] at k5
    exact Option.some.inj k5
  obtain ⟨R, R', u1, u2, u3, u4, u5⟩ := retrieveLink_local sp q (off := off) (t := t) q1 q2 q3 q4 (lmin i hi) (lmax i hi) hw hF
    (lmin' i hi') (lmax' i hi') hw' hF' hn (by omega) (by omega) (by omega) (fun s s1 s2 => by
      have v1 := h.data i hself s (by omega) (by omega)
      have v2 := e s s1 s2
      rw [getElem?_eq_rd (by rw [lmin i hi]; omega), getElem?_eq_rd (by rw [lmin' i hi']; omega)] at v1
      rw [getElem?_eq_rd (by rw [lmax i hi]; omega), getElem?_eq_rd (by rw [lmax' i hi']; omega)] at v2
      exact ⟨Option.some.inj v1, Option.some.inj v2, sub s s1 s2⟩) eF (L := N.length.getD i .nan)
  refine ⟨Rs, Rs', R, R', hRs, hRs', hR i (by omega) R ?_, hR' i (by omega) R' ?_, u3, u4, u5⟩
  · rw [show out.getD i ([], []) = (w, F) by rw [List.getD_eq_getElem?_getD, hwF]; rfl]
    exact u1
  · rw [show out'.getD i ([], []) = (w', F') by rw [List.getD_eq_getElem?_getD, hwF']; rfl, eL]
    exact u2

/-- one link with its levels -/
def oneNet (xs : List (Fl ℝ)) : Net (Fl ℝ) Nat := ⟨[7], [.fin 2], [xs]⟩

/-- distance of the link to itself -/
def oneDist : Nearby.Dist (Fl ℝ) Nat := ⟨[7], [[.fin 0]], [[.fin 0]], [[.fin 0]], [[.fin 0]]⟩

/-- hourly levels and a look-back period of one hour -/
def oneParams : Params (Fl ℝ) := ⟨.fin 5, .fin (-1), .fin (-1), 0, 60, 1, 1⟩

theorem one_consistent (xs : List (Fl ℝ)) (hx : 4 ≤ xs.length) : Consistent (oneNet xs) oneDist oneParams where
  nodup := by simp [oneNet]
  same := rfl
  aa := by simp [Square, oneNet, oneDist]
  ab := by simp [Square, oneNet, oneDist]
  ba := by simp [Square, oneNet, oneDist]
  bb := by simp [Square, oneNet, oneDist]
  pmin := rfl
  len := rfl
  times := by simp [oneNet, Net.T]
  own := by
    intro i hi
    have : i = 0 := by simpa [oneNet] using hi
    subst this
    simp [near, oneDist, oneParams, at2, rd]
  interval := by decide
  need := by decide
  need_le := by decide
  period_le := by simp [oneNet, Net.T, oneParams]; omega
  F_le := by simpa [oneNet, Net.T, oneParams] using hx

/-- step 3 of the piece that starts at step 1 is step 4 of the whole series -/
example (sp : KR.Spline) (xs ys : List (Fl ℝ)) (hx : xs.length = 8) (hy : ys.length = 8) :
    ∃ Rs Rs' R R',
      nearbyChain sp (oneNet xs) [ys] oneDist oneParams ⟨3, 1, fun _ => none, fun _ => none, fun _ => some [.fin 1],
        fun _ => some [.fin 1], "pchip", .fin 0, .fin (1/3), some (.fin (-32))⟩ = .ok Rs ∧
      nearbyChain sp (oneNet (xs.drop 1)) [ys.drop 1] oneDist oneParams ⟨3, 1, fun _ => none, fun _ => none,
        fun _ => some [.fin 1], fun _ => some [.fin 1], "pchip", .fin 0, .fin (1/3), some (.fin (-32))⟩ = .ok Rs' ∧
      Rs[0]? = some R ∧ Rs'[0]? = some R' ∧ R.length = (oneNet xs).T ∧ R'.length = (oneNet (xs.drop 1)).T ∧ R[1 + 3]? = R'[3]? := by
  have T1 : (oneNet xs).T = 8 := by simpa [oneNet, Net.T] using hx
  have T2 : (oneNet (xs.drop 1)).T = 7 := by simp [oneNet, Net.T, hx]
  refine C129_rain sp _ (fun _ => .fin 1) (fun _ => .fin 1) (m := 3) ⟨rfl, fun _ _ => rfl, fun _ _ => rfl, ?_, by omega, by omega⟩
    (one_consistent xs (by omega)) (one_consistent _ (by simp [hx])) (by decide) (by simp [oneNet]) (fun _ => ⟨rfl, rfl, rfl, rfl⟩) ⟨rfl, ?_⟩ ⟨rfl, ?_⟩ (by decide)
    (by decide) (by decide) (Or.inr (by decide)) ?_
  · intro j hj s _ _
    have : j = 0 := by simpa [oneNet] using mem_nbrs_lt hj
    subst this
    simp [oneNet, Nat.add_comm]
  · simp [T1, hy]
  · rw [T2]; simp [hy]
  · intro s _ _
    simp [Nat.add_comm]

end
end Verif.Props
