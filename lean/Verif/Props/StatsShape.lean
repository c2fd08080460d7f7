import Verif.Props.StatsRain
import Mathlib.Tactic.Ring

/-!
# Property C117: performance metrics of arrays with several dimensions
-/

namespace Verif.Props
open Verif Verif.Stats

section shape
variable {F : Type} [PyFloat F] [PySqrt F]

/-- **C117** `calc_wet_dry_performance_metrics` for arrays of any shape: different shapes raise `AssertionError` (also if
the numbers of elements agree), numbers without dimensions raise `TypeError`, and otherwise the result is that of the flattened
arrays except for `N_all_pairs`, which is the length of the first dimension. -/
theorem C117_wet_dry (isInf : F → Bool) (r p : Arr F) :
    (r.shape ≠ p.shape → calcWetDryPerformanceMetricsArr isInf r p = .error .assertionError) ∧
    (r.shape = [] → p.shape = [] → calcWetDryPerformanceMetricsArr isInf r p = .error .typeError) ∧
    (∀ n s, r.shape = n :: s → p.shape = n :: s → r.data.length = (n :: s).prod → p.data.length = (n :: s).prod →
      ∃ e, calcWetDryPerformanceMetrics isInf r.data p.data = .ok e ∧ e.counts.nAllPairs = (n :: s).prod ∧
        calcWetDryPerformanceMetricsArr isInf r p = .ok { e with counts := { e.counts with nAllPairs := n } }) := by
  refine ⟨fun h => ?_, fun h h' => ?_, fun n s h h' hr hp => ?_⟩
  · unfold calcWetDryPerformanceMetricsArr wetDryCountsArr
    rw [if_pos h]; rfl
  · unfold calcWetDryPerformanceMetricsArr wetDryCountsArr Arr.len
    rw [if_neg (by rw [h, h']; simp), h]; rfl
  · unfold calcWetDryPerformanceMetrics calcWetDryPerformanceMetricsArr wetDryCountsArr Arr.len
    rw [if_neg (by simp [Arr.of, hr, hp]), if_neg (by rw [h, h']; simp), h]
    exact ⟨_, rfl, hr, rfl⟩

/-- **C117** The same for `calc_rain_error_performance_metrics`. -/
theorem C117_rain (sum : List F → F) (dot : List F → List F → F) (r p : Arr F) (thr : F) :
    (r.shape ≠ p.shape → rainErrorArr sum dot r p thr = .error .assertionError) ∧
    (r.shape = [] → p.shape = [] → rainErrorArr sum dot r p thr = .error .typeError) ∧
    (∀ n s, r.shape = n :: s → p.shape = n :: s → r.data.length = (n :: s).prod → p.data.length = (n :: s).prod →
      ∃ e, rainErrorArr sum dot (.of r.data) (.of p.data) thr = .ok e ∧ e.nAllPairs = (n :: s).prod ∧
        rainErrorArr sum dot r p thr = .ok { e with nAllPairs := n }) := by
  refine ⟨fun h => ?_, fun h h' => ?_, fun n s h h' hr hp => ?_⟩
  · unfold rainErrorArr
    rw [if_pos h]
  · unfold rainErrorArr Arr.len
    rw [if_neg (by rw [h, h']; simp), h]; rfl
  · unfold rainErrorArr Arr.len
    rw [if_neg (by simp [Arr.of, hr, hp]), if_neg (by rw [h, h']; simp), h]
    exact ⟨_, rfl, hr, rfl⟩

/-- **C117** So `N_all_pairs` is the number of pairs exactly if the other dimensions have length 1 (or there is no data at
all): in general the counts of C40 do not add up to it, but to the number of array elements. -/
theorem C117_all_pairs (isInf : F → Bool) (r p : Arr F) (n : Nat) (s : List Nat) (hr : r.shape = n :: s)
    (hp : p.shape = n :: s) (hrd : r.data.length = (n :: s).prod) (hpd : p.data.length = (n :: s).prod) :
    ∃ e, calcWetDryPerformanceMetricsArr isInf r p = .ok e ∧
      e.counts.nTp + e.counts.nFn + e.counts.nTn + e.counts.nFp + e.counts.nNanPairs = (n :: s).prod ∧
      (e.counts.nTp + e.counts.nFn + e.counts.nTn + e.counts.nFp + e.counts.nNanPairs = e.counts.nAllPairs ↔
        n = 0 ∨ s.prod = 1) := by
  obtain ⟨e, he, ha, hA⟩ := (C117_wet_dry isInf r p).2.2 n s hr hp hrd hpd
  have h := (C40_counts_partition isInf r.data p.data e he).2.2.1
  refine ⟨_, hA, ?_, ?_⟩
  · dsimp only; rw [h, ha]
  · dsimp only
    rw [h, ha, List.prod_cons]
    constructor
    · intro hn
      rcases Nat.eq_zero_or_pos n with h0 | h0
      · exact .inl h0
      · exact .inr (Nat.eq_of_mul_eq_mul_left h0 (by rw [hn, mul_one]))
    · rintro (h0 | h0)
      · rw [h0, zero_mul]
      · rw [h0, mul_one]

/-- **C117** Reshaping both arrays (same elements in the same order) changes nothing but `N_all_pairs`. -/
theorem C117_reshape (sum : List F → F) (dot : List F → List F → F) (isInf : F → Bool) (x y : List F) (thr : F) (n n' : Nat) (s s' : List Nat)
    (hx : x.length = (n :: s).prod) (hy : y.length = (n :: s).prod) (h' : (n :: s).prod = (n' :: s').prod) :
    (∃ e, rainErrorArr sum dot ⟨n :: s, x⟩ ⟨n :: s, y⟩ thr = .ok e ∧
      rainErrorArr sum dot ⟨n' :: s', x⟩ ⟨n' :: s', y⟩ thr = .ok { e with nAllPairs := n' }) ∧
    (∃ e, calcWetDryPerformanceMetricsArr isInf ⟨n :: s, x⟩ ⟨n :: s, y⟩ = .ok e ∧
      calcWetDryPerformanceMetricsArr isInf ⟨n' :: s', x⟩ ⟨n' :: s', y⟩ =
        .ok { e with counts := { e.counts with nAllPairs := n' } }) := by
  constructor
  · obtain ⟨e, h1, -, h2⟩ := (C117_rain sum dot ⟨n :: s, x⟩ ⟨n :: s, y⟩ thr).2.2 n s rfl rfl hx hy
    obtain ⟨e', h3, -, h4⟩ := (C117_rain sum dot ⟨n' :: s', x⟩ ⟨n' :: s', y⟩ thr).2.2 n' s' rfl rfl (hx.trans h') (hy.trans h')
    obtain rfl : e = e' := Except.ok.inj (h1.symm.trans h3)
    exact ⟨_, h2, h4⟩
  · obtain ⟨e, h1, -, h2⟩ := (C117_wet_dry isInf ⟨n :: s, x⟩ ⟨n :: s, y⟩).2.2 n s rfl rfl hx hy
    obtain ⟨e', h3, -, h4⟩ := (C117_wet_dry isInf ⟨n' :: s', x⟩ ⟨n' :: s', y⟩).2.2 n' s' rfl rfl (hx.trans h') (hy.trans h')
    obtain rfl : e = e' := Except.ok.inj (h1.symm.trans h3)
    exact ⟨_, h2, h4⟩

end shape

/-- Elements of the transposed array, for a matrix with `n` rows and `m` columns in C order. -/
def transposeData {α : Type} (n m : Nat) (d : List α) : List α :=
  ((List.range m).product (List.range n)).filterMap fun ji => d[ji.2 * m + ji.1]?

theorem filterMap_range_id {α : Type} (d : List α) : (List.range d.length).filterMap (fun k => d[k]?) = d := by
  induction d with
  | nil => rfl
  | cons a d ih =>
    rw [List.length_cons, List.range_succ_eq_map, List.filterMap_cons, List.filterMap_map]
    simp only [List.getElem?_cons_zero, Function.comp_def, List.getElem?_cons_succ, ih]

/-- Transposing only changes the order of the elements. -/
theorem transposeData_perm {α : Type} (n m : Nat) (d : List α) (h : d.length = n * m) : (transposeData n m d).Perm d := by
  have e : transposeData n m d =
      (((List.range m).product (List.range n)).map fun ji => ji.2 * m + ji.1).filterMap fun k => d[k]? := by
    unfold transposeData; rw [List.filterMap_map]; rfl
  rw [e]
  conv_rhs => rw [← filterMap_range_id d]
  apply List.Perm.filterMap
  rw [List.perm_ext_iff_of_nodup]
  · intro k
    rw [List.mem_map, List.mem_range, h]
    constructor
    · rintro ⟨⟨j, i⟩, hm, rfl⟩
      rw [List.pair_mem_product, List.mem_range, List.mem_range] at hm
      dsimp only
      calc i * m + j < i * m + m := by omega
        _ = (i + 1) * m := by ring
        _ ≤ n * m := Nat.mul_le_mul_right m (by omega)
    · intro hk
      have hm : 0 < m := Nat.pos_of_ne_zero fun h0 => by rw [h0, mul_zero] at hk; exact absurd hk (Nat.not_lt_zero _)
      refine ⟨(k % m, k / m), ?_, Nat.div_add_mod' k m⟩
      rw [List.pair_mem_product, List.mem_range, List.mem_range]
      exact ⟨Nat.mod_lt _ hm, (Nat.div_lt_iff_lt_mul hm).mpr hk⟩
  · refine List.Nodup.map_on ?_ (List.Nodup.product List.nodup_range List.nodup_range)
    rintro ⟨j, i⟩ h1 ⟨j', i'⟩ h2 hk
    rw [List.pair_mem_product, List.mem_range, List.mem_range] at h1 h2
    dsimp only at hk h1 h2
    have hm : 0 < m := by omega
    have q : i = i' := by
      have a1 : (i * m + j) / m = i := by rw [Nat.mul_comm, Nat.mul_add_div hm, Nat.div_eq_of_lt h1.1, add_zero]
      have a2 : (i' * m + j') / m = i' := by rw [Nat.mul_comm, Nat.mul_add_div hm, Nat.div_eq_of_lt h2.1, add_zero]
      rw [← a1, ← a2, hk]
    subst q
    have : j = j' := by omega
    rw [this]
  · exact List.nodup_range

theorem transposeData_zip {α β : Type} (n m : Nat) (x : List α) (y : List β) (hx : x.length = n * m) (hy : y.length = n * m) :
    (transposeData n m x).zip (transposeData n m y) = transposeData n m (x.zip y) := by
  unfold transposeData
  have hmem : ∀ ji ∈ (List.range m).product (List.range n), ji.2 * m + ji.1 < n * m := by
    rintro ⟨j, i⟩ hm
    rw [List.pair_mem_product, List.mem_range, List.mem_range] at hm
    dsimp only
    calc i * m + j < i * m + m := by omega
      _ = (i + 1) * m := by ring
      _ ≤ n * m := Nat.mul_le_mul_right m (by omega)
  generalize (List.range m).product (List.range n) = l at hmem
  induction l with
  | nil => rfl
  | cons a l ih =>
    have ha := hmem a (by simp)
    rw [List.filterMap_cons_some (by rw [List.getElem?_eq_getElem (by rw [hx]; exact ha)]),
      List.filterMap_cons_some (by rw [List.getElem?_eq_getElem (by rw [hy]; exact ha)]),
      List.filterMap_cons_some (by rw [List.getElem?_eq_getElem (by rw [List.length_zip, hx, hy, Nat.min_self]; exact ha)]),
      List.zip_cons_cons, ih fun b hb => hmem b (by simp [hb]), List.getElem_zip]

/-- **C117** In exact arithmetic, transposing both arrays (links in rows or links in columns) changes nothing but
`N_all_pairs`. -/
theorem C117_transpose (x y : List (Fl ℝ)) (thr : Fl ℝ) (n m : Nat) (hx : x.length = n * m) (hy : y.length = n * m) :
    (∃ e, rainErrorArr fsum (fun xs ys => fsum (vmul xs ys)) ⟨[n, m], x⟩ ⟨[n, m], y⟩ thr = .ok e ∧
      rainErrorArr fsum (fun xs ys => fsum (vmul xs ys)) ⟨[m, n], transposeData n m x⟩ ⟨[m, n], transposeData n m y⟩ thr =
        .ok { e with nAllPairs := m }) ∧
    (∃ e, calcWetDryPerformanceMetricsArr Fl.isInf ⟨[n, m], x⟩ ⟨[n, m], y⟩ = .ok e ∧
      calcWetDryPerformanceMetricsArr Fl.isInf ⟨[m, n], transposeData n m x⟩ ⟨[m, n], transposeData n m y⟩ =
        .ok { e with counts := { e.counts with nAllPairs := m } }) := by
  have lx := (transposeData_perm n m x hx).length_eq
  have ly := (transposeData_perm n m y hy).length_eq
  have hz : (x.zip y).Perm ((transposeData n m x).zip (transposeData n m y)) := by
    rw [transposeData_zip n m x y hx hy]
    exact (transposeData_perm n m (x.zip y) (by rw [List.length_zip, hx, hy, Nat.min_self])).symm
  have p1 : ([n, m] : List Nat).prod = n * m := by simp
  have p2 : ([m, n] : List Nat).prod = n * m := by simp [mul_comm]
  constructor
  · obtain ⟨e, h1, -, h2⟩ := (C117_rain fsum (fun xs ys => fsum (vmul xs ys)) ⟨[n, m], x⟩ ⟨[n, m], y⟩ thr).2.2 n [m] rfl rfl
      (hx.trans p1.symm) (hy.trans p1.symm)
    obtain ⟨e', h3, -, h4⟩ := (C117_rain fsum (fun xs ys => fsum (vmul xs ys)) ⟨[m, n], transposeData n m x⟩
      ⟨[m, n], transposeData n m y⟩ thr).2.2 m [n] rfl rfl (lx.trans (hx.trans p2.symm)) (ly.trans (hy.trans p2.symm))
    have hp := C43_rain_perm x y (transposeData n m x) (transposeData n m y) thr (hx.trans hy.symm)
      (by rw [lx, ly, hx, hy]) hz
    unfold calcRainErrorPerformanceMetrics at hp
    obtain rfl : e = e' := Except.ok.inj (h1.symm.trans (hp.trans h3))
    exact ⟨_, h2, h4⟩
  · obtain ⟨e, h1, -, h2⟩ := (C117_wet_dry Fl.isInf ⟨[n, m], x⟩ ⟨[n, m], y⟩).2.2 n [m] rfl rfl
      (hx.trans p1.symm) (hy.trans p1.symm)
    obtain ⟨e', h3, -, h4⟩ := (C117_wet_dry Fl.isInf ⟨[m, n], transposeData n m x⟩
      ⟨[m, n], transposeData n m y⟩).2.2 m [n] rfl rfl (lx.trans (hx.trans p2.symm)) (ly.trans (hy.trans p2.symm))
    have hp := C43_wetdry_perm Fl.isInf x y (transposeData n m x) (transposeData n m y) (hx.trans hy.symm)
      (by rw [lx, ly, hx, hy]) hz
    obtain rfl : e = e' := Except.ok.inj (h1.symm.trans (hp.trans h3))
    exact ⟨_, h2, h4⟩

/-- One link with three time steps, two of them with NaN: two NaN pairs out of "one pair in total". -/
example : wetDryCountsArr (F := Fl ℚ) ⟨[1, 3], [.fin 1, .nan, .fin 0]⟩ ⟨[1, 3], [.fin 1, .fin 0, .nan]⟩ =
    .ok ⟨2, 1, 1, 1, 1, 0, 0, 0, 1, 0, 1⟩ := by decide +kernel

/-- A shape mismatch with the same number of elements. -/
example : wetDryCountsArr (F := Fl ℚ) ⟨[1, 2], [.fin 1, .fin 0]⟩ ⟨[2], [.fin 1, .fin 0]⟩ = .error .assertionError := by
  decide +kernel

/-- Hypotheses of C117: two links with three time steps. -/
example : ([Fl.fin 1, .nan, .fin 0, .fin 2, .fin 2, .nan] : List (Fl ℚ)).length = ([2, 3] : List Nat).prod ∧
    transposeData 2 3 [1, 2, 3, 4, 5, 6] = [1, 4, 2, 5, 3, 6] := by decide +kernel

end Verif.Props
