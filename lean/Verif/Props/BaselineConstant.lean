import Verif.Lemmas.BaselineConstant
import Mathlib.Data.Rat.Cast.Order
import Mathlib.Tactic.IntervalCases
import Mathlib.Algebra.Order.Ring.Rat

/-!
# Properties C01-C05: `baseline_constant`

`out[i]?` is the i-th value of the returned array. C01-C03 (first
part) hold for every float type, so also for IEEE doubles with rounding.
-/

namespace Verif.Props
open Verif Verif.Baseline

variable {F : Type} [PyFloat F]

/-- **C01** The baseline has the length of the signal, reproduces the first `n`
samples, and equals the signal at each dry step. -/
theorem C01_constant_dry (trsl : List F) (wet : List Bool) (n : Nat) (hn : 1 ≤ n)
    (hlen : trsl.length ≤ wet.length) :
    ∃ out, baselineConstant trsl wet n = .ok out ∧ out.length = trsl.length ∧
      ∀ i, i < trsl.length → (i < n ∨ wet[i]? = some false) → out[i]? = trsl[i]? := by
  refine ⟨constLoop trsl wet n, ?_, constLoop_length _ _ _, ?_⟩
  · rw [baselineConstant, if_neg (by omega)]
  · intro i hi h
    rw [getElem?_eq_rd (by rw [constLoop_length]; exact hi), getElem?_eq_rd hi]
    by_cases hin : i < n
    · rw [constLoop_init _ _ hin hi]
    · have hw : rdB wet i = false := by
        rcases h with h | h
        · omega
        · simp [rdB, List.getD_eq_getElem?_getD, h]
      rw [constLoop_rec _ _ hn (by omega) hi]
      simp [constVal, hw]

example : baselineConstant [Fl.fin (1:ℚ), .fin 2, .fin 5, .nan, .fin 3]
    [true, false, true, true, false] 2
    = .ok [.fin 1, .fin 2, .fin (3/2), .fin (3/2), .fin 3] := by decide +kernel

/-- A wet event: `wet` is true on all of `[s, i]`. -/
def WetOn (wet : List Bool) (s i : Nat) : Prop := ∀ k, s ≤ k → k ≤ i → wet[k]? = some true

/-- **C02** (event after the initial window) From the start `s` of a wet event to every
step `i` of it the baseline is the mean of the `n` baseline values before `s`. -/
theorem C02_constant_wet (trsl : List F) (wet : List Bool) (n : Nat) (hn : 1 ≤ n)
    (hlen : trsl.length ≤ wet.length) (out : List F)
    (hout : baselineConstant trsl wet n = .ok out)
    (s i : Nat) (hs : n ≤ s) (hsi : s ≤ i) (hi : i < trsl.length)
    (hdry : wet[s-1]? = some false) (hwet : WetOn wet s i) :
    out[i]? = some (npMean ((out.drop (s - n)).take n)) := by
  rw [baselineConstant, if_neg (by omega)] at hout
  obtain rfl : constLoop trsl wet n = out := by injection hout
  have hsl : (List.drop (s - n) (constLoop trsl wet n)).take n
      = slice (constLoop trsl wet n) (s - n) s := by
    unfold slice
    rw [List.take_drop]
    congr 2
    omega
  rw [hsl, getElem?_eq_rd (by rw [constLoop_length]; exact hi)]
  congr 1
  induction i, hsi using Nat.le_induction with
  | base =>
    have h1 : rdB wet s = true := by
      simp [rdB, List.getD_eq_getElem?_getD, hwet s (Nat.le_refl _) (Nat.le_refl _)]
    have h2 : rdB wet (s-1) = false := by simp [rdB, List.getD_eq_getElem?_getD, hdry]
    rw [constLoop_rec _ _ hn hs hi]
    have h0 : s ≠ 0 := by omega
    simp [constVal, prevIdx, h0, h1, h2]
  | succ k hk ih =>
    have h1 : rdB wet (k+1) = true := by
      simp [rdB, List.getD_eq_getElem?_getD, hwet (k+1) (by omega) (Nat.le_refl _)]
    have h2 : rdB wet k = true := by
      simp [rdB, List.getD_eq_getElem?_getD, hwet k (by omega) (by omega)]
    rw [← ih (by omega) fun j h1 h2 => hwet j h1 (by omega),
      constLoop_rec _ _ hn (by omega) hi]
    simp [constVal, prevIdx, h1, h2]

example : baselineConstant [Fl.fin (1:ℚ), .fin 3, .fin 9, .fin 9] [false, false, true, true] 2
      = .ok [.fin 1, .fin 3, .fin 2, .fin 2] ∧
    ([false, false, true, true][2-1]? = some false) ∧ WetOn [false, false, true, true] 2 3 := by
  refine ⟨by decide +kernel, rfl, ?_⟩
  intro k h1 h2
  interval_cases k <;> rfl

/-- **C02** (event that already covers the end of the initial window) The baseline
stays at the signal value of step `n-1`. -/
theorem C02_constant_wet_from_start (trsl : List F) (wet : List Bool) (n : Nat) (hn : 1 ≤ n)
    (hlen : trsl.length ≤ wet.length) (out : List F)
    (hout : baselineConstant trsl wet n = .ok out)
    (i : Nat) (hsi : n ≤ i) (hi : i < trsl.length) (hwet : WetOn wet (n-1) i) :
    out[i]? = trsl[n-1]? := by
  rw [baselineConstant, if_neg (by omega)] at hout
  obtain rfl : constLoop trsl wet n = out := by injection hout
  rw [getElem?_eq_rd (by rw [constLoop_length]; exact hi), getElem?_eq_rd (by omega)]
  congr 1
  have key : ∀ i, n - 1 ≤ i → i < trsl.length → WetOn wet (n-1) i →
      rd (constLoop trsl wet n) i = rd trsl (n-1) := by
    intro i hle
    induction i, hle using Nat.le_induction with
    | base => intro hi _; exact constLoop_init _ _ (by omega) hi
    | succ k hk ih =>
      intro hi hwet
      have h1 : rdB wet (k+1) = true := by
        simp [rdB, List.getD_eq_getElem?_getD, hwet (k+1) (by omega) (Nat.le_refl _)]
      have h2 : rdB wet k = true := by
        simp [rdB, List.getD_eq_getElem?_getD, hwet k (by omega) (by omega)]
      rw [← ih (by omega) fun j h1 h2 => hwet j h1 (by omega),
        constLoop_rec _ _ hn (by omega) hi]
      simp [constVal, prevIdx, h1, h2]
  exact key i (by omega) hi hwet

example : baselineConstant [Fl.fin (1:ℚ), .fin 3, .fin 9, .fin 9] [false, true, true, false] 2
      = .ok [.fin 1, .fin 3, .fin 3, .fin 9] ∧ WetOn [false, true, true, false] (2-1) 2 := by
  refine ⟨by decide +kernel, ?_⟩
  intro k h1 h2
  interval_cases k <;> rfl

section exact_numbers
variable {K : Type} [Field K] [LinearOrder K] [IsStrictOrderedRing K]

/-- **C02** (numbers) When the `n` baseline values before the event are the
numbers `ys`, the level during the event is their arithmetic mean. -/
theorem C02_constant_mean (trsl : List (Fl K)) (wet : List Bool) (n : Nat) (hn : 1 ≤ n)
    (hlen : trsl.length ≤ wet.length) (out : List (Fl K))
    (hout : baselineConstant trsl wet n = .ok out)
    (s i : Nat) (hs : n ≤ s) (hsi : s ≤ i) (hi : i < trsl.length)
    (hdry : wet[s-1]? = some false) (hwet : WetOn wet s i)
    (ys : List K) (hys : (out.drop (s - n)).take n = ys.map Fl.fin) :
    out[i]? = some (Fl.fin (ys.sum / n)) := by
  rw [C02_constant_wet trsl wet n hn hlen out hout s i hs hsi hi hdry hwet, hys]
  have hl : ys.length = n := by
    have h1 := congrArg List.length hys
    rw [baselineConstant, if_neg (by omega)] at hout
    obtain rfl : constLoop trsl wet n = out := by injection hout
    simp only [List.length_take, List.length_drop, List.length_map, constLoop_length] at h1
    omega
  rw [npMean_map_fin (by omega), hl]

/-- **C02** (default `n_average_last_dry = 1`) During a wet event the baseline is the last dry
signal value, whatever that value is. -/
theorem C02_constant_last_dry (trsl : List (Fl K)) (wet : List Bool)
    (hlen : trsl.length ≤ wet.length) (out : List (Fl K))
    (hout : baselineConstant trsl wet 1 = .ok out)
    (s i : Nat) (hs : 1 ≤ s) (hsi : s ≤ i) (hi : i < trsl.length)
    (hdry : wet[s-1]? = some false) (hwet : WetOn wet s i) :
    out[i]? = trsl[s-1]? := by
  obtain ⟨out', ho, hl, hd⟩ := C01_constant_dry trsl wet 1 le_rfl hlen
  obtain rfl : out' = out := by rw [ho] at hout; injection hout
  rw [C02_constant_wet trsl wet 1 le_rfl hlen out' hout s i hs hsi hi hdry hwet,
    ← hd (s-1) (by omega) (Or.inr hdry)]
  have h1 : s - 1 < out'.length := by omega
  rw [List.getElem?_eq_getElem h1]
  congr 1
  have : (out'.drop (s-1)).take 1 = [out'[s-1]] := by
    rw [List.drop_eq_getElem_cons h1]; rfl
  rw [this, npMean_singleton]

example : baselineConstant [Fl.fin (1:ℚ), .fin 3, .fin 9, .fin 8] [false, false, true, true] 1
      = .ok [.fin 1, .fin 3, .fin 3, .fin 3] := by decide +kernel

end exact_numbers

/-- **C02** (`n_average_last_dry = 0`, a series that is wet throughout) There is no last dry level: numba reads the last
element of the array of zeros for the step before the first one, and the whole baseline is 0. -/
theorem C02_constant_no_average_all_wet (trsl : List F) (wet : List Bool) (hlen : trsl.length ≤ wet.length)
    (hwet : ∀ w ∈ wet, w = true) :
    baselineConstant trsl wet 0 = .ok (List.replicate trsl.length (PyFloat.ofInt 0)) := by
  rw [baselineConstant, if_neg (by omega)]
  congr 1
  have hz : ∀ m, m ≤ trsl.length →
      constArr trsl wet 0 m = List.replicate trsl.length (PyFloat.ofInt 0) := by
    intro m hm
    induction m with
    | zero =>
      unfold constArr
      rw [forRange_empty _ _ (Nat.le_refl 0)]
      apply List.ext_getElem?
      intro j
      rw [getElem?_setSlice (by simp)]
      simp [List.getElem?_replicate]
    | succ m ih =>
      have hw : ∀ j, j < wet.length → rdB wet j = true := by
        intro j hj
        unfold rdB
        rw [List.getD_eq_getElem?_getD, List.getElem?_eq_getElem hj]
        exact hwet _ (List.getElem_mem _)
      have h1 : rdB wet m = true := hw m (by omega)
      have h2 : rdB wet (prevIdx wet.length m) = true := by
        apply hw
        unfold prevIdx
        split_ifs <;> omega
      rw [constArr_succ _ _ (Nat.zero_le m), ih (by omega)]
      have h3 : constVal trsl wet 0 m (List.replicate trsl.length (PyFloat.ofInt 0)) = PyFloat.ofInt 0 := by
        unfold constVal
        rw [h1, h2]
        simp only [Bool.not_true, Bool.and_false, Bool.and_self, Bool.false_eq_true, if_false, if_true]
        unfold rd prevIdx
        rw [List.length_replicate, List.getD_eq_getElem?_getD,
          List.getElem?_eq_getElem (by rw [List.length_replicate]; split_ifs <;> omega), List.getElem_replicate]
        rfl
      rw [h3]
      apply List.ext_getElem?
      intro j
      rw [List.getElem?_set]
      simp only [List.length_replicate, List.getElem?_replicate]
      split_ifs <;> first | rfl | omega
  exact hz _ (Nat.le_refl _)

example : baselineConstant [Fl.fin (1:ℚ), .fin 2, .fin 5] [true, true, true] 0
    = .ok [.fin 0, .fin 0, .fin 0] := by decide +kernel

/-- **C03** (causality) If two calls agree on signal and flags before step `m`, their
baselines agree before step `m`. Holds for every float type. -/
theorem C03_constant_causal (trsl trsl' : List F) (wet wet' : List Bool) (n m : Nat) (hn : 1 ≤ n)
    (hlen : trsl.length ≤ wet.length) (hlen' : trsl'.length ≤ wet'.length)
    (hm : m ≤ trsl.length) (hm' : m ≤ trsl'.length)
    (ht : trsl.take m = trsl'.take m) (hw : wet.take m = wet'.take m)
    (out out' : List F) (hout : baselineConstant trsl wet n = .ok out)
    (hout' : baselineConstant trsl' wet' n = .ok out') :
    out.take m = out'.take m := by
  rw [baselineConstant, if_neg (by omega)] at hout hout'
  obtain rfl : constLoop trsl wet n = out := by injection hout
  obtain rfl : constLoop trsl' wet' n = out' := by injection hout'
  have key := constLoop_rel (fun a b : F => a = b) hn hm hm' (wet := wet) (wet' := wet')
    (fun i hi => by
      have h1 : (wet.take m)[i]? = (wet'.take m)[i]? := by rw [hw]
      rw [List.getElem?_take_of_lt hi, List.getElem?_take_of_lt hi] at h1
      simp [rdB, List.getD_eq_getElem?_getD, h1])
    (fun i hi => rd_eq_of_take_eq ht hi)
    (fun l l' hl hl' h => by
      have : l = l' := by
        apply List.ext_getElem?
        intro j
        by_cases hj : j < n
        · rw [getElem?_eq_rd (by omega), getElem?_eq_rd (by omega), h j hj]
        · rw [List.getElem?_eq_none (by omega), List.getElem?_eq_none (by omega)]
      rw [this])
  apply List.ext_getElem?
  intro j
  by_cases hj : j < m
  · rw [List.getElem?_take_of_lt hj, List.getElem?_take_of_lt hj,
      getElem?_eq_rd (by rw [constLoop_length]; omega),
      getElem?_eq_rd (by rw [constLoop_length]; omega), key j hj]
  · simp [hj]

example : ([Fl.fin (1:ℚ), .fin 2, .fin 7]).take 2 = ([Fl.fin (1:ℚ), .fin 2, .fin 8]).take 2 ∧
    baselineConstant [Fl.fin (1:ℚ), .fin 2, .fin 7] [false, true, false] 1
      ≠ baselineConstant [Fl.fin (1:ℚ), .fin 2, .fin 8] [false, true, false] 1 := by decide +kernel

section exact_numbers
variable {K : Type} [Field K] [LinearOrder K] [IsStrictOrderedRing K]

theorem sum_bounds {ys : List K} {lo hi : K} (h : ∀ y ∈ ys, lo ≤ y ∧ y ≤ hi) :
    ys.length * lo ≤ ys.sum ∧ ys.sum ≤ ys.length * hi := by
  induction ys with
  | nil => simp
  | cons y ys ih =>
    have h1 := ih fun z hz => h z (List.mem_cons_of_mem _ hz)
    have h2 := h y List.mem_cons_self
    simp only [List.length_cons, List.sum_cons, Nat.cast_add, Nat.cast_one, add_mul, one_mul]
    constructor <;> linarith [h1.1, h1.2, h2.1, h2.2]

/-- **C03** (range) If the signal up to step `k` consists of numbers in `[lo, hi]`, so does the
baseline up to step `k`. -/
theorem C03_constant_range (trsl : List (Fl K)) (wet : List Bool) (n : Nat) (hn : 1 ≤ n)
    (hlen : trsl.length ≤ wet.length) (out : List (Fl K))
    (hout : baselineConstant trsl wet n = .ok out) (lo hi : K) (k : Nat) (hk : k < trsl.length)
    (hr : ∀ i, i ≤ k → ∃ x, trsl[i]? = some (.fin x) ∧ lo ≤ x ∧ x ≤ hi) :
    ∀ i, i ≤ k → ∃ y, out[i]? = some (.fin y) ∧ lo ≤ y ∧ y ≤ hi := by
  rw [baselineConstant, if_neg (by omega)] at hout
  obtain rfl : constLoop trsl wet n = out := by injection hout
  have key := constLoop_rel (F := Fl K) (F' := Fl K)
    (fun a _ => ∃ y, a = Fl.fin y ∧ lo ≤ y ∧ y ≤ hi) hn
    (m := k+1) (trsl := trsl) (trsl' := trsl) (wet := wet) (wet' := wet) hk hk
    (fun _ _ => rfl)
    (fun i hi => by
      obtain ⟨x, hx, hb⟩ := hr i (by omega)
      exact ⟨x, rd_of_getElem? hx, hb⟩)
    (fun l l' hl hl' h => by
      obtain ⟨ys, rfl⟩ := exists_map_fin (l := l) fun j hj => by
        obtain ⟨y, hy, _⟩ := h j (by omega)
        exact ⟨y, hy⟩
      rw [List.length_map] at hl
      have hb : ∀ y ∈ ys, lo ≤ y ∧ y ≤ hi := by
        intro y hy
        obtain ⟨j, hj, rfl⟩ := List.mem_iff_getElem.mp hy
        obtain ⟨z, hz, hzb⟩ := h j (by omega)
        rw [rd_map_fin hj] at hz
        injection hz with hz
        rw [hz]; exact hzb
      have hs := sum_bounds hb
      have hpos : (0:K) < (ys.length : K) := by
        rw [hl]; exact_mod_cast hn
      refine ⟨_, npMean_map_fin (by omega), ?_, ?_⟩
      · rw [le_div_iff₀ hpos]; linarith [hs.1]
      · rw [div_le_iff₀ hpos]; linarith [hs.2])
  intro i hi
  obtain ⟨y, hy, hb⟩ := key i (by omega)
  exact ⟨y, by rw [getElem?_eq_rd (by rw [constLoop_length]; omega), hy], hb⟩

example : ∀ i, i ≤ 2 → ∃ x, ([Fl.fin (1:ℚ), .fin 2, .fin 7, .nan])[i]? = some (.fin x) ∧
    1 ≤ x ∧ x ≤ 7 := by
  intro i hi
  interval_cases i <;> exact ⟨_, rfl, by norm_num, by norm_num⟩

/-- **C04** A NaN flag has exactly the effect of the flag `1.0` (wet). -/
theorem C04_nan_flag_is_wet (trsl wet : List (Fl K)) (n : Nat) :
    baselineConstantF trsl wet n =
      baselineConstantF trsl (wet.map fun w => if isNaN w then Fl.fin 1 else w) n := by
  unfold baselineConstantF
  congr 1
  rw [List.map_map]
  apply List.map_congr_left
  intro w _
  cases w <;> simp [truthy]

/-- **C04** Whatever the flags (NaN anywhere), a signal of numbers has a baseline of numbers: NaN
flags never produce a NaN baseline. -/
theorem C04_no_nan_from_flags (xs : List K) (wet : List (Fl K)) (n : Nat) (hn : 1 ≤ n)
    (hlen : xs.length ≤ wet.length) :
    ∃ ys : List K, baselineConstantF (xs.map Fl.fin) wet n = .ok (ys.map Fl.fin) := by
  unfold baselineConstantF
  rw [baselineConstant, if_neg (by simpa using hlen)]
  have key := constLoop_rel (F := Fl K) (F' := Fl K)
    (fun a _ => ∃ y, a = Fl.fin y) hn
    (m := xs.length) (trsl := xs.map Fl.fin) (trsl' := xs.map Fl.fin)
    (wet := wet.map truthy) (wet' := wet.map truthy) (by simp) (by simp)
    (fun _ _ => rfl)
    (fun i hi => ⟨_, rd_map_fin hi⟩)
    (fun l l' hl hl' h => by
      obtain ⟨ys, rfl⟩ := exists_map_fin (l := l) fun j hj => h j (by omega)
      rw [List.length_map] at hl
      exact ⟨_, npMean_map_fin (by omega)⟩)
  obtain ⟨ys, hys⟩ := exists_map_fin (l := constLoop (xs.map Fl.fin) (wet.map truthy) n)
    fun j hj => key j (by rw [constLoop_length] at hj; simpa using hj)
  exact ⟨ys, by rw [hys]⟩

/-- **C04** The docstring's promise (a NaN flag gives a NaN baseline at that step, for a step after
the initial window) is false. -/
theorem C04_docstring_false :
    ¬ ∀ (trsl wet : List (Fl ℚ)) (n i : Nat) (out : List (Fl ℚ)),
      1 ≤ n → n ≤ i → trsl.length = wet.length → baselineConstantF trsl wet n = .ok out →
      wet[i]? = some .nan → out[i]? = some .nan := by
  intro h
  have := h [.fin 1, .fin 2, .fin 3] [.fin 0, .nan, .fin 0] 1 1 [.fin 1, .fin 1, .fin 3]
    (by decide) (by decide) (by decide) (by decide +kernel) (by decide +kernel)
  exact absurd this (by decide +kernel)

example : baselineConstantF [Fl.fin (1:ℚ), .fin 2, .fin 3] [.fin 0, .nan, .fin 0] 1
    = .ok [.fin 1, .fin 1, .fin 3] := by decide +kernel

/-- **C05** An affine change `c * x + d` of the signal changes the baseline in the same
way; all values stay numbers. -/
theorem C05_constant_affine (xs : List K) (wet : List Bool) (n : Nat) (hn : 1 ≤ n)
    (hlen : xs.length ≤ wet.length) (c d : K) :
    ∃ ys : List K, ys.length = xs.length ∧
      baselineConstant (xs.map Fl.fin) wet n = .ok (ys.map Fl.fin) ∧
      baselineConstant (xs.map fun x => Fl.fin (c * x + d)) wet n
        = .ok (ys.map fun y => Fl.fin (c * y + d)) := by
  rw [baselineConstant, if_neg (by simpa using hlen), baselineConstant,
    if_neg (by simpa using hlen)]
  have hd : xs.map (fun x => Fl.fin (c * x + d)) = (xs.map fun x => c * x + d).map Fl.fin := by
    simp
  have key := constLoop_rel (F := Fl K) (F' := Fl K)
    (fun a b => ∃ y, a = Fl.fin y ∧ b = Fl.fin (c * y + d)) hn
    (m := xs.length) (trsl := xs.map Fl.fin) (trsl' := xs.map fun x => Fl.fin (c * x + d))
    (wet := wet) (wet' := wet) (by simp) (by simp)
    (fun _ _ => rfl)
    (fun i hi => ⟨_, rd_map_fin hi, by rw [hd, rd_map_fin (by simpa using hi)]; simp⟩)
    (fun l l' hl hl' h => by
      obtain ⟨ys, rfl⟩ := exists_map_fin (l := l) fun j hj => by
        obtain ⟨y, hy, _⟩ := h j (by omega)
        exact ⟨y, hy⟩
      rw [List.length_map] at hl
      have hl2 : l' = (ys.map fun y => c * y + d).map Fl.fin := by
        apply List.ext_getElem?
        intro j
        by_cases hj : j < n
        · obtain ⟨y, hy, hy'⟩ := h j hj
          rw [rd_map_fin (by omega)] at hy
          injection hy with hy
          rw [getElem?_eq_rd (by omega), hy', ← hy, getElem?_eq_rd (by simp; omega),
            rd_map_fin (by simp; omega)]
          simp
        · rw [List.getElem?_eq_none (by omega), List.getElem?_eq_none (by simp; omega)]
      refine ⟨_, npMean_map_fin (by omega), ?_⟩
      rw [hl2, npMean_map_fin (by rw [List.length_map]; omega)]
      congr 1
      have hsum : (ys.map fun y => c * y + d).sum = c * ys.sum + ys.length * d := by
        clear hl2 h hl
        induction ys with
        | nil => simp
        | cons y ys ih => simp [ih]; ring
      have hne : (ys.length : K) ≠ 0 := by
        have : ys.length ≠ 0 := by omega
        exact_mod_cast this
      rw [hsum, List.length_map]
      field_simp)
  obtain ⟨ys, hys⟩ := exists_map_fin (l := constLoop (xs.map Fl.fin) wet n)
    fun j hj => by
      obtain ⟨y, hy, _⟩ := key j (by rw [constLoop_length] at hj; simpa using hj)
      exact ⟨y, hy⟩
  have hl : ys.length = xs.length := by
    have := congrArg List.length hys
    rw [constLoop_length] at this
    simpa using this.symm
  refine ⟨ys, hl, by rw [hys], ?_⟩
  congr 1
  apply List.ext_getElem?
  intro j
  by_cases hj : j < xs.length
  · obtain ⟨y, hy, hy'⟩ := key j hj
    rw [hys, rd_map_fin (by omega)] at hy
    injection hy with hy
    rw [getElem?_eq_rd (by rw [constLoop_length]; simpa using hj), hy', ← hy]
    simp [hl, hj]
  · rw [List.getElem?_eq_none (by rw [constLoop_length]; simpa using hj),
      List.getElem?_eq_none (by simp; omega)]

/-- **C05** The attenuation `signal - baseline` does not change under a level offset. -/
theorem C05_attenuation_offset_invariant (xs : List K) (wet : List Bool) (n : Nat) (hn : 1 ≤ n)
    (hlen : xs.length ≤ wet.length) (d : K) (out out' : List (Fl K))
    (hout : baselineConstant (xs.map Fl.fin) wet n = .ok out)
    (hout' : baselineConstant (xs.map fun x => Fl.fin (x + d)) wet n = .ok out') :
    List.zipWith (fun a b : Fl K => a -ᶠ b) (xs.map fun x => Fl.fin (x + d)) out'
      = List.zipWith (fun a b : Fl K => a -ᶠ b) (xs.map Fl.fin) out := by
  obtain ⟨ys, hl, h1, h2⟩ := C05_constant_affine xs wet n hn hlen 1 d
  simp only [one_mul] at h2
  rw [h1] at hout; rw [h2] at hout'
  injection hout with hout; injection hout' with hout'
  subst hout; subst hout'
  rw [List.zipWith_map, List.zipWith_map]
  congr 1
  funext a b
  simp

example : baselineConstant ([(1:ℚ), 3, 9].map fun x => Fl.fin (2 * x + 5))
    [false, false, true] 2 = .ok [.fin 7, .fin 11, .fin 9] := by decide +kernel

end exact_numbers

end Verif.Props
