import Verif.Model.WetAntennaSchleiss
import Verif.Lemmas.FlList
import Mathlib.Data.Rat.Cast.Order
import Mathlib.Tactic.IntervalCases
import Mathlib.Algebra.Order.Ring.Rat
import Mathlib.Tactic.Positivity

/-!
# Properties C13, C14: `waa_schleiss_2013`
-/

namespace Verif.Props
open Verif Verif.Waa

section generic
variable {F : Type} [PyFloat F]

/-- One step of the recursion as a value. -/
def schleissVal (A wet : List F) (waaMax deltaT tau : F) (i : Nat) (prev : F) : F :=
  if rd wet i ==ᶠ PyFloat.ofInt 1 then
    pyMin (pyMin (rd A i) waaMax)
      (prev +ᶠ (waaMax -ᶠ prev) *ᶠ PyFloat.ofInt 3 *ᶠ deltaT /ᶠ tau)
  else pyMin (rd A i) waaMax

/-- Attenuation above the baseline. -/
def atten (rsl baseline : List F) : List F := List.zipWith (fun a b => a -ᶠ b) rsl baseline

/-- The result satisfies the recursion. -/
theorem schleiss_rec (rsl baseline wet : List F) (waaMax deltaT tau : F)
    (hl : rsl.length = baseline.length) (hw : rsl.length ≤ wet.length)
    (htau : (tau ==ᶠ PyFloat.ofInt 0) = false) :
    ∃ out, waaSchleiss rsl baseline wet waaMax deltaT tau = .ok out ∧
      out.length = rsl.length ∧
      (0 < rsl.length → rd out 0 = PyFloat.ofInt 0) ∧
      ∀ i, 0 < i → i < rsl.length →
        rd out i = schleissVal (atten rsl baseline) wet waaMax deltaT tau i (rd out (i-1)) := by
  unfold waaSchleiss
  rw [if_neg (by omega)]
  dsimp only
  rw [forRangeM_pure _ _ (fun i waa => waa.set i
    (schleissVal (atten rsl baseline) wet waaMax deltaT tau i (rd waa (i-1))))]
  swap
  · intro i s _ _
    unfold schleissBody schleissVal atten
    rw [htau]
    split_ifs <;> simp_all
  refine ⟨_, rfl, ?_⟩
  rcases Nat.eq_zero_or_pos rsl.length with h0 | h0
  · rw [forRange_empty _ _ (by omega)]
    exact ⟨by simp, fun h => by omega, fun i h1 h2 => by omega⟩
  have key := forRange_induct (lo := 1) (hi := rsl.length)
    (s := rsl.map fun _ => (PyFloat.ofInt 0 : F))
    (f := fun i waa => waa.set i
      (schleissVal (atten rsl baseline) wet waaMax deltaT tau i (rd waa (i-1))))
    (fun m out => out.length = rsl.length ∧ rd out 0 = PyFloat.ofInt 0 ∧
      ∀ i, 0 < i → i < m →
        rd out i = schleissVal (atten rsl baseline) wet waaMax deltaT tau i (rd out (i-1)))
    h0 ?_ ?_
  · exact ⟨key.1, fun _ => key.2.1, fun i h1 h2 => key.2.2 i h1 h2⟩
  · refine ⟨by simp, ?_, fun i h1 h2 => by omega⟩
    simp [rd, List.getD_eq_getElem?_getD, h0]
  · rintro m out hm hmN ⟨h1, h2, h3⟩
    refine ⟨by simpa using h1, ?_, ?_⟩
    · rw [rd_set_ne _ (by omega), h2]
    · intro i hi him
      rw [rd_set_ne (j := i - 1) _ (by omega)]
      rcases Nat.lt_or_ge i m with h | h
      · rw [rd_set_ne _ (by omega)]
        exact h3 i hi h
      · obtain rfl : i = m := by omega
        rw [rd_set_self _ (by omega)]

variable [LawfulPyFloat F]

/-- **C13** (for every IEEE-like float type) For steps after the first: the WAA is NaN
exactly where `rsl - baseline` is NaN; otherwise it exceeds neither
`rsl - baseline` nor `waa_max`. The first value is 0. -/
theorem C13_schleiss_bounds (rsl baseline wet : List F) (waaMax deltaT tau : F)
    (hl : rsl.length = baseline.length) (hw : rsl.length ≤ wet.length)
    (htau : (tau ==ᶠ PyFloat.ofInt 0) = false) (hmax : isNaN waaMax = false) :
    ∃ out, waaSchleiss rsl baseline wet waaMax deltaT tau = .ok out ∧
      out.length = rsl.length ∧
      (0 < rsl.length → out[0]? = some (PyFloat.ofInt 0)) ∧
      ∀ i a b, 0 < i → rsl[i]? = some a → baseline[i]? = some b →
        ∃ w, out[i]? = some w ∧ (isNaN w = isNaN (a -ᶠ b)) ∧
          (isNaN (a -ᶠ b) = false → w ≤ᶠ (a -ᶠ b) ∧ w ≤ᶠ waaMax) := by
  obtain ⟨out, h1, h2, h3, h4⟩ := schleiss_rec rsl baseline wet waaMax deltaT tau hl hw htau
  refine ⟨out, h1, h2, fun h => by rw [getElem?_eq_rd (by omega), h3 h], ?_⟩
  intro i a b hi ha hb
  have hlt : i < rsl.length := by
    by_contra hc
    rw [List.getElem?_eq_none (by omega)] at ha; cases ha
  have hA : rd (atten rsl baseline) i = a -ᶠ b := by
    apply rd_of_getElem?
    simp [atten, List.getElem?_zipWith, ha, hb]
  refine ⟨rd out i, getElem?_eq_rd (by omega), ?_⟩
  rw [h4 i hi hlt]
  unfold schleissVal
  rw [hA]
  cases hn : isNaN (a -ᶠ b)
  · have hmin := pyMin_not_nan (b := waaMax) hn
    have e1 := pyMin_le_left (b := waaMax) hn
    have e2 := pyMin_le_right hn hmax
    split_ifs
    · refine ⟨pyMin_not_nan hmin, fun _ => ?_⟩
      exact ⟨LawfulPyFloat.le_trans (pyMin_le_left hmin) e1,
        LawfulPyFloat.le_trans (pyMin_le_left hmin) e2⟩
    · exact ⟨hmin, fun _ => ⟨e1, e2⟩⟩
  · refine ⟨?_, fun h => by cases h⟩
    split_ifs
    · rw [pyMin_nan_left hn, pyMin_nan_left hn, hn]
    · rw [pyMin_nan_left hn, hn]

omit [LawfulPyFloat F] in
/-- **C13** `tau = 0` raises `ZeroDivisionError` as soon as there is a wet step after the
first, and is harmless otherwise. -/
theorem C13_schleiss_tau_zero (rsl baseline wet : List F) (waaMax deltaT tau : F)
    (hl : rsl.length = baseline.length) (hw : rsl.length ≤ wet.length)
    (htau : (tau ==ᶠ PyFloat.ofInt 0) = true) :
    waaSchleiss rsl baseline wet waaMax deltaT tau = .error .zeroDivision ↔
      ∃ i w, 0 < i ∧ i < rsl.length ∧ wet[i]? = some w ∧ (w ==ᶠ PyFloat.ofInt 1) = true := by
  unfold waaSchleiss
  rw [if_neg (by omega)]
  dsimp only
  have key : ∀ m, m ≤ rsl.length →
      ((∃ i, 0 < i ∧ i < m ∧ (rd wet i ==ᶠ PyFloat.ofInt 1) = true) →
        forRangeM 1 m (rsl.map fun _ => (PyFloat.ofInt 0 : F)) (schleissBody
          (List.zipWith (fun a b => a -ᶠ b) rsl baseline) wet waaMax deltaT tau)
            = .error .zeroDivision) ∧
      ((¬ ∃ i, 0 < i ∧ i < m ∧ (rd wet i ==ᶠ PyFloat.ofInt 1) = true) →
        ∃ o, forRangeM 1 m (rsl.map fun _ => (PyFloat.ofInt 0 : F)) (schleissBody
          (List.zipWith (fun a b => a -ᶠ b) rsl baseline) wet waaMax deltaT tau) = .ok o) := by
    intro m
    induction m with
    | zero =>
      intro _
      rw [forRangeM_empty _ _ (by omega)]
      exact ⟨fun ⟨i, h1, h2, _⟩ => by omega, fun _ => ⟨_, rfl⟩⟩
    | succ m ih =>
      intro hm
      obtain ⟨ih1, ih2⟩ := ih (by omega)
      rcases Nat.eq_zero_or_pos m with rfl | hpos
      · rw [forRangeM_empty _ _ (by omega)]
        exact ⟨fun ⟨i, h1, h2, _⟩ => by omega, fun _ => ⟨_, rfl⟩⟩
      rw [forRangeM_succ _ _ hpos]
      by_cases hex : ∃ i, 0 < i ∧ i < m ∧ (rd wet i ==ᶠ PyFloat.ofInt 1) = true
      · rw [ih1 hex]
        obtain ⟨i, h1, h2, h3⟩ := hex
        exact ⟨fun _ => rfl, fun hc => absurd ⟨i, h1, by omega, h3⟩ hc⟩
      · obtain ⟨o, ho⟩ := ih2 hex
        rw [ho]
        show (_ → schleissBody _ _ _ _ _ m o = _) ∧ (_ → ∃ o', schleissBody _ _ _ _ _ m o = _)
        unfold schleissBody
        by_cases hwm : (rd wet m ==ᶠ PyFloat.ofInt 1) = true
        · rw [if_pos hwm, if_pos htau]
          exact ⟨fun _ => rfl, fun hc => absurd ⟨m, hpos, by omega, hwm⟩ hc⟩
        · rw [if_neg hwm]
          refine ⟨?_, fun _ => ⟨_, rfl⟩⟩
          rintro ⟨i, h1, h2, h3⟩
          exfalso
          rcases Nat.lt_or_ge i m with h | h
          · exact hex ⟨i, h1, h, h3⟩
          · obtain rfl : i = m := by omega
            exact hwm h3
  have hiff : (∃ i w, 0 < i ∧ i < rsl.length ∧ wet[i]? = some w ∧ (w ==ᶠ PyFloat.ofInt 1) = true)
      ↔ ∃ i, 0 < i ∧ i < rsl.length ∧ (rd wet i ==ᶠ PyFloat.ofInt 1) = true := by
    constructor
    · rintro ⟨i, w, h1, h2, h3, h4⟩
      exact ⟨i, h1, h2, by rw [rd_of_getElem? h3]; exact h4⟩
    · rintro ⟨i, h1, h2, h3⟩
      exact ⟨i, _, h1, h2, getElem?_eq_rd (by omega), h3⟩
  rw [hiff]
  obtain ⟨k1, k2⟩ := key rsl.length le_rfl
  refine ⟨fun h => ?_, k1⟩
  by_contra hc
  obtain ⟨o, ho⟩ := k2 hc
  rw [ho] at h; cases h

end generic

example : waaSchleiss [Fl.fin (0:ℚ), .fin 5, .fin 5, .fin 1, .nan, .fin 5]
    [.fin 0, .fin 0, .fin 0, .fin 0, .fin 0, .fin 0]
    [.fin 0, .fin 1, .fin 1, .fin 0, .fin 1, .fin 1] (.fin 2) (.fin 1) (.fin 6)
    = .ok [.fin 0, .fin 1, .fin (3/2), .fin 1, .nan, .fin 2] := by decide +kernel

example : waaSchleiss [Fl.fin (0:ℚ), .fin 5] [.fin 0, .fin 0] [.fin 0, .fin 1]
    (.fin 2) (.fin 1) (.fin 0) = .error .zeroDivision := by decide +kernel

section exact_numbers
variable {K : Type} [Field K] [LinearOrder K] [IsStrictOrderedRing K]

/-- Everything finite: the recursion over the field. -/
theorem schleiss_fin (rsl base : List K) (wet : List (Fl K)) (wm dt tau : K)
    (hl : rsl.length = base.length) (hw : rsl.length ≤ wet.length) (htau : tau ≠ 0) :
    ∃ ws : List K, waaSchleiss (rsl.map Fl.fin) (base.map Fl.fin) wet (.fin wm) (.fin dt) (.fin tau)
        = .ok (ws.map Fl.fin) ∧
      ∃ hwl : ws.length = rsl.length,
      (∀ h : 0 < rsl.length, ws[0] = 0) ∧
      ∀ i (h0 : 0 < i) (hi : i < rsl.length),
        ws[i] = if wet[i]? = some (.fin 1) then
          min (min (rsl[i] - base[i]) wm) (ws[i-1] + (wm - ws[i-1]) * (3 * dt / tau))
          else min (rsl[i] - base[i]) wm := by
  obtain ⟨out, h1, h2, h3, h4⟩ := schleiss_rec (rsl.map Fl.fin) (base.map Fl.fin) wet
    (.fin wm) (.fin dt) (.fin tau) (by simpa using hl) (by simpa using hw) (by simpa using htau)
  rw [List.length_map] at h2 h3 h4
  have hA : ∀ i (hi : i < rsl.length), rd (atten (rsl.map Fl.fin) (base.map Fl.fin)) i
      = Fl.fin (rsl[i] - base[i]) := by
    intro i hi
    apply rd_of_getElem?
    simp [atten, hi, hl ▸ hi]
  have hwi : ∀ i, i < rsl.length →
      ((rd wet i ==ᶠ PyFloat.ofInt 1) = true ↔ wet[i]? = some (.fin 1)) := by
    intro i hi
    rw [getElem?_eq_rd (by omega), Option.some_inj]
    cases h : rd wet i <;> simp <;> rfl
  have hval : ∀ i, 0 < i → ∀ (hi : i < rsl.length) (y : K), rd out (i-1) = Fl.fin y →
      rd out i = Fl.fin (if wet[i]? = some (.fin 1) then
          min (min (rsl[i] - base[i]) wm) (y + (wm - y) * (3 * dt / tau))
          else min (rsl[i] - base[i]) wm) := by
    intro i h0 hi y hy
    rw [h4 i h0 hi, schleissVal, hA i hi, hy]
    by_cases hc : wet[i]? = some (.fin 1)
    · rw [if_pos ((hwi i hi).mpr hc), if_pos hc, Fl.pf_sub_fin, Fl.pf_ofInt, Fl.pf_mul_fin,
        Fl.pf_mul_fin, Fl.pf_div_fin_ne _ _ htau, Fl.pf_add_fin, pyMin_fin, pyMin_fin]
      congr 3
      push_cast
      ring
    · rw [if_neg (fun h => hc ((hwi i hi).mp h)), if_neg hc, pyMin_fin]
  have hfin : ∀ i, i < rsl.length → ∃ y, rd out i = Fl.fin y := by
    intro i
    induction i with
    | zero => intro hi; exact ⟨0, by rw [h3 hi]; simp⟩
    | succ i ih =>
      intro hi
      obtain ⟨y, hy⟩ := ih (by omega)
      exact ⟨_, hval (i+1) (by omega) hi y hy⟩
  have hex : ∃ ws : List K, out = ws.map Fl.fin := exists_map_fin fun j hj => hfin j (by omega)
  obtain ⟨ws, rfl⟩ := hex
  rw [List.length_map] at h2
  refine ⟨ws, h1, h2, ?_, ?_⟩
  · intro h
    have := h3 h
    rw [rd_map_fin (by omega)] at this
    simpa using this
  · intro i h0 hi
    have := hval i h0 hi ws[i-1] (rd_map_fin (by omega))
    rw [rd_map_fin (by omega)] at this
    injection this

/-- **C13** For numbers with `waa_max ≥ 0`, `delta_t/tau ≥ 0` and a baseline never above the
signal: `0 ≤ WAA`, and the corrected attenuation `rsl - baseline - WAA` is never negative. -/
theorem C13_schleiss_nonneg (rsl base : List K) (wet : List (Fl K)) (wm dt tau : K)
    (hl : rsl.length = base.length) (hw : rsl.length ≤ wet.length) (htau : tau ≠ 0)
    (hwm : 0 ≤ wm) (hc : 0 ≤ dt / tau)
    (hA : ∀ i (hi : i < rsl.length), base[i] ≤ rsl[i]) :
    ∃ ws : List K, waaSchleiss (rsl.map Fl.fin) (base.map Fl.fin) wet (.fin wm) (.fin dt) (.fin tau)
        = .ok (ws.map Fl.fin) ∧ ∃ hwl : ws.length = rsl.length,
      ∀ i (hi : i < rsl.length), 0 ≤ ws[i] ∧ ws[i] ≤ wm ∧ 0 ≤ rsl[i] - base[i] - ws[i] := by
  obtain ⟨ws, h1, hwl, h3, h4⟩ := schleiss_fin rsl base wet wm dt tau hl hw htau
  refine ⟨ws, h1, hwl, ?_⟩
  intro i
  induction i with
  | zero =>
    intro hi
    rw [h3 hi]
    have := hA 0 hi
    refine ⟨le_rfl, hwm, by linarith⟩
  | succ i ih =>
    intro hi
    obtain ⟨p1, p2, p3⟩ := ih (by omega)
    have hAi := hA (i+1) hi
    have h := h4 (i+1) (by omega) hi
    have e : ws[i+1-1]'(by omega) = ws[i] := by simp
    rw [e] at h
    have hc' : 0 ≤ 3 * dt / tau := by
      rw [mul_div_assoc]; linarith
    have hr : 0 ≤ ws[i] + (wm - ws[i]) * (3 * dt / tau) := by
      have : 0 ≤ (wm - ws[i]) * (3 * dt / tau) := mul_nonneg (by linarith) hc'
      linarith
    have hm1 := min_le_left (rsl[i+1] - base[i+1]) wm
    have hm2 := min_le_right (rsl[i+1] - base[i+1]) wm
    rw [h]
    split_ifs
    · have hm3 := min_le_left (min (rsl[i+1] - base[i+1]) wm)
        (ws[i] + (wm - ws[i]) * (3 * dt / tau))
      refine ⟨le_min (le_min (by linarith) hwm) hr, by linarith, by linarith⟩
    · exact ⟨le_min (by linarith) hwm, hm2, by linarith⟩

example : waaSchleiss [Fl.fin (0:ℚ), .fin 5, .fin 1] [.fin 0, .fin 0, .fin 0]
    [.fin 0, .fin 1, .fin 0] (.fin 2) (.fin 1) (.fin 6)
    = .ok [.fin 0, .fin 1, .fin 1] := by decide +kernel

/-- **C14** (ramp) In a wet run after step `s` with `rsl - baseline ≥ waa_max`,
`3 delta_t/tau ≤ 1` and starting value at most `waa_max`: after `j` steps the WAA is
`waa_max - (waa_max - w_s) (1 - 3 delta_t/tau)^j`. -/
theorem C14_schleiss_ramp (rsl base : List K) (wet : List (Fl K)) (wm dt tau : K)
    (hl : rsl.length = base.length) (hw : rsl.length ≤ wet.length) (htau : tau ≠ 0)
    (hc1 : 3 * dt / tau ≤ 1)
    (ws : List K) (hws : waaSchleiss (rsl.map Fl.fin) (base.map Fl.fin) wet (.fin wm) (.fin dt)
      (.fin tau) = .ok (ws.map Fl.fin))
    (s j : Nat) (hj : s + j < rsl.length)
    (hwet : ∀ k, s < k → k ≤ s + j → wet[k]? = some (.fin 1))
    (hA : ∀ k (_ : s < k) (_ : k ≤ s + j), wm ≤ rsl[k] - base[k]) (w0 : K) (hw0 : ws[s]? = some w0)
    (hle : w0 ≤ wm) :
    ws[s+j]? = some (wm - (wm - w0) * (1 - 3 * dt / tau) ^ j) := by
  obtain ⟨ws', h1, hwl, _, h4⟩ := schleiss_fin rsl base wet wm dt tau hl hw htau
  obtain rfl : ws' = ws := by
    rw [h1] at hws
    injection hws with h
    exact List.map_injective_iff.mpr (fun a b h => by injection h) h
  set c := 3 * dt / tau
  induction j with
  | zero => simp [hw0]
  | succ j ih =>
    have ih' := ih (by omega) (fun k a b => hwet k a (by omega)) (fun k a b => hA k a (by omega))
    have hprev : ws'[s+j]'(by omega) = wm - (wm - w0) * (1 - c) ^ j := by
      rw [List.getElem?_eq_getElem (by omega)] at ih'
      simpa using ih'
    have h := h4 (s+(j+1)) (by omega) hj
    have e : ws'[s+(j+1)-1]'(by omega) = ws'[s+j]'(by omega) := by congr 1
    rw [e, hprev, if_pos (hwet _ (by omega) le_rfl), min_eq_right (hA _ (by omega) le_rfl)] at h
    rw [List.getElem?_eq_getElem (by omega), h]
    congr 1
    have hpow : 0 ≤ (1 - c) ^ j := pow_nonneg (by linarith) j
    have hpow' : 0 ≤ (wm - w0) * (1 - c) ^ j := mul_nonneg (by linarith) hpow
    have e2 : wm - (wm - w0) * (1 - c) ^ j + (wm - (wm - (wm - w0) * (1 - c) ^ j)) * c
        = wm - (wm - w0) * (1 - c) ^ (j+1) := by rw [pow_succ]; ring
    rw [e2]
    apply min_eq_right
    have : 0 ≤ (wm - w0) * (1 - c) ^ (j+1) :=
      mul_nonneg (by linarith) (pow_nonneg (by linarith) _)
    linarith

/-- **C14** (the ramp never falls and never passes `waa_max`) Under the same conditions
one more wet step does not lower the WAA. -/
theorem C14_schleiss_ramp_monotone (rsl base : List K) (wet : List (Fl K)) (wm dt tau : K)
    (hl : rsl.length = base.length) (hw : rsl.length ≤ wet.length) (htau : tau ≠ 0)
    (hc0 : 0 ≤ 3 * dt / tau) (hc1 : 3 * dt / tau ≤ 1)
    (ws : List K) (hws : waaSchleiss (rsl.map Fl.fin) (base.map Fl.fin) wet (.fin wm) (.fin dt)
      (.fin tau) = .ok (ws.map Fl.fin))
    (s : Nat) (hj : s + 1 < rsl.length) (hwet : wet[s+1]? = some (.fin 1))
    (hA : wm ≤ rsl[s+1] - base[s+1]) (w0 : K) (hw0 : ws[s]? = some w0) (hle : w0 ≤ wm) :
    ∃ w1, ws[s+1]? = some w1 ∧ w0 ≤ w1 ∧ w1 ≤ wm ∧ (0 < 3 * dt / tau → w0 < wm → w0 < w1) := by
  have h := C14_schleiss_ramp rsl base wet wm dt tau hl hw htau hc1 ws hws s 1 hj
    (fun k a b => by obtain rfl : k = s + 1 := by omega
                     exact hwet)
    (fun k a b => by obtain rfl : k = s + 1 := by omega
                     exact hA) w0 hw0 hle
  refine ⟨_, h, ?_, ?_, ?_⟩
  · rw [pow_one]
    have : 0 ≤ (wm - w0) * (3 * dt / tau) := mul_nonneg (by linarith) hc0
    linarith
  · rw [pow_one]
    have : 0 ≤ (wm - w0) * (1 - 3 * dt / tau) := mul_nonneg (by linarith) (by linarith)
    linarith
  · intro hc hlt
    rw [pow_one]
    have : 0 < (wm - w0) * (3 * dt / tau) := mul_pos (by linarith) hc
    linarith

/-- **C14** (steps that are not wet) The WAA is `min(rsl - baseline, waa_max)` at once, without
decay, at every step after the first whose flag is not exactly `1`. -/
theorem C14_schleiss_dry (rsl base : List K) (wet : List (Fl K)) (wm dt tau : K)
    (hl : rsl.length = base.length) (hw : rsl.length ≤ wet.length) (htau : tau ≠ 0)
    (ws : List K) (hws : waaSchleiss (rsl.map Fl.fin) (base.map Fl.fin) wet (.fin wm) (.fin dt)
      (.fin tau) = .ok (ws.map Fl.fin))
    (i : Nat) (h0 : 0 < i) (hi : i < rsl.length) (hdry : wet[i]? ≠ some (.fin 1)) :
    ws[i]? = some (min (rsl[i] - base[i]) wm) := by
  obtain ⟨ws', h1, hwl, _, h4⟩ := schleiss_fin rsl base wet wm dt tau hl hw htau
  obtain rfl : ws' = ws := by
    rw [h1] at hws
    injection hws with h
    exact List.map_injective_iff.mpr (fun a b h => by injection h) h
  rw [List.getElem?_eq_getElem (by omega), h4 i h0 hi, if_neg hdry]

example : waaSchleiss ([(0:ℚ), 9, 9, 9].map Fl.fin) ([(0:ℚ), 0, 0, 0].map Fl.fin)
    [.fin 0, .fin 1, .fin 1, .fin 1] (.fin 2) (.fin 1) (.fin 6)
    = .ok ([(0:ℚ), 1, 3/2, 7/4].map Fl.fin) := by decide +kernel

end exact_numbers

end Verif.Props
