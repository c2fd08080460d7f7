import Verif.Lemmas.BaselineLinear
import Mathlib.Data.Rat.Cast.Order
import Mathlib.Tactic.IntervalCases
import Mathlib.Algebra.Order.Ring.Rat
import Mathlib.Tactic.Positivity

/-!
# Properties C06-C09: `baseline_linear`
-/

namespace Verif.Props
open Verif Verif.Baseline Verif.Spec

section generic
variable {F : Type} [PyFloat F]

/-- The flag of step `i` makes the step wet: not the first step, and the flag is NaN or not `0`. -/
def FlagWet (wet : List F) (i : Nat) : Prop :=
  i ≠ 0 ∧ ∃ w, wet[i]? = some w ∧ (isNaN w = true ∨ (w ==ᶠ PyFloat.ofInt 0) = false)

/-- The flag of step `i` is NaN (the flag of the first step is never looked at). -/
def FlagNaN (wet : List F) (i : Nat) : Prop := i ≠ 0 ∧ ∃ w, wet[i]? = some w ∧ isNaN w = true

theorem IsLinearBaseline.congr {sig sig' : Nat → F} {W W' B B' : Nat → Prop} {N : Nat}
    {out : List F} (hs : ∀ i, i < N → sig i = sig' i) (hW : ∀ i, i < N → (W i ↔ W' i))
    (hB : ∀ i, i < N → (B i ↔ B' i)) (h : IsLinearBaseline sig W B N out) :
    IsLinearBaseline sig' W' B' N out := by
  have hE : ∀ p q, q < N → (WetEvent W p q ↔ WetEvent W' p q) := by
    intro p q hq
    unfold WetEvent
    constructor
    · rintro ⟨h1, h2, h3, h4⟩
      exact ⟨h1, fun hc => h2 ((hW p (by omega)).mpr hc), fun hc => h3 ((hW q hq).mpr hc),
        fun k hk hk' => (hW k (by omega)).mp (h4 k hk hk')⟩
    · rintro ⟨h1, h2, h3, h4⟩
      exact ⟨h1, fun hc => h2 ((hW p (by omega)).mp hc), fun hc => h3 ((hW q hq).mp hc),
        fun k hk hk' => (hW k (by omega)).mpr (h4 k hk hk')⟩
  have hBE : ∀ p q, q < N → (BadEvent B p q ↔ BadEvent B' p q) := by
    intro p q hq
    unfold BadEvent
    constructor
    · rintro ⟨k, h1, h2, h3⟩; exact ⟨k, h1, h2, (hB k (by omega)).mp h3⟩
    · rintro ⟨k, h1, h2, h3⟩; exact ⟨k, h1, h2, (hB k (by omega)).mpr h3⟩
  have hnext : ∀ i, (∀ r, WetEvent W' i r → N ≤ r) → (∀ r, WetEvent W i r → N ≤ r) := by
    intro i hn r hr
    by_contra hc
    have := hn r ((hE i r (by omega)).mp hr)
    omega
  exact
    { length := h.length
      inside := fun p q i he hq h1 h2 => by
        have := he.1
        rw [← hBE p q hq, ← hs p (by omega), ← hs q hq]
        exact h.inside p q i ((hE p q hq).mpr he) hq h1 h2
      stop := fun p q he hq hn => by
        rw [← hBE p q hq, ← hs q hq]
        exact h.stop p q ((hE p q hq).mpr he) hq (hnext q hn)
      dry := fun i hi hw hp hn => by
        rw [← hs i hi]
        exact h.dry i hi (fun hc => hw ((hW i hi).mp hc))
          (fun p hc => hp p ((hE p i hi).mp hc)) (hnext i hn)
      unfinished := fun i hi hk =>
        h.unfinished i hi fun k h1 h2 => (hW k h2).mpr (hk k h1 h2) }

/-- **C08** Complete behaviour of `baseline_linear(..., ignore_nan=False)` for every
float type, signal (NaN and infinities allowed) and flags: events containing a
NaN flag are NaN from the dry step before to the dry step after (unless a later finished
event starts at that step), all other finished events are straight lines, dry steps elsewhere
keep the signal, unfinished events are 0. See `Spec.IsLinearBaseline`. -/
theorem C08_linear_characterisation [LawfulPyFloat F] (rsl wet : List F) (hN : 0 < rsl.length)
    (hlen : rsl.length ≤ wet.length) :
    ∃ out, baselineLinear rsl wet false = .ok out ∧
      IsLinearBaseline (fun i => rsl.getD i PyFloat.nan) (FlagWet wet) (FlagNaN wet)
        rsl.length out := by
  refine ⟨(forRange 1 rsl.length (linInit rsl) (linBody rsl wet false)).baseline, ?_, ?_⟩
  · rw [baselineLinear, if_neg (by omega)]
  · have hnan : ∀ x : F, isNaN x = true → truthy x = true := by
      intro x hx
      unfold truthy
      rw [LawfulPyFloat.eq_iff]
      cases h : (x ≤ᶠ PyFloat.ofInt 0)
      · rfl
      · have := (LawfulPyFloat.le_not_nan _ _ h).1
        rw [hx] at this; cases this
    refine IsLinearBaseline.congr (fun _ _ => rfl) ?_ ?_ (linLoop_spec rsl wet hN hnan)
    · intro i hi
      unfold effWet FlagWet
      rw [getElem?_eq_rd (by omega : i < wet.length)]
      constructor
      · rintro ⟨h1, h2⟩
        refine ⟨h1, _, rfl, Or.inr ?_⟩
        simpa [truthy] using h2
      · rintro ⟨h1, w, h2, h3⟩
        obtain rfl : rd wet i = w := by simpa using h2
        refine ⟨h1, ?_⟩
        rcases h3 with h3 | h3
        · exact hnan _ h3
        · simp [truthy, h3]
    · intro i hi
      unfold effBad FlagNaN
      rw [getElem?_eq_rd (by omega : i < wet.length)]
      constructor
      · rintro ⟨h1, h2⟩
        exact ⟨h1, _, rfl, h2⟩
      · rintro ⟨h1, w, h2, h3⟩
        obtain rfl : rd wet i = w := by simpa using h2
        exact ⟨h1, h3⟩

example : baselineLinear [Fl.fin (1:ℚ), .fin 9, .fin 3, .fin 9, .fin 9, .fin 9, .fin 7, .fin 0]
    [.fin 0, .nan, .fin 0, .fin 1, .fin 1, .fin 1, .fin 0, .nan] false
    = .ok [.nan, .nan, .fin 3, .fin 4, .fin 5, .fin 6, .fin 7, .fin 0] := by decide +kernel

/-- **C08** With `ignore_nan=False`: every step strictly inside a finished event that
contains a NaN flag is NaN. -/
theorem C08_nan_event_is_nan [LawfulPyFloat F] (rsl wet out : List F)
    (hlen : rsl.length ≤ wet.length) (hout : baselineLinear rsl wet false = .ok out)
    (p q i : Nat) (hE : WetEvent (FlagWet wet) p q) (hq : q < rsl.length)
    (hB : BadEvent (FlagNaN wet) p q) (h1 : p < i) (h2 : i < q) :
    out[i]? = some PyFloat.nan := by
  obtain ⟨out', ho, hs⟩ := C08_linear_characterisation rsl wet (by omega) hlen
  obtain rfl : out' = out := by rw [ho] at hout; injection hout
  exact (hs.inside p q i hE hq (by omega) h2).1 hB

example : WetEvent (FlagWet [Fl.fin (0:ℚ), .nan, .fin 1, .fin 0]) 0 3 ∧
    BadEvent (FlagNaN [Fl.fin (0:ℚ), .nan, .fin 1, .fin 0]) 0 3 := by
  refine ⟨⟨by decide, fun h => h.1 rfl, ?_, ?_⟩, 1, by decide, by decide, by decide, _, rfl, rfl⟩
  · rintro ⟨_, w, h1, h2⟩
    obtain rfl : Fl.fin 0 = w := by simpa using h1
    simp at h2
  · intro k h1 h2
    interval_cases k
    · exact ⟨by decide, _, rfl, Or.inl rfl⟩
    · exact ⟨by decide, _, rfl, Or.inr (by decide +kernel)⟩

/-- **C08** Flags are only visible through the events: replacing NaN flags of *other*
events by the flag `1.0` does not change a finished event without NaN flags. -/
theorem C08_other_events_unaffected [LawfulPyFloat F] (rsl wet wet' out out' : List F)
    (hlen : rsl.length ≤ wet.length) (hlen' : rsl.length ≤ wet'.length)
    (hout : baselineLinear rsl wet false = .ok out)
    (hout' : baselineLinear rsl wet' false = .ok out')
    (p q i : Nat) (hE : WetEvent (FlagWet wet) p q) (hE' : WetEvent (FlagWet wet') p q)
    (hq : q < rsl.length) (hB : ¬ BadEvent (FlagNaN wet) p q)
    (hB' : ¬ BadEvent (FlagNaN wet') p q) (h1 : p < i) (h2 : i < q) :
    out[i]? = out'[i]? := by
  obtain ⟨o, ho, hs⟩ := C08_linear_characterisation rsl wet (by omega) hlen
  obtain rfl : o = out := by rw [ho] at hout; injection hout
  obtain ⟨o', ho', hs'⟩ := C08_linear_characterisation rsl wet' (by omega) hlen'
  obtain rfl : o' = out' := by rw [ho'] at hout'; injection hout'
  rw [(hs.inside p q i hE hq (by omega) h2).2 hB, (hs'.inside p q i hE' hq (by omega) h2).2 hB']

/-- Forward fill: each NaN flag is replaced by the flag before it. -/
def ffillFrom (prev : F) : List F → List F
  | [] => []
  | w :: ws => if isNaN w then prev :: ffillFrom prev ws else w :: ffillFrom w ws

/-- Forward fill of a flag series whose first step counts as dry. -/
def ffillFlags : List F → List F
  | [] => []
  | _ :: ws => PyFloat.ofInt 0 :: ffillFrom (PyFloat.ofInt 0) ws

theorem ffillFrom_length (c : F) (ws : List F) : (ffillFrom c ws).length = ws.length := by
  induction ws generalizing c with
  | nil => rfl
  | cons w ws ih => unfold ffillFrom; split_ifs <;> simp [ih]

theorem rd_ffillFrom_succ (c : F) (ws : List F) (i : Nat) (hi : i < ws.length) :
    rd (c :: ffillFrom c ws) (i+1) =
      if isNaN (rd ws i) then rd (c :: ffillFrom c ws) i else rd ws i := by
  induction ws generalizing c i with
  | nil => simp at hi
  | cons w ws ih =>
    cases i with
    | zero => simp only [rd, ffillFrom]; split_ifs <;> simp_all
    | succ i =>
      have hi' : i < ws.length := by simpa using hi
      have h1 := ih c i hi'
      have h2 := ih w i hi'
      simp only [rd, ffillFrom, List.getD_cons_succ] at h1 h2 ⊢
      by_cases hn : isNaN w = true
      · rw [if_pos hn]; simpa using h1
      · rw [if_neg hn]; simpa using h2

theorem rd_ffillFlags_succ (wet : List F) (i : Nat) (hi : i + 1 < wet.length) :
    rd (ffillFlags wet) (i+1) =
      if isNaN (rd wet (i+1)) then rd (ffillFlags wet) i else rd wet (i+1) := by
  cases wet with
  | nil => simp at hi
  | cons w ws =>
    have := rd_ffillFrom_succ (PyFloat.ofInt 0) ws i (by simpa using hi)
    simpa [ffillFlags, rd] using this

theorem ffillFlags_not_nan [LawfulPyFloat F] (wet : List F) (i : Nat) (hi : i < wet.length) :
    isNaN (rd (ffillFlags wet) i) = false := by
  induction i with
  | zero =>
    cases wet with
    | nil => simp at hi
    | cons w ws => simpa [ffillFlags, rd] using LawfulPyFloat.isNaN_ofInt (F := F) 0
  | succ i ih =>
    rw [rd_ffillFlags_succ wet i hi]
    split_ifs with h
    · exact ih (by omega)
    · simpa using h

/-- **C07** `ignore_nan=True` is the same as forward filling the flags first (the flag of the
first step counts as dry); the filled flags contain no NaN, so either setting of `ignore_nan` gives
this result on them. -/
theorem C07_ignore_nan_is_ffill [LawfulPyFloat F] (rsl wet : List F) (b : Bool)
    (hlen : rsl.length ≤ wet.length) :
    baselineLinear rsl wet true = baselineLinear rsl (ffillFlags wet) b := by
  have hl : (ffillFlags wet).length = wet.length := by
    cases wet with
    | nil => rfl
    | cons w ws => simp [ffillFlags, ffillFrom_length]
  unfold baselineLinear
  rw [hl]
  split_ifs with hg
  · rfl
  · have hN : 1 ≤ rsl.length := by omega
    congr 2
    have key : ∀ m, 1 ≤ m → m ≤ rsl.length →
        forRange 1 m (linInit rsl) (linBody rsl wet true)
          = forRange 1 m (linInit rsl) (linBody rsl (ffillFlags wet) b) ∧
        (forRange 1 m (linInit rsl) (linBody rsl wet true)).lastIsWet
          = truthy (rd (ffillFlags wet) (m-1)) := by
      intro m hm
      induction m, hm using Nat.le_induction with
      | base =>
        intro _
        rw [forRange_empty _ _ (Nat.le_refl 1), forRange_empty _ _ (Nat.le_refl 1)]
        refine ⟨rfl, ?_⟩
        cases wet with
        | nil => rw [List.length_nil] at hlen; omega
        | cons w ws =>
          have h0 : isNaN (PyFloat.ofInt 0 : F) = false := LawfulPyFloat.isNaN_ofInt 0
          simp [ffillFlags, rd, truthy, linInit, LawfulPyFloat.eq_iff,
            LawfulPyFloat.le_refl h0]
      | succ k hk ih =>
        intro hkN
        obtain ⟨ih1, ih2⟩ := ih (by omega)
        rw [forRange_succ _ _ hk, forRange_succ _ _ hk, ← ih1]
        set s := forRange 1 k (linInit rsl) (linBody rsl wet true) with hs
        have hf := rd_ffillFlags_succ wet (k-1) (by omega)
        rw [Nat.sub_add_cancel hk] at hf
        have hnn : isNaN (rd (ffillFlags wet) k) = false := ffillFlags_not_nan wet k (by omega)
        have hiw : (if isNaN (rd wet k) && true then s.lastIsWet else truthy (rd wet k))
            = truthy (rd (ffillFlags wet) k) := by
          rw [hf]
          by_cases hn : isNaN (rd wet k) = true
          · simp [hn, ih2]
          · simp [hn]
        constructor
        · unfold linBody
          dsimp only
          rw [hiw, hnn]
          simp
        · unfold linBody
          dsimp only
          rw [hiw, Nat.add_sub_cancel]
          cases h1 : truthy (rd (ffillFlags wet) k) <;> cases h2 : s.lastIsWet <;> simp
    rw [(key rsl.length hN le_rfl).1]

example : ffillFlags [Fl.fin (1:ℚ), .nan, .fin 1, .nan, .fin 0]
      = [.fin 0, .fin 0, .fin 1, .fin 1, .fin 0] ∧
    baselineLinear [Fl.fin (1:ℚ), .fin 2, .fin 9, .fin 9, .fin 8]
      [.fin 1, .nan, .fin 1, .nan, .fin 0] true
      = .ok [.fin 1, .fin 2, .fin 4, .fin 6, .fin 8] := by decide +kernel

end generic

section exact_numbers
variable {K : Type} [Field K] [LinearOrder K] [IsStrictOrderedRing K]

/-- Boolean flags as floats. -/
def flags (bs : List Bool) : List (Fl K) := bs.map fun b => if b then Fl.fin 1 else Fl.fin 0

/-- Step `i` is dry: the first step, or flagged dry. -/
def Dry (bs : List Bool) (i : Nat) : Prop := i = 0 ∨ bs[i]? = some false

theorem flagWet_flags (bs : List Bool) (i : Nat) (hi : i < bs.length) :
    FlagWet (flags (K := K) bs) i ↔ ¬ Dry bs i := by
  unfold FlagWet Dry flags
  rw [List.getElem?_map, List.getElem?_eq_getElem hi]
  cases h : bs[i] <;> simp

omit [IsStrictOrderedRing K] in
theorem flagNaN_flags (bs : List Bool) (i : Nat) : ¬ FlagNaN (flags (K := K) bs) i := by
  rintro ⟨_, w, h, hn⟩
  unfold flags at h
  rw [List.getElem?_map] at h
  cases hb : bs[i]? with
  | none => rw [hb] at h; cases h
  | some b => rw [hb] at h; cases b <;> simp at h <;> subst h <;> simp at hn

omit [IsStrictOrderedRing K] in
theorem lineAt_fin [IsStrictOrderedRing K] (a b : K) {p q i : Nat} (hpq : p < q) :
    lineAt (Fl.fin a) (Fl.fin b) p q i
      = Fl.fin (a + ((i : K) - p) * ((b - a) / ((q : K) - p))) := by
  unfold lineAt
  have h : (((q:Int) - (p:Int) : Int) : K) ≠ 0 := by
    have : ((q:Int) - p) ≠ 0 := by omega
    exact_mod_cast this
  rw [Fl.pf_sub_fin, Fl.pf_ofInt, Fl.pf_ofInt, Fl.pf_div_fin_ne _ _ h, Fl.pf_mul_fin,
    Fl.pf_add_fin]
  push_cast
  rfl

/-- **C06** For a signal of numbers and flags without NaN (either setting of `ignore_nan`):
dry steps keep the signal, a wet step between its neighbouring dry steps `p` and `q` lies on the
line through them, and steps of an event that does not end are 0. -/
theorem C06_linear_interpolates (xs : List K) (bs : List Bool) (b : Bool) (hN : 0 < xs.length)
    (hlen : xs.length ≤ bs.length) :
    ∃ out, baselineLinear (xs.map Fl.fin) (flags bs) b = .ok out ∧ out.length = xs.length ∧
      (∀ i (hi : i < xs.length), Dry bs i → out[i]? = some (.fin xs[i])) ∧
      (∀ p q i (_ : p < i) (_ : i < q) (hq : q < xs.length), Dry bs p → Dry bs q →
        (∀ k, p < k → k < q → ¬ Dry bs k) →
        out[i]? = some (.fin (xs[p] + ((i : K) - p) * ((xs[q] - xs[p]) / ((q : K) - p))))) ∧
      (∀ i, i < xs.length → (∀ k, i ≤ k → k < xs.length → ¬ Dry bs k) →
        out[i]? = some (.fin 0)) := by
  have hwlen : (flags (K := K) bs).length = bs.length := by simp [flags]
  obtain ⟨out, ho, hs⟩ := C08_linear_characterisation (xs.map Fl.fin) (flags (K := K) bs)
    (by simpa using hN) (by simpa [flags] using hlen)
  have hs' : IsLinearBaseline (fun i => (xs.map Fl.fin).getD i PyFloat.nan)
      (fun i => ¬ Dry bs i) (fun _ => False) xs.length out := by
    rw [List.length_map] at hs
    exact IsLinearBaseline.congr (fun _ _ => rfl)
      (fun i hi => flagWet_flags bs i (by omega))
      (fun i _ => ⟨fun h => flagNaN_flags bs i h, False.elim⟩) hs
  have hsig : ∀ i (hi : i < xs.length), (xs.map Fl.fin).getD i PyFloat.nan = Fl.fin xs[i] :=
    fun i hi => rd_map_fin hi
  have hnb : ∀ p q, ¬ BadEvent (fun _ => False) p q := by rintro p q ⟨k, _, _, h⟩; exact h
  have hign : baselineLinear (xs.map Fl.fin) (flags (K := K) bs) true
      = baselineLinear (xs.map Fl.fin) (flags (K := K) bs) false := by
    unfold baselineLinear
    split_ifs
    · rfl
    · congr 2
      apply forRange_congr
      intro i s h1 h2
      have hn : isNaN (rd (flags (K := K) bs) i) = false := by
        by_contra hc
        refine flagNaN_flags (K := K) bs i ⟨by omega, _, getElem?_eq_rd ?_, by simpa using hc⟩
        rw [List.length_map] at h2; omega
      unfold linBody
      simp [hn]
  refine ⟨out, ?_, hs'.length, ?_, ?_, ?_⟩
  · cases b
    · exact ho
    · rw [hign]; exact ho
  · intro i hi hd
    have hdw : ¬ ¬ Dry bs i := fun h => h hd
    by_cases hnext : ∃ r, WetEvent (fun i => ¬ Dry bs i) i r ∧ r < xs.length
    · obtain ⟨r, hE, hr⟩ := hnext
      have := (hs'.inside i r i hE hr le_rfl (by have := hE.1; omega)).2 (hnb _ _)
      rw [this, hsig i hi, hsig r hr, lineAt_fin _ _ (by have := hE.1; omega)]
      simp
    · have hnext' : ∀ r, WetEvent (fun i => ¬ Dry bs i) i r → xs.length ≤ r := by
        intro r hr
        by_contra hc
        exact hnext ⟨r, hr, by omega⟩
      by_cases hprev : ∃ p, WetEvent (fun i => ¬ Dry bs i) p i
      · obtain ⟨p, hE⟩ := hprev
        rw [(hs'.stop p i hE hi hnext').2 (hnb _ _), hsig i hi]
      · rw [hs'.dry i hi hdw (fun p hp => hprev ⟨p, hp⟩) hnext', hsig i hi]
  · intro p q i h1 h2 hq hp hqd hk
    have hE : WetEvent (fun i => ¬ Dry bs i) p q :=
      ⟨by omega, fun h => h hp, fun h => h hqd, hk⟩
    rw [(hs'.inside p q i hE hq (by omega) h2).2 (hnb _ _), hsig p (by omega), hsig q hq,
      lineAt_fin _ _ (by omega)]
  · intro i hi hk
    have := hs'.unfinished i hi hk
    simpa using this

example : baselineLinear ([(1:ℚ), 9, 9, 7, 9, 5, 8].map Fl.fin)
    (flags [true, true, true, false, true, false, true]) false
    = .ok ([(1:ℚ), 3, 5, 7, 6, 5, 0].map Fl.fin) := by decide +kernel

/-- Around a wet step of a series that ends dry there are dry neighbours. -/
theorem exists_dry_neighbours (bs : List Bool) (N i : Nat) (hi : i < N) (hd : ¬ Dry bs i)
    (hlast : Dry bs (N-1)) :
    ∃ p q, p < i ∧ i < q ∧ q < N ∧ Dry bs p ∧ Dry bs q ∧ ∀ k, p < k → k < q → ¬ Dry bs k := by
  classical
  have hex : ∃ q, i < q ∧ Dry bs q := by
    refine ⟨N-1, ?_, hlast⟩
    by_contra hc
    obtain rfl : i = N - 1 := by omega
    exact hd hlast
  have hq := Nat.find_spec hex
  have hqmin := fun k => Nat.find_min hex (m := k)
  have hpex : ∃ p, p < i ∧ Dry bs p ∧ ∀ k, p < k → k < i → ¬ Dry bs k := by
    have : ∀ j, j ≤ i → (∀ k, j ≤ k → k < i → ¬ Dry bs k) →
        ∃ p, p < i ∧ Dry bs p ∧ ∀ k, p < k → k < i → ¬ Dry bs k := by
      intro j
      induction j with
      | zero =>
        intro _ h
        have : i ≠ 0 := fun hc => hd (Or.inl hc)
        exact absurd (Or.inl rfl) (h 0 (by omega) (by omega))
      | succ j ih =>
        intro hj h
        by_cases hdj : Dry bs j
        · exact ⟨j, by omega, hdj, fun k h1 h2 => h k (by omega) h2⟩
        · exact ih (by omega) fun k h1 h2 => by
            rcases Nat.eq_or_lt_of_le h1 with rfl | h3
            · exact hdj
            · exact h k (by omega) h2
    exact this i le_rfl fun k h1 h2 => by omega
  obtain ⟨p, hp1, hp2, hp3⟩ := hpex
  refine ⟨p, Nat.find hex, hp1, hq.1, ?_, hp2, hq.2, ?_⟩
  · have : Nat.find hex ≤ N - 1 := Nat.find_min' hex ⟨by
      by_contra hc
      obtain rfl : i = N - 1 := by omega
      exact hd hlast, hlast⟩
    omega
  · intro k h1 h2
    rcases Nat.lt_trichotomy k i with h3 | rfl | h3
    · exact hp3 k h1 h3
    · exact hd
    · intro hc
      exact hqmin k h2 ⟨h3, hc⟩

theorem line_between {a b lo hi : K} {p q i : Nat} (h1 : p ≤ i) (h2 : i ≤ q) (hpq : p < q)
    (ha : lo ≤ a ∧ a ≤ hi) (hb : lo ≤ b ∧ b ≤ hi) :
    lo ≤ a + ((i : K) - p) * ((b - a) / ((q : K) - p)) ∧
      a + ((i : K) - p) * ((b - a) / ((q : K) - p)) ≤ hi := by
  have hd : (0:K) < (q:K) - p := by
    have : (p:K) < q := by exact_mod_cast hpq
    linarith
  have hi1 : (p:K) ≤ i := by exact_mod_cast h1
  have hi2 : (i:K) ≤ q := by exact_mod_cast h2
  obtain ⟨t, ht⟩ : ∃ t, t = ((i:K) - p) / ((q:K) - p) := ⟨_, rfl⟩
  have ht0 : 0 ≤ t := by rw [ht]; exact div_nonneg (by linarith) hd.le
  have ht1 : t ≤ 1 := by rw [ht, div_le_one hd]; linarith
  have he : a + ((i : K) - p) * ((b - a) / ((q : K) - p)) = (1 - t) * a + t * b := by
    rw [ht]; field_simp; ring
  rw [he]
  constructor <;> nlinarith [ha.1, ha.2, hb.1, hb.2]

/-- **C09** (range) If the last step is dry, the baseline stays within any bounds that hold for
the signal at the dry steps. -/
theorem C09_linear_range (xs : List K) (bs : List Bool) (b : Bool) (hN : 0 < xs.length)
    (hlen : xs.length ≤ bs.length) (hlast : Dry bs (xs.length - 1)) (lo hi : K)
    (hr : ∀ i (h : i < xs.length), Dry bs i → lo ≤ xs[i] ∧ xs[i] ≤ hi)
    (out : List (Fl K)) (hout : baselineLinear (xs.map Fl.fin) (flags bs) b = .ok out) :
    ∀ i, i < xs.length → ∃ y, out[i]? = some (.fin y) ∧ lo ≤ y ∧ y ≤ hi := by
  obtain ⟨out', ho, _, hdry, hwet, _⟩ := C06_linear_interpolates xs bs b hN hlen
  obtain rfl : out' = out := by rw [ho] at hout; injection hout
  intro i hi
  by_cases hd : Dry bs i
  · exact ⟨_, hdry i hi hd, hr i hi hd⟩
  · obtain ⟨p, q, h1, h2, hq, hpd, hqd, hk⟩ := exists_dry_neighbours bs xs.length i hi hd hlast
    refine ⟨_, hwet p q i h1 h2 hq hpd hqd hk, ?_⟩
    exact line_between (by omega) (by omega) (by omega) (hr p (by omega) hpd) (hr q hq hqd)

/-- **C09** (time reversal) If first and last step are flagged dry, reversing signal and flags
reverses the baseline. -/
theorem C09_linear_reversal (xs : List K) (bs : List Bool) (b : Bool) (hN : 0 < xs.length)
    (hlen : xs.length = bs.length) (hfirst : bs[0]? = some false)
    (hlast : bs[xs.length - 1]? = some false)
    (out out' : List (Fl K)) (hout : baselineLinear (xs.map Fl.fin) (flags bs) b = .ok out)
    (hout' : baselineLinear (xs.reverse.map Fl.fin) (flags bs.reverse) b = .ok out') :
    out' = out.reverse := by
  obtain ⟨o, ho, hl, hdry, hwet, _⟩ := C06_linear_interpolates xs bs b hN hlen.le
  obtain rfl : o = out := by rw [ho] at hout; injection hout
  obtain ⟨o', ho', hl', hdry', hwet', _⟩ := C06_linear_interpolates xs.reverse bs.reverse b
    (by simpa using hN) (by simpa using hlen.le)
  obtain rfl : o' = out' := by rw [ho'] at hout'; injection hout'
  rw [List.length_reverse] at hl'
  -- dryness is reversed
  have hD : ∀ i, i < xs.length → (Dry bs.reverse i ↔ Dry bs (xs.length - 1 - i)) := by
    intro i hi
    unfold Dry
    rw [List.getElem?_reverse (by omega), ← hlen]
    constructor
    · rintro (rfl | h)
      · exact Or.inr hlast
      · exact Or.inr h
    · rintro (h | h)
      · right
        rw [h]; exact hfirst
      · exact Or.inr h
  apply List.ext_getElem?
  intro i
  by_cases hi : i < xs.length
  swap
  · rw [List.getElem?_eq_none (by omega), List.getElem?_eq_none (by simp; omega)]
  rw [List.getElem?_reverse (by omega), hl]
  by_cases hd : Dry bs (xs.length - 1 - i)
  · rw [hdry _ (by omega) hd, hdry' i (by simpa using hi) ((hD i hi).mpr hd)]
    simp
  · obtain ⟨p, q, h1, h2, hq, hpd, hqd, hk⟩ := exists_dry_neighbours bs xs.length _ (by omega) hd
      (Or.inr hlast)
    have hpi : p < xs.length := by omega
    have e1 : xs.length - 1 - (xs.length - 1 - q) = q := by omega
    have e2 : xs.length - 1 - (xs.length - 1 - p) = p := by omega
    have h1' := hwet' (xs.length - 1 - q) (xs.length - 1 - p) i (by omega) (by omega)
      (by simp; omega) ((hD _ (by omega)).mpr (by rw [e1]; exact hqd))
      ((hD _ (by omega)).mpr (by rw [e2]; exact hpd))
      (fun k hk1 hk2 hc => hk (xs.length - 1 - k) (by omega) (by omega)
        ((hD k (by omega)).mp hc))
    rw [h1', hwet p q _ h1 h2 hq hpd hqd hk]
    simp only [List.getElem_reverse, e1, e2]
    congr 2
    have c1 : ((xs.length - 1 - q : Nat) : K) = (xs.length : K) - 1 - q := by
      rw [Nat.cast_sub (by omega), Nat.cast_sub (by omega)]; simp
    have c2 : ((xs.length - 1 - p : Nat) : K) = (xs.length : K) - 1 - p := by
      rw [Nat.cast_sub (by omega), Nat.cast_sub (by omega)]; simp
    have c3 : ((xs.length - 1 - i : Nat) : K) = (xs.length : K) - 1 - i := by
      rw [Nat.cast_sub (by omega), Nat.cast_sub (by omega)]; simp
    rw [c1, c2, c3]
    have hd : (q:K) - p ≠ 0 := by
      have : (p:K) < q := by exact_mod_cast (by omega : p < q)
      exact ne_of_gt (by linarith)
    have hd' : (xs.length : K) - 1 - p - ((xs.length : K) - 1 - q) = (q:K) - p := by ring
    rw [hd']
    field_simp
    ring

example : baselineLinear ([(1:ℚ), 9, 9, 7].map Fl.fin) (flags [false, true, true, false]) false
      = .ok ([(1:ℚ), 3, 5, 7].map Fl.fin) ∧
    baselineLinear ([(1:ℚ), 9, 9, 7].reverse.map Fl.fin)
      (flags [false, true, true, false].reverse) false
      = .ok ([(1:ℚ), 3, 5, 7].map Fl.fin).reverse := by decide +kernel

end exact_numbers

end Verif.Props
