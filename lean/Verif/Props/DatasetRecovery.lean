import Verif.Props.Labels
import Verif.Props.Recovery
import Verif.Props.Stability

/-!
# Property C148: the processing of a dataset recovers the rain of every link
-/

namespace Verif.Props
open Verif Verif.Wrapper Verif.Labels Verif.KR
open Verif.Api (Val)

/-- What is known about one channel of a CML: its flags, the parameters of the processing, length, frequency and polarization, the
undisturbed level, the rain rate and the recorded level of each step. -/
structure Channel where
  wet : List Bool
  n : ℕ
  waaMax : ℝ
  deltaT : ℝ
  tau : ℝ
  L : ℝ
  f : ℝ
  pol : String
  dryLevel : ℕ → ℝ
  R : ℕ → ℝ
  level : ℕ → ℝ

/-- The levels are those of the dry level, rain and a film of water as in Schleiss et al. (2013), up to `E`; the first `n` steps are dry
and the dry level does not change from `n` steps before a wet step to that step. `a` and `b` are the parameters of the power law. -/
structure Channel.Ok (q : Channel) (a b E : ℝ) : Prop where
  n : 1 ≤ q.n
  waaMax : 0 ≤ q.waaMax
  deltaT : 0 ≤ q.deltaT
  tau : 0 < q.tau
  film : 3 * q.deltaT ≤ q.tau
  L : 0 < q.L
  f1 : 1 ≤ q.f
  f2 : q.f ≤ 100
  pol : isH q.pol ∨ isV q.pol
  law : a_b cubicSpline [.fin q.f] [q.pol] "ITU_2005" = .ok ([.fin a], [.fin b])
  rain : ∀ t < q.wet.length, WetAt q.wet t → 0 ≤ q.R t
  start : ∀ t < q.n, ¬ WetAt q.wet t
  dry : ∀ t < q.wet.length, WetAt q.wet t → ∀ s, s < t → t ≤ s + q.n → q.dryLevel s = q.dryLevel t
  level : ∀ t < q.wet.length, |q.level t - levelAt (WetAt q.wet) q.waaMax (3 * q.deltaT / q.tau) q.dryLevel
    (fun t => a * q.R t ^ b * q.L) t| ≤ E

/-- the dataset contains the channel at `c` -/
structure Channel.At (q : Channel) (trsl wet : NArr Val) (n waa_max delta_t tau L_km f_GHz pol : Arg Val) (c : Coords) : Prop where
  trsl : SeriesAt trsl c (series q.wet.length q.level)
  wet : FlagsAt wet c q.wet
  n : ValueAt n c (.int q.n)
  waa_max : ValueAt waa_max c (.num (.fin q.waaMax))
  delta_t : ValueAt delta_t c (.num (.fin q.deltaT))
  tau : ValueAt tau c (.num (.fin q.tau))
  L_km : ValueAt L_km c (.num (.fin q.L))
  f_GHz : ValueAt f_GHz c (.num (.fin q.f))
  pol : ValueAt pol c (.str q.pol)

/-- the attenuation by rain at a step: `a R^b L`, 0 when dry -/
noncomputable def Channel.rainAttenuation (q : Channel) (a b : ℝ) (t : ℕ) : ℝ := if WetAt q.wet t then a * q.R t ^ b * q.L else 0

theorem ab_pos {f a b : ℝ} {p s : String} (h1 : 1 ≤ f) (h2 : f ≤ 100) (hp : isH p ∨ isV p) (hs : s = "ITU_2003" ∨ s = "ITU_2005")
    (h : a_b cubicSpline [.fin f] [p] s = .ok ([.fin a], [.fin b])) : 0 < a ∧ 0 < b := by
  obtain ⟨u, v, e, hu, hv⟩ := ab_single_pos h1 h2 hp hs
  rw [h] at e
  simp only [Except.ok.injEq, Prod.mk.injEq, List.cons.injEq, Fl.fin.injEq, and_true] at e
  exact ⟨e.1 ▸ hu, e.2 ▸ hv⟩

theorem lawRate_cut {a b L Rmin : ℝ} (ha : 0 < a) (hb : 0 < b) (hL : 0 < L) (x : ℝ) :
    rate (.fin a) (.fin b) (.fin L) (.fin Rmin) (.fin x) = .fin (if lawRate a b L x < Rmin then 0 else lawRate a b L x) := by
  have hb1 : 0 < 1 / b := by positivity
  rw [rate_fin ha hb hL]
  by_cases hx : x < 0
  · rw [if_pos hx, lawRate_neg hb1 hx.le, ite_self]
  · rw [if_neg hx]
    unfold lawRate
    rw [max_eq_right (not_lt.mp hx)]

/-- one channel -/
theorem channelRain_close (q : Channel) {a b E : ℝ} (h : q.Ok a b E) (hE : 0 ≤ E) :
    ∃ A : ℕ → ℝ, (∀ t < q.wet.length, |q.rainAttenuation a b t - A t| ≤ 4 * E) ∧
      channelRain cubicSpline (series q.wet.length q.level) q.wet q.n (.fin q.waaMax) (.fin q.deltaT) (.fin q.tau) (.fin q.L) (.fin q.f)
        q.pol = .ok (series q.wet.length fun t =>
          if lawRate a b q.L (A t) < 1 / 10 then 0 else lawRate a b q.L (A t)) := by
  obtain ⟨ha, hb⟩ := ab_pos h.f1 h.f2 h.pol (.inr rfl) h.law
  have hl := series_length (K := ℝ) q.wet.length
  set lev := levelAt (WetAt q.wet) q.waaMax (3 * q.deltaT / q.tau) q.dryLevel fun t => a * q.R t ^ b * q.L with hlev
  have hup : List.Forall₂ (UpTo E) (series q.wet.length lev) (series q.wet.length q.level) := by
    unfold series
    rw [List.forall₂_map_left_iff, List.forall₂_map_right_iff, List.forall₂_same]
    intro t ht
    refine .fin ?_
    rw [abs_sub_comm]
    exact h.level t (by simpa using ht)
  have hb0 := C130_baseline_constant q.wet q.wet.length q.n q.dryLevel lev h.n le_rfl h.start
    (fun t _ hw => by rw [hlev]; unfold levelAt; rw [if_neg hw, add_zero]) h.dry
  obtain ⟨w0, hw0, hA0⟩ := C130_attenuation q.wet q.wet.length q.waaMax q.deltaT q.tau q.dryLevel (fun t => a * q.R t ^ b * q.L) le_rfl
    h.waaMax h.deltaT h.tau h.film
    (fun t ht hw => mul_nonneg (mul_nonneg ha.le (Real.rpow_nonneg (h.rain t ht hw) _)) h.L.le)
    (h.start 0 (by have := h.n; omega))
  obtain ⟨b1, b2, w1, w2, e1, e2, e3, e4, -, -, -, hclose⟩ := C125_attenuation E hE (series q.wet.length lev)
    (series q.wet.length q.level) q.wet q.n h.n (by rw [hl]) hup q.waaMax q.deltaT q.tau h.deltaT h.tau h.film
  rw [hb0] at e1
  cases e1
  rw [hw0] at e3
  cases e3
  rw [hA0] at hclose
  set A' := List.zipWith (· -ᶠ ·) (List.zipWith (· -ᶠ ·) (series q.wet.length q.level) b2) w2 with hA'
  have hlen : A'.length = q.wet.length := by rw [← hclose.length_eq, hl]
  have hget : ∀ t < q.wet.length, ∃ y : ℝ, A'[t]? = some (.fin y) ∧ |q.rainAttenuation a b t - y| ≤ 4 * E := by
    intro t ht
    have hg := List.Forall₂.get hclose (i := t) (by rw [hl]; exact ht) (by rw [hlen]; exact ht)
    have e : (series q.wet.length fun t => if WetAt q.wet t then a * q.R t ^ b * q.L else 0).get ⟨t, by rw [hl]; exact ht⟩ =
        .fin (q.rainAttenuation a b t) := by
      have := series_get (fun t => if WetAt q.wet t then a * q.R t ^ b * q.L else 0) ht
      rw [List.getElem?_eq_some_iff] at this
      exact this.2
    rw [e] at hg
    generalize hz : A'.get ⟨t, by rw [hlen]; exact ht⟩ = z at hg
    cases hg with
    | fin hxy =>
      refine ⟨_, ?_, hxy⟩
      rw [List.getElem?_eq_some_iff]
      exact ⟨by rw [hlen]; exact ht, hz⟩
  choose! y hy using hget
  have hs : A' = series q.wet.length y := by
    apply List.ext_getElem?
    intro t
    by_cases ht : t < q.wet.length
    · rw [(hy t ht).1, series_get _ ht]
    · rw [List.getElem?_eq_none (by omega), List.getElem?_eq_none (by rw [hl]; omega)]
  refine ⟨y, fun t ht => (hy t ht).2, ?_⟩
  have hfp := C142_clip_not_required A' q.L q.f (1 / 10) q.pol "ITU_2005" h.f1 h.f2 h.pol (.inr rfl) h.L
  unfold channelRain
  simp only [bind, Except.bind, e2, e4]
  refine hfp.trans ?_
  rw [callFP_eq h.law, callAB_eq, hs]
  congr 1
  unfold series
  rw [List.map_map]
  exact List.map_congr_left fun t _ => lawRate_cut ha hb h.L (y t)

/-- **C148** A labelled dataset: if the labels and sizes of its variables agree and each channel is within `E` of the levels which rain, dry
level and film of water give, the processing of the dataset succeeds, its result has the labels and dimensions of the inputs, and at every
channel and step the rain rate (set to 0 below 0.1 mm/h) lies between those of the power law at `A - 4 E` and `A + 4 E`, where `A` is the
attenuation by the rain of this channel. -/
theorem C148_errors {Lb : Type} [DecidableEq Lb] {trsl wet : LArr Lb} {n waa_max delta_t tau L_km f_GHz pol : LArg Lb}
    (hlab : SameLabels [.named trsl, .named wet, n, waa_max, delta_t, tau, L_km, f_GHz, pol])
    (hsize : ∀ u ∈ [.named trsl, .named wet, n, waa_max, delta_t, tau, L_km, f_GHz, pol],
      ∀ v ∈ [.named trsl, .named wet, n, waa_max, delta_t, tau, L_km, f_GHz, pol],
      ∀ p ∈ dimNames (strip u), ∀ q ∈ dimNames (strip v), p.1 = q.1 → p.2 = q.2)
    (hpos : ∀ u ∈ [.named trsl, .named wet, n, waa_max, delta_t, tau, L_km, f_GHz, pol],
      ∀ p ∈ dimNames (strip u), p.1 ≠ "time" → 0 < p.2)
    (ch : Coords → Channel) (a b E : Coords → ℝ) (hE : ∀ c, 0 ≤ E c)
    (hch : ∀ c : Coords, (∀ u ∈ [.named trsl, .named wet, n, waa_max, delta_t, tau, L_km, f_GHz, pol],
        ∀ p ∈ dimNames (strip u), p.1 ≠ "time" → c p.1 < p.2) →
      (ch c).At trsl.arr wet.arr (strip n) (strip waa_max) (strip delta_t) (strip tau) (strip L_km) (strip f_GHz) (strip pol) c ∧
      (ch c).Ok (a c) (b c) (E c)) :
    ∃ r, processDatasetL cubicSpline trsl wet n waa_max delta_t tau L_km f_GHz pol = .ok r ∧
      (∀ d x, HasLabels (.named r) d x ↔
        ∃ u ∈ [.named trsl, .named wet, n, waa_max, delta_t, tau, L_km, f_GHz, pol], HasLabels u d x) ∧
      (∀ p, p ∈ r.arr.dims ↔ ∃ u ∈ [.named trsl, .named wet, n, waa_max, delta_t, tau, L_km, f_GHz, pol], p ∈ dimNames (strip u)) ∧
      ∀ c : Coords, InArray r.arr c → ∃ ρ : ℕ → ℝ,
        SeriesAt r.arr c (series (ch c).wet.length fun t => if ρ t < 1 / 10 then 0 else ρ t) ∧
        ∀ t < (ch c).wet.length,
          lawRate (a c) (b c) (ch c).L ((ch c).rainAttenuation (a c) (b c) t - 4 * E c) ≤ ρ t ∧
          ρ t ≤ lawRate (a c) (b c) (ch c).L ((ch c).rainAttenuation (a c) (b c) t + 4 * E c) := by
  have hmem : ∀ (P : Arg Val → Prop), (∀ v ∈ [.named trsl.arr, .named wet.arr, strip n, strip waa_max, strip delta_t, strip tau,
      strip L_km, strip f_GHz, strip pol], P v) ↔
      ∀ u ∈ [.named trsl, .named wet, n, waa_max, delta_t, tau, L_km, f_GHz, pol], P (strip u) := by
    intro P
    simp only [List.mem_cons, List.not_mem_nil, or_false, forall_eq_or_imp, forall_eq, strip_named]
  have hmem' : ∀ (P : Arg Val → Prop), (∃ v ∈ [.named trsl.arr, .named wet.arr, strip n, strip waa_max, strip delta_t, strip tau,
      strip L_km, strip f_GHz, strip pol], P v) ↔
      ∃ u ∈ [.named trsl, .named wet, n, waa_max, delta_t, tau, L_km, f_GHz, pol], P (strip u) := by
    intro P
    simp only [List.mem_cons, List.not_mem_nil, or_false, exists_eq_or_imp, exists_eq_left, strip_named]
  obtain ⟨r0, hr0⟩ := C142_succeeds cubicSpline (trsl := trsl.arr) (wet := wet.arr) (n := strip n) (waa_max := strip waa_max)
    (delta_t := strip delta_t) (tau := strip tau) (L_km := strip L_km) (f_GHz := strip f_GHz) (pol := strip pol)
    ((hmem _).mpr fun u hu => (hmem _).mpr fun v hv => hsize u hu v hv) ((hmem _).mpr hpos) (by
      intro c hc
      obtain ⟨g, o⟩ := hch c ((hmem _).mp hc)
      obtain ⟨A, -, e⟩ := channelRain_close (ch c) o (hE c)
      exact ⟨_, _, _, _, _, _, _, _, _, _, g.trsl, g.wet, g.n, g.waa_max, g.delta_t, g.tau, g.L_km, g.f_GHz, g.pol, e⟩)
  obtain ⟨r, hr, rfl⟩ := C146_process_succeeds cubicSpline hlab hr0
  obtain ⟨h1, h2⟩ := C142_channels cubicSpline hr0
  have hdim : ∀ p, p ∈ r.arr.dims ↔
      ∃ u ∈ [.named trsl, .named wet, n, waa_max, delta_t, tau, L_km, f_GHz, pol], p ∈ dimNames (strip u) :=
    fun p => (h1 p).trans (hmem' _)
  refine ⟨r, hr, (C146_process cubicSpline hr).2.2, hdim, ?_⟩
  intro c hc
  obtain ⟨g, o⟩ := hch c fun u hu p hp hne => hc p ((hdim p).mpr ⟨u, hu, hp⟩) hne
  obtain ⟨A, hA, e⟩ := channelRain_close (ch c) o (hE c)
  obtain ⟨y, hy, ey⟩ := h2 hc g.trsl g.wet g.n g.waa_max g.delta_t g.tau g.L_km g.f_GHz g.pol
  rw [e] at ey
  cases ey
  obtain ⟨ha, hb⟩ := ab_pos o.f1 o.f2 o.pol (.inr rfl) o.law
  have hb1 : 0 < 1 / b c := by positivity
  have haL : 0 < a c * (ch c).L := mul_pos ha o.L
  refine ⟨fun t => lawRate (a c) (b c) (ch c).L (A t), hy, fun t ht => ?_⟩
  have := abs_le.mp (hA t ht)
  exact ⟨lawRate_mono haL hb1 (by linarith), lawRate_mono haL hb1 (by linarith)⟩

/-- **C148** Without errors the rain rate of every channel is recovered exactly: `R` at wet steps with at least 0.1 mm/h, otherwise 0. -/
theorem C148_recovery {Lb : Type} [DecidableEq Lb] {trsl wet : LArr Lb} {n waa_max delta_t tau L_km f_GHz pol : LArg Lb}
    (hlab : SameLabels [.named trsl, .named wet, n, waa_max, delta_t, tau, L_km, f_GHz, pol])
    (hsize : ∀ u ∈ [.named trsl, .named wet, n, waa_max, delta_t, tau, L_km, f_GHz, pol],
      ∀ v ∈ [.named trsl, .named wet, n, waa_max, delta_t, tau, L_km, f_GHz, pol],
      ∀ p ∈ dimNames (strip u), ∀ q ∈ dimNames (strip v), p.1 = q.1 → p.2 = q.2)
    (hpos : ∀ u ∈ [.named trsl, .named wet, n, waa_max, delta_t, tau, L_km, f_GHz, pol],
      ∀ p ∈ dimNames (strip u), p.1 ≠ "time" → 0 < p.2)
    (ch : Coords → Channel) (a b : Coords → ℝ)
    (hch : ∀ c : Coords, (∀ u ∈ [.named trsl, .named wet, n, waa_max, delta_t, tau, L_km, f_GHz, pol],
        ∀ p ∈ dimNames (strip u), p.1 ≠ "time" → c p.1 < p.2) →
      (ch c).At trsl.arr wet.arr (strip n) (strip waa_max) (strip delta_t) (strip tau) (strip L_km) (strip f_GHz) (strip pol) c ∧
      (ch c).Ok (a c) (b c) 0) :
    ∃ r, processDatasetL cubicSpline trsl wet n waa_max delta_t tau L_km f_GHz pol = .ok r ∧
      (∀ d x, HasLabels (.named r) d x ↔
        ∃ u ∈ [.named trsl, .named wet, n, waa_max, delta_t, tau, L_km, f_GHz, pol], HasLabels u d x) ∧
      (∀ p, p ∈ r.arr.dims ↔ ∃ u ∈ [.named trsl, .named wet, n, waa_max, delta_t, tau, L_km, f_GHz, pol], p ∈ dimNames (strip u)) ∧
      ∀ c : Coords, InArray r.arr c → SeriesAt r.arr c
        (series (ch c).wet.length fun t => if WetAt (ch c).wet t ∧ 1 / 10 ≤ (ch c).R t then (ch c).R t else 0) := by
  obtain ⟨r, hr, h1, h2, h3⟩ := C148_errors hlab hsize hpos ch a b (fun _ => 0) (fun _ => le_rfl) hch
  refine ⟨r, hr, h1, h2, fun c hc => ?_⟩
  obtain ⟨ρ, hs, hρ⟩ := h3 c hc
  obtain ⟨-, o⟩ := hch c fun u hu p hp hne => hc p ((h2 p).mpr ⟨u, hu, hp⟩) hne
  obtain ⟨ha, hb⟩ := ab_pos o.f1 o.f2 o.pol (.inr rfl) o.law
  have hb1 : 0 < 1 / b c := by positivity
  have haL : 0 < a c * (ch c).L := mul_pos ha o.L
  have he : (series (ch c).wet.length fun t => if ρ t < 1 / 10 then 0 else ρ t) =
      series (ch c).wet.length fun t => if WetAt (ch c).wet t ∧ 1 / 10 ≤ (ch c).R t then (ch c).R t else 0 := by
    unfold series
    apply List.map_congr_left
    intro t ht
    have ht : t < (ch c).wet.length := by simpa using ht
    obtain ⟨l1, l2⟩ := hρ t ht
    rw [mul_zero, sub_zero] at l1
    rw [mul_zero, add_zero] at l2
    have e : ρ t = lawRate (a c) (b c) (ch c).L ((ch c).rainAttenuation (a c) (b c) t) := le_antisymm l2 l1
    dsimp only
    rw [e]
    unfold Channel.rainAttenuation
    by_cases hw : WetAt (ch c).wet t
    · have hR := o.rain t ht hw
      have hRb : 0 ≤ (ch c).R t ^ b c := Real.rpow_nonneg hR _
      have : lawRate (a c) (b c) (ch c).L (a c * (ch c).R t ^ b c * (ch c).L) = (ch c).R t := by
        unfold lawRate
        rw [max_eq_right (mul_nonneg (mul_nonneg ha.le hRb) o.L.le),
          show a c * (ch c).R t ^ b c * (ch c).L / (a c * (ch c).L) = (ch c).R t ^ b c by field_simp [ha.ne', o.L.ne'],
          ← Real.rpow_mul hR, mul_one_div_cancel hb.ne', Real.rpow_one]
      rw [if_pos hw, this]
      by_cases h : (ch c).R t < 1 / 10
      · rw [if_pos h, if_neg (by rintro ⟨-, h'⟩; linarith)]
      · rw [if_neg h, if_pos ⟨hw, not_lt.mp h⟩]
    · rw [if_neg hw, lawRate_neg hb1 le_rfl, ite_self, if_neg (fun h => hw h.1)]
  rw [← he]
  exact hs

/-- a wet mask with two wet steps -/
def exampleMask : List Bool := [false, true, true, false]

/-- the channel of the CML `i` in the example: length `i + 3` km, rain rates `R i` -/
noncomputable def exampleChannel (R : ℕ → ℕ → ℝ) (a b : ℝ) (i : ℕ) : Channel where
  wet := exampleMask
  n := 1
  waaMax := 2
  deltaT := 1
  tau := 15
  L := i + 3
  f := 20
  pol := "H"
  dryLevel := fun _ => 50 + i
  R := R i
  level := levelAt (WetAt exampleMask) 2 (3 * 1 / 15) (fun _ => 50 + i) fun t => a * R i t ^ b * (i + 3)

/-- Two CMLs "x" and "y" of different length: from their levels the rain rates of each are recovered. -/
example (R : ℕ → ℕ → ℝ) (hR : ∀ i t, 1 / 10 ≤ R i t) : ∃ a b r,
    a_b cubicSpline [.fin 20] ["H"] "ITU_2005" = .ok ([.fin a], [.fin b]) ∧
    processDatasetL cubicSpline
      ⟨⟨[("cml_id", 2), ("time", 4)], fun i => .num (.fin ((exampleChannel R a b i[0]!).level i[1]!))⟩,
        exampleLabels ["x", "y"] []⟩
      ⟨⟨[("cml_id", 2), ("time", 4)], fun i => .bool (exampleMask[i[1]!]!)⟩, exampleLabels ["x", "y"] []⟩
      (.plain (.int 1)) (.plain (.num (.fin 2))) (.plain (.num (.fin 1))) (.plain (.num (.fin 15)))
      (.named ⟨⟨[("cml_id", 2)], fun i => .num (.fin (i[0]! + 3))⟩, exampleLabels ["x", "y"] []⟩)
      (.plain (.num (.fin 20))) (.plain (.str "H")) = .ok r ∧
    LSeriesAt r (fun _ => "y") [.fin 0, .fin (R 1 1), .fin (R 1 2), .fin 0] := by
  obtain ⟨a, b, hab, -, -⟩ := ab_single_pos (x := 20) (p := "H") (s := "ITU_2005") (by norm_num) (by norm_num)
    (by left; simp [isH]) (.inr rfl)
  have hall : ∀ u ∈ ([.named ⟨⟨[("cml_id", 2), ("time", 4)],
        fun i => .num (.fin ((exampleChannel R a b i[0]!).level i[1]!))⟩, exampleLabels ["x", "y"] []⟩,
      .named ⟨⟨[("cml_id", 2), ("time", 4)], fun i => .bool (exampleMask[i[1]!]!)⟩, exampleLabels ["x", "y"] []⟩,
      .plain (.int (1 : ℕ)), .plain (.num (.fin 2)), .plain (.num (.fin 1)), .plain (.num (.fin 15)),
      .named ⟨⟨[("cml_id", 2)], fun i => .num (.fin (i[0]! + 3))⟩, exampleLabels ["x", "y"] []⟩,
      .plain (.num (.fin 20)), .plain (.str "H")] : List (LArg String)),
      (∀ p ∈ dimNames (strip u), p.2 = if p.1 = "time" then 4 else 2) ∧
      ∀ d x, HasLabels u d x → exampleLabels ["x", "y"] [] d = some x := by
    intro u hu
    simp only [List.mem_cons, List.not_mem_nil, or_false] at hu
    rcases hu with rfl | rfl | rfl | rfl | rfl | rfl | rfl | rfl | rfl
    · exact ⟨by simp [strip, dimNames], fun d x hx => hx.2⟩
    · exact ⟨by simp [strip, dimNames], fun d x hx => hx.2⟩
    · exact ⟨by simp [strip, dimNames], fun d x hx => hx.elim⟩
    · exact ⟨by simp [strip, dimNames], fun d x hx => hx.elim⟩
    · exact ⟨by simp [strip, dimNames], fun d x hx => hx.elim⟩
    · exact ⟨by simp [strip, dimNames], fun d x hx => hx.elim⟩
    · exact ⟨by simp [strip, dimNames], fun d x hx => hx.2⟩
    · exact ⟨by simp [strip, dimNames], fun d x hx => hx.elim⟩
    · exact ⟨by simp [strip, dimNames], fun d x hx => hx.elim⟩
  obtain ⟨r, hr, hl, hd, hs⟩ := C148_recovery
    (fun u hu v hv d x y hx hy => Option.some.inj (((hall u hu).2 d x hx).symm.trans ((hall v hv).2 d y hy)))
    (fun u hu v hv p hp q hq e => by rw [(hall u hu).1 p hp, (hall v hv).1 q hq, e])
    (fun u hu p hp _ => by rw [(hall u hu).1 p hp]; split <;> decide)
    (fun c => exampleChannel R a b (c "cml_id")) (fun _ => a) (fun _ => b) (by
      intro c hc
      refine ⟨⟨⟨by simp [series, exampleChannel, exampleMask], ?_⟩, ⟨by simp [exampleChannel, exampleMask], ?_⟩, rfl, rfl, rfl, rfl,
        ⟨by simp, by simp [exampleChannel]⟩, rfl, rfl⟩, ?_⟩
      · intro t ht
        simp [series]
      · intro t ht
        simp only [exampleChannel, List.length_map] at ht ⊢
        simp [ht]
      · constructor
        · exact le_refl 1
        · show (0 : ℝ) ≤ 2; norm_num
        · show (0 : ℝ) ≤ 1; norm_num
        · show (0 : ℝ) < 15; norm_num
        · show 3 * (1 : ℝ) ≤ 15; norm_num
        · show (0 : ℝ) < (c "cml_id" : ℝ) + 3; positivity
        · show (1 : ℝ) ≤ 20; norm_num
        · show (20 : ℝ) ≤ 100; norm_num
        · left; simp [exampleChannel, isH]
        · exact hab
        · intro t _ _
          have := hR (c "cml_id") t
          show 0 ≤ R (c "cml_id") t
          linarith
        · intro t ht
          obtain rfl : t = 0 := by simpa [exampleChannel] using ht
          simp [exampleChannel, exampleMask, WetAt]
        · intro t _ _ s _ _
          rfl
        · intro t _
          simp [exampleChannel])
  refine ⟨a, b, r, hab, hr, fun _ => 1, ?_, ?_⟩
  · rintro ⟨d, m⟩ hp hne
    obtain ⟨u, hu, hq⟩ := (hd _).mp hp
    simp only at hne
    have : d = "cml_id" := by
      simp only [List.mem_cons, List.not_mem_nil, or_false] at hu
      rcases hu with rfl | rfl | rfl | rfl | rfl | rfl | rfl | rfl | rfl <;> simp [strip, dimNames] at hq <;> tauto
    subst this
    have := (hl "cml_id" ["x", "y"]).mpr ⟨_, List.mem_cons_self, ⟨2, by simp⟩, rfl⟩
    exact ⟨_, this.2, rfl⟩
  · have := hs (fun _ => 1) (by
      intro p hp hne
      obtain ⟨u, hu, hq⟩ := (hd _).mp hp
      rw [(hall u hu).1 p hq, if_neg hne]
      exact Nat.one_lt_two)
    convert this using 1
    simp [series, exampleChannel, exampleMask, WetAt, List.range, List.range.loop]
    exact ⟨fun h => absurd (hR 1 1) (by norm_num; linarith), fun h => absurd (hR 1 2) (by norm_num; linarith)⟩

end Verif.Props
