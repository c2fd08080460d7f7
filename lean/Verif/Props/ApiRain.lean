import Verif.Props.Api
import Verif.Props.FrequencyPipelines

/-!
# Property C142, continued: rain rates of a dataset
-/

namespace Verif.Props
open Verif Verif.Wrapper Verif.KR
open Verif.Api (Val)

theorem rate_clip {a b L R_min : ℝ} (ha : 0 < a) (hb : 0 < b) (hL : 0 < L) (x : Fl ℝ) :
    rate (.fin a) (.fin b) (.fin L) (.fin R_min) (clip0 x) =
      rate (.fin a) (.fin b) (.fin L) (.fin R_min) x := by
  cases x with
  | nan => rfl
  | ninf =>
    have : clip0 (.ninf : Fl ℝ) = .fin 0 := by
      unfold clip0
      rw [if_pos (show (Fl.ninf <ᶠ (PyFloat.ofInt 0 : Fl ℝ)) = true from rfl)]
      simp
    rw [this, rate_ninf, rate_fin ha hb hL]
    rw [zero_div, Real.zero_rpow (one_div_ne_zero hb.ne')]
    simp
  | pinf =>
    have : clip0 (.pinf : Fl ℝ) = .pinf := by
      unfold clip0
      rw [if_neg (show ¬ (Fl.pinf <ᶠ (PyFloat.ofInt 0 : Fl ℝ)) = true from Bool.false_ne_true)]
    rw [this]
  | fin x =>
    by_cases hx : x < 0
    · have : clip0 (.fin x : Fl ℝ) = .fin 0 := by simp [clip0, hx]
      rw [this, rate_fin ha hb hL, rate_fin ha hb hL]
      rw [zero_div, Real.zero_rpow (one_div_ne_zero hb.ne'), if_pos hx]
      simp
    · have : clip0 (.fin x : Fl ℝ) = .fin x := by simp [clip0, hx]
      rw [this]

/-- **C142** Setting negative attenuations to 0 before the rain rate is computed changes nothing
("not strictly required" in the notebook). -/
theorem C142_clip_not_required (A : List (Fl ℝ)) (L x R_min : ℝ) (p s : String) (h1 : 1 ≤ x)
    (h2 : x ≤ 100) (hp : isH p ∨ isV p) (hs : s = "ITU_2003" ∨ s = "ITU_2005") (hL : 0 < L) :
    callFP (A.map clip0) L x p s R_min = callFP A L x p s R_min := by
  obtain ⟨u, v, h, hu, hv⟩ := ab_single_pos h1 h2 hp hs
  rw [callFP_eq h, callFP_eq h, callAB_eq, callAB_eq, List.map_map]
  congr 1
  exact List.map_congr_left fun y _ => rate_clip hu hv hL y

/-- A channel with usable data: levels that are numbers, parameters in range. -/
structure UsableChannel (trsl wet : NArr Val) (n waa_max delta_t tau L_km f_GHz pol : Arg Val)
    (c : Coords) (x : List ℝ) (w : List Bool) (k : Nat) (m d t L f : ℝ) (p : String) : Prop where
  trsl : SeriesAt trsl c (x.map .fin)
  wet : FlagsAt wet c w
  n : ValueAt n c (.int k)
  waa_max : ValueAt waa_max c (.num (.fin m))
  delta_t : ValueAt delta_t c (.num (.fin d))
  tau : ValueAt tau c (.num (.fin t))
  L_km : ValueAt L_km c (.num (.fin L))
  f_GHz : ValueAt f_GHz c (.num (.fin f))
  pol : ValueAt pol c (.str p)
  hk : 1 ≤ k
  hm : 0 ≤ m
  hd : 0 ≤ d
  ht : 0 < t
  hL : 0 < L
  hf1 : 1 ≤ f
  hf2 : f ≤ 100
  hp : isH p ∨ isV p
  hlen : x.length = w.length

/-- one usable channel -/
theorem channelRain_usable {x : List ℝ} {w : List Bool} {k : Nat} {m d t L f : ℝ} {p : String}
    (hk : 1 ≤ k) (hm : 0 ≤ m) (hd : 0 ≤ d) (ht : 0 < t) (hL : 0 < L) (hf1 : 1 ≤ f) (hf2 : f ≤ 100)
    (hp : isH p ∨ isV p) (hlen : x.length = w.length) :
    ∃ rs : List ℝ, channelRain cubicSpline (x.map .fin) w k (.fin m) (.fin d) (.fin t) (.fin L)
        (.fin f) p = .ok (rs.map .fin) ∧ rs.length = x.length ∧ (∀ r ∈ rs, 0 ≤ r) ∧
      ∀ i, i < x.length → (i < k ∨ w[i]? = some false) → rs[i]? = some 0 := by
  obtain ⟨base, waa, rs, e1, e2, e3, e4, e5, e6⟩ := C114_chain k hk m d t L f (1 / 10) p "ITU_2005" hm
    hd ht hL hf1 hf2 hp (.inr rfl) x w hlen.le
  refine ⟨rs, ?_, e4, e5, e6⟩
  unfold channelRain
  simp only [bind, Except.bind, e1, e2]
  rw [← e3, ← C142_clip_not_required _ L f (1 / 10) p "ITU_2005" hf1 hf2 hp (.inr rfl) hL]
  rfl

/-- **C142** A dataset whose channels are all usable is processed: the result has the dimensions of
the inputs, every rain rate is a number and not negative, and dry steps and the first
`n_average_last_dry` steps get exactly 0. -/
theorem C142_rain {trsl wet : NArr Val} {n waa_max delta_t tau L_km f_GHz pol : Arg Val}
    (hsize : ∀ a ∈ [.named trsl, .named wet, n, waa_max, delta_t, tau, L_km, f_GHz, pol],
      ∀ b ∈ [.named trsl, .named wet, n, waa_max, delta_t, tau, L_km, f_GHz, pol],
      ∀ p ∈ dimNames a, ∀ q ∈ dimNames b, p.1 = q.1 → p.2 = q.2)
    (hpos : ∀ a ∈ [.named trsl, .named wet, n, waa_max, delta_t, tau, L_km, f_GHz, pol],
      ∀ p ∈ dimNames a, p.1 ≠ "time" → 0 < p.2)
    (x : Coords → List ℝ) (w : Coords → List Bool) (k : Coords → Nat)
    (m d t L f : Coords → ℝ) (p : Coords → String)
    (hch : ∀ c : Coords,
      (∀ a ∈ [.named trsl, .named wet, n, waa_max, delta_t, tau, L_km, f_GHz, pol],
        ∀ p ∈ dimNames a, p.1 ≠ "time" → c p.1 < p.2) →
      UsableChannel trsl wet n waa_max delta_t tau L_km f_GHz pol c (x c) (w c) (k c) (m c) (d c) (t c)
        (L c) (f c) (p c)) :
    ∃ r, Api.processDataset cubicSpline trsl wet n waa_max delta_t tau L_km f_GHz pol = .ok r ∧
      (∀ q, q ∈ r.dims ↔
        ∃ a ∈ [.named trsl, .named wet, n, waa_max, delta_t, tau, L_km, f_GHz, pol],
          q ∈ dimNames a) ∧
      ∀ c : Coords, InArray r c → ∃ rs : List ℝ, SeriesAt r c (rs.map .fin) ∧
        rs.length = (x c).length ∧ (∀ y ∈ rs, 0 ≤ y) ∧
        ∀ i, i < (x c).length → (i < k c ∨ (w c)[i]? = some false) → rs[i]? = some 0 := by
  obtain ⟨r, hr⟩ := C142_succeeds cubicSpline hsize hpos (fun c hc => by
    have u := hch c hc
    obtain ⟨rs, e, -⟩ := channelRain_usable u.hk u.hm u.hd u.ht u.hL u.hf1 u.hf2 u.hp u.hlen
    exact ⟨_, _, _, _, _, _, _, _, _, _, u.trsl, u.wet, u.n, u.waa_max, u.delta_t, u.tau, u.L_km,
      u.f_GHz, u.pol, e⟩)
  obtain ⟨h1, h2⟩ := C142_channels cubicSpline hr
  refine ⟨r, hr, h1, ?_⟩
  intro c hc
  have u := hch c fun a ha q hq hne => hc q ((h1 q).mpr ⟨a, ha, hq⟩) hne
  obtain ⟨y, hy, ey⟩ := h2 hc u.trsl u.wet u.n u.waa_max u.delta_t u.tau u.L_km u.f_GHz u.pol
  obtain ⟨rs, e, e1, e2, e3⟩ := channelRain_usable u.hk u.hm u.hd u.ht u.hL u.hf1 u.hf2 u.hp u.hlen
  rw [e] at ey
  cases ey
  exact ⟨rs, hy, e1, e2, e3⟩

theorem exampleDims (lvl : Nat → Nat → Nat → ℝ) (fl : Nat → Nat → Nat → Bool) :
    ∀ a ∈ ([.named ⟨[("time", 5), ("cml_id", 2), ("channel_id", 2)],
        fun i => .num (.fin (lvl i[0]! i[1]! i[2]!))⟩,
      .named ⟨[("cml_id", 2), ("time", 5), ("channel_id", 2)], fun i => .bool (fl i[1]! i[0]! i[2]!)⟩,
      .plain (.int 5), .plain (.num (.fin 2.2)), .plain (.num (.fin 1)), .plain (.num (.fin 15)),
      .named ⟨[("cml_id", 2)], fun i => .num (.fin (i[0]! + 3))⟩,
      .named ⟨[("cml_id", 2), ("channel_id", 2)], fun i => .num (.fin (20 + i[0]! + i[1]!))⟩,
      .named ⟨[("channel_id", 2), ("cml_id", 2)],
        fun i => .str (if i[0]! = 0 then "H" else "V")⟩] : List (Arg Val)),
      ∀ p ∈ dimNames a, p.2 = if p.1 = "time" then 5 else 2 := by
  intro a ha p hp
  simp only [List.mem_cons, List.not_mem_nil, or_false] at ha
  rcases ha with rfl | rfl | rfl | rfl | rfl | rfl | rfl | rfl | rfl <;>
    simp only [dimNames, List.mem_cons, List.not_mem_nil, or_false] at hp
  · rcases hp with rfl | rfl | rfl <;> rfl
  · rcases hp with rfl | rfl | rfl <;> rfl
  · subst hp; rfl
  · rcases hp with rfl | rfl <;> rfl
  · rcases hp with rfl | rfl <;> rfl

/-- Two CMLs with two channels each and five steps, with time as first dimension, lengths per CML,
frequencies and polarizations per CML and channel, and the parameters of the notebook. -/
theorem exampleProcessed (lvl : Nat → Nat → Nat → ℝ) (fl : Nat → Nat → Nat → Bool) :
    ∃ r, Api.processDataset cubicSpline
      ⟨[("time", 5), ("cml_id", 2), ("channel_id", 2)], fun i => .num (.fin (lvl i[0]! i[1]! i[2]!))⟩
      ⟨[("cml_id", 2), ("time", 5), ("channel_id", 2)], fun i => .bool (fl i[1]! i[0]! i[2]!)⟩
      (.plain (.int 5)) (.plain (.num (.fin 2.2))) (.plain (.num (.fin 1))) (.plain (.num (.fin 15)))
      (.named ⟨[("cml_id", 2)], fun i => .num (.fin (i[0]! + 3))⟩)
      (.named ⟨[("cml_id", 2), ("channel_id", 2)], fun i => .num (.fin (20 + i[0]! + i[1]!))⟩)
      (.named ⟨[("channel_id", 2), ("cml_id", 2)], fun i => .str (if i[0]! = 0 then "H" else "V")⟩) =
      .ok r := by
  obtain ⟨r, h, -⟩ := C142_rain
    (trsl := ⟨[("time", 5), ("cml_id", 2), ("channel_id", 2)],
      fun i => .num (.fin (lvl i[0]! i[1]! i[2]!))⟩)
    (wet := ⟨[("cml_id", 2), ("time", 5), ("channel_id", 2)], fun i => .bool (fl i[1]! i[0]! i[2]!)⟩)
    (n := .plain (.int 5)) (waa_max := .plain (.num (.fin 2.2))) (delta_t := .plain (.num (.fin 1)))
    (tau := .plain (.num (.fin 15)))
    (L_km := .named ⟨[("cml_id", 2)], fun i => .num (.fin (i[0]! + 3))⟩)
    (f_GHz := .named ⟨[("cml_id", 2), ("channel_id", 2)],
      fun i => .num (.fin (20 + i[0]! + i[1]!))⟩)
    (pol := .named ⟨[("channel_id", 2), ("cml_id", 2)],
      fun i => .str (if i[0]! = 0 then "H" else "V")⟩)
    (by
      intro a ha b hb p hp q hq he
      have h2 := exampleDims lvl fl
      rw [h2 a ha p hp, h2 b hb q hq, he])
    (by
      intro a ha p hp _
      rw [exampleDims lvl fl a ha p hp]
      split <;> decide)
    (fun c => (List.range 5).map fun t => lvl t (c "cml_id") (c "channel_id"))
    (fun c => (List.range 5).map fun t => fl t (c "cml_id") (c "channel_id"))
    (fun _ => 5) (fun _ => 2.2) (fun _ => 1) (fun _ => 15) (fun c => c "cml_id" + 3)
    (fun c => 20 + c "cml_id" + c "channel_id")
    (fun c => if c "channel_id" = 0 then "H" else "V")
    (by
      intro c hc
      have c1 : c "cml_id" < 2 :=
        hc _ (List.mem_cons_self ..) ("cml_id", 2) (by simp [dimNames]) (by simp)
      have c2 : c "channel_id" < 2 :=
        hc _ (List.mem_cons_self ..) ("channel_id", 2) (by simp [dimNames]) (by simp)
      have c1' : (c "cml_id" : ℝ) < 2 := by exact_mod_cast c1
      have c2' : (c "channel_id" : ℝ) < 2 := by exact_mod_cast c2
      have c1'' : (0 : ℝ) ≤ c "cml_id" := by positivity
      have c2'' : (0 : ℝ) ≤ c "channel_id" := by positivity
      refine ⟨⟨by simp, ?_⟩, ⟨by simp, ?_⟩, rfl, rfl, rfl, rfl, ⟨by simp, by simp⟩,
        ⟨by simp, by simp⟩, ⟨by simp, by simp⟩, by norm_num, by norm_num, by norm_num, by norm_num,
        by positivity, by linarith, by linarith, ?_, by simp⟩
      · intro t ht
        simp
      · intro t ht
        simp
      · split
        · left; simp [isH]
        · right; simp [isV])
  exact ⟨r, h⟩

/-- C141: two CMLs with three steps; the call succeeds and the result at the second CML is the
baseline of its levels. -/
example (lvl : Nat → Nat → ℝ) (fl : Nat → Nat → Bool) :
    ∃ r y, Api.baseline_constant
      [.named ⟨[("cml_id", 2), ("time", 3)], fun i => .num (.fin (lvl i[0]! i[1]!))⟩,
       .named ⟨[("time", 3), ("cml_id", 2)], fun i => .bool (fl i[1]! i[0]!)⟩]
      [("n_average_last_dry", .plain (.int 1))] = .ok r ∧ SeriesAt r (fun _ => 1) y ∧
      Baseline.baselineConstant [.fin (lvl 1 0), .fin (lvl 1 1), .fin (lvl 1 2)]
        [fl 1 0, fl 1 1, fl 1 2] 1 = .ok y := by
  have hT : ∀ c : Coords, SeriesAt ⟨[("cml_id", 2), ("time", 3)],
      fun i => .num (.fin (lvl i[0]! i[1]!))⟩ c ((List.range 3).map fun t => .fin (lvl (c "cml_id") t)) :=
    fun c => ⟨by simp, fun t ht => by simp⟩
  have hW : ∀ c : Coords, FlagsAt ⟨[("time", 3), ("cml_id", 2)], fun i => .bool (fl i[1]! i[0]!)⟩ c
      ((List.range 3).map fun t => fl (c "cml_id") t) :=
    fun c => ⟨by simp, fun t ht => by simp⟩
  have hD : ∀ a ∈ ([.named ⟨[("cml_id", 2), ("time", 3)], fun i => .num (.fin (lvl i[0]! i[1]!))⟩,
       .named ⟨[("time", 3), ("cml_id", 2)], fun i => .bool (fl i[1]! i[0]!)⟩, .plain (.int 1)] :
       List (Arg Val)), ∀ p ∈ dimNames a, p.2 = if p.1 = "time" then 3 else 2 := by
    intro a ha p hp
    simp only [List.mem_cons, List.not_mem_nil, or_false] at ha
    rcases ha with rfl | rfl | rfl <;>
      simp only [dimNames, List.mem_cons, List.not_mem_nil, or_false] at hp <;>
      rcases hp with rfl | rfl <;> rfl
  obtain ⟨r, hr⟩ := callNd_ok (nt := 3) baselineSig_nodup (func := Api.baselineConstantFn)
    (args := [.named ⟨[("cml_id", 2), ("time", 3)], fun i => .num (.fin (lvl i[0]! i[1]!))⟩,
       .named ⟨[("time", 3), ("cml_id", 2)], fun i => .bool (fl i[1]! i[0]!)⟩])
    (kw := [("n_average_last_dry", .plain (.int 1))])
    (vs := [.named ⟨[("cml_id", 2), ("time", 3)], fun i => .num (.fin (lvl i[0]! i[1]!))⟩,
       .named ⟨[("time", 3), ("cml_id", 2)], fun i => .bool (fl i[1]! i[0]!)⟩, .plain (.int 1)]) rfl
    (by intro a ha b hb p hp q hq he; rw [hD a ha p hp, hD b hb q hq, he])
    ⟨_, List.mem_cons_self .., by simp [dimNames]⟩
    (by intro a ha p hp _; rw [hD a ha p hp]; split <;> decide)
    (by
      intro c _
      have h1 := (hT c).part
      have h2 := (hW c).part
      simp only [List.length_map, List.length_range] at h1 h2
      refine ⟨(Baseline.constLoop ((List.range 3).map fun t => Fl.fin (lvl (c "cml_id") t))
        ((List.range 3).map fun t => fl (c "cml_id") t) 1).map .num, ?_, ?_⟩
      · show Api.baselineConstantFn [partAt 3 c (.named _), partAt 3 c (.named _),
          .scalar (.int ((1 : Nat) : Int))] = _
        rw [h1, h2, baselineFn_eq]
        rfl
      · simp [Baseline.constLoop_length])
  have hin : InArray r fun _ => 1 := by
    obtain ⟨_, _, _, d3, _⟩ := callNd_spec baselineSig_nodup
      (vs := [.named ⟨[("cml_id", 2), ("time", 3)], fun i => .num (.fin (lvl i[0]! i[1]!))⟩,
       .named ⟨[("time", 3), ("cml_id", 2)], fun i => .bool (fl i[1]! i[0]!)⟩, .plain (.int 1)]) rfl hr
    intro p hp hne
    obtain ⟨a, ha, hq⟩ := (d3 p).mp hp
    rw [hD a ha p hq, if_neg hne]
    exact Nat.one_lt_two
  obtain ⟨y, h1, h2⟩ := C141_baseline_constant hr hin (hT _) (hW _) (k := 1) rfl
  exact ⟨r, y, hr, h1, h2⟩

end Verif.Props
