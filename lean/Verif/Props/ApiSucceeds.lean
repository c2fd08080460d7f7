import Verif.Props.Api

/-!
# Property C141: calls on whole datasets succeed
-/

namespace Verif.Props
open Verif Verif.Wrapper Verif.Api

/-- Arguments that fit together: they agree about the sizes of their dimensions, and no dimension besides time is empty. -/
def ArgsFit (vs : List (Arg Val)) : Prop :=
  (∀ a ∈ vs, ∀ b ∈ vs, ∀ p ∈ dimNames a, ∀ q ∈ dimNames b, p.1 = q.1 → p.2 = q.2) ∧
    ∀ a ∈ vs, ∀ p ∈ dimNames a, p.1 ≠ "time" → 0 < p.2

/-- `c` is a combination of indices of the dimensions other than time -/
def ChannelOf (vs : List (Arg Val)) (c : Coords) : Prop := ∀ a ∈ vs, ∀ p ∈ dimNames a, p.1 ≠ "time" → c p.1 < p.2

/-- A call succeeds if the arguments fit together and every channel gives a series as long as that of the argument `main`; further
arguments `ds` are single objects. -/
theorem callNd_total {sig : List (Param (Arg Val))} (hn : (sig.map (·.name)).Nodup)
    {func : List (FArg Val) → Except Err (FOut Val)} {args : List (Arg Val)} {kw : List (String × Arg Val)} {vs : List (Arg Val)}
    {ds : List Val} (hb : pyBind sig args kw = .ok (vs ++ ds.map .plain)) (hfit : ArgsFit vs) {main : NArr Val}
    (hmain : .named main ∈ vs)
    (hch : ∀ c, ChannelOf vs c → ∃ es : List Val, EntriesAt main c es ∧
      ((∀ b : NArr Val, .named b ∈ vs → ∀ es', EntriesAt b c es' → partAt es.length c (.named b) = .series es') →
        ∃ xs, func (vs.map (partAt es.length c) ++ ds.map .scalar) = .ok (.one xs) ∧ xs.length = es.length)) :
    ∃ r, callNd sig func args kw = .ok r := by
  have hplain : ∀ a ∈ ds.map Arg.plain, dimNames a = [] := by
    intro a ha
    obtain ⟨v, _, rfl⟩ := List.mem_map.mp ha
    rfl
  have hin : ∀ a ∈ vs ++ ds.map Arg.plain, ∀ p ∈ dimNames a, a ∈ vs := by
    intro a ha p hp
    rcases List.mem_append.mp ha with h | h
    · exact h
    · rw [hplain a h] at hp
      cases hp
  obtain ⟨e0, h0, _⟩ := hch (fun _ => 0) hfit.2
  refine callNd_ok (nt := e0.length) hn hb
    (fun a ha b hb' p hp q hq => hfit.1 a (hin a ha p hp) b (hin b hb' q hq) p hp q hq)
    ⟨.named main, List.mem_append_left _ hmain, h0.1⟩ (fun a ha p hp => hfit.2 a (hin a ha p hp) p hp) ?_
  intro c hc
  obtain ⟨es, he, hf⟩ := hch c fun a ha p hp => hc a (List.mem_append_left _ ha) p hp
  have hl : ∀ b : NArr Val, .named b ∈ vs → ∀ es', EntriesAt b c es' → es'.length = e0.length := fun b hb' es' he' =>
    hfit.1 (.named b) hb' (.named main) hmain _ he'.1 _ h0.1 rfl
  have hle := hl main hmain es he
  rw [← hle]
  obtain ⟨xs, h1, h2⟩ := hf fun b hb' es' he' => by
    rw [hle, ← hl b hb' es' he']
    exact he'.part
  refine ⟨xs, ?_, h2⟩
  rw [List.map_append, List.map_map]
  exact h1

theorem mapM_len_except {α β : Type} (f : α → Except Err β) : ∀ (l : List α) (o : List β), l.mapM f = .ok o → o.length = l.length := by
  intro l
  induction l with
  | nil =>
    intro o h
    cases h
    rfl
  | cons a l ih =>
    intro o h
    rw [List.mapM_cons] at h
    cases h1 : f a with
    | error e => rw [h1] at h; cases h
    | ok b =>
      rw [h1] at h
      cases h2 : l.mapM f with
      | error e => rw [h2] at h; cases h
      | ok bs =>
        rw [h2] at h
        cases h
        simp [ih bs h2]

theorem pastorek_len {sp : KR.Spline} {A : List (Fl ℝ)} {f L m z d : Fl ℝ} {p : String} {o : List (Fl ℝ)}
    (h : WaaModels.waa_pastorek_2021_from_A_obs sp A f p L m z d = .ok o) : o.length = A.length := by
  rw [WaaModels.from_A_obs_eq] at h
  split_ifs at h
  simp only [bind, Except.bind] at h
  split at h
  · cases h
  split at h
  · cases h
  exact mapM_len_except _ _ _ h

theorem leijnse_len {sp : KR.Spline} {A : List (Fl ℝ)} {f T g d l : ℝ} {L : Fl ℝ} {n : ℂ} {p : String} {o : List (Fl ℝ)}
    (h : WaaModels.waa_leijnse_2008_from_A_obs sp A f p L T g d n l = .ok o) : o.length = A.length := by
  unfold WaaModels.waa_leijnse_2008_from_A_obs at h
  split_ifs at h
  simp only [bind, Except.bind] at h
  split at h
  · cases h
  split at h
  · cases h
  exact mapM_len_except _ _ _ h

theorem retrival_len {sp : KR.Spline} {x lo hi Fs : List (Fl ℝ)} {L w al th : Fl ℝ} {f a b : Option (List (Fl ℝ))}
    {p : Option (List String)} {s : String} {o : List (Fl ℝ)}
    (h : Nearby.rainfall_retrival sp x lo hi Fs L f p a b s w al (some th) = .ok o) : o.length = Fs.length := by
  have key : ∀ R : List (Fl ℝ), (if Fs.length = R.length then KR.assignMask R (Fs.map (· ≤ᶠ th)) [PyFloat.nan]
      else .error .indexError) = .ok o → o.length = Fs.length := by
    intro R hR
    split_ifs at hR with hl
    rw [assignMask_len hR, hl]
  unfold Nearby.rainfall_retrival Nearby.retrieval at h
  simp only [bind, Except.bind] at h
  repeat' (split at h)
  all_goals first
    | exact key _ (by assumption)
    | cases h
    | (rw [assignMask_len h]; omega)

/-- **C141** `baseline_constant` on a dataset succeeds whenever the arguments fit together and it succeeds for every channel. -/
theorem C141_succeeds_baseline {trsl wet : NArr Val} {n : Arg Val} (hfit : ArgsFit [.named trsl, .named wet, n])
    (hch : ∀ c, ChannelOf [.named trsl, .named wet, n] c → ∃ x w k y, SeriesAt trsl c x ∧ FlagsAt wet c w ∧ ValueAt n c (.int (k : ℕ)) ∧
      Baseline.baselineConstant x w k = .ok y) :
    ∃ r, Api.baseline_constant [.named trsl, .named wet] [("n_average_last_dry", n)] = .ok r := by
  refine callNd_total baselineSig_nodup (vs := [.named trsl, .named wet, n]) (ds := []) rfl hfit (main := trsl) (by simp) ?_
  intro c hc
  obtain ⟨x, w, k, y, hx, hw, hk, hy⟩ := hch c hc
  refine ⟨_, hx, fun part => ⟨y.map .num, ?_, ?_⟩⟩
  · simp only [List.map_cons, List.map_nil, List.append_nil, part trsl (by simp) _ hx, part wet (by simp) _ hw, hk.part]
    rw [baselineFn_eq, hy]
    rfl
  · simp [baseline_len hy]

/-- **C141** the same for `waa_schleiss_2013` -/
theorem C141_succeeds_schleiss {rsl baseline wet : NArr Val} {waa_max delta_t tau : Arg Val}
    (hfit : ArgsFit [.named rsl, .named baseline, .named wet, waa_max, delta_t, tau])
    (hch : ∀ c, ChannelOf [.named rsl, .named baseline, .named wet, waa_max, delta_t, tau] c → ∃ x bl w m d t y, SeriesAt rsl c x ∧
      SeriesAt baseline c bl ∧ FlagsAt wet c w ∧ ValueAt waa_max c (.num m) ∧ ValueAt delta_t c (.num d) ∧ ValueAt tau c (.num t) ∧
      Waa.waaSchleiss x bl (w.map flagF) m d t = .ok y) :
    ∃ r, Api.waa_schleiss_2013 [.named rsl, .named baseline, .named wet, waa_max, delta_t, tau] [] = .ok r := by
  refine callNd_total schleissSig_nodup (vs := [.named rsl, .named baseline, .named wet, waa_max, delta_t, tau]) (ds := []) rfl hfit
    (main := rsl) (by simp) ?_
  intro c hc
  obtain ⟨x, bl, w, m, d, t, y, hx, hbl, hw, hm, hd, ht, hy⟩ := hch c hc
  refine ⟨_, hx, fun part => ⟨y.map .num, ?_, ?_⟩⟩
  · simp only [List.map_cons, List.map_nil, List.append_nil, part rsl (by simp) _ hx, part baseline (by simp) _ hbl,
      part wet (by simp) _ hw, hm.part, hd.part, ht.part]
    rw [schleissFn_eq, hy]
    rfl
  · simp [(schleiss_len hy).1]

/-- **C141** the same for `calc_R_from_A` with frequency and polarization, and with `a` and `b` -/
theorem C141_succeeds_rain (sp : KR.Spline) {A : NArr Val} {L_km q1 q2 : Arg Val} (hfit : ArgsFit [.named A, L_km, q1, q2]) :
    ((∀ c, ChannelOf [.named A, L_km, q1, q2] c → ∃ x L f p y, SeriesAt A c x ∧ ValueAt L_km c (.num L) ∧ ValueAt q1 c (.num f) ∧
        ValueAt q2 c (.str p) ∧ KR.calc_R_from_A sp x L (some [f]) (some [p]) none none "ITU_2005" (.fin (1 / 10)) = .ok y) →
      ∃ r, Api.calc_R_from_A sp [.named A, L_km] [("f_GHz", q1), ("pol", q2)] = .ok r) ∧
    ((∀ c, ChannelOf [.named A, L_km, q1, q2] c → ∃ x L a b y, SeriesAt A c x ∧ ValueAt L_km c (.num L) ∧ ValueAt q1 c (.num a) ∧
        ValueAt q2 c (.num b) ∧ KR.calc_R_from_A sp x L none none (some [a]) (some [b]) "ITU_2005" (.fin (1 / 10)) = .ok y) →
      ∃ r, Api.calc_R_from_A sp [.named A, L_km] [("a", q1), ("b", q2)] = .ok r) := by
  constructor
  · intro hch
    refine callNd_total calcRSig_nodup (vs := [.named A, L_km, q1, q2]) (ds := [.none, .none, .str "ITU_2005", .num (.fin (1 / 10))]) rfl
      hfit (main := A) (by simp) ?_
    intro c hc
    obtain ⟨x, L, f, p, y, hx, hL, hf, hp, hy⟩ := hch c hc
    refine ⟨_, hx, fun part => ⟨y.map .num, ?_, ?_⟩⟩
    · simp only [List.map_cons, List.map_nil, List.cons_append, List.nil_append, part A (by simp) _ hx, hL.part, hf.part, hp.part]
      rw [calcRFn_eq, hy]
      rfl
    · simp [calcR_len hy]
  · intro hch
    have hfit' : ArgsFit [.named A, L_km, .plain .none, .plain .none, q1, q2] := by
      constructor
      · intro a ha b hb p hp q hq
        refine hfit.1 a ?_ b ?_ p hp q hq
        · simp only [List.mem_cons, List.not_mem_nil, or_false] at ha ⊢
          rcases ha with h | h | rfl | rfl | h | h
          · tauto
          · tauto
          · cases hp
          · cases hp
          · tauto
          · tauto
        · simp only [List.mem_cons, List.not_mem_nil, or_false] at hb ⊢
          rcases hb with h | h | rfl | rfl | h | h
          · tauto
          · tauto
          · cases hq
          · cases hq
          · tauto
          · tauto
      · intro a ha p hp
        refine hfit.2 a ?_ p hp
        simp only [List.mem_cons, List.not_mem_nil, or_false] at ha ⊢
        rcases ha with h | h | rfl | rfl | h | h
        · tauto
        · tauto
        · cases hp
        · cases hp
        · tauto
        · tauto
    refine callNd_total calcRSig_nodup (vs := [.named A, L_km, .plain .none, .plain .none, q1, q2])
      (ds := [.str "ITU_2005", .num (.fin (1 / 10))]) rfl hfit' (main := A) (by simp) ?_
    intro c hc
    obtain ⟨x, L, a, b, y, hx, hL, ha, hb, hy⟩ := hch c fun a ha p hp => hc a (by
      simp only [List.mem_cons, List.not_mem_nil, or_false] at ha ⊢
      tauto) p hp
    refine ⟨_, hx, fun part => ⟨y.map .num, ?_, ?_⟩⟩
    · simp only [List.map_cons, List.map_nil, List.cons_append, List.nil_append, part A (by simp) _ hx, hL.part, ha.part, hb.part,
        show ∀ nt v, partAt nt c (.plain v : Arg Val) = .scalar v from fun _ _ => rfl]
      rw [calcRFn_ab_eq, hy]
      rfl
    · simp [calcR_len hy]

/-- **C141** the same for `waa_leijnse_2008_from_A_obs` -/
theorem C141_succeeds_leijnse (sp : KR.Spline) {A_obs : NArr Val} {f_Hz pol L_km : Arg Val}
    (hfit : ArgsFit [.named A_obs, f_Hz, pol, L_km])
    (hch : ∀ c, ChannelOf [.named A_obs, f_Hz, pol, L_km] c → ∃ x f p L y, SeriesAt A_obs c x ∧ ValueAt f_Hz c (.num (.fin f)) ∧
      ValueAt pol c (.str p) ∧ ValueAt L_km c (.num L) ∧
      WaaModels.waa_leijnse_2008_from_A_obs sp x f p L 293 (206 / 10000000) (24 / 100) ⟨173 / 100, 14 / 1000⟩ (1 / 1000) = .ok y) :
    ∃ r, Api.waa_leijnse_2008_from_A_obs sp [.named A_obs, f_Hz, pol, L_km] [] = .ok r := by
  refine callNd_total leijnseSig_nodup (vs := [.named A_obs, f_Hz, pol, L_km]) (ds := [.num (.fin 293), .num (.fin (206 / 10000000)),
    .num (.fin (24 / 100)), .cplx ⟨173 / 100, 14 / 1000⟩, .num (.fin (1 / 1000))]) rfl hfit (main := A_obs) (by simp) ?_
  intro c hc
  obtain ⟨x, f, p, L, y, hx, hf, hp, hL, hy⟩ := hch c hc
  refine ⟨_, hx, fun part => ⟨y.map .num, ?_, ?_⟩⟩
  · simp only [List.map_cons, List.map_nil, List.cons_append, List.nil_append, part A_obs (by simp) _ hx, hL.part, hf.part, hp.part]
    rw [leijnseFn_eq, hy]
    rfl
  · simp [leijnse_len hy]

/-- **C141** the same for `waa_pastorek_2021_from_A_obs` -/
theorem C141_succeeds_pastorek (sp : KR.Spline) {A_obs : NArr Val} {f_Hz pol L_km : Arg Val}
    (hfit : ArgsFit [.named A_obs, f_Hz, pol, L_km])
    (hch : ∀ c, ChannelOf [.named A_obs, f_Hz, pol, L_km] c → ∃ x f p L y, SeriesAt A_obs c x ∧ ValueAt f_Hz c (.num f) ∧
      ValueAt pol c (.str p) ∧ ValueAt L_km c (.num L) ∧
      WaaModels.waa_pastorek_2021_from_A_obs sp x f p L (.fin 14) (.fin (55 / 100)) (.fin (1 / 10)) = .ok y) :
    ∃ r, Api.waa_pastorek_2021_from_A_obs sp [.named A_obs, f_Hz, pol, L_km] [] = .ok r := by
  refine callNd_total pastorekSig_nodup (vs := [.named A_obs, f_Hz, pol, L_km]) (ds := [.int 14, .num (.fin (55 / 100)),
    .num (.fin (1 / 10))]) rfl hfit (main := A_obs) (by simp) ?_
  intro c hc
  obtain ⟨x, f, p, L, y, hx, hf, hp, hL, hy⟩ := hch c hc
  refine ⟨_, hx, fun part => ⟨y.map .num, ?_, ?_⟩⟩
  · simp only [List.map_cons, List.map_nil, List.cons_append, List.nil_append, part A_obs (by simp) _ hx, hL.part, hf.part, hp.part]
    have h14 : (PyFloat.ofInt 14 : Fl ℝ) = .fin 14 := by
      show Fl.fin ((14 : Int) : ℝ) = _
      norm_num
    rw [pastorekFn_eq, h14, hy]
    rfl
  · simp [pastorek_len hy]

/-- **C141** the same for `nearby_rainfall_retrival` -/
theorem C141_succeeds_nearby (sp : KR.Spline) {pref p_c_min p_c_max F : NArr Val} {length f_GHz pol : Arg Val}
    (hfit : ArgsFit [.named pref, .named p_c_min, .named p_c_max, .named F, length, f_GHz, pol])
    (hch : ∀ c, ChannelOf [.named pref, .named p_c_min, .named p_c_max, .named F, length, f_GHz, pol] c → ∃ x lo hi Fs L f p y,
      SeriesAt pref c x ∧ SeriesAt p_c_min c lo ∧ SeriesAt p_c_max c hi ∧ SeriesAt F c Fs ∧ ValueAt length c (.num L) ∧
      ValueAt f_GHz c (.num f) ∧ ValueAt pol c (.str p) ∧
      Nearby.rainfall_retrival sp x lo hi Fs L (some [f]) (some [p]) none none "ITU_2005" (.fin (23 / 10)) (.fin (33 / 100))
        (some (.fin (-(325 / 10)))) = .ok y) :
    ∃ r, Api.nearby_rainfall_retrival sp [.named pref, .named p_c_min, .named p_c_max, .named F, length]
      [("f_GHz", f_GHz), ("pol", pol)] = .ok r := by
  refine callNd_total nearbySig_nodup (vs := [.named pref, .named p_c_min, .named p_c_max, .named F, length, f_GHz, pol])
    (ds := [.none, .none, .str "ITU_2005", .num (.fin (23 / 10)), .num (.fin (33 / 100)), .num (.fin (-(325 / 10)))]) rfl hfit
    (main := F) (by simp) ?_
  intro c hc
  obtain ⟨x, lo, hi, Fs, L, f, p, y, hx, hlo, hhi, hF, hL, hf, hp, hy⟩ := hch c hc
  refine ⟨_, hF, fun part => ⟨y.map .num, ?_, ?_⟩⟩
  · simp only [List.map_cons, List.map_nil, List.cons_append, List.nil_append, part pref (by simp) _ hx, part p_c_min (by simp) _ hlo,
      part p_c_max (by simp) _ hhi, part F (by simp) _ hF, hL.part, hf.part, hp.part]
    rw [nearbyFn_eq, hy]
    rfl
  · simp [retrival_len hy]

/-- baselines of three channels with two steps each, the second dry -/
example : ∃ r, Api.baseline_constant [.named ⟨[("cml", 3), ("time", 2)], fun idx => .num (.fin (idx.getD 1 0))⟩,
    .named ⟨[("time", 2)], fun _ => .bool false⟩] [("n_average_last_dry", .plain (.int 1))] = .ok r := by
  refine C141_succeeds_baseline ⟨?_, ?_⟩ ?_
  · intro a ha b hb p hp q hq
    simp only [List.mem_cons, List.not_mem_nil, or_false] at ha hb
    rcases ha with rfl | rfl | rfl <;> rcases hb with rfl | rfl | rfl <;> simp [dimNames] at hp hq <;> aesop
  · intro a ha p hp
    simp only [List.mem_cons, List.not_mem_nil, or_false] at ha
    rcases ha with rfl | rfl | rfl <;> simp [dimNames] at hp <;> aesop
  · intro c _
    refine ⟨[.fin 0, .fin 1], [false, false], 1, _, ⟨by simp, ?_⟩, ⟨by simp, ?_⟩, rfl, rfl⟩
    · intro t ht
      have : t = 0 ∨ t = 1 := by simp at ht; omega
      rcases this with rfl | rfl <;> simp
    · intro t ht
      have : t = 0 ∨ t = 1 := by simp at ht; omega
      rcases this with rfl | rfl <;> simp

end Verif.Props
