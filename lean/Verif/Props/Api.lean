import Verif.Model.Api
import Verif.Props.Wrapper
import Verif.Props.Chain

/-!
# Properties C141 and C142: the decorated functions on whole datasets
-/

namespace Verif.Props
open Verif Verif.Wrapper
open Verif.Api (Val callNd floats float1 real1 nat1 str1 cplx1 optFloats optStr optFloat1 oneSeries rawOf resArray xrSub subVal xrClip clipVal)

/-! ### What a dataset contains -/

/-- the array has a time dimension and its entries along time at the coordinates `c` are `vs` -/
def EntriesAt (a : NArr Val) (c : Coords) (vs : List Val) : Prop :=
  ("time", vs.length) ∈ a.dims ∧
    ∀ (t : Nat) (h : t < vs.length),
      a.val (a.dims.map fun d => if d.1 = "time" then t else c d.1) = vs[t]

/-- the time series at `c` -/
def SeriesAt (a : NArr Val) (c : Coords) (x : List (Fl ℝ)) : Prop := EntriesAt a c (x.map .num)

/-- the wet/dry flags at `c` -/
def FlagsAt (a : NArr Val) (c : Coords) (w : List Bool) : Prop := EntriesAt a c (w.map .bool)

/-- a parameter that is the object `v` at `c`: the object itself, or a DataArray without time
dimension with this entry -/
def ValueAt (a : Arg Val) (c : Coords) (v : Val) : Prop :=
  match a with
  | .plain u => u = v
  | .named x => (∀ p ∈ x.dims, p.1 ≠ "time") ∧ x.val (x.dims.map fun d => c d.1) = v

/-- `c` is a combination of indices of the array's dimensions other than time -/
def InArray (a : NArr Val) (c : Coords) : Prop := ∀ p ∈ a.dims, p.1 ≠ "time" → c p.1 < p.2

theorem EntriesAt.part {a : NArr Val} {c : Coords} {vs : List Val} (h : EntriesAt a c vs) :
    partAt vs.length c (.named a) = .series vs := by
  simp only [partAt]
  rw [if_pos (List.mem_map.mpr ⟨_, h.1, rfl⟩)]
  congr 1
  apply List.ext_getElem
  · simp
  · intro t h1 h2
    simp only [List.getElem_map, List.getElem_range]
    exact h.2 t h2

theorem ValueAt.part {a : Arg Val} {c : Coords} {v : Val} (h : ValueAt a c v) (nt : Nat) :
    partAt nt c a = .scalar v := by
  cases a with
  | plain u => simp only [ValueAt] at h; rw [h]; rfl
  | named x =>
    obtain ⟨h1, h2⟩ := h
    simp only [partAt]
    rw [if_neg, h2]
    rintro hm
    obtain ⟨p, hp, he⟩ := List.mem_map.mp hm
    exact h1 p hp he

/-- entries at `c` are determined -/
theorem EntriesAt.unique {a : NArr Val} (hn : (a.dims.map (·.1)).Nodup) {c : Coords}
    {vs ws : List Val} (h : EntriesAt a c vs) (k : EntriesAt a c ws) : vs = ws := by
  have hl : vs.length = ws.length := by
    have := List.inj_on_of_nodup_map hn h.1 k.1 rfl
    simpa using this
  apply List.ext_getElem hl
  intro t h1 h2
  rw [← h.2 t h1, ← k.2 t h2]

/-! ### Calls -/

/-- A call only depends on the bound values. -/
theorem callNd_bind {sig : List (Param (Arg Val))} (hn : (sig.map (·.name)).Nodup)
    (func : List (FArg Val) → Except Err (FOut Val)) {args args' : List (Arg Val)}
    {kw kw' : List (String × Arg Val)} {vs : List (Arg Val)} (hb : pyBind sig args kw = .ok vs)
    (hb' : pyBind sig args' kw' = .ok vs) :
    callNd sig func args kw = callNd sig func args' kw' := by
  unfold callNd inner
  dsimp only
  rw [inner_values sig hn .empty args kw vs hb, inner_values sig hn .empty args' kw' vs hb', hb, hb']

theorem array_entries {dims : List (String × Nat)} {nt : Nat}
    {out : List Nat → Option (List Val)} (hd : ∀ p ∈ dims, p.1 ≠ "time") (c : Coords)
    {xs : List Val} (ho : out (dims.map fun p => c p.1) = some xs) (hl : xs.length = nt) :
    EntriesAt ⟨dims ++ [("time", nt)], fun idx =>
      ((out idx.dropLast).getD []).getD (idx.getLastD 0) .empty⟩ c xs := by
  refine ⟨by simp [hl], ?_⟩
  intro t ht
  have hm : (dims ++ [("time", nt)]).map (fun d => if d.1 = "time" then t else c d.1) =
      (dims.map fun p => c p.1) ++ [t] := by
    rw [List.map_append]
    congr 1
    · apply List.map_congr_left
      intro p hp
      rw [if_neg (hd p hp)]
  simp only
  rw [hm, List.dropLast_concat, ho]
  simp [ht]

/-- What a successful call on DataArrays returns. -/
theorem callNd_spec {sig : List (Param (Arg Val))} (hn : (sig.map (·.name)).Nodup)
    {func : List (FArg Val) → Except Err (FOut Val)} {args : List (Arg Val)}
    {kw : List (String × Arg Val)} {vs : List (Arg Val)} (hb : pyBind sig args kw = .ok vs)
    {r : NArr Val} (h : callNd sig func args kw = .ok r) :
    ∃ nt, ("time", nt) ∈ r.dims ∧ (r.dims.map (·.1)).Nodup ∧
      (∀ p, p ∈ r.dims ↔ ∃ a ∈ vs, p ∈ dimNames a) ∧
      ∀ c, InArray r c → ∃ xs, EntriesAt r c xs ∧ xs.length = nt ∧
        (func (vs.map (partAt nt c)) = .ok (.one xs) ∨
         func (vs.map (partAt nt c)) = .ok (.tuple [xs])) := by
  unfold callNd at h
  cases hi : inner sig func (rawOf func) .empty args kw with
  | error e => rw [hi] at h; cases h
  | ok res =>
    rw [hi] at h
    cases res with
    | plain o => cases h
    | array dims nt out =>
      have ht : ∃ a ∈ vs, ∃ n, ("time", n) ∈ dimNames a := by
        by_contra hno
        push Not at hno
        rw [C29_no_time sig hn func (rawOf func) .empty args kw vs hb hno] at hi
        cases hr : rawOf func vs <;> rw [hr] at hi <;> cases hi
      obtain ⟨s1, s2, s3, s4, s5⟩ := C29_slicewise sig hn func (rawOf func) .empty args kw vs hb
        dims nt out hi
      simp only [resArray, Except.ok.injEq] at h
      subst h
      refine ⟨nt, by simp, ?_, ?_, ?_⟩
      · simp only [List.map_append, List.map_cons, List.map_nil]
        rw [List.nodup_append]
        refine ⟨s1, by simp, ?_⟩
        intro a ha b hb' he
        simp only [List.mem_singleton] at hb'
        obtain ⟨p, hp, rfl⟩ := List.mem_map.mp ha
        exact s2 p hp (he.trans hb')
      · intro p
        simp only [List.mem_append, List.mem_singleton]
        constructor
        · rintro (hp | rfl)
          · exact ((s3 p).mp hp).2
          · obtain ⟨a, ha, n, hm⟩ := ht
            exact ⟨a, ha, s4 a ha n hm ▸ hm⟩
        · rintro ⟨a, ha, hm⟩
          by_cases hp : p.1 = "time"
          · right
            obtain ⟨d, n⟩ := p
            simp only at hp
            subst hp
            rw [s4 a ha n hm]
          · exact .inl ((s3 p).mpr ⟨hp, a, ha, hm⟩)
      · intro c hc
        obtain ⟨xs, e1, e2, e3⟩ := s5 c (fun p hp => hc p (by simp [hp]) (s2 p hp))
        exact ⟨xs, array_entries s2 c e1 e2, e2, e3⟩

/-- A call succeeds if sizes agree, no dimension besides time is empty and the function returns a
series of the right length everywhere. -/
theorem callNd_ok {sig : List (Param (Arg Val))} (hn : (sig.map (·.name)).Nodup)
    {func : List (FArg Val) → Except Err (FOut Val)} {args : List (Arg Val)}
    {kw : List (String × Arg Val)} {vs : List (Arg Val)} (hb : pyBind sig args kw = .ok vs)
    {nt : Nat}
    (hsize : ∀ a ∈ vs, ∀ b ∈ vs, ∀ p ∈ dimNames a, ∀ q ∈ dimNames b, p.1 = q.1 → p.2 = q.2)
    (htime : ∃ a ∈ vs, ("time", nt) ∈ dimNames a)
    (hpos : ∀ a ∈ vs, ∀ p ∈ dimNames a, p.1 ≠ "time" → 0 < p.2)
    (hf : ∀ c : Coords, (∀ a ∈ vs, ∀ p ∈ dimNames a, p.1 ≠ "time" → c p.1 < p.2) →
      ∃ xs, func (vs.map (partAt nt c)) = .ok (.one xs) ∧ xs.length = nt) :
    ∃ r, callNd sig func args kw = .ok r := by
  obtain ⟨dims, out, h⟩ := C29_succeeds sig hn func (rawOf func) .empty args kw vs hb nt hsize htime
    hpos hf
  unfold callNd
  rw [h]
  exact ⟨_, rfl⟩

theorem floats_num (x : List (Fl ℝ)) : floats (.series (x.map .num)) = .ok x := by
  unfold floats
  induction x with
  | nil => rfl
  | cons a x ih =>
    simp only at ih
    simp only [List.map_cons, List.mapM_cons, ih, Val.toNum]
    rfl

theorem floats_flags (w : List Bool) : floats (.series (w.map .bool)) = .ok (w.map flagF) := by
  unfold floats
  induction w with
  | nil => rfl
  | cons a x ih =>
    simp only at ih
    simp only [List.map_cons, List.mapM_cons, ih, Val.toNum]
    cases a <;> rfl

theorem truthy_flagF (b : Bool) : truthy (flagF b : Fl ℝ) = b := by
  cases b
  · show (!decide ((((0 : Int) : ℝ)) = ((0 : Int) : ℝ))) = false
    simp
  · show (!decide ((((1 : Int) : ℝ)) = ((0 : Int) : ℝ))) = true
    simp

theorem truthy_flags (w : List Bool) : (w.map (flagF : Bool → Fl ℝ)).map truthy = w := by
  rw [List.map_map]
  conv_rhs => rw [← List.map_id w]
  exact List.map_congr_left fun b _ => truthy_flagF b

theorem oneSeries_inv {res : Except Err (List (Fl ℝ))} {o : Except Err (FOut Val)} {xs : List Val}
    (ho : o = res.map oneSeries) (h : o = .ok (.one xs) ∨ o = .ok (.tuple [xs])) :
    ∃ y, res = .ok y ∧ xs = y.map .num := by
  subst ho
  cases res with
  | error e => rcases h with h | h <;> cases h
  | ok y =>
    rcases h with h | h
    · refine ⟨y, rfl, ?_⟩
      simp only [Except.map, oneSeries, Except.ok.injEq, FOut.one.injEq] at h
      exact h.symm
    · simp [Except.map, oneSeries] at h

theorem part_in_call {r : NArr Val} {vs : List (Arg Val)} {nt : Nat} (d1 : ("time", nt) ∈ r.dims)
    (d2 : (r.dims.map (·.1)).Nodup) (d3 : ∀ p, p ∈ r.dims ↔ ∃ a ∈ vs, p ∈ dimNames a)
    {a : NArr Val} (ha : Arg.named a ∈ vs) {c : Coords} {es : List Val} (h : EntriesAt a c es) :
    partAt nt c (.named a) = .series es := by
  have hl : es.length = nt := by
    have := List.inj_on_of_nodup_map d2 ((d3 _).mpr ⟨_, ha, h.1⟩) d1 rfl
    simpa using this
  rw [← hl]
  exact h.part

/-! ### C141: one function on a dataset -/

theorem baselineFn_eq (x : List (Fl ℝ)) (w : List Bool) (n : Nat) :
    Api.baselineConstantFn [.series (x.map .num), .series (w.map .bool), .scalar (.int n)] =
      (Baseline.baselineConstant x w n).map oneSeries := by
  simp only [Api.baselineConstantFn, floats_num, floats_flags, nat1, Int.natCast_nonneg, if_true,
    Int.toNat_natCast, bind, Except.bind, Baseline.baselineConstantF, truthy_flags]
  cases Baseline.baselineConstant x w n <;> rfl

theorem baselineSig_nodup : (Api.baselineConstantSig.map (·.name)).Nodup := by decide

/-- **C141** `baseline_constant(trsl, wet, n_average_last_dry=n)` on a dataset: at every channel the
result is the baseline of this channel's levels and flags. -/
theorem C141_baseline_constant {trsl wet : NArr Val} {n : Arg Val} {r : NArr Val}
    (h : Api.baseline_constant [.named trsl, .named wet] [("n_average_last_dry", n)] = .ok r)
    {c : Coords} (hc : InArray r c) {x : List (Fl ℝ)} {w : List Bool} {k : Nat}
    (hx : SeriesAt trsl c x) (hw : FlagsAt wet c w) (hk : ValueAt n c (.int k)) :
    ∃ y, SeriesAt r c y ∧ Baseline.baselineConstant x w k = .ok y := by
  obtain ⟨nt, d1, d2, d3, d4⟩ := callNd_spec baselineSig_nodup
    (vs := [.named trsl, .named wet, n]) rfl h
  obtain ⟨xs, e1, e2, e3⟩ := d4 c hc
  simp only [List.map_cons, List.map_nil, part_in_call d1 d2 d3 (by simp) hx,
    part_in_call d1 d2 d3 (by simp) hw, hk.part nt] at e3
  obtain ⟨y, y1, y2⟩ := oneSeries_inv (baselineFn_eq x w k) e3
  exact ⟨y, by rw [y2] at e1; exact e1, y1⟩

theorem schleissFn_eq (x bl : List (Fl ℝ)) (w : List Bool) (m d t : Fl ℝ) :
    Api.waaSchleissFn [.series (x.map .num), .series (bl.map .num), .series (w.map .bool),
      .scalar (.num m), .scalar (.num d), .scalar (.num t)] =
      (Waa.waaSchleiss x bl (w.map flagF) m d t).map oneSeries := by
  simp only [Api.waaSchleissFn, floats_num, floats_flags, float1, Val.toNum, bind, Except.bind]
  cases Waa.waaSchleiss x bl (w.map flagF) m d t <;> rfl

theorem schleissSig_nodup : (Api.waaSchleissSig.map (·.name)).Nodup := by decide

/-- **C141** `waa_schleiss_2013(rsl, baseline, wet, waa_max, delta_t, tau)` on a dataset -/
theorem C141_waa_schleiss {rsl baseline wet : NArr Val} {waa_max delta_t tau : Arg Val}
    {r : NArr Val}
    (h : Api.waa_schleiss_2013 [.named rsl, .named baseline, .named wet, waa_max, delta_t, tau] [] =
      .ok r)
    {c : Coords} (hc : InArray r c) {x bl : List (Fl ℝ)} {w : List Bool} {m d t : Fl ℝ}
    (hx : SeriesAt rsl c x) (hb : SeriesAt baseline c bl) (hw : FlagsAt wet c w)
    (hm : ValueAt waa_max c (.num m)) (hd : ValueAt delta_t c (.num d))
    (ht : ValueAt tau c (.num t)) :
    ∃ y, SeriesAt r c y ∧ Waa.waaSchleiss x bl (w.map flagF) m d t = .ok y := by
  obtain ⟨nt, d1, d2, d3, d4⟩ := callNd_spec schleissSig_nodup
    (vs := [.named rsl, .named baseline, .named wet, waa_max, delta_t, tau]) rfl h
  obtain ⟨xs, e1, e2, e3⟩ := d4 c hc
  simp only [List.map_cons, List.map_nil, part_in_call d1 d2 d3 (by simp) hx,
    part_in_call d1 d2 d3 (by simp) hb, part_in_call d1 d2 d3 (by simp) hw, hm.part nt, hd.part nt,
    ht.part nt] at e3
  obtain ⟨y, y1, y2⟩ := oneSeries_inv (schleissFn_eq x bl w m d t) e3
  exact ⟨y, by rw [y2] at e1; exact e1, y1⟩

theorem calcRFn_eq (sp : KR.Spline) (A : List (Fl ℝ)) (L f m : Fl ℝ) (p ap : String) :
    Api.calcRFn sp [.series (A.map .num), .scalar (.num L), .scalar (.num f), .scalar (.str p),
      .scalar .none, .scalar .none, .scalar (.str ap), .scalar (.num m)] =
      (KR.calc_R_from_A sp A L (some [f]) (some [p]) none none ap m).map oneSeries := by
  simp only [Api.calcRFn, floats_num, float1, optFloats, optStr, str1, Val.toNum, bind, Except.bind,
    Except.map]

theorem calcRFn_ab_eq (sp : KR.Spline) (A : List (Fl ℝ)) (L a b m : Fl ℝ) (ap : String) :
    Api.calcRFn sp [.series (A.map .num), .scalar (.num L), .scalar .none, .scalar .none,
      .scalar (.num a), .scalar (.num b), .scalar (.str ap), .scalar (.num m)] =
      (KR.calc_R_from_A sp A L none none (some [a]) (some [b]) ap m).map oneSeries := by
  simp only [Api.calcRFn, floats_num, float1, optFloats, optStr, str1, Val.toNum, bind, Except.bind,
    Except.map]

theorem calcRSig_nodup : (Api.calcRSig.map (·.name)).Nodup := by
  simp [Api.calcRSig]

/-- **C141** `calc_R_from_A(A, L_km, f_GHz=.., pol=..)` on a dataset: rain rates of this channel's
attenuation, length, frequency and polarization, with the ITU 2005 table and rates below 0.1 mm/h
set to 0. -/
theorem C141_rain_rate (sp : KR.Spline) {A : NArr Val} {L_km f_GHz pol : Arg Val} {r : NArr Val}
    (h : Api.calc_R_from_A sp [.named A, L_km] [("f_GHz", f_GHz), ("pol", pol)] = .ok r)
    {c : Coords} (hc : InArray r c) {x : List (Fl ℝ)} {L f : Fl ℝ} {p : String}
    (hx : SeriesAt A c x) (hL : ValueAt L_km c (.num L)) (hf : ValueAt f_GHz c (.num f))
    (hp : ValueAt pol c (.str p)) :
    ∃ y, SeriesAt r c y ∧
      KR.calc_R_from_A sp x L (some [f]) (some [p]) none none "ITU_2005" (.fin (1 / 10)) = .ok y := by
  obtain ⟨nt, d1, d2, d3, d4⟩ := callNd_spec calcRSig_nodup
    (vs := [.named A, L_km, f_GHz, pol, .plain .none, .plain .none, .plain (.str "ITU_2005"),
      .plain (.num (.fin (1 / 10)))]) rfl h
  obtain ⟨xs, e1, e2, e3⟩ := d4 c hc
  simp only [List.map_cons, List.map_nil, part_in_call d1 d2 d3 (by simp) hx, hL.part nt, hf.part nt,
    hp.part nt, show ∀ v : Val, partAt nt c (.plain v) = .scalar v from fun _ => rfl] at e3
  obtain ⟨y, y1, y2⟩ := oneSeries_inv (calcRFn_eq sp x L f (.fin (1 / 10)) p "ITU_2005") e3
  exact ⟨y, by rw [y2] at e1; exact e1, y1⟩

/-- **C141** `calc_R_from_A(A, L_km, a=.., b=..)` on a dataset -/
theorem C141_rain_rate_ab (sp : KR.Spline) {A : NArr Val} {L_km a b : Arg Val} {r : NArr Val}
    (h : Api.calc_R_from_A sp [.named A, L_km] [("a", a), ("b", b)] = .ok r)
    {c : Coords} (hc : InArray r c) {x : List (Fl ℝ)} {L a' b' : Fl ℝ}
    (hx : SeriesAt A c x) (hL : ValueAt L_km c (.num L)) (ha : ValueAt a c (.num a'))
    (hb : ValueAt b c (.num b')) :
    ∃ y, SeriesAt r c y ∧
      KR.calc_R_from_A sp x L none none (some [a']) (some [b']) "ITU_2005" (.fin (1 / 10)) =
        .ok y := by
  obtain ⟨nt, d1, d2, d3, d4⟩ := callNd_spec calcRSig_nodup
    (vs := [.named A, L_km, .plain .none, .plain .none, a, b, .plain (.str "ITU_2005"),
      .plain (.num (.fin (1 / 10)))]) rfl h
  obtain ⟨xs, e1, e2, e3⟩ := d4 c hc
  simp only [List.map_cons, List.map_nil, part_in_call d1 d2 d3 (by simp) hx, hL.part nt, ha.part nt,
    hb.part nt, show ∀ v : Val, partAt nt c (.plain v) = .scalar v from fun _ => rfl] at e3
  obtain ⟨y, y1, y2⟩ := oneSeries_inv (calcRFn_ab_eq sp x L a' b' (.fin (1 / 10)) "ITU_2005") e3
  exact ⟨y, by rw [y2] at e1; exact e1, y1⟩

theorem leijnseFn_eq (sp : KR.Spline) (A : List (Fl ℝ)) (f T g d l : ℝ) (p : String) (L : Fl ℝ)
    (n : ℂ) :
    Api.waaLeijnseFn sp [.series (A.map .num), .scalar (.num (.fin f)), .scalar (.str p),
      .scalar (.num L), .scalar (.num (.fin T)), .scalar (.num (.fin g)), .scalar (.num (.fin d)),
      .scalar (.cplx n), .scalar (.num (.fin l))] =
      (WaaModels.waa_leijnse_2008_from_A_obs sp A f p L T g d n l).map oneSeries := by
  simp only [Api.waaLeijnseFn, floats_num, float1, real1, cplx1, str1, Val.toNum, bind, Except.bind]
  cases WaaModels.waa_leijnse_2008_from_A_obs sp A f p L T g d n l <;> rfl

theorem leijnseSig_nodup : (Api.waaLeijnseSig.map (·.name)).Nodup := by
  simp [Api.waaLeijnseSig]

/-- **C141** `waa_leijnse_2008_from_A_obs(A_obs, f_Hz, pol, L_km)` on a dataset: water of 293 K,
`gamma = 2.06e-5`, `delta = 0.24`, an antenna cover of 1 mm with refractive index 1.73 + 0.014i. -/
theorem C141_waa_leijnse (sp : KR.Spline) {A_obs : NArr Val} {f_Hz pol L_km : Arg Val} {r : NArr Val}
    (h : Api.waa_leijnse_2008_from_A_obs sp [.named A_obs, f_Hz, pol, L_km] [] = .ok r)
    {c : Coords} (hc : InArray r c) {x : List (Fl ℝ)} {f : ℝ} {L : Fl ℝ} {p : String}
    (hx : SeriesAt A_obs c x) (hf : ValueAt f_Hz c (.num (.fin f))) (hp : ValueAt pol c (.str p))
    (hL : ValueAt L_km c (.num L)) :
    ∃ y, SeriesAt r c y ∧
      WaaModels.waa_leijnse_2008_from_A_obs sp x f p L 293 (206 / 10000000) (24 / 100)
        ⟨173 / 100, 14 / 1000⟩ (1 / 1000) = .ok y := by
  obtain ⟨nt, d1, d2, d3, d4⟩ := callNd_spec leijnseSig_nodup
    (vs := [.named A_obs, f_Hz, pol, L_km, .plain (.num (.fin 293)),
      .plain (.num (.fin (206 / 10000000))), .plain (.num (.fin (24 / 100))),
      .plain (.cplx ⟨173 / 100, 14 / 1000⟩), .plain (.num (.fin (1 / 1000)))]) rfl h
  obtain ⟨xs, e1, e2, e3⟩ := d4 c hc
  simp only [List.map_cons, List.map_nil, part_in_call d1 d2 d3 (by simp) hx, hL.part nt, hf.part nt,
    hp.part nt, show ∀ v : Val, partAt nt c (.plain v) = .scalar v from fun _ => rfl] at e3
  obtain ⟨y, y1, y2⟩ := oneSeries_inv (leijnseFn_eq sp x f _ _ _ _ p L _) e3
  exact ⟨y, by rw [y2] at e1; exact e1, y1⟩

theorem pastorekFn_eq (sp : KR.Spline) (A : List (Fl ℝ)) (f L z d : Fl ℝ) (p : String) (m : Int) :
    Api.waaPastorekFn sp [.series (A.map .num), .scalar (.num f), .scalar (.str p),
      .scalar (.num L), .scalar (.int m), .scalar (.num z), .scalar (.num d)] =
      (WaaModels.waa_pastorek_2021_from_A_obs sp A f p L (PyFloat.ofInt m) z d).map oneSeries := by
  simp only [Api.waaPastorekFn, floats_num, float1, str1, Val.toNum, bind, Except.bind]
  cases WaaModels.waa_pastorek_2021_from_A_obs sp A f p L (PyFloat.ofInt m) z d <;> rfl

theorem pastorekSig_nodup : (Api.waaPastorekSig.map (·.name)).Nodup := by
  simp [Api.waaPastorekSig]

/-- **C141** `waa_pastorek_2021_from_A_obs(A_obs, f_Hz, pol, L_km)` on a dataset: `A_max = 14`,
`zeta = 0.55`, `d = 0.1`. -/
theorem C141_waa_pastorek (sp : KR.Spline) {A_obs : NArr Val} {f_Hz pol L_km : Arg Val} {r : NArr Val}
    (h : Api.waa_pastorek_2021_from_A_obs sp [.named A_obs, f_Hz, pol, L_km] [] = .ok r)
    {c : Coords} (hc : InArray r c) {x : List (Fl ℝ)} {f L : Fl ℝ} {p : String}
    (hx : SeriesAt A_obs c x) (hf : ValueAt f_Hz c (.num f)) (hp : ValueAt pol c (.str p))
    (hL : ValueAt L_km c (.num L)) :
    ∃ y, SeriesAt r c y ∧
      WaaModels.waa_pastorek_2021_from_A_obs sp x f p L (.fin 14) (.fin (55 / 100)) (.fin (1 / 10)) =
        .ok y := by
  obtain ⟨nt, d1, d2, d3, d4⟩ := callNd_spec pastorekSig_nodup
    (vs := [.named A_obs, f_Hz, pol, L_km, .plain (.int 14), .plain (.num (.fin (55 / 100))),
      .plain (.num (.fin (1 / 10)))]) rfl h
  obtain ⟨xs, e1, e2, e3⟩ := d4 c hc
  simp only [List.map_cons, List.map_nil, part_in_call d1 d2 d3 (by simp) hx, hL.part nt, hf.part nt,
    hp.part nt, show ∀ v : Val, partAt nt c (.plain v) = .scalar v from fun _ => rfl] at e3
  obtain ⟨y, y1, y2⟩ := oneSeries_inv (pastorekFn_eq sp x f L _ _ p 14) e3
  have h14 : (PyFloat.ofInt 14 : Fl ℝ) = .fin 14 := by
    show Fl.fin ((14 : Int) : ℝ) = _
    norm_num
  rw [h14] at y1
  exact ⟨y, by rw [y2] at e1; exact e1, y1⟩

theorem nearbyFn_eq (sp : KR.Spline) (pref lo hi F : List (Fl ℝ)) (L f w al th : Fl ℝ)
    (p ap : String) :
    Api.nearbyRainFn sp [.series (pref.map .num), .series (lo.map .num), .series (hi.map .num),
      .series (F.map .num), .scalar (.num L), .scalar (.num f), .scalar (.str p), .scalar .none,
      .scalar .none, .scalar (.str ap), .scalar (.num w), .scalar (.num al), .scalar (.num th)] =
      (Nearby.rainfall_retrival sp pref lo hi F L (some [f]) (some [p]) none none ap w al
        (some th)).map oneSeries := by
  simp only [Api.nearbyRainFn, floats_num, float1, optFloats, optStr, str1, optFloat1, Val.toNum, bind,
    Except.bind, Except.map]

theorem nearbySig_nodup : (Api.nearbyRainSig.map (·.name)).Nodup := by
  simp [Api.nearbyRainSig]

/-- **C141** `nearby_rainfall_retrival(pref, p_c_min, p_c_max, F, length, f_GHz, pol)` on a dataset:
`waa_max = 2.3`, `alpha = 0.33` and an F-value threshold of -32.5. -/
theorem C141_nearby_rain (sp : KR.Spline) {pref p_c_min p_c_max F : NArr Val}
    {length f_GHz pol : Arg Val} {r : NArr Val}
    (h : Api.nearby_rainfall_retrival sp
      [.named pref, .named p_c_min, .named p_c_max, .named F, length]
      [("f_GHz", f_GHz), ("pol", pol)] = .ok r)
    {c : Coords} (hc : InArray r c) {x lo hi Fs : List (Fl ℝ)} {L f : Fl ℝ} {p : String}
    (hx : SeriesAt pref c x) (hlo : SeriesAt p_c_min c lo) (hhi : SeriesAt p_c_max c hi)
    (hF : SeriesAt F c Fs) (hL : ValueAt length c (.num L)) (hf : ValueAt f_GHz c (.num f))
    (hp : ValueAt pol c (.str p)) :
    ∃ y, SeriesAt r c y ∧
      Nearby.rainfall_retrival sp x lo hi Fs L (some [f]) (some [p]) none none "ITU_2005"
        (.fin (23 / 10)) (.fin (33 / 100)) (some (.fin (-(325 / 10)))) = .ok y := by
  obtain ⟨nt, d1, d2, d3, d4⟩ := callNd_spec nearbySig_nodup
    (vs := [.named pref, .named p_c_min, .named p_c_max, .named F, length, f_GHz, pol, .plain .none,
      .plain .none, .plain (.str "ITU_2005"), .plain (.num (.fin (23 / 10))),
      .plain (.num (.fin (33 / 100))), .plain (.num (.fin (-(325 / 10))))]) rfl h
  obtain ⟨xs, e1, e2, e3⟩ := d4 c hc
  simp only [List.map_cons, List.map_nil, part_in_call d1 d2 d3 (by simp) hx,
    part_in_call d1 d2 d3 (by simp) hlo, part_in_call d1 d2 d3 (by simp) hhi,
    part_in_call d1 d2 d3 (by simp) hF, hL.part nt, hf.part nt,
    hp.part nt, show ∀ v : Val, partAt nt c (.plain v) = .scalar v from fun _ => rfl] at e3
  obtain ⟨y, y1, y2⟩ := oneSeries_inv (nearbyFn_eq sp x lo hi Fs L f _ _ _ p "ITU_2005") e3
  exact ⟨y, by rw [y2] at e1; exact e1, y1⟩

/-- **C141** Omitted parameters have the documented defaults, and every parameter can be given by
position or by keyword, in any order. -/
theorem C141_defaults_baseline (p1 p2 : Arg Val) :
    Api.baseline_constant [p1, p2] [] =
      Api.baseline_constant [] [("n_average_last_dry", .plain (.int 1)), ("wet", p2), ("trsl", p1)] :=
  callNd_bind baselineSig_nodup _ (vs := [p1, p2, .plain (.int 1)]) rfl rfl

/-- **C141** by position or by keyword -/
theorem C141_defaults_schleiss (p1 p2 p3 p4 p5 p6 : Arg Val) :
    Api.waa_schleiss_2013 [p1, p2, p3, p4, p5, p6] [] =
      Api.waa_schleiss_2013 [] [("tau", p6), ("delta_t", p5), ("waa_max", p4), ("wet", p3),
        ("baseline", p2), ("rsl", p1)] :=
  callNd_bind schleissSig_nodup _ (vs := [p1, p2, p3, p4, p5, p6]) rfl rfl

/-- **C141** defaults of `waa_leijnse_2008_from_A_obs` -/
theorem C141_defaults_leijnse (sp : KR.Spline) (p1 p2 p3 p4 : Arg Val) :
    Api.waa_leijnse_2008_from_A_obs sp [p1, p2, p3, p4] [] =
      Api.waa_leijnse_2008_from_A_obs sp [p1] [("l_antenna", .plain (.num (.fin (1 / 1000)))),
        ("n_antenna", .plain (.cplx ⟨173 / 100, 14 / 1000⟩)),
        ("delta", .plain (.num (.fin (24 / 100)))),
        ("gamma", .plain (.num (.fin (206 / 10000000)))), ("T_K", .plain (.num (.fin 293))),
        ("L_km", p4), ("pol", p3), ("f_Hz", p2)] :=
  callNd_bind leijnseSig_nodup _ (vs := [p1, p2, p3, p4, .plain (.num (.fin 293)),
      .plain (.num (.fin (206 / 10000000))), .plain (.num (.fin (24 / 100))),
      .plain (.cplx ⟨173 / 100, 14 / 1000⟩), .plain (.num (.fin (1 / 1000)))]) rfl rfl

/-- **C141** defaults of `waa_pastorek_2021_from_A_obs` -/
theorem C141_defaults_pastorek (sp : KR.Spline) (p1 p2 p3 p4 : Arg Val) :
    Api.waa_pastorek_2021_from_A_obs sp [p1, p2, p3, p4] [] =
      Api.waa_pastorek_2021_from_A_obs sp [p1] [("d", .plain (.num (.fin (1 / 10)))),
        ("zeta", .plain (.num (.fin (55 / 100)))), ("A_max", .plain (.int 14)), ("L_km", p4),
        ("pol", p3), ("f_Hz", p2)] :=
  callNd_bind pastorekSig_nodup _ (vs := [p1, p2, p3, p4, .plain (.int 14),
      .plain (.num (.fin (55 / 100))), .plain (.num (.fin (1 / 10)))]) rfl rfl

/-- **C141** defaults of `calc_R_from_A` -/
theorem C141_defaults_rain (sp : KR.Spline) (p1 p2 p3 p4 : Arg Val) :
    Api.calc_R_from_A sp [p1, p2, p3, p4] [] =
      Api.calc_R_from_A sp [] [("R_min", .plain (.num (.fin (1 / 10)))),
        ("a_b_approximation", .plain (.str "ITU_2005")), ("b", .plain .none), ("a", .plain .none),
        ("pol", p4), ("f_GHz", p3), ("L_km", p2), ("A", p1)] :=
  callNd_bind calcRSig_nodup _ (vs := [p1, p2, p3, p4, .plain .none, .plain .none,
      .plain (.str "ITU_2005"), .plain (.num (.fin (1 / 10)))]) rfl rfl

set_option maxHeartbeats 1000000 in
/-- **C141** defaults of `nearby_rainfall_retrival` -/
theorem C141_defaults_nearby (sp : KR.Spline) (p1 p2 p3 p4 p5 p6 p7 : Arg Val) :
    Api.nearby_rainfall_retrival sp [p1, p2, p3, p4, p5, p6, p7] [] =
      Api.nearby_rainfall_retrival sp [p1, p2] [
        ("F_value_threshold", .plain (.num (.fin (-(325 / 10))))),
        ("alpha", .plain (.num (.fin (33 / 100)))), ("waa_max", .plain (.num (.fin (23 / 10)))),
        ("a_b_approximation", .plain (.str "ITU_2005")), ("b", .plain .none), ("a", .plain .none),
        ("pol", p7), ("f_GHz", p6), ("length", p5), ("F", p4), ("p_c_max", p3)] :=
  callNd_bind nearbySig_nodup _ (vs := [p1, p2, p3, p4, p5, p6, p7, .plain .none,
      .plain .none, .plain (.str "ITU_2005"), .plain (.num (.fin (23 / 10))),
      .plain (.num (.fin (33 / 100))), .plain (.num (.fin (-(325 / 10))))]) rfl rfl

/-- **C141** `get_blackout_start_and_end` raises `ValueError` for every dataset of levels. -/
theorem C141_blackout {rsl : NArr Val} {thr : Arg Val}
    (hr : ∀ c, ∃ x, SeriesAt rsl c x) (ht : ∀ c, ∃ x, ValueAt thr c (.num x)) :
    Api.get_blackout_start_and_end [.named rsl, thr] [] = .error .valueError := by
  have hn : (Api.blackoutSig.map (·.name)).Nodup := by decide
  have hv := inner_values Api.blackoutSig hn .empty [.named rsl, thr] [] [.named rsl, thr] rfl
  obtain ⟨x0, hx0⟩ := hr fun _ => 0
  unfold Api.get_blackout_start_and_end callNd inner
  dsimp only
  rw [hv, if_pos (by
    rw [List.any_eq_true]
    refine ⟨.named rsl, by simp, ?_⟩
    rw [hasTime, List.any_eq_true]
    exact ⟨_, hx0.1, by simp⟩)]
  unfold applyUfunc
  cases hs : unify [] ([.named rsl, thr].flatMap dimNames) with
  | error e => rw [unify_error _ _ _ hs]; rfl
  | ok sizes =>
    obtain ⟨u1, _, u3, _⟩ := unify_spec [] _ sizes (by simp) hs
    simp only
    generalize ndindex _ = idxs
    cases idxs with
    | nil => rfl
    | cons idx rest =>
      simp only [List.isEmpty_cons, Bool.false_eq_true, if_false, vectorizeLoop, vectorizeCall]
      generalize coordsOf _ idx = c
      obtain ⟨x, hx⟩ := hr c
      obtain ⟨y, hy⟩ := ht c
      have hnt := find_of_mem sizes u1 "time" x.length (u3 _ (List.mem_flatMap.mpr
        ⟨.named rsl, by simp, by simpa [dimNames] using hx.1⟩))
      have px := hx.part
      rw [List.length_map] at px
      rw [hnt]
      simp only [Option.map_some, Option.getD_some, List.map_cons, List.map_nil,
        argAt_eq_partAt x.length c c _ (fun _ _ _ => rfl), px, hy.part, Api.blackoutFn, floats_num,
        float1, Val.toNum, bind, Except.bind]
      rfl

/-! ### C142: the processing of a dataset -/

/-- attenuations below 0 are set to 0 -/
noncomputable def clip0 (a : Fl ℝ) : Fl ℝ := if a <ᶠ PyFloat.ofInt 0 then PyFloat.ofInt 0 else a

/-- The processing of one channel: its levels and flags, `n_average_last_dry`, `waa_max`, `delta_t`,
`tau`, length, frequency and polarization. -/
noncomputable def channelRain (sp : KR.Spline) (x : List (Fl ℝ)) (w : List Bool) (k : Nat)
    (m d t L f : Fl ℝ) (p : String) : Except Err (List (Fl ℝ)) := do
  let baseline ← Baseline.baselineConstant x w k
  let waa ← Waa.waaSchleiss x baseline (w.map flagF) m d t
  let A := List.zipWith (· -ᶠ ·) (List.zipWith (· -ᶠ ·) x baseline) waa
  KR.calc_R_from_A sp (A.map clip0) L (some [f]) (some [p]) none none "ITU_2005" (.fin (1 / 10))

theorem xrSub_spec {a b r : NArr Val} (h : xrSub a b = .ok r) :
    (r.dims.map (·.1)).Nodup ∧ (∀ p, p ∈ r.dims ↔ p ∈ a.dims ∨ p ∈ b.dims) ∧
    ∀ (c : Coords) (x y : List (Fl ℝ)), SeriesAt a c x → SeriesAt b c y →
      x.length = y.length ∧ SeriesAt r c (List.zipWith (· -ᶠ ·) x y) := by
  unfold xrSub at h
  cases hu : unify [] (a.dims ++ b.dims) with
  | error e => rw [hu] at h; cases h
  | ok sizes =>
    rw [hu] at h
    simp only [Except.ok.injEq] at h
    subst h
    obtain ⟨u1, _, u3, u4⟩ := unify_spec [] _ sizes (by simp) hu
    have hmem : ∀ p, p ∈ sizes ↔ p ∈ a.dims ∨ p ∈ b.dims := by
      intro p
      constructor
      · intro hp
        rcases u4 p hp with hp | hp
        · simp at hp
        · exact List.mem_append.mp hp
      · intro hp
        exact u3 p (List.mem_append.mpr hp)
    refine ⟨u1, hmem, ?_⟩
    intro c x y hx hy
    have hl : x.length = y.length := by
      have := List.inj_on_of_nodup_map u1 ((hmem _).mpr (.inl hx.1)) ((hmem _).mpr (.inr hy.1)) rfl
      simpa using this
    refine ⟨hl, ?_, ?_⟩
    · refine (hmem _).mpr (.inl ?_)
      have := hx.1
      simp only [List.length_map] at this
      simpa [hl] using hl ▸ this
    · intro t ht
      have ht' : t < x.length := by
        simp at ht; omega
      simp only
      have hcoord : ∀ q : List (String × Nat), (∀ p ∈ q, p ∈ sizes) →
          (q.map fun d => coordsOf (sizes.map (·.1))
            (sizes.map fun d => if d.1 = "time" then t else c d.1) d.1) =
          q.map fun d => if d.1 = "time" then t else c d.1 := by
        intro q hq
        apply List.map_congr_left
        intro d hd
        have := coordsOf_map (sizes.map (·.1)) (fun k => if k = "time" then t else c k) d.1
          (List.mem_map_of_mem (hq d hd))
        rw [List.map_map] at this
        exact this
      rw [hcoord a.dims fun p hp => (hmem p).mpr (.inl hp),
        hcoord b.dims fun p hp => (hmem p).mpr (.inr hp),
        hx.2 t (by simpa using ht'), hy.2 t (by simp; omega)]
      simp [subVal, Val.toNum]

theorem xrClip_series {a : NArr Val} {c : Coords} {x : List (Fl ℝ)} (h : SeriesAt a c x) :
    SeriesAt (xrClip a) c (x.map clip0) := by
  refine ⟨by simpa [xrClip] using h.1, ?_⟩
  intro t ht
  simp only [List.length_map] at ht
  simp only [xrClip]
  rw [h.2 t (by simpa using ht)]
  simp only [List.getElem_map, clipVal, Val.toNum, clip0]
  split <;> rfl

/-- **C142** The processed dataset: its dimensions are those of the inputs, and at every channel it
contains the rain rates of the processing of this channel alone. -/
theorem C142_channels (sp : KR.Spline) {trsl wet : NArr Val}
    {n waa_max delta_t tau L_km f_GHz pol : Arg Val} {r : NArr Val}
    (h : Api.processDataset sp trsl wet n waa_max delta_t tau L_km f_GHz pol = .ok r) :
    (∀ q, q ∈ r.dims ↔ ∃ a ∈ [.named trsl, .named wet, n, waa_max, delta_t, tau, L_km, f_GHz, pol],
      q ∈ dimNames a) ∧
    ∀ {c : Coords}, InArray r c → ∀ {x : List (Fl ℝ)} {w : List Bool} {k : Nat} {m d t L f : Fl ℝ}
      {p : String}, SeriesAt trsl c x → FlagsAt wet c w → ValueAt n c (.int k) →
      ValueAt waa_max c (.num m) → ValueAt delta_t c (.num d) → ValueAt tau c (.num t) →
      ValueAt L_km c (.num L) → ValueAt f_GHz c (.num f) → ValueAt pol c (.str p) →
      ∃ y, SeriesAt r c y ∧ channelRain sp x w k m d t L f p = .ok y := by
  unfold Api.processDataset at h
  simp only [bind, Except.bind] at h
  split at h
  · cases h
  next bl hbl =>
  split at h
  · cases h
  next wa hwa =>
  split at h
  · cases h
  next A0 hA0 =>
  split at h
  · cases h
  next A hA =>
  have hbl' : Api.baseline_constant [.named trsl, .named wet] [("n_average_last_dry", n)] = .ok bl := by
    rw [← hbl]
    exact callNd_bind baselineSig_nodup _ (vs := [.named trsl, .named wet, n]) rfl rfl
  have hwa' : Api.waa_schleiss_2013 [.named trsl, .named bl, .named wet, waa_max, delta_t, tau] [] =
      .ok wa := by
    rw [← hwa]
    exact callNd_bind schleissSig_nodup _
      (vs := [.named trsl, .named bl, .named wet, waa_max, delta_t, tau]) rfl rfl
  have hR' : Api.calc_R_from_A sp [.named (xrClip A), L_km] [("f_GHz", f_GHz), ("pol", pol)] =
      .ok r := by
    rw [← h]
    exact callNd_bind calcRSig_nodup _
      (vs := [.named (xrClip A), L_km, f_GHz, pol, .plain .none, .plain .none,
        .plain (.str "ITU_2005"), .plain (.num (.fin (1 / 10)))]) rfl rfl
  obtain ⟨_, _, _, b3, _⟩ := callNd_spec baselineSig_nodup
    (vs := [.named trsl, .named wet, n]) rfl hbl'
  obtain ⟨_, _, _, w3, _⟩ := callNd_spec schleissSig_nodup
    (vs := [.named trsl, .named bl, .named wet, waa_max, delta_t, tau]) rfl hwa'
  obtain ⟨_, _, _, r3, _⟩ := callNd_spec calcRSig_nodup
    (vs := [.named (xrClip A), L_km, f_GHz, pol, .plain .none, .plain .none,
        .plain (.str "ITU_2005"), .plain (.num (.fin (1 / 10)))]) rfl hR'
  obtain ⟨_, p3, p4⟩ := xrSub_spec hA0
  obtain ⟨_, q3, q4⟩ := xrSub_spec hA
  have hdims : (xrClip A).dims = A.dims := rfl
  simp only [List.mem_cons, List.not_mem_nil, or_false, exists_eq_or_imp, exists_eq_left, dimNames,
    hdims] at b3 w3 r3
  constructor
  · intro q
    simp only [List.mem_cons, List.not_mem_nil, or_false, exists_eq_or_imp, exists_eq_left, dimNames]
    rw [r3, q3, p3, w3, b3]
    tauto
  · intro c hc x w k m d t L f p hx hw hk hm hd ht hL hf hp
    have inA : InArray A c := fun q hq hne => hc q ((r3 q).mpr (.inl hq)) hne
    have inA0 : InArray A0 c := fun q hq hne => inA q ((q3 q).mpr (.inl hq)) hne
    have inW : InArray wa c := fun q hq hne => inA q ((q3 q).mpr (.inr hq)) hne
    have inB : InArray bl c := fun q hq hne => inA0 q ((p3 q).mpr (.inr hq)) hne
    obtain ⟨b, hb, eb⟩ := C141_baseline_constant hbl' inB hx hw hk
    obtain ⟨v, hv, ev⟩ := C141_waa_schleiss hwa' inW hx hb hw hm hd ht
    obtain ⟨_, s0⟩ := p4 c x b hx hb
    obtain ⟨_, s1⟩ := q4 c _ v s0 hv
    obtain ⟨y, hy, ey⟩ := C141_rain_rate sp hR' hc (xrClip_series s1) hL hf hp
    refine ⟨y, hy, ?_⟩
    unfold channelRain
    simp only [bind, Except.bind, eb, ev]
    exact ey

theorem assignMask_len {α : Type} {R : List α} {m : List Bool} {v o : List α}
    (h : KR.assignMask R m v = .ok o) : o.length = R.length := by
  unfold KR.assignMask at h
  split_ifs at h
  · cases h
    exact KR.place_length _ _ _
  · split at h
    · cases h
      exact KR.place_length _ _ _
    · cases h

theorem rainRates_len {F : Type} [PyFloat F] [PyPow F] {A : List F} {L : F} {a b : List F} {m : F}
    {o : List F} (h : KR.rainRates A L a b m = .ok o) : o.length = A.length := by
  unfold KR.rainRates at h
  simp only [bind, Except.bind] at h
  split at h
  · cases h
  next R1 h1 =>
  split at h
  · cases h
  next q hq =>
  split at h
  · cases h
  next v hv =>
  split at h
  · cases h
  next R2 h2 =>
  rw [assignMask_len h, assignMask_len h2, assignMask_len h1, List.length_replicate]

theorem calcR_len {sp : KR.Spline} {A : List (Fl ℝ)} {L m : Fl ℝ} {f a b : Option (List (Fl ℝ))}
    {p : Option (List String)} {ap : String} {o : List (Fl ℝ)}
    (h : KR.calc_R_from_A sp A L f p a b ap m = .ok o) : o.length = A.length := by
  unfold KR.calc_R_from_A KR.calcR at h
  simp only [bind, Except.bind] at h
  split at h
  · split at h
    · cases h
    · exact rainRates_len h
  · exact rainRates_len h
  · cases h

theorem schleiss_len {F : Type} [PyFloat F] {rsl bl wet : List F} {m d t : F} {o : List F}
    (h : Waa.waaSchleiss rsl bl wet m d t = .ok o) : o.length = rsl.length ∧ bl.length = rsl.length := by
  unfold Waa.waaSchleiss at h
  split_ifs at h with hl
  refine ⟨?_, by omega⟩
  dsimp only at h
  unfold forRangeM at h
  have key : ∀ (is : List Nat) (s o : List F),
      is.foldlM (fun s i => Waa.schleissBody (List.zipWith (fun a b => a -ᶠ b) rsl bl) wet m d t i s)
        s = .ok o → o.length = s.length := by
    intro is
    induction is with
    | nil => intro s o h; cases h; rfl
    | cons i is ih =>
      intro s o h
      rw [List.foldlM_cons] at h
      cases hb : Waa.schleissBody (List.zipWith (fun a b => a -ᶠ b) rsl bl) wet m d t i s with
      | error e => rw [hb] at h; cases h
      | ok s' =>
        rw [hb] at h
        have hs : s'.length = s.length := by
          unfold Waa.schleissBody at hb
          split_ifs at hb <;> cases hb <;> simp
        rw [ih s' o h, hs]
  rw [key _ _ _ h, List.length_map]

theorem baseline_len {F : Type} [PyFloat F] {x : List F} {w : List Bool} {n : Nat} {o : List F}
    (h : Baseline.baselineConstant x w n = .ok o) : o.length = x.length := by
  unfold Baseline.baselineConstant at h
  split_ifs at h
  cases h
  exact Baseline.constLoop_length _ _ _

/-- What is needed at one channel. -/
structure ChannelOk (sp : KR.Spline) (trsl wet : NArr Val)
    (n waa_max delta_t tau L_km f_GHz pol : Arg Val) (c : Coords) : Prop where
  ok : ∃ (x : List (Fl ℝ)) (w : List Bool) (k : Nat) (m d t L f : Fl ℝ) (p : String)
    (y : List (Fl ℝ)), SeriesAt trsl c x ∧ FlagsAt wet c w ∧ ValueAt n c (.int k) ∧
      ValueAt waa_max c (.num m) ∧ ValueAt delta_t c (.num d) ∧ ValueAt tau c (.num t) ∧
      ValueAt L_km c (.num L) ∧ ValueAt f_GHz c (.num f) ∧ ValueAt pol c (.str p) ∧
      channelRain sp x w k m d t L f p = .ok y

/-- **C142** The processing of a dataset succeeds whenever the inputs agree about the sizes of
their dimensions, no dimension besides time is empty and the processing of every single channel
succeeds. -/
theorem C142_succeeds (sp : KR.Spline) {trsl wet : NArr Val}
    {n waa_max delta_t tau L_km f_GHz pol : Arg Val}
    (hsize : ∀ a ∈ [.named trsl, .named wet, n, waa_max, delta_t, tau, L_km, f_GHz, pol],
      ∀ b ∈ [.named trsl, .named wet, n, waa_max, delta_t, tau, L_km, f_GHz, pol],
      ∀ p ∈ dimNames a, ∀ q ∈ dimNames b, p.1 = q.1 → p.2 = q.2)
    (hpos : ∀ a ∈ [.named trsl, .named wet, n, waa_max, delta_t, tau, L_km, f_GHz, pol],
      ∀ p ∈ dimNames a, p.1 ≠ "time" → 0 < p.2)
    (hch : ∀ c : Coords,
      (∀ a ∈ [.named trsl, .named wet, n, waa_max, delta_t, tau, L_km, f_GHz, pol],
        ∀ p ∈ dimNames a, p.1 ≠ "time" → c p.1 < p.2) →
      ChannelOk sp trsl wet n waa_max delta_t tau L_km f_GHz pol c) :
    ∃ r, Api.processDataset sp trsl wet n waa_max delta_t tau L_km f_GHz pol = .ok r := by
  set All : List (Arg Val) := [.named trsl, .named wet, n, waa_max, delta_t, tau, L_km, f_GHz, pol]
    with hAll
  have hS : ∀ S : List (Arg Val), (∀ a ∈ S, ∀ p ∈ dimNames a, ∃ b ∈ All, p ∈ dimNames b) →
      ∀ a ∈ S, ∀ b ∈ S, ∀ p ∈ dimNames a, ∀ q ∈ dimNames b, p.1 = q.1 → p.2 = q.2 := by
    intro S hsub a ha b hb p hp q hq he
    obtain ⟨a', ha', hp'⟩ := hsub a ha p hp
    obtain ⟨b', hb', hq'⟩ := hsub b hb q hq
    exact hsize a' ha' b' hb' p hp' q hq' he
  have hP : ∀ S : List (Arg Val), (∀ a ∈ S, ∀ p ∈ dimNames a, ∃ b ∈ All, p ∈ dimNames b) →
      ∀ a ∈ S, ∀ p ∈ dimNames a, p.1 ≠ "time" → 0 < p.2 := by
    intro S hsub a ha p hp hne
    obtain ⟨a', ha', hp'⟩ := hsub a ha p hp
    exact hpos a' ha' p hp' hne
  have ext : ∀ S : List (Arg Val), (∀ a ∈ S, ∀ p ∈ dimNames a, ∃ b ∈ All, p ∈ dimNames b) →
      ∀ c : Coords, (∀ a ∈ S, ∀ p ∈ dimNames a, p.1 ≠ "time" → c p.1 < p.2) →
      ∃ c' : Coords, (∀ a ∈ All, ∀ p ∈ dimNames a, p.1 ≠ "time" → c' p.1 < p.2) ∧
        ∀ nt, S.map (partAt nt c) = S.map (partAt nt c') := by
    intro S hsub c hc
    classical
    refine ⟨fun k => if ∃ a ∈ S, ∃ q ∈ dimNames a, q.1 = k then c k else 0, ?_, ?_⟩
    · intro b hb p hp hne
      dsimp only
      split_ifs with hk
      · obtain ⟨a, ha, q, hq, he⟩ := hk
        obtain ⟨a', ha', hq'⟩ := hsub a ha q hq
        have h1 := hc a ha q hq (he ▸ hne)
        rw [he, hsize a' ha' b hb q hq' p hp he] at h1
        exact h1
      · exact hpos b hb p hp hne
    · intro nt
      apply List.map_congr_left
      intro a ha
      rw [← argAt_eq_partAt nt c c a fun _ _ _ => rfl]
      apply argAt_eq_partAt
      intro p hp _
      rw [if_pos ⟨a, ha, p, hp, rfl⟩]
  -- the length of the time dimension
  obtain ⟨⟨x0, _, _, _, _, _, _, _, _, _, hx0, _⟩⟩ := hch (fun _ => 0) hpos
  have hnt : ("time", x0.length) ∈ trsl.dims := by simpa using hx0.1
  set nt := x0.length with hntdef
  have len : ∀ (b : NArr Val), (∀ p ∈ b.dims, ∃ a ∈ All, p ∈ dimNames a) → ∀ (c : Coords)
      (es : List Val), EntriesAt b c es → es.length = nt := by
    intro b hb c es h
    obtain ⟨a, ha, hp⟩ := hb _ h.1
    exact hsize a ha (.named trsl) (by simp [hAll]) _ hp _ hnt rfl
  have dT : ∀ p ∈ trsl.dims, ∃ a ∈ All, p ∈ dimNames a := fun p hp => ⟨.named trsl, by simp [hAll], hp⟩
  have dW : ∀ p ∈ wet.dims, ∃ a ∈ All, p ∈ dimNames a := fun p hp => ⟨.named wet, by simp [hAll], hp⟩
  have part : ∀ (b : NArr Val), (∀ p ∈ b.dims, ∃ a ∈ All, p ∈ dimNames a) → ∀ (c : Coords)
      (es : List Val), EntriesAt b c es → partAt nt c (.named b) = .series es := by
    intro b hb c es h
    rw [← len b hb c es h]
    exact h.part
  have inArr : ∀ (b : NArr Val), (∀ p ∈ b.dims, ∃ a ∈ All, p ∈ dimNames a) → ∀ (c : Coords),
      (∀ a ∈ All, ∀ p ∈ dimNames a, p.1 ≠ "time" → c p.1 < p.2) → InArray b c := by
    intro b hb c hc p hp hne
    obtain ⟨a, ha, hq⟩ := hb p hp
    exact hc a ha p hq hne
  -- baseline
  have sub1 : ∀ a ∈ [.named trsl, .named wet, n], ∀ p ∈ dimNames a, ∃ b ∈ All, p ∈ dimNames b := by
    intro a ha p hp
    refine ⟨a, ?_, hp⟩
    simp only [hAll, List.mem_cons, List.not_mem_nil, or_false] at ha ⊢
    tauto
  obtain ⟨bl, hbl⟩ : ∃ r, Api.baseline_constant [.named trsl, .named wet]
      [("n_average_last_dry", n)] = .ok r := by
    refine callNd_ok (nt := nt) baselineSig_nodup (vs := [.named trsl, .named wet, n]) rfl
      (hS _ sub1) ⟨.named trsl, by simp, hnt⟩ (hP _ sub1) ?_
    intro c hc
    obtain ⟨c', hc', hpe⟩ := ext _ sub1 c hc
    obtain ⟨⟨x, w, k, m, d, t, L, f, p, y, hx, hw, hk, hm, hd, ht, hL, hf, hp, hy⟩⟩ := hch c' hc'
    rw [hpe nt]
    simp only [List.map_cons, List.map_nil, part _ dT _ _ hx, part _ dW _ _ hw, hk.part nt]
    rw [baselineFn_eq]
    unfold channelRain at hy
    simp only [bind, Except.bind] at hy
    split at hy
    · cases hy
    next b hb =>
    refine ⟨b.map .num, by rw [hb]; rfl, ?_⟩
    have := len _ dT _ _ hx
    rw [List.length_map] at this ⊢
    rw [baseline_len hb, this]
  obtain ⟨_, _, _, b3, _⟩ := callNd_spec baselineSig_nodup
    (vs := [.named trsl, .named wet, n]) rfl hbl
  have dB : ∀ p ∈ bl.dims, ∃ a ∈ All, p ∈ dimNames a := by
    intro p hp
    obtain ⟨a, ha, hq⟩ := (b3 p).mp hp
    exact sub1 a ha p hq
  -- wet antenna
  have sub2 : ∀ a ∈ [.named trsl, .named bl, .named wet, waa_max, delta_t, tau], ∀ p ∈ dimNames a,
      ∃ b ∈ All, p ∈ dimNames b := by
    intro a ha p hp
    by_cases hab : a = .named bl
    · subst hab
      exact dB p hp
    · refine ⟨a, ?_, hp⟩
      simp only [hAll, List.mem_cons, List.not_mem_nil, or_false] at ha ⊢
      tauto
  obtain ⟨wa, hwa⟩ : ∃ r, Api.waa_schleiss_2013
      [.named trsl, .named bl, .named wet, waa_max, delta_t, tau] [] = .ok r := by
    refine callNd_ok (nt := nt) schleissSig_nodup
      (vs := [.named trsl, .named bl, .named wet, waa_max, delta_t, tau]) rfl
      (hS _ sub2) ⟨.named trsl, by simp, hnt⟩ (hP _ sub2) ?_
    intro c hc
    obtain ⟨c', hc', hpe⟩ := ext _ sub2 c hc
    obtain ⟨⟨x, w, k, m, d, t, L, f, p, y, hx, hw, hk, hm, hd, ht, hL, hf, hp, hy⟩⟩ := hch c' hc'
    obtain ⟨b, hb, eb⟩ := C141_baseline_constant hbl (inArr bl dB c' hc') hx hw hk
    rw [hpe nt]
    simp only [List.map_cons, List.map_nil, part _ dT _ _ hx, part _ dW _ _ hw, part _ dB _ _ hb,
      hm.part nt, hd.part nt, ht.part nt]
    rw [schleissFn_eq]
    unfold channelRain at hy
    simp only [bind, Except.bind, eb] at hy
    split at hy
    · cases hy
    next v hv =>
    refine ⟨v.map .num, by rw [hv]; rfl, ?_⟩
    have := len _ dT _ _ hx
    rw [List.length_map] at this ⊢
    rw [(schleiss_len hv).1, this]
  obtain ⟨_, _, _, w3, _⟩ := callNd_spec schleissSig_nodup
    (vs := [.named trsl, .named bl, .named wet, waa_max, delta_t, tau]) rfl hwa
  have dV : ∀ p ∈ wa.dims, ∃ a ∈ All, p ∈ dimNames a := by
    intro p hp
    obtain ⟨a, ha, hq⟩ := (w3 p).mp hp
    exact sub2 a ha p hq
  -- attenuation
  have sub_ok : ∀ a b : NArr Val, (∀ p ∈ a.dims, ∃ a ∈ All, p ∈ dimNames a) →
      (∀ p ∈ b.dims, ∃ a ∈ All, p ∈ dimNames a) → ∃ r, xrSub a b = .ok r := by
    intro a b ha hb
    obtain ⟨sizes, hs⟩ := unify_ok [] (a.dims ++ b.dims) (by
      intro p hp q hq he
      simp only [List.nil_append, List.mem_append] at hp hq
      obtain ⟨a', ha', hp'⟩ : ∃ a ∈ All, p ∈ dimNames a := hp.elim (ha p) (hb p)
      obtain ⟨b', hb', hq'⟩ : ∃ a ∈ All, q ∈ dimNames a := hq.elim (ha q) (hb q)
      exact hsize a' ha' b' hb' p hp' q hq' he)
    unfold xrSub
    rw [hs]
    exact ⟨_, rfl⟩
  obtain ⟨A0, hA0⟩ := sub_ok trsl bl dT dB
  obtain ⟨_, p3, p4⟩ := xrSub_spec hA0
  have dA0 : ∀ p ∈ A0.dims, ∃ a ∈ All, p ∈ dimNames a :=
    fun p hp => ((p3 p).mp hp).elim (dT p) (dB p)
  obtain ⟨A, hA⟩ := sub_ok A0 wa dA0 dV
  obtain ⟨_, q3, q4⟩ := xrSub_spec hA
  have dA : ∀ p ∈ A.dims, ∃ a ∈ All, p ∈ dimNames a :=
    fun p hp => ((q3 p).mp hp).elim (dA0 p) (dV p)
  have dC : ∀ p ∈ (xrClip A).dims, ∃ a ∈ All, p ∈ dimNames a := dA
  -- rain rate
  have sub3 : ∀ a ∈ [.named (xrClip A), L_km, f_GHz, pol, .plain .none, .plain .none,
        .plain (.str "ITU_2005"), .plain (.num (.fin (1 / 10)))], ∀ p ∈ dimNames a,
      ∃ b ∈ All, p ∈ dimNames b := by
    intro a ha p hp
    simp only [List.mem_cons, List.not_mem_nil, or_false] at ha
    rcases ha with rfl | rfl | rfl | rfl | rfl | rfl | rfl | rfl
    · exact dC p hp
    · exact ⟨_, by simp [hAll], hp⟩
    · exact ⟨_, by simp [hAll], hp⟩
    · exact ⟨_, by simp [hAll], hp⟩
    all_goals simp [dimNames] at hp
  obtain ⟨r, hr⟩ : ∃ r, Api.calc_R_from_A sp []
      [("A", .named (xrClip A)), ("L_km", L_km), ("f_GHz", f_GHz), ("pol", pol)] = .ok r := by
    refine callNd_ok (nt := nt) calcRSig_nodup
      (vs := [.named (xrClip A), L_km, f_GHz, pol, .plain .none, .plain .none,
        .plain (.str "ITU_2005"), .plain (.num (.fin (1 / 10)))]) rfl
      (hS _ sub3) ⟨.named (xrClip A), by simp, (q3 _).mpr (.inl ((p3 _).mpr (.inl hnt)))⟩
      (hP _ sub3) ?_
    intro c hc
    obtain ⟨c', hc', hpe⟩ := ext _ sub3 c hc
    obtain ⟨⟨x, w, k, m, d, t, L, f, p, y, hx, hw, hk, hm, hd, ht, hL, hf, hp, hy⟩⟩ := hch c' hc'
    obtain ⟨b, hb, eb⟩ := C141_baseline_constant hbl (inArr bl dB c' hc') hx hw hk
    obtain ⟨v, hv, ev⟩ := C141_waa_schleiss hwa (inArr wa dV c' hc') hx hb hw hm hd ht
    obtain ⟨_, s0⟩ := p4 c' x b hx hb
    obtain ⟨_, s1⟩ := q4 c' _ v s0 hv
    rw [hpe nt]
    simp only [List.map_cons, List.map_nil, part _ dC _ _ (xrClip_series s1), hL.part nt, hf.part nt,
      hp.part nt, show ∀ v : Val, partAt nt c' (.plain v) = .scalar v from fun _ => rfl]
    rw [calcRFn_eq]
    unfold channelRain at hy
    simp only [bind, Except.bind, eb, ev] at hy
    refine ⟨y.map .num, by rw [hy]; rfl, ?_⟩
    have := len _ dC _ _ (xrClip_series s1)
    rw [List.length_map] at this ⊢
    rw [calcR_len hy, this]
  refine ⟨r, ?_⟩
  unfold Api.processDataset
  have e1 : Api.baseline_constant []
      [("trsl", .named trsl), ("wet", .named wet), ("n_average_last_dry", n)] = .ok bl := by
    rw [← hbl]
    exact callNd_bind baselineSig_nodup _ (vs := [.named trsl, .named wet, n]) rfl rfl
  have e2 : Api.waa_schleiss_2013 []
      [("rsl", .named trsl), ("baseline", .named bl), ("wet", .named wet),
       ("waa_max", waa_max), ("delta_t", delta_t), ("tau", tau)] = .ok wa := by
    rw [← hwa]
    exact callNd_bind schleissSig_nodup _
      (vs := [.named trsl, .named bl, .named wet, waa_max, delta_t, tau]) rfl rfl
  simp only [bind, Except.bind, e1, e2, hA0, hA, hr]

end Verif.Props
