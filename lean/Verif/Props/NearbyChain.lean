import Verif.Props.NearbyRel
import Verif.Props.NearbyRain

/-!
# Property C79: the nearby pipeline ignores level offsets
-/

namespace Verif.Props
open Verif Verif.Nearby

section
variable {K : Type} [Field K] [LinearOrder K] [IsStrictOrderedRing K]

/-- A level: a number or missing. -/
def IsLevel (x : Fl K) : Prop := x = .nan ∨ ∃ r, x = .fin r

/-- a series with a constant added -/
def shiftBy (c : K) (xs : List (Fl K)) : List (Fl K) := xs.map fun x => x +ᶠ .fin c

theorem median_offset (c : K) (v : List (Fl K)) (hv : ∀ x ∈ v, ∃ r, x = Fl.fin r) :
    median (v.map fun x => x +ᶠ .fin c) = median v +ᶠ .fin c := by
  by_cases hne : v = []
  · subst hne
    rfl
  have hn : ∀ x ∈ v, PyFloat.isNaN x = false := fun x hx => by
    obtain ⟨r, rfl⟩ := hv x hx; rfl
  obtain ⟨s, hp, hs, x, y, hx, hy, hm⟩ := median_spec hne hn
  refine IsMedian.unique (v := v.map fun x => x +ᶠ .fin c) (median_spec (by simpa using hne) ?_) ?_
  · intro x hx
    obtain ⟨y, hy, rfl⟩ := List.mem_map.mp hx
    obtain ⟨r, rfl⟩ := hv y hy
    rfl
  · refine ⟨s.map fun x => x +ᶠ .fin c, hp.map _, ?_, x +ᶠ .fin c, y +ᶠ .fin c, ?_, ?_, ?_⟩
    · rw [List.pairwise_map]
      exact hs.imp fun h => add_fin_le c h
    · simp [hx]
    · simp [hy]
    · obtain ⟨a, rfl⟩ := hv x (hp.mem_iff.mp (List.mem_of_getElem? hx))
      obtain ⟨b, rfl⟩ := hv y (hp.mem_iff.mp (List.mem_of_getElem? hy))
      rw [hm]
      simp only [Fl.pf_add_fin, Fl.pf_ofInt]
      rw [Fl.pf_div_fin_ne _ _ (by norm_num), Fl.pf_div_fin_ne _ _ (by norm_num), Fl.pf_add_fin]
      congr 1
      push_cast
      ring

theorem dryLevel_level {x y : Fl K} (w : Fl K) (hx : IsLevel x) (hy : IsLevel y) :
    IsLevel (dryLevel x y w) := by
  unfold dryLevel
  dsimp only
  generalize ((if isNaN w = true then (PyFloat.nan : Fl K)
    else if (w ==ᶠ PyFloat.ofInt 0) = true then PyFloat.ofInt 1 else PyFloat.ofInt 0) ==ᶠ
      PyFloat.ofInt 1) = q
  cases q
  · exact Or.inl rfl
  · simp only [if_true]
    rcases hx with rfl | ⟨a, rfl⟩
    · left; simp
    · rcases hy with rfl | ⟨b, rfl⟩
      · left; simp
      · right
        rw [Fl.pf_add_fin, Fl.pf_ofInt, Fl.pf_div_fin_ne _ _ (by norm_num)]
        exact ⟨_, rfl⟩

theorem dryLevel_offset (c : K) {x y : Fl K} (w : Fl K) (hx : IsLevel x) (hy : IsLevel y) :
    dryLevel (x +ᶠ .fin c) (y +ᶠ .fin c) w = dryLevel x y w +ᶠ .fin c := by
  unfold dryLevel
  dsimp only
  generalize ((if isNaN w = true then (PyFloat.nan : Fl K)
    else if (w ==ᶠ PyFloat.ofInt 0) = true then PyFloat.ofInt 1 else PyFloat.ofInt 0) ==ᶠ
      PyFloat.ofInt 1) = q
  cases q
  · simp
  · simp only [if_true]
    rcases hx with rfl | ⟨a, rfl⟩
    · simp
    · rcases hy with rfl | ⟨b, rfl⟩
      · simp
      · simp only [Fl.pf_add_fin, Fl.pf_ofInt]
        rw [Fl.pf_div_fin_ne _ _ (by norm_num), Fl.pf_div_fin_ne _ _ (by norm_num), Fl.pf_add_fin]
        congr 1
        push_cast
        ring

theorem zip3_map {α β γ δ α' β' δ' : Type} (f : α → β → γ → δ) (f' : α' → β' → γ → δ')
    (g : α → α') (h : β → β') (k : δ → δ') (xs : List α) (ys : List β) (zs : List γ)
    (e : ∀ x ∈ xs, ∀ y ∈ ys, ∀ z, f' (g x) (h y) z = k (f x y z)) :
    zip3 f' (xs.map g) (ys.map h) zs = (zip3 f xs ys zs).map k := by
  unfold zip3
  induction xs generalizing ys zs with
  | nil => simp
  | cons x xs ih =>
    cases ys with
    | nil => simp
    | cons y ys =>
      cases zs with
      | nil => simp
      | cons z zs =>
        simp only [List.map_cons, List.zip_cons_cons, List.zipWith_cons_cons, List.cons.injEq]
        exact ⟨e x (by simp) y (by simp) z, ih ys zs fun a ha b hb c =>
          e a (by simp [ha]) b (by simp [hb]) c⟩

theorem mem_zip3 {α β γ δ : Type} {f : α → β → γ → δ} {xs : List α} {ys : List β} {zs : List γ}
    {d : δ} (h : d ∈ zip3 f xs ys zs) : ∃ x ∈ xs, ∃ y ∈ ys, ∃ z ∈ zs, d = f x y z := by
  unfold zip3 at h
  induction xs generalizing ys zs with
  | nil => simp at h
  | cons x xs ih =>
    cases ys with
    | nil => simp at h
    | cons y ys =>
      cases zs with
      | nil => simp at h
      | cons z zs =>
        simp only [List.zip_cons_cons, List.zipWith_cons_cons, List.mem_cons] at h
        rcases h with rfl | h
        · exact ⟨x, by simp, y, by simp, z, by simp, rfl⟩
        · obtain ⟨a, ha, b, hb, c, hc, e⟩ := ih h
          exact ⟨a, by simp [ha], b, by simp [hb], c, by simp [hc], e⟩

/-- **C79** The reference level shifts by exactly the constant added to the levels. -/
theorem C79_reference_level (pmin pmax wet : List (Fl K)) (n mp : Nat) (c : K)
    (h1 : ∀ x ∈ pmin, IsLevel x) (h2 : ∀ x ∈ pmax, IsLevel x) :
    determine_reference_level (shiftBy c pmin) (shiftBy c pmax) wet n mp =
      shiftBy c (determine_reference_level pmin pmax wet n mp) := by
  unfold determine_reference_level shiftBy
  rw [zip3_map dryLevel dryLevel _ _ (fun x => x +ᶠ .fin c) _ _ _
    (fun x hx y hy z => dryLevel_offset c z (h1 x hx) (h2 y hy))]
  have hlev : ∀ x ∈ zip3 dryLevel pmin pmax wet, IsLevel x := by
    intro x hx
    obtain ⟨a, ha, b, hb, w, -, rfl⟩ := mem_zip3 hx
    exact dryLevel_level w (h1 a ha) (h2 b hb)
  apply List.ext_getElem?
  intro t
  by_cases ht : t < (zip3 dryLevel pmin pmax wet).length
  · rw [getElem?_rolling _ _ _ _ _ (by simpa using ht), List.getElem?_map,
      getElem?_rolling _ _ _ _ _ ht, window_map, valid_map_offset, List.length_map]
    simp only [Option.map_some]
    split_ifs with h
    · simp
    · rw [median_offset c]
      intro x hx
      obtain ⟨m2, m3⟩ := mem_valid.mp hx
      obtain ⟨s, _, _, hs⟩ := mem_window.mp m2
      rcases hlev x (List.mem_of_getElem? hs) with rfl | h
      · cases m3
      · exact h
  · rw [List.getElem?_eq_none (by rw [length_rolling]; simpa using ht),
      List.getElem?_eq_none (by rw [List.length_map, length_rolling]; omega)]

example : determine_reference_level [Fl.fin (1:ℚ), .fin 3, .nan, .fin 9] [.fin 3, .fin 5, .fin 7, .fin 11]
      [.fin 0, .fin 0, .fin 0, .fin 1] 3 1 = [.fin 2, .fin 3, .fin 3, .fin 4] ∧
    determine_reference_level (shiftBy 10 [Fl.fin (1:ℚ), .fin 3, .nan, .fin 9])
      (shiftBy 10 [.fin 3, .fin 5, .fin 7, .fin 11]) [.fin 0, .fin 0, .fin 0, .fin 1] 3 1 =
      [.fin 12, .fin 13, .fin 13, .fin 14] := by decide +kernel

theorem reference_level_level (pmin pmax wet : List (Fl K)) (n mp : Nat)
    (h1 : ∀ x ∈ pmin, IsLevel x) (h2 : ∀ x ∈ pmax, IsLevel x) :
    ∀ x ∈ determine_reference_level pmin pmax wet n mp, IsLevel x := by
  intro x hx
  unfold determine_reference_level at hx
  obtain ⟨t, ht, rfl⟩ := List.mem_iff_getElem.mp hx
  rw [length_rolling] at ht
  have e := getElem?_rolling n mp median (zip3 dryLevel pmin pmax wet) t ht
  rw [List.getElem?_eq_getElem (by rw [length_rolling]; exact ht), Option.some_inj] at e
  rw [e]
  split_ifs with h
  · exact Or.inl rfl
  · set v := valid (window (zip3 dryLevel pmin pmax wet) n t)
    have hv : ∀ x ∈ v, ∃ r, x = Fl.fin r := by
      intro x hx
      obtain ⟨m2, m3⟩ := mem_valid.mp hx
      obtain ⟨s, _, _, hs⟩ := mem_window.mp m2
      obtain ⟨a, ha, b, hb, w, -, rfl⟩ := mem_zip3 (List.mem_of_getElem? hs)
      rcases dryLevel_level w (h1 a ha) (h2 b hb) with h | h
      · rw [h] at m3; cases m3
      · exact h
    by_cases hne : v = []
    · rw [hne]; exact Or.inl rfl
    · obtain ⟨s, hp, hs, x, y, hx, hy, hm⟩ := median_spec hne fun x hx => by
        obtain ⟨r, rfl⟩ := hv x hx; rfl
      obtain ⟨a, rfl⟩ := hv x (hp.mem_iff.mp (List.mem_of_getElem? hx))
      obtain ⟨b, rfl⟩ := hv y (hp.mem_iff.mp (List.mem_of_getElem? hy))
      right
      rw [hm, Fl.pf_add_fin, Fl.pf_ofInt, Fl.pf_div_fin_ne _ _ (by norm_num)]
      exact ⟨_, rfl⟩

theorem lt_offset (c : K) {x y : Fl K} (hx : IsLevel x) (hy : IsLevel y) :
    ((x +ᶠ .fin c) <ᶠ (y +ᶠ .fin c)) = (x <ᶠ y) := by
  rcases hx with rfl | ⟨a, rfl⟩
  · simp
  · rcases hy with rfl | ⟨b, rfl⟩
    · simp
    · simp

theorem corrMin_offset (c : K) {x r : Fl K} (w : Fl K) (hx : IsLevel x) (hr : IsLevel r) :
    corrMin (x +ᶠ .fin c) w (r +ᶠ .fin c) = corrMin x w r +ᶠ .fin c := by
  unfold corrMin
  rw [lt_offset c hx hr]
  split_ifs <;> rfl

theorem corrMax_offset (c : K) {m x r : Fl K} (hm : IsLevel m) (hx : IsLevel x) (hr : IsLevel r) :
    corrMax (m +ᶠ .fin c) (x +ᶠ .fin c) (r +ᶠ .fin c) = corrMax m x r +ᶠ .fin c := by
  unfold corrMax
  rw [lt_offset c hm hr, lt_offset c hx hr]
  split_ifs <;> rfl

omit [IsStrictOrderedRing K] in
theorem corrMin_level {x r : Fl K} (w : Fl K) (hx : IsLevel x) (hr : IsLevel r) :
    IsLevel (corrMin x w r) := by
  unfold corrMin
  split_ifs
  · exact hx
  · exact hr

omit [IsStrictOrderedRing K] in
theorem corrMax_level {m x r : Fl K} (hx : IsLevel x) (hr : IsLevel r) :
    IsLevel (corrMax m x r) := by
  unfold corrMax
  split_ifs
  · exact hx
  · exact hr

/-- `zip3` with maps on all three arguments -/
theorem zip3_map3 {α β γ δ α' β' γ' δ' : Type} (f : α → β → γ → δ) (f' : α' → β' → γ' → δ')
    (g : α → α') (h : β → β') (l : γ → γ') (k : δ → δ') (xs : List α) (ys : List β) (zs : List γ)
    (e : ∀ x ∈ xs, ∀ y ∈ ys, ∀ z ∈ zs, f' (g x) (h y) (l z) = k (f x y z)) :
    zip3 f' (xs.map g) (ys.map h) (zs.map l) = (zip3 f xs ys zs).map k := by
  unfold zip3
  induction xs generalizing ys zs with
  | nil => simp
  | cons x xs ih =>
    cases ys with
    | nil => simp
    | cons y ys =>
      cases zs with
      | nil => simp
      | cons z zs =>
        simp only [List.map_cons, List.zip_cons_cons, List.zipWith_cons_cons, List.cons.injEq]
        exact ⟨e x (by simp) y (by simp) z (by simp), ih ys zs fun a ha b hb c hc =>
          e a (by simp [ha]) b (by simp [hb]) c (by simp [hc])⟩

/-- **C79** The corrected signals shift by exactly the constant added to levels and reference. -/
theorem C79_corrected_signals (pmin pmax wet pref : List (Fl K)) (c : K)
    (h1 : ∀ x ∈ pmin, IsLevel x) (h2 : ∀ x ∈ pmax, IsLevel x) (h3 : ∀ x ∈ pref, IsLevel x) :
    correct_received_signals (shiftBy c pmin) (shiftBy c pmax) wet (shiftBy c pref) =
      (shiftBy c (correct_received_signals pmin pmax wet pref).1,
        shiftBy c (correct_received_signals pmin pmax wet pref).2) := by
  unfold correct_received_signals
  dsimp only
  have e1 : zip3 corrMin (shiftBy c pmin) wet (shiftBy c pref) =
      shiftBy c (zip3 corrMin pmin wet pref) := by
    have := zip3_map3 corrMin corrMin (fun x : Fl K => x +ᶠ .fin c) id (fun x : Fl K => x +ᶠ .fin c)
      (fun x : Fl K => x +ᶠ .fin c) pmin wet pref
      (fun x hx w _ r hr => corrMin_offset c w (h1 x hx) (h3 r hr))
    rwa [List.map_id] at this
  rw [e1]
  refine Prod.ext rfl ?_
  refine zip3_map3 corrMax corrMax _ _ _ _ _ _ _ ?_
  intro m hm x hx r hr
  refine corrMax_offset c ?_ (h2 x hx) (h3 r hr)
  obtain ⟨a, ha, w, -, b, hb, rfl⟩ := mem_zip3 hm
  exact corrMin_level w (h1 a ha) (h3 b hb)

example : correct_received_signals [Fl.fin (1:ℚ), .fin 6, .nan] [.fin 3, .fin 9, .fin 4]
      [.fin 1, .fin 1, .fin 1] [.fin 4, .fin 7, .fin 7] =
      ([.fin 1, .fin 6, .fin 7], [.fin 3, .fin 7, .fin 7]) ∧
    correct_received_signals (shiftBy 5 [Fl.fin (1:ℚ), .fin 6, .nan])
      (shiftBy 5 [.fin 3, .fin 9, .fin 4]) [.fin 1, .fin 1, .fin 1]
      (shiftBy 5 [.fin 4, .fin 7, .fin 7]) =
      ([.fin 6, .fin 11, .fin 12], [.fin 8, .fin 12, .fin 12]) := by decide +kernel

end

theorem netAtten_offset (waa : Fl ℝ) (c : ℝ) {r x : Fl ℝ} (hr : IsLevel r) (hx : IsLevel x) :
    netAtten waa (r +ᶠ .fin c) (x +ᶠ .fin c) = netAtten waa r x := by
  have : (r +ᶠ .fin c) -ᶠ (x +ᶠ .fin c) = r -ᶠ x := by
    rcases hr with rfl | ⟨a, rfl⟩
    · simp
    · rcases hx with rfl | ⟨b, rfl⟩
      · simp
      · simp
  unfold netAtten
  rw [this]

theorem bcast_map2 {α β γ : Type} (f : α → β → γ) (g : α → α) (h : β → β) (xs : List α)
    (ys : List β) (e : ∀ x ∈ xs, ∀ y ∈ ys, f (g x) (h y) = f x y) :
    KR.bcast f (xs.map g) (ys.map h) = KR.bcast f xs ys := by
  have hz : List.zipWith f (xs.map g) (ys.map h) = List.zipWith f xs ys := by
    induction xs generalizing ys with
    | nil => simp
    | cons x xs ih =>
      cases ys with
      | nil => simp
      | cons y ys =>
        simp only [List.map_cons, List.zipWith_cons_cons, List.cons.injEq]
        exact ⟨e x (by simp) y (by simp), ih ys fun a ha b hb => e a (by simp [ha]) b (by simp [hb])⟩
  unfold KR.bcast
  rw [List.length_map, List.length_map, hz]
  split_ifs with hl
  · rfl
  · match xs, ys with
    | [], [] => rfl
    | [], [y] => rfl
    | [], y :: y' :: ys => rfl
    | [x], [] => rfl
    | [x], [y] => exact absurd rfl hl
    | [x], y :: y' :: ys =>
      simp only [List.map_cons, List.map_nil, List.map_map, Except.ok.injEq, List.cons.injEq]
      refine ⟨e _ (by simp) _ (by simp), e _ (by simp) _ (by simp), ?_⟩
      apply List.map_congr_left
      intro b hb
      exact e _ (by simp) _ (by simp [hb])
    | x :: x' :: xs, [] => rfl
    | x :: x' :: xs, [y] =>
      simp only [List.map_cons, List.map_nil, List.map_map, Except.ok.injEq, List.cons.injEq]
      refine ⟨e _ (by simp) _ (by simp), e _ (by simp) _ (by simp), ?_⟩
      apply List.map_congr_left
      intro b hb
      exact e _ (by simp [hb]) _ (by simp)
    | x :: x' :: xs, y :: y' :: ys => rfl

/-- Parameters of the rain retrieval, the same for all links except for the length; `a`, `b` or
frequency and polarization may be given per link. -/
structure RetrievalParams where
  nAverageDry : Nat
  minPeriods : Nat
  f_GHz : Nat → Option (List (Fl ℝ))
  pol : Nat → Option (List String)
  a : Nat → Option (List (Fl ℝ))
  b : Nat → Option (List (Fl ℝ))
  approx : String
  waaMax : Fl ℝ
  alpha : Fl ℝ
  threshold : Option (Fl ℝ)

/-- reference level, correction and retrieval of link `i` -/
noncomputable def retrieveLink (sp : KR.Spline) (q : RetrievalParams) (i : Nat)
    (pmin pmax wet F : List (Fl ℝ)) (len : Fl ℝ) : Except Err (List (Fl ℝ)) :=
  let pref := determine_reference_level pmin pmax wet q.nAverageDry q.minPeriods
  rainfall_retrival sp pref (correct_received_signals pmin pmax wet pref).1
    (correct_received_signals pmin pmax wet pref).2 F len (q.f_GHz i) (q.pol i) (q.a i) (q.b i)
    q.approx q.waaMax q.alpha q.threshold

/-- The pipeline on a whole network: classification of all links, then for each link reference
level, correction and retrieval. -/
noncomputable def nearbyChain {Id : Type} [DecidableEq Id] (sp : KR.Spline)
    (N : Net (Fl ℝ) Id) (pmax : List (List (Fl ℝ))) (d : Nearby.Dist (Fl ℝ) Id)
    (p : Params (Fl ℝ)) (q : RetrievalParams) : Except Err (List (List (Fl ℝ))) := do
  let rows ← nearby_wetdry N d p
  (List.range rows.length).mapM fun i =>
    retrieveLink sp q i (N.pmin.getD i []) (pmax.getD i []) ((rows.getD i ([], [])).1)
      ((rows.getD i ([], [])).2) (N.length.getD i .nan)

/-- **C79** One link: adding a constant to `pmin` and `pmax` does not change the rain rates. -/
theorem C79_link (sp : KR.Spline) (q : RetrievalParams) (i : Nat) (pmin pmax wet F : List (Fl ℝ))
    (len : Fl ℝ) (c : ℝ) (h1 : ∀ x ∈ pmin, IsLevel x) (h2 : ∀ x ∈ pmax, IsLevel x) :
    retrieveLink sp q i (shiftBy c pmin) (shiftBy c pmax) wet F len =
      retrieveLink sp q i pmin pmax wet F len := by
  have hp := reference_level_level pmin pmax wet q.nAverageDry q.minPeriods h1 h2
  unfold retrieveLink
  dsimp only
  rw [C79_reference_level pmin pmax wet _ _ c h1 h2]
  set pref := determine_reference_level pmin pmax wet q.nAverageDry q.minPeriods
  rw [C79_corrected_signals pmin pmax wet pref c h1 h2 hp]
  have hmin : ∀ x ∈ (correct_received_signals pmin pmax wet pref).1, IsLevel x := by
    intro x hx
    obtain ⟨a, ha, w, -, b, hb, rfl⟩ := mem_zip3 hx
    exact corrMin_level w (h1 a ha) (hp b hb)
  have hmax : ∀ x ∈ (correct_received_signals pmin pmax wet pref).2, IsLevel x := by
    intro x hx
    obtain ⟨a, ha, y, hy, b, hb, rfl⟩ := mem_zip3 hx
    exact corrMax_level (h2 y hy) (hp b hb)
  unfold rainfall_retrival retrieval
  have e1 := bcast_map2 (netAtten q.waaMax) (fun x => x +ᶠ .fin c) (fun x => x +ᶠ .fin c) pref
    (correct_received_signals pmin pmax wet pref).2
    (fun r hr x hx => netAtten_offset _ c (hp r hr) (hmax x hx))
  have e2 := bcast_map2 (netAtten q.waaMax) (fun x => x +ᶠ .fin c) (fun x => x +ᶠ .fin c) pref
    (correct_received_signals pmin pmax wet pref).1
    (fun r hr x hx => netAtten_offset _ c (hp r hr) (hmin x hx))
  unfold shiftBy
  rw [e1, e2]

/-- **C79** The whole network: adding an individual constant to `pmin` and `pmax` of every link
(values finite or missing) does not change the rain rates. -/
theorem C79_network {Id : Type} [DecidableEq Id] (sp : KR.Spline) (N : Net (Fl ℝ) Id)
    (pmax : List (List (Fl ℝ))) (d : Nearby.Dist (Fl ℝ) Id) (p : Params (Fl ℝ))
    (q : RetrievalParams) (hneed : 0 < p.minHours * 60 / p.interval) (cs : List ℝ)
    (hcs : cs.length = N.pmin.length) (hpm : pmax.length = N.pmin.length)
    (h1 : ∀ xs ∈ N.pmin, ∀ x ∈ xs, IsLevel x) (h2 : ∀ xs ∈ pmax, ∀ x ∈ xs, IsLevel x) :
    nearbyChain sp { N with pmin := List.zipWith shiftBy cs N.pmin }
      (List.zipWith shiftBy cs pmax) d p q = nearbyChain sp N pmax d p q := by
  have h35 : nearby_wetdry { N with pmin := List.zipWith shiftBy cs N.pmin } d p =
      nearby_wetdry N d p := C35_offsets N d p hneed cs hcs h1
  unfold nearbyChain
  rw [h35]
  congr 1
  funext rows
  congr 1
  funext i
  dsimp only
  by_cases hi : i < N.pmin.length
  · have a1 : (List.zipWith shiftBy cs N.pmin).getD i [] =
        shiftBy (cs[i]'(by omega)) (N.pmin.getD i []) := by
      simp [List.getD_eq_getElem?_getD, hi, hcs]
    have a2 : (List.zipWith shiftBy cs pmax).getD i [] =
        shiftBy (cs[i]'(by omega)) (pmax.getD i []) := by
      simp [List.getD_eq_getElem?_getD, hi, hcs, hpm]
    rw [a1, a2]
    apply C79_link
    · apply h1
      simp [List.getD_eq_getElem?_getD, hi]
    · apply h2
      simp [List.getD_eq_getElem?_getD, hi, hpm]
  · have a1 : (List.zipWith shiftBy cs N.pmin).getD i [] = N.pmin.getD i [] := by
      simp [List.getD_eq_getElem?_getD, not_lt.mp hi]
    have a2 : (List.zipWith shiftBy cs pmax).getD i [] = pmax.getD i [] := by
      simp [List.getD_eq_getElem?_getD, not_lt.mp hi, hpm]
    rw [a1, a2]

/-- a network of two links with a gap that meets the hypotheses -/
example : ∃ (N : Net (Fl ℝ) Nat) (pmax : List (List (Fl ℝ))) (p : Params (Fl ℝ)) (cs : List ℝ),
    0 < p.minHours * 60 / p.interval ∧ cs.length = N.pmin.length ∧ pmax.length = N.pmin.length ∧
    (∀ xs ∈ N.pmin, ∀ x ∈ xs, IsLevel x) ∧ (∀ xs ∈ pmax, ∀ x ∈ xs, IsLevel x) ∧
    cs = [5, -3] ∧ Fl.nan ∈ N.pmin.flatten := by
  refine ⟨⟨[7, 8], [.fin 1, .fin 2], [[.fin (-40), .nan], [.fin (-50), .fin (-51)]]⟩,
    [[.fin (-39), .fin (-40)], [.fin (-49), .fin (-49)]],
    ⟨.fin 15, .fin (-1), .fin (-1), 1, 15, 24, 6⟩, [5, -3], by norm_num, rfl, rfl, ?_, ?_, rfl, ?_⟩
  · simp [IsLevel]
  · simp [IsLevel]
  · simp

end Verif.Props
