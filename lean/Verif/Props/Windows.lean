import Verif.Props.NearbyLocal
import Verif.Props.Mlp

/-!
# Property C150: rolling windows that do not fit the series are rejected

`nearby_wetdry`, `nearby_determine_reference_level` and the offline models of `mlp_wet_dry` use rolling windows. Series that are
too short for a window raise `ValueError`; the theorems say for which parameters and lengths this happens.
-/

namespace Verif.Props
open Verif Verif.Nearby

section
variable {K Id : Type} [Field K] [LinearOrder K] [DecidableEq Id]

/-- a loop over steps that either succeed or raise one and the same exception -/
theorem mapM_ok_or_error {α β : Type} (f : α → Except Err β) (e : Err) (l : List α)
    (h : ∀ x ∈ l, (∃ y, f x = .ok y) ∨ f x = .error e) :
    ((∀ x ∈ l, ∃ y, f x = .ok y) → ∃ out, l.mapM f = .ok out) ∧ ((∃ x ∈ l, f x = .error e) → l.mapM f = .error e) := by
  induction l with
  | nil => exact ⟨fun _ => ⟨[], rfl⟩, fun ⟨x, hx, _⟩ => by cases hx⟩
  | cons a l ih =>
    obtain ⟨i1, i2⟩ := ih fun x hx => h x (by simp [hx])
    rw [List.mapM_cons]
    constructor
    · intro hall
      obtain ⟨y, hy⟩ := hall a (by simp)
      obtain ⟨out, ho⟩ := i1 fun x hx => hall x (by simp [hx])
      exact ⟨y :: out, by rw [hy, ho]; rfl⟩
    · rintro ⟨x, hx, hxe⟩
      rcases h a (by simp) with ⟨y, hy⟩ | hy
      · rw [hy]
        have : x ∈ l := by
          rcases List.mem_cons.mp hx with rfl | h'
          · rw [hy] at hxe; cases hxe
          · exact h'
        rw [i2 ⟨x, this, hxe⟩]
        rfl
      · rw [hy]
        rfl

omit [Field K] [LinearOrder K] [DecidableEq Id] in
theorem windowFits_iff (n mc len : Nat) : windowFits n mc len = true ↔ 1 ≤ mc ∧ mc ≤ n ∧ n ≤ len := by
  simp only [windowFits, Bool.and_eq_true, decide_eq_true_eq]
  omega

/-- **C150** Exactly when `nearby_wetdry` succeeds on well-formed input: the interval is not zero (else `ZeroDivisionError`),
at least one and at most all values of the look-back period are required, the look-back period (in steps) is not longer than the
series and, if some link has more than `min_links` neighbours, neither is the window of `4 * timeperiod` steps for `F` (else
`ValueError`). -/
theorem C150_wetdry {N : Net (Fl K) Id} {d : Nearby.Dist (Fl K) Id} {p : Params (Fl K)} (h : Shaped N d p) :
    (p.interval = 0 → nearby_wetdry N d p = .error .zeroDivision) ∧
    (0 < p.interval →
      (((1 ≤ p.minHours * 60 / p.interval ∧ p.minHours * 60 / p.interval ≤ p.timeperiod * 60 / p.interval ∧
          p.timeperiod * 60 / p.interval ≤ N.T ∧
          ((∃ i < N.ids.length, p.minLinks < (nbrs N d p i).length) → 4 * p.timeperiod ≤ N.T)) →
        ∃ out, nearby_wetdry N d p = .ok out) ∧
      (¬ (1 ≤ p.minHours * 60 / p.interval ∧ p.minHours * 60 / p.interval ≤ p.timeperiod * 60 / p.interval ∧
          p.timeperiod * 60 / p.interval ≤ N.T ∧
          ((∃ i < N.ids.length, p.minLinks < (nbrs N d p i).length) → 4 * p.timeperiod ≤ N.T)) →
        nearby_wetdry N d p = .error .valueError))) := by
  constructor
  · intro h0
    unfold nearby_wetdry
    rw [if_pos h0]
  intro hpos
  have hw := windowFits_iff p.period p.need N.T
  simp only [Params.period, Params.need] at hw
  have hmem : ∀ q ∈ (List.range N.ids.length).zip N.ids, q.1 < N.ids.length ∧ N.ids[q.1]? = some q.2 := by
    rintro ⟨i, c⟩ hm
    obtain ⟨k, hk⟩ := List.mem_iff_getElem?.mp hm
    rw [List.getElem?_zip_eq_some] at hk
    have hik : k = i := by
      obtain ⟨hl, he⟩ := List.getElem?_eq_some_iff.mp hk.1
      simpa using he
    subst hik
    exact ⟨(List.getElem?_eq_some_iff.mp hk.2).1, hk.2⟩
  have hmem' : ∀ i, ∀ hi : i < N.ids.length, (i, N.ids[i]) ∈ (List.range N.ids.length).zip N.ids := by
    intro i hi
    apply List.mem_iff_getElem?.mpr
    refine ⟨i, ?_⟩
    rw [List.getElem?_zip_eq_some]
    exact ⟨List.getElem?_range hi, List.getElem?_eq_getElem hi⟩
  have hone : ∀ q ∈ (List.range N.ids.length).zip N.ids,
      (∃ y, (fun (q : Nat × Id) => linkRows N d p q.1 q.2) q = .ok y) ∨
        (fun (q : Nat × Id) => linkRows N d p q.1 q.2) q = .error .valueError := by
    intro q hq
    dsimp only
    rw [linkRows_shaped h (hmem q hq).2]
    split_ifs
    · exact Or.inl ⟨_, rfl⟩
    · exact Or.inr rfl
    · exact Or.inl ⟨_, rfl⟩
  obtain ⟨m1, m2⟩ := mapM_ok_or_error _ _ _ hone
  constructor
  · rintro ⟨c1, c2, c3, c4⟩
    obtain ⟨out, ho⟩ := m1 fun q hq => by
      rw [linkRows_shaped h (hmem q hq).2]
      split_ifs with g1 g2
      · exact ⟨_, rfl⟩
      · exfalso
        apply g2
        rw [windowFits_iff]
        have h5 : 0 < p.timeperiod := by
          rcases Nat.eq_zero_or_pos p.timeperiod with h0 | h0
          · rw [h0, Nat.zero_mul, Nat.zero_div] at c2; omega
          · exact h0
        have := c4 ⟨q.1, (hmem q hq).1, g1⟩
        omega
      · exact ⟨_, rfl⟩
    refine ⟨out, ?_⟩
    unfold nearby_wetdry
    rw [if_neg (by omega), show windowFits p.period p.need N.T = true from hw.mpr ⟨c1, c2, c3⟩, if_neg (by simp)]
    exact ho
  · intro hn
    unfold nearby_wetdry
    rw [if_neg (by omega)]
    by_cases hf : windowFits p.period p.need N.T = true
    · obtain ⟨c1, c2, c3⟩ := hw.mp hf
      rw [hf, if_neg (by simp)]
      have : ¬ ((∃ i < N.ids.length, p.minLinks < (nbrs N d p i).length) → 4 * p.timeperiod ≤ N.T) :=
        fun h' => hn ⟨c1, c2, c3, h'⟩
      rw [Classical.not_imp] at this
      obtain ⟨⟨i, hi, hl⟩, hT⟩ := this
      apply m2
      refine ⟨(i, N.ids[i]), hmem' i hi, ?_⟩
      dsimp only
      rw [linkRows_shaped h (List.getElem?_eq_getElem hi), if_pos hl, if_neg]
      rw [windowFits_iff]
      omega
    · rw [if_pos (by simpa using hf)]

/-- **C150** Hourly data with the default look-back period of 24 hours: the documentation asks for 24 steps, but if some link has
more than `min_links` neighbours then series with less than 96 steps (four days) raise `ValueError`. -/
theorem C150_wetdry_hourly {N : Net (Fl K) Id} {d : Nearby.Dist (Fl K) Id} {p : Params (Fl K)} (h : Shaped N d p)
    (hi : p.interval = 60) (ht : p.timeperiod = 24) {i : Nat} (hl : i < N.ids.length)
    (hn : p.minLinks < (nbrs N d p i).length) (hT : N.T < 96) : nearby_wetdry N d p = .error .valueError := by
  refine ((C150_wetdry h).2 (by omega)).2 ?_
  rintro ⟨-, -, -, h4⟩
  have := h4 ⟨i, hl, hn⟩
  omega

omit [DecidableEq Id] in
/-- **C150** `nearby_determine_reference_level` succeeds exactly if `1 ≤ min_periods ≤ n_average_dry` and `n_average_dry` is not
more than the number of time steps; it then gives one value per time step (those described by C36), and else raises `ValueError`. -/
theorem C150_reference (pmin pmax wet : List (Fl K)) (n m : Nat) (h1 : pmax.length = pmin.length) (h2 : wet.length = pmin.length) :
    (1 ≤ m ∧ m ≤ n ∧ n ≤ pmin.length →
      ∃ out, reference_level_checked pmin pmax wet n m = .ok out ∧ out.length = pmin.length ∧
        out = determine_reference_level pmin pmax wet n m) ∧
    (¬ (1 ≤ m ∧ m ≤ n ∧ n ≤ pmin.length) → reference_level_checked pmin pmax wet n m = .error .valueError) := by
  unfold reference_level_checked
  constructor
  · intro h
    rw [if_pos ((windowFits_iff _ _ _).mpr h)]
    exact ⟨_, rfl, by simp [determine_reference_level, rolling, zip3, h1, h2], rfl⟩
  · intro h
    rw [if_neg fun hf => h ((windowFits_iff _ _ _).mp hf)]

/-- **C150** `mlp_wet_dry` with an offline model and channels of equal length: `ValueError` exactly for series of less than 361
samples (six hours), although one prediction only looks at 40 samples. -/
theorem C150_mlp [IsStrictOrderedRing K] (M : Mlp.Models (Fl K)) (sel : String) (clf : Mlp.Clf (Fl K))
    (hsel : sel = "rg" ∧ clf = M.rg ∨ sel = "rad" ∧ clf = M.rad) (f : List (Fl K) → Fl K × Fl K)
    (hclf : ∀ rows, (∀ row ∈ rows, ∀ x ∈ row, ∃ k, x = .fin k) → clf rows = .ok (rows.map f))
    (ch1 ch2 : List (Fl K)) (hl : ch1.length = ch2.length) (h1 : ∀ x ∈ ch1, IsSample x) (h2 : ∀ x ∈ ch2, IsSample x) :
    (ch1.length < 361 → Mlp.mlpWetDry M ch1 ch2 sel = .error .valueError) ∧
    (361 ≤ ch1.length → ∃ out, Mlp.mlpWetDry M ch1 ch2 sel = .ok out ∧ out.length = ch1.length) := by
  constructor
  · intro h
    refine (C55_errors M ch1 ch2 sel).2.2.2 ?_ (Or.inl h)
    rcases hsel with ⟨rfl, -⟩ | ⟨rfl, -⟩
    · exact Or.inl rfl
    · exact Or.inr rfl
  · intro h
    obtain ⟨out, e1, e2, -⟩ := C55_offline M sel clf hsel f hclf ch1 ch2 hl h h1 h2
    exact ⟨out, e1, e2⟩

end

/-! ### Examples -/

section examples

/-- the network with one link, without the conditions on the windows -/
theorem one_shaped (xs : List (Fl ℝ)) (q : Params (Fl ℝ)) (hq : q.radius = .fin 5) : Shaped (oneNet xs) oneDist q where
  nodup := by simp [oneNet]
  same := rfl
  aa := by simp [Square, oneNet, oneDist]
  ab := by simp [Square, oneNet, oneDist]
  ba := by simp [Square, oneNet, oneDist]
  bb := by simp [Square, oneNet, oneDist]
  pmin := rfl
  len := rfl
  times := by simp [oneNet, Net.T]
  own := by
    intro i hi
    have : i = 0 := by simpa [oneNet] using hi
    subst this
    simp [near, oneDist, hq, at2, rd]

theorem one_nbrs (xs : List (Fl ℝ)) (q : Params (Fl ℝ)) (hq : q.radius = .fin 5) : nbrs (oneNet xs) oneDist q 0 = [0] := by
  have := (one_shaped xs q hq).own 0 (by simp [oneNet])
  unfold nbrs
  rw [show (oneNet xs).ids.length = 1 from rfl, List.range_one]
  simp [this]

-- hourly data of three days: rejected, of four days: accepted
example (xs : List (Fl ℝ)) (hx : xs.length = 72) :
    nearby_wetdry (oneNet xs) oneDist ⟨.fin 5, .fin (-1), .fin (-1), 0, 60, 24, 6⟩ = .error .valueError :=
  C150_wetdry_hourly (one_shaped xs _ rfl) rfl rfl (i := 0) (by simp [oneNet]) (by rw [one_nbrs _ _ rfl]; decide)
    (by simp [oneNet, Net.T, hx])

example (xs : List (Fl ℝ)) (hx : xs.length = 96) :
    ∃ out, nearby_wetdry (oneNet xs) oneDist ⟨.fin 5, .fin (-1), .fin (-1), 0, 60, 24, 6⟩ = .ok out :=
  ((C150_wetdry (one_shaped xs _ rfl)).2 (by decide)).1
    ⟨by decide, by decide, by simp [oneNet, Net.T, hx], fun _ => by simp [oneNet, Net.T, hx]⟩

-- more values required than the look-back period has: rejected
example (xs : List (Fl ℝ)) :
    nearby_wetdry (oneNet xs) oneDist ⟨.fin 5, .fin (-1), .fin (-1), 0, 60, 3, 6⟩ = .error .valueError :=
  ((C150_wetdry (one_shaped xs _ rfl)).2 (by decide)).2 fun h => absurd h.2.1 (by decide)

-- three steps, `n_average_dry = 2` and 4
example : reference_level_checked [(.fin (-50) : Fl ℚ), .fin (-52), .fin (-51)] [.fin (-48), .fin (-50), .fin (-49)]
    [.fin 0, .fin 1, .fin 0] 2 1 = .ok [.fin (-49), .fin (-49), .fin (-50)] := by decide +kernel

example : reference_level_checked [(.fin (-50) : Fl ℚ), .fin (-52), .fin (-51)] [.fin (-48), .fin (-50), .fin (-49)]
    [.fin 0, .fin 1, .fin 0] 4 1 = .error .valueError := by decide +kernel

end examples

end Verif.Props
