import Verif.Props.NearbyDoubles
import Verif.Props.NearbyChain
import Verif.Props.RoundedRetrieval
import Verif.Props.RoundedChain

/-!
# Property C147: rain rates of the nearby approach with level errors and in double precision

From levels and coordinates to rain rates: `nearby_wetdry`, `nearby_determine_reference_level`,
`nearby_correct_received_signals`, `nearby_rainfall_retrival`.
-/

namespace Verif.Props
open Verif Verif.Bin Verif.Nearby Verif.Haversine

/-! ### Levels -/

section
variable {F : Type} [PyFloat F] {v : F → Fl ℝ} {η : ℝ}

/-- reference level, corrected minimum and corrected maximum of one link with flags `wet` -/
def linkLevels (pmin pmax wet : List F) (n mp : ℕ) : List F × List F × List F :=
  let pref := determine_reference_level pmin pmax wet n mp
  (pref, correct_received_signals pmin pmax wet pref)

omit [PyFloat F] in
theorem dryLevel_bound {x y w : Fl ℝ} (bx : ∀ a, x = .fin a → |a| ≤ 950) (hy : ∀ a, y = .fin a → |a| ≤ 950) {a : ℝ}
    (h : dryLevel x y w = .fin a) : |a| ≤ 950 := by
  rw [dryLevel_eq] at h
  split_ifs at h with h0
  have two : (PyFloat.ofInt 2 : Fl ℝ) = .fin 2 := by rw [Fl.pf_ofInt]; norm_num
  have inf1 : ((.pinf : Fl ℝ) /ᶠ .fin 2) = .pinf := by
    show Fl.div _ _ = _
    simp [Fl.div]
  have inf2 : ((.ninf : Fl ℝ) /ᶠ .fin 2) = .ninf := by
    show Fl.div _ _ = _
    simp [Fl.div]
  rw [two] at h
  cases x with
  | nan => simp at h
  | ninf =>
    cases y with
    | nan => simp at h
    | pinf => have : ((.ninf : Fl ℝ) +ᶠ .pinf) = .nan := rfl
              rw [this] at h; simp at h
    | ninf => have : ((.ninf : Fl ℝ) +ᶠ .ninf) = .ninf := rfl
              rw [this, inf2] at h; cases h
    | fin b => have : ((.ninf : Fl ℝ) +ᶠ .fin b) = .ninf := rfl
               rw [this, inf2] at h; cases h
  | pinf =>
    cases y with
    | nan => simp at h
    | pinf => have : ((.pinf : Fl ℝ) +ᶠ .pinf) = .pinf := rfl
              rw [this, inf1] at h; cases h
    | ninf => have : ((.pinf : Fl ℝ) +ᶠ .ninf) = .nan := rfl
              rw [this] at h; simp at h
    | fin b => have : ((.pinf : Fl ℝ) +ᶠ .fin b) = .pinf := rfl
               rw [this, inf1] at h; cases h
  | fin c =>
    cases y with
    | nan => simp at h
    | pinf => have : ((.fin c : Fl ℝ) +ᶠ .pinf) = .pinf := rfl
              rw [this, inf1] at h; cases h
    | ninf => have : ((.fin c : Fl ℝ) +ᶠ .ninf) = .ninf := rfl
              rw [this, inf2] at h; cases h
    | fin b =>
      rw [Fl.pf_add_fin, Fl.pf_div_fin_ne _ _ (by norm_num)] at h
      cases h
      have k1 := abs_le.mp (bx c rfl)
      have k2 := abs_le.mp (hy b rfl)
      rw [abs_le]
      constructor <;> linarith [k1.1, k1.2, k2.1, k2.2]

/-- dry levels that are close -/
theorem NumView.dry_close (V : NumView F v η) {E : ℝ} {x y w : F} {x' y' w' : Fl ℝ} (hx : UpTo E (v x) x')
    (hy : UpTo E (v y) y') (hw : v w = w') (bx : ∀ a, x' = .fin a → |a| ≤ 950) (by' : ∀ a, y' = .fin a → |a| ≤ 950) (hE1 : E ≤ 40) :
    UpTo (E + η) (v (dryLevel x y w)) (dryLevel x' y' w') ∧ ∀ a, dryLevel x' y' w' = .fin a → |a| ≤ 950 := by
  have e : dryLevel x y w = if w' = .fin 0 then (x +ᶠ y) /ᶠ PyFloat.ofInt 2 else PyFloat.nan := by
    unfold dryLevel
    dsimp only
    rw [V.isNaN, hw, V.eq w, hw, V.ofInt 0 (by norm_num)]
    have k1 : ((PyFloat.nan : F) ==ᶠ PyFloat.ofInt 1) = false := by
      rw [V.eq, V.nan, V.ofInt 1 (by norm_num)]; rfl
    have k2 : ((PyFloat.ofInt 1 : F) ==ᶠ PyFloat.ofInt 1) = true := by
      rw [V.eq, V.ofInt 1 (by norm_num)]; simp
    have k3 : ((PyFloat.ofInt 0 : F) ==ᶠ PyFloat.ofInt 1) = false := by
      rw [V.eq, V.ofInt 1 (by norm_num), V.ofInt 0 (by norm_num)]; simp
    cases w' with
    | nan => simp [k1]
    | ninf =>
      have : ((.ninf : Fl ℝ) ==ᶠ (.fin 0)) = false := rfl
      simp [this, k3]
    | pinf =>
      have : ((.pinf : Fl ℝ) ==ᶠ (.fin 0)) = false := rfl
      simp [this, k3]
    | fin r =>
      by_cases h : r = 0
      · subst h; simp [k2]
      · simp [h, k3]
  rw [e, dryLevel_eq]
  split_ifs with h0
  · generalize hvx : v x = vx at hx
    generalize hvy : v y = vy at hy
    cases hx with
    | nan =>
      rw [V.mean_nan _ _ (Or.inl hvx)]
      exact ⟨by simpa using UpTo.nan, fun a ha => by simp at ha⟩
    | @fin a a' haa =>
      cases hy with
      | nan =>
        rw [V.mean_nan _ _ (Or.inr hvy)]
        exact ⟨by simpa using UpTo.nan, fun a ha => by simp at ha⟩
      | @fin b b' hbb =>
        have ba := bx a' rfl
        have bb := by' b' rfl
        rw [Fl.pf_add_fin, Fl.pf_ofInt, Fl.pf_div_fin_ne _ _ (by norm_num)]
        rw [abs_le] at haa hbb ba bb
        obtain ⟨z, hz, he⟩ := V.mean x y a b hvx hvy (by rw [abs_le]; constructor <;> linarith [haa.1, haa.2, ba.1, ba.2])
          (by rw [abs_le]; constructor <;> linarith [hbb.1, hbb.2, bb.1, bb.2])
        rw [hz]
        rw [abs_le] at he
        constructor
        · refine .fin ?_
          rw [abs_le]
          push_cast
          constructor <;> linarith [haa.1, haa.2, hbb.1, hbb.2, he.1, he.2]
        · intro c hc
          cases hc
          rw [abs_le]
          push_cast
          constructor <;> linarith [ba.1, ba.2, bb.1, bb.2]
  · rw [V.nan]
    exact ⟨.nan, fun a ha => by cases ha⟩

theorem getElem?_window_gen {α : Type} (xs : List α) (n t k : ℕ) (hk : t + 1 - n + k < t + 1) :
    (window xs n t)[k]? = xs[t + 1 - n + k]? := by
  unfold window slice
  rw [List.getElem?_drop, List.getElem?_take_of_lt hk]

theorem window_length_gen {α : Type} (xs : List α) (n t : ℕ) (ht : t < xs.length) : (window xs n t).length = t + 1 - (t + 1 - n) := by
  unfold window slice
  rw [List.length_drop, List.length_take, min_eq_left (by omega)]

/-- the entries of two windows -/
theorem forall₂_window_at {α β : Type} {R : α → β → Prop} {xs : List α} {ys : List β} {n t : ℕ} (hl : xs.length = ys.length)
    (ht : t < xs.length) (h : ∀ s ≤ t, t < s + n → ∀ x y, xs[s]? = some x → ys[s]? = some y → R x y) :
    List.Forall₂ R (window xs n t) (window ys n t) := by
  refine List.forall₂_iff_get.mpr ⟨by rw [window_length_gen xs n t ht, window_length_gen ys n t (by omega)], fun k h1 h2 => ?_⟩
  have hk : k < t + 1 - (t + 1 - n) := by rw [← window_length_gen xs n t ht]; exact h1
  refine h (t + 1 - n + k) (by omega) (by omega) _ _ ?_ ?_
  · rw [← getElem?_window_gen xs n t k (by omega), List.getElem?_eq_getElem h1]; rfl
  · rw [← getElem?_window_gen ys n t k (by omega), List.getElem?_eq_getElem h2]; rfl

variable [LawfulPyFloat F]

/-- reference levels of series that are close in the window -/
theorem NumView.ref_close (V : NumView F v η) (hη : 0 ≤ η) (hη1 : η ≤ 1) {E : ℝ} (hE : 0 ≤ E) (hE1 : E ≤ 40) {T n mp t : ℕ}
    {pmin pmax wet : List F} {pmin' pmax' wet' : List (Fl ℝ)} (l1 : pmin.length = T) (l2 : pmax.length = T) (l3 : wet.length = T)
    (l1' : pmin'.length = T) (l2' : pmax'.length = T) (l3' : wet'.length = T) (ht : t < T)
    (h : ∀ s ≤ t, t < s + n → UpTo E (v (rd pmin s)) (rd pmin' s) ∧ UpTo E (v (rd pmax s)) (rd pmax' s) ∧ v (rd wet s) = rd wet' s)
    (b1 : ∀ s a, rd pmin' s = .fin a → |a| ≤ 950) (b2 : ∀ s a, rd pmax' s = .fin a → |a| ≤ 950) :
    UpTo (E + 2 * η) (v (rd (determine_reference_level pmin pmax wet n mp) t)) (rd (determine_reference_level pmin' pmax' wet' n mp) t) ∧
      ∀ a, rd (determine_reference_level pmin' pmax' wet' n mp) t = .fin a → |a| ≤ 950 := by
  have z1 : (zip3 dryLevel pmin pmax wet).length = T := by rw [length_zip3 _ _ _ _ (by omega) (by omega), l1]
  have z2 : (zip3 dryLevel pmin' pmax' wet').length = T := by rw [length_zip3 _ _ _ _ (by omega) (by omega), l1']
  have hval : ∀ s < T, (zip3 dryLevel pmin' pmax' wet')[s]? = some (dryLevel (rd pmin' s) (rd pmax' s) (rd wet' s)) := fun s hs =>
    getElem?_zip3 dryLevel (getElem?_eq_rd (by omega)) (getElem?_eq_rd (by omega)) (getElem?_eq_rd (by omega))
  have hwin : List.Forall₂ (fun x y => UpTo (E + η) (v x) y) (window (zip3 dryLevel pmin pmax wet) n t)
      (window (zip3 dryLevel pmin' pmax' wet') n t) := by
    refine forall₂_window_at (by omega) (by omega) fun s h1 h2 x y hx hy => ?_
    rw [getElem?_zip3 dryLevel (getElem?_eq_rd (by omega)) (getElem?_eq_rd (by omega)) (getElem?_eq_rd (by omega))] at hx
    rw [hval s (by omega)] at hy
    cases hx
    cases hy
    obtain ⟨g1, g2, g3⟩ := h s h1 h2
    exact (V.dry_close g1 g2 g3 (b1 s) (b2 s) hE1).1
  have hbd : ∀ a, .fin a ∈ window (zip3 dryLevel pmin' pmax' wet') n t → |a| ≤ 950 := by
    intro a ha
    obtain ⟨s, -, h2, hs⟩ := mem_window.mp ha
    have hsT : s < T := by rw [← z2]; exact (List.getElem?_eq_some_iff.mp hs).1
    rw [hval s hsT, Option.some.injEq] at hs
    exact dryLevel_bound (b1 s) (b2 s) hs
  unfold determine_reference_level
  rw [rd_of_getElem? (getElem?_rolling _ _ _ _ _ (by omega)), rd_of_getElem? (getElem?_rolling _ _ _ _ _ (by omega))]
  have hv := V.valid_forall₂ hwin
  rw [← hv.length_eq]
  split_ifs with hlt
  · rw [V.nan]
    exact ⟨.nan, fun a ha => by cases ha⟩
  · by_cases hne : valid (window (zip3 dryLevel pmin pmax wet) n t) = []
    · have hne' : valid (window (zip3 dryLevel pmin' pmax' wet') n t) = [] :=
        List.length_eq_zero_iff.mp (by rw [← hv.length_eq, hne]; rfl)
      rw [hne, hne']
      have e1 : Verif.median ([] : List F) = PyFloat.nan := rfl
      have e2 : Verif.median ([] : List (Fl ℝ)) = .nan := rfl
      rw [e1, e2, V.nan]
      exact ⟨.nan, fun a ha => by cases ha⟩
    · have hne' : valid (window (zip3 dryLevel pmin' pmax' wet') n t) ≠ [] := by
        intro e
        rw [e] at hv
        cases h : valid (window (zip3 dryLevel pmin pmax wet) n t) with
        | nil => exact hne h
        | cons a l => rw [h] at hv; cases hv
      have hv' : List.Forall₂ (fun x y => ∃ a b, v x = .fin a ∧ y = .fin b ∧ |a - b| ≤ E + η ∧ |a| ≤ 40000 ∧ |b| ≤ 40000)
          (valid (window (zip3 dryLevel pmin pmax wet) n t)) (valid (window (zip3 dryLevel pmin' pmax' wet') n t)) := by
        refine List.forall₂_iff_get.mpr ⟨hv.length_eq, fun k h1 h2 => ?_⟩
        obtain ⟨a, b, g1, g2, g3⟩ := (List.forall₂_iff_get.mp hv).2 k h1 h2
        have hm := (mem_valid.mp (List.get_mem (valid (window (zip3 dryLevel pmin' pmax' wet') n t)) ⟨k, h2⟩)).1
        rw [g2] at hm
        have := hbd b hm
        refine ⟨a, b, g1, g2, g3, ?_, by linarith⟩
        rw [abs_le] at *
        constructor <;> linarith [this.1, this.2, g3.1, g3.2]
      obtain ⟨m, m', m1, m2, m3⟩ := V.median_close hη hv' hne
      rw [m1, m2]
      refine ⟨.fin (by linarith), fun a ha => ?_⟩
      cases ha
      have hmed := median_spec hne' (fun x hx => (mem_valid.mp hx).2)
      obtain ⟨r, hr, hr1, hr2⟩ := hmed.between (lo := -950) (hi := 950) (by
        intro x hx
        obtain ⟨k, hk, rfl⟩ := List.getElem_of_mem hx
        obtain ⟨a, b, -, g2, -⟩ := (List.forall₂_iff_get.mp hv).2 k (by rw [hv.length_eq]; exact hk) hk
        have hm := (mem_valid.mp hx).1
        simp only [List.get_eq_getElem] at g2
        rw [g2] at hm
        have := abs_le.mp (hbd b hm)
        exact ⟨b, g2, this.1, this.2⟩)
      rw [m2] at hr
      cases hr
      exact abs_le.mpr ⟨hr1, hr2⟩

omit [LawfulPyFloat F] in
/-- corrected levels of values that are close -/
theorem NumView.corr_close (V : NumView F v η) {E E' : ℝ} (hEE : E ≤ E') {x y w r : F} {x' y' w' r' : Fl ℝ} (hx : UpTo E (v x) x')
    (hy : UpTo E (v y) y') (hr : UpTo E' (v r) r') (hw : v w = w') (hxy : ∀ a b, x' = .fin a → y' = .fin b → a ≤ b) :
    UpTo E' (v (corrMin x w r)) (corrMin x' w' r') ∧
      UpTo E' (v (corrMax (corrMin x w r) y r)) (corrMax (corrMin x' w' r') y' r') := by
  have irr : ∀ q : F, (q <ᶠ q) = false := by
    intro q
    rw [V.lt]
    cases v q with
    | fin a => rw [Fl.pf_lt_fin]; simp
    | _ => rfl
  have irr' : ∀ q : Fl ℝ, (q <ᶠ q) = false := by
    intro q
    cases q with
    | fin a => rw [Fl.pf_lt_fin]; simp
    | _ => rfl
  unfold corrMax corrMin
  rw [V.eq w, hw, V.ofInt 1 (by norm_num), show (PyFloat.ofInt 1 : Fl ℝ) = .fin ((1 : ℤ) : ℝ) from Fl.pf_ofInt 1]
  by_cases h1 : (w' ==ᶠ .fin ((1 : ℤ) : ℝ)) = true
  · rw [h1, Bool.and_true, Bool.and_true]
    generalize hvr : v r = vr at hr
    cases hr with
    | nan =>
      have e1 : ∀ q, (q <ᶠ r) = false := by intro q; rw [V.lt, hvr]; cases v q <;> rfl
      have e2 : ∀ q : Fl ℝ, (q <ᶠ .nan) = false := by intro q; cases q <;> rfl
      simp only [e1, e2, Bool.false_eq_true, if_false, Bool.false_and]
      rw [hvr]
      exact ⟨.nan, .nan⟩
    | @fin ρ ρ' hρ =>
      generalize hvx : v x = vx at hx
      cases hx with
      | nan =>
        have e1 : (x <ᶠ r) = false := by rw [V.lt, hvx, hvr]; rfl
        have e2 : ((.nan : Fl ℝ) <ᶠ .fin ρ') = false := rfl
        simp only [e1, e2, Bool.false_eq_true, if_false, irr, irr', Bool.false_and]
        rw [hvr]
        exact ⟨.fin hρ, .fin hρ⟩
      | @fin χ χ' hχ =>
        have e1 : (x <ᶠ r) = decide (χ < ρ) := by rw [V.lt, hvx, hvr, Fl.pf_lt_fin]
        rw [Fl.pf_lt_fin, e1]
        rw [abs_le] at hχ hρ
        generalize hvy : v y = vy at hy
        cases hy with
        | nan =>
          have f1 : (y <ᶠ r) = false := by rw [V.lt, hvy, hvr]; rfl
          have f2 : ((.nan : Fl ℝ) <ᶠ .fin ρ') = false := rfl
          rw [f1, f2]
          simp only [Bool.and_false, Bool.false_eq_true, if_false, decide_eq_true_eq]
          rw [hvr]
          refine ⟨?_, .fin (abs_le.mpr hρ)⟩
          split_ifs with k1 k2 k2
          · rw [hvx]; exact .fin (abs_le.mpr ⟨by linarith [hχ.1], by linarith [hχ.2]⟩)
          · rw [hvx]; exact .fin (abs_le.mpr ⟨by linarith [hχ.1], by linarith [hχ.2]⟩)
          · rw [hvr]; exact .fin (abs_le.mpr ⟨by linarith [hχ.1], by linarith [hχ.2]⟩)
          · rw [hvr]; exact .fin (abs_le.mpr hρ)
        | @fin ψ ψ' hψ =>
          have f1 : (y <ᶠ r) = decide (ψ < ρ) := by rw [V.lt, hvy, hvr, Fl.pf_lt_fin]
          have hle := hxy χ' ψ' rfl rfl
          rw [abs_le] at hψ
          rw [f1, Fl.pf_lt_fin]
          simp only [decide_eq_true_eq]
          by_cases k1 : χ < ρ <;> by_cases k2 : χ' < ρ' <;> by_cases k3 : ψ < ρ <;> by_cases k4 : ψ' < ρ' <;>
            simp only [k1, k2, k3, k4, if_true, if_false, e1, irr, irr', Fl.pf_lt_fin, decide_true, decide_false, Bool.and_true,
              Bool.and_false, Bool.false_eq_true, hvx, hvy, hvr] <;>
            refine ⟨.fin (abs_le.mpr ⟨?_, ?_⟩), .fin (abs_le.mpr ⟨?_, ?_⟩)⟩ <;>
            linarith [hχ.1, hχ.2, hρ.1, hρ.2, hψ.1, hψ.2]
  · rw [Bool.not_eq_true] at h1
    simp only [h1, Bool.and_false, Bool.false_eq_true, if_false, irr, irr', Bool.false_and]
    exact ⟨hr, hr⟩

end

/-! ### The levels of a network -/

section
variable {F Id : Type} [PyFloat F] [LawfulPyFloat F] [DecidableEq Id] {v : F → Fl ℝ} {η : ℝ}

omit [LawfulPyFloat F] in
theorem linkLevels_get {T : ℕ} {pmin pmax wet : List F} (l1 : pmin.length = T) (l2 : pmax.length = T) (l3 : wet.length = T) (n mp : ℕ) :
    (linkLevels pmin pmax wet n mp).1.length = T ∧ (linkLevels pmin pmax wet n mp).2.1.length = T ∧
      (linkLevels pmin pmax wet n mp).2.2.length = T ∧ ∀ t < T,
      rd (linkLevels pmin pmax wet n mp).2.1 t = corrMin (rd pmin t) (rd wet t) (rd (linkLevels pmin pmax wet n mp).1 t) ∧
      rd (linkLevels pmin pmax wet n mp).2.2 t = corrMax (rd (linkLevels pmin pmax wet n mp).2.1 t) (rd pmax t)
        (rd (linkLevels pmin pmax wet n mp).1 t) := by
  have z0 : (determine_reference_level pmin pmax wet n mp).length = T := by
    unfold determine_reference_level
    rw [length_rolling, length_zip3 _ _ _ _ (by omega) (by omega), l1]
  have z1 : (zip3 corrMin pmin wet (determine_reference_level pmin pmax wet n mp)).length = T := by
    rw [length_zip3 _ _ _ _ (by omega) (by omega), l1]
  refine ⟨z0, z1, ?_, fun t ht => ⟨?_, ?_⟩⟩
  · show (zip3 corrMax (zip3 corrMin pmin wet (determine_reference_level pmin pmax wet n mp)) pmax _).length = T
    rw [length_zip3 _ _ _ _ (by omega) (by omega), z1]
  · exact rd_of_getElem? (getElem?_zip3 corrMin (getElem?_eq_rd (by omega)) (getElem?_eq_rd (by omega)) (getElem?_eq_rd (by omega)))
  · exact rd_of_getElem? (getElem?_zip3 corrMax (getElem?_eq_rd (by omega)) (getElem?_eq_rd (by omega)) (getElem?_eq_rd (by omega)))

theorem UpTo.level {E : ℝ} {x y : Fl ℝ} (h : UpTo E x y) : UpTo 0 y y := by
  cases h with
  | nan => exact .nan
  | fin _ => exact .fin (by simp)

/-- **C147** Levels of the nearby approach: if the measured levels differ from the true ones by at most `E` and every operation has an
error of at most `η`, reference level and corrected levels of link `i` at step `t` differ by at most `E + 2η`, unless one of the
decisions in the reference period is close. -/
theorem C147_levels (V : NumView F v η) (hη : 0 ≤ η) (hη1 : η ≤ 1) {E : ℝ} (hE : 0 ≤ E) (hE1 : E ≤ 40) {N : Net F Id}
    {N' : Net (Fl ℝ) Id} {d : Nearby.Dist F Id} {d' : Nearby.Dist (Fl ℝ) Id} {p : Params F} {p' : Params (Fl ℝ)}
    (h : Consistent N' d' p') (hneed : 0 < p'.minHours * 60 / p'.interval) (hN : CloseNets v E N N') (hp : SameParams v p p')
    (hw : ∀ c ∈ N'.ids, within d p.radius c = within d' p'.radius c)
    (drop : ℕ → ℕ → Fl ℝ) (hd : ∀ j t, DropIs N' p' j t (drop j t))
    {pmax : List (List F)} {pmax' : List (List (Fl ℝ))} (hM : List.Forall₂ (List.Forall₂ fun x y => UpTo E (v x) y) pmax pmax')
    (hMl : pmax'.length = N'.ids.length) (hMT : ∀ xs ∈ pmax', xs.length = N'.T) (hMr : ∀ xs ∈ pmax', ∀ x, .fin x ∈ xs → |x| ≤ 950)
    (n mp : ℕ) (hn : 0 < n) :
    ∃ out out', nearby_wetdry N d p = .ok out ∧ nearby_wetdry N' d' p' = .ok out' ∧ out.length = N'.ids.length ∧
      out'.length = N'.ids.length ∧ ∀ i < N'.ids.length, ∃ wet Fs wet' Fs', out[i]? = some (wet, Fs) ∧ out'[i]? = some (wet', Fs') ∧
        (N.pmin.getD i []).length = N'.T ∧ (pmax.getD i []).length = N'.T ∧ wet.length = N'.T ∧
        (N'.pmin.getD i []).length = N'.T ∧ (pmax'.getD i []).length = N'.T ∧ wet'.length = N'.T ∧ ∀ t < N'.T,
          (∀ s < N'.T, t ≤ s + n → s ≤ t + 2 → Clear N' d' p' drop i s E η) →
          (∀ a b, rd (N'.pmin.getD i []) t = .fin a → rd (pmax'.getD i []) t = .fin b → a ≤ b) →
          v (rd wet t) = rd wet' t ∧
          UpTo (E + 2 * η) (v (rd (linkLevels (N.pmin.getD i []) (pmax.getD i []) wet n mp).1 t))
            (rd (linkLevels (N'.pmin.getD i []) (pmax'.getD i []) wet' n mp).1 t) ∧
          UpTo (E + 2 * η) (v (rd (linkLevels (N.pmin.getD i []) (pmax.getD i []) wet n mp).2.1 t))
            (rd (linkLevels (N'.pmin.getD i []) (pmax'.getD i []) wet' n mp).2.1 t) ∧
          UpTo (E + 2 * η) (v (rd (linkLevels (N.pmin.getD i []) (pmax.getD i []) wet n mp).2.2 t))
            (rd (linkLevels (N'.pmin.getD i []) (pmax'.getD i []) wet' n mp).2.2 t) ∧
          (∀ a, rd (linkLevels (N'.pmin.getD i []) (pmax'.getD i []) wet' n mp).1 t = .fin a → |a| ≤ 950) ∧
          (∀ a, rd (linkLevels (N'.pmin.getD i []) (pmax'.getD i []) wet' n mp).2.1 t = .fin a → |a| ≤ 950) ∧
          ∀ a, rd (linkLevels (N'.pmin.getD i []) (pmax'.getD i []) wet' n mp).2.2 t = .fin a → |a| ≤ 950 := by
  obtain ⟨out, out', o1, o2, o3, o4, o5⟩ := C145_decisions V hη hη1 hE hE1 h hneed hN hp hw drop hd
  have hself : CloseNets (id : Fl ℝ → Fl ℝ) 0 N' N' :=
    { ids := rfl
      length := by simp
      levels := by
        rw [List.forall₂_same]
        intro xs hxs
        rw [List.forall₂_same]
        intro x hx
        obtain ⟨k, hk, rfl⟩ := List.getElem_of_mem hxs
        have h1 := (List.forall₂_iff_get.mp hN.levels).2 k (by rw [hN.levels.length_eq]; exact hk) hk
        obtain ⟨j, hj, rfl⟩ := List.getElem_of_mem hx
        have h2 := (List.forall₂_iff_get.mp h1).2 j (by rw [h1.length_eq]; exact hj) hj
        exact h2.level
      lengths := hN.lengths
      range := hN.range }
  obtain ⟨out2, out2', q1, q2, -, -, q5⟩ := C145_decisions view_exact le_rfl (by norm_num) (E := 0) le_rfl (by norm_num) h hneed hself
    ⟨rfl, rfl, hp.finP, hp.finPL, rfl, rfl, rfl, rfl⟩ (fun _ _ => rfl) drop hd
  have e2 : out2 = out' := by rw [o2] at q1; exact (Except.ok.inj q1).symm
  subst e2
  refine ⟨out, out2, o1, o2, o3, o4, fun i hi => ?_⟩
  obtain ⟨wet, Fs, wet', Fs', a1, a2, a3, a4⟩ := o5 i hi
  obtain ⟨wet2, Fs2, -, -, b1, -, b3, -⟩ := q5 i hi
  rw [a2] at b1
  cases b1
  have hiN : i < N'.pmin.length := by rw [h.pmin]; exact hi
  have hiM : i < pmax'.length := by rw [hMl]; exact hi
  have hpl : N.pmin.length = N'.pmin.length := hN.levels.length_eq
  have hml : pmax.length = pmax'.length := hM.length_eq
  have g1 : N.pmin.getD i [] = N.pmin[i] := by
    rw [List.getD_eq_getElem?_getD, List.getElem?_eq_getElem (by omega)]; rfl
  have g2 : N'.pmin.getD i [] = N'.pmin[i] := by
    rw [List.getD_eq_getElem?_getD, List.getElem?_eq_getElem (by omega)]; rfl
  have g3 : pmax.getD i [] = pmax[i] := by
    rw [List.getD_eq_getElem?_getD, List.getElem?_eq_getElem (by omega)]; rfl
  have g4 : pmax'.getD i [] = pmax'[i] := by
    rw [List.getD_eq_getElem?_getD, List.getElem?_eq_getElem (by omega)]; rfl
  have f1 : List.Forall₂ (fun x y => UpTo E (v x) y) (N.pmin.getD i []) (N'.pmin.getD i []) := by
    rw [g1, g2]
    exact (List.forall₂_iff_get.mp hN.levels).2 i (by omega) hiN
  have f2 : List.Forall₂ (fun x y => UpTo E (v x) y) (pmax.getD i []) (pmax'.getD i []) := by
    rw [g3, g4]
    exact (List.forall₂_iff_get.mp hM).2 i (by omega) hiM
  have r1 : ∀ a, .fin a ∈ N'.pmin.getD i [] → |a| ≤ 950 := by rw [g2]; exact hN.range _ (List.getElem_mem hiN)
  have r2 : ∀ a, .fin a ∈ pmax'.getD i [] → |a| ≤ 950 := by rw [g4]; exact hMr _ (List.getElem_mem hiM)
  have l1' : (N'.pmin.getD i []).length = N'.T := by rw [g2]; exact h.times _ (List.getElem_mem hiN)
  have l2' : (pmax'.getD i []).length = N'.T := by rw [g4]; exact hMT _ (List.getElem_mem hiM)
  have l1 : (N.pmin.getD i []).length = N'.T := by rw [f1.length_eq, l1']
  have l2 : (pmax.getD i []).length = N'.T := by rw [f2.length_eq, l2']
  refine ⟨wet, Fs, wet', Fs', a1, a2, l1, l2, a3, l1', l2', b3, fun t ht hc hle => ?_⟩
  generalize N.pmin.getD i [] = pn at *
  generalize N'.pmin.getD i [] = pn' at *
  generalize pmax.getD i [] = px at *
  generalize pmax'.getD i [] = px' at *
  have rdb : ∀ (xs : List (Fl ℝ)), (∀ a, .fin a ∈ xs → |a| ≤ 950) → ∀ s a, rd xs s = .fin a → |a| ≤ 950 := by
    intro xs hx s a ha
    by_cases hs : s < xs.length
    · exact hx a (by rw [← ha]; exact List.mem_of_getElem? (getElem?_eq_rd hs))
    · unfold rd at ha
      rw [List.getD_eq_getElem?_getD, List.getElem?_eq_none (by omega)] at ha
      cases ha
  have up : ∀ {xs : List F} {ys : List (Fl ℝ)}, List.Forall₂ (fun x y => UpTo E (v x) y) xs ys → xs.length = N'.T → ∀ s < N'.T,
      UpTo E (v (rd xs s)) (rd ys s) := by
    intro xs ys hf hl s hs
    have := (List.forall₂_iff_get.mp hf).2 s (by omega) (by rw [← hf.length_eq]; omega)
    simp only [List.get_eq_getElem] at this
    rw [rd_of_getElem? (List.getElem?_eq_getElem (by omega : s < xs.length)),
      rd_of_getElem? (List.getElem?_eq_getElem (by rw [← hf.length_eq]; omega : s < ys.length))]
    exact this
  have flag : ∀ s ≤ t, t < s + n → v (rd wet s) = rd wet' s := by
    intro s hs1 hs2
    obtain ⟨w, w1, w2⟩ := a4 s (by omega) fun u hu u1 u2 => hc u hu (by omega) (by omega)
    rw [rd_of_getElem? w1, rd_of_getElem? w2]
  have hE' : 0 ≤ E + 2 * η := by linarith
  obtain ⟨c1, c2⟩ := V.ref_close hη hη1 hE hE1 (mp := mp) l1 l2 a3 l1' l2' b3 ht
    (fun s hs1 hs2 => ⟨up f1 l1 s (by omega), up f2 l2 s (by omega), flag s hs1 hs2⟩) (rdb _ r1) (rdb _ r2)
  obtain ⟨d1, d2⟩ := V.corr_close (E := E) (E' := E + 2 * η) (by linarith) (up f1 l1 t ht) (up f2 l2 t ht) c1 (flag t le_rfl (by omega)) hle
  obtain ⟨-, -, -, e1⟩ := linkLevels_get l1 l2 a3 n mp
  obtain ⟨-, -, -, e2⟩ := linkLevels_get l1' l2' b3 n mp
  obtain ⟨e11, e12⟩ := e1 t ht
  obtain ⟨e21, e22⟩ := e2 t ht
  rw [e12, e11, e22, e21]
  have cb : ∀ a, corrMin (rd pn' t) (rd wet' t) (rd (linkLevels pn' px' wet' n mp).1 t) = .fin a → |a| ≤ 950 := by
    intro a ha
    unfold corrMin at ha
    split_ifs at ha
    · exact rdb _ r1 t a ha
    · exact c2 a ha
  refine ⟨flag t le_rfl (by omega), c1, d1, d2, c2, cb, fun a ha => ?_⟩
  unfold corrMax at ha
  split_ifs at ha
  · exact rdb _ r2 t a ha
  · exact c2 a ha

end

/-! ### Rain rates -/

/-- weighted mean of the power law for the larger and the smaller attenuation -/
noncomputable def mixLaw (α β l al A₁ A₂ : ℝ) : ℝ := al * lawRate α β l A₁ + (1 - al) * lawRate α β l A₂

theorem mixLaw_mono {α β l al : ℝ} (hαl : 0 < α * l) (hβ : 0 < 1 / β) (h0 : 0 ≤ al) (h1 : al ≤ 1) {A₁ A₂ B₁ B₂ : ℝ} (k1 : A₁ ≤ B₁)
    (k2 : A₂ ≤ B₂) : mixLaw α β l al A₁ A₂ ≤ mixLaw α β l al B₁ B₂ :=
  add_le_add (mul_le_mul_of_nonneg_left (lawRate_mono hαl hβ k1) h0)
    (mul_le_mul_of_nonneg_left (lawRate_mono hαl hβ k2) (by linarith))

theorem mixLaw_nonneg {α β l al : ℝ} (hαl : 0 < α * l) (h0 : 0 ≤ al) (h1 : al ≤ 1) (A₁ A₂ : ℝ) : 0 ≤ mixLaw α β l al A₁ A₂ :=
  add_nonneg (mul_nonneg h0 (lawRate_nonneg hαl _)) (mul_nonneg (by linarith) (lawRate_nonneg hαl _))

/-- rates of one link from its levels, `a` and `b` given, no outlier filter -/
def linkRates {F : Type} [PyFloat F] [PyPow F] (lv : List F × List F × List F) (Fs : List F) (L a b waa alpha : F) : Except Err (List F) :=
  retrieval (fun _ _ _ => .error .valueError) lv.1 lv.2.1 lv.2.2 Fs L none none (some [a]) (some [b]) "ITU_2005" waa alpha none

/-- the exact rates -/
theorem linkRates_exact {lv : List (Fl ℝ) × List (Fl ℝ) × List (Fl ℝ)} {T : ℕ} (l1 : lv.1.length = T) (l2 : lv.2.1.length = T)
    (l3 : lv.2.2.length = T) (Fs : List (Fl ℝ)) {l α β ω al : ℝ} (hl : 0 < l) (hα : 0 < α) (hβ : 0 < β) :
    ∃ out, linkRates lv Fs (.fin l) (.fin α) (.fin β) (.fin ω) (.fin al) = .ok out ∧ out.length = T ∧ ∀ t < T,
      (rd lv.1 t = .nan → out[t]? = some .nan) ∧
      ∀ ρ χ ψ, rd lv.1 t = .fin ρ → rd lv.2.1 t = .fin χ → rd lv.2.2 t = .fin ψ →
        out[t]? = some (.fin (mixLaw α β l al (ρ - χ - ω) (ρ - ψ - ω))) := by
  refine ⟨_, retrieval_scalar _ lv.1 lv.2.1 lv.2.2 Fs (.fin l) (.fin α) (.fin β) "ITU_2005" (.fin ω) (.fin al) none (by omega) (by omega)
    (fun h => absurd rfl h), by simp [l1], fun t ht => ?_⟩
  rw [List.getElem?_map, List.getElem?_range (by omega), Option.map_some, if_neg (by exact Bool.false_ne_true)]
  have e : ∀ r x y : Fl ℝ, mixRateF (.fin α) (.fin β) (.fin l) (.fin ω) (.fin al) r x y =
      mixRate (.fin α) (.fin β) (.fin l) (.fin ω) (.fin al) r x y := fun _ _ _ => rfl
  constructor
  · intro hr
    rw [hr, e]
    unfold mixRate
    rw [oneRate_nan hβ _ _ _ (Or.inl rfl), oneRate_nan hβ _ _ _ (Or.inl rfl)]
    simp
  · intro ρ χ ψ hr hx hy
    rw [hr, hx, hy, e]
    unfold mixRate
    rw [oneRate_fin hα hβ hl, oneRate_fin hα hβ hl]
    simp only [Fl.pf_ofInt, Fl.pf_sub_fin, Fl.pf_mul_fin, Fl.pf_add_fin, Int.cast_one]
    unfold mixLaw lawRate pw
    rw [max_comm 0, max_comm 0]

/-- the corrected levels are missing only where the reference level is missing -/
theorem corrected_ne_nan (x y w : Fl ℝ) (ρ : ℝ) : corrMin x w (.fin ρ) ≠ .nan ∧ ∀ c, corrMax c y (.fin ρ) ≠ .nan := by
  have k : ((.nan : Fl ℝ) <ᶠ .fin ρ) = false := rfl
  constructor
  · intro h
    unfold corrMin at h
    split_ifs at h with h'
    subst h
    rw [k] at h'
    exact absurd h' (by simp)
  · intro c h
    unfold corrMax at h
    split_ifs at h with h'
    subst h
    rw [k] at h'
    exact absurd h' (by simp)

theorem one_div_pos_double {b : DblR} {β : ℝ} (hb : b.val = .fin β) (h1 : 1 / 8 ≤ β) (h2 : β ≤ 8) :
    ((PyFloat.ofInt 0 : DblR) <ᶠ ((PyFloat.ofInt 1 : DblR) /ᶠ b)) = true := by
  have hβ : 0 < β := by linarith
  have q1 : 1 / β ≤ 8 := by rw [div_le_iff₀ hβ]; linarith
  have q2 : 1 / 8 ≤ 1 / β := by rw [div_le_div_iff₀ (by norm_num) hβ]; linarith
  have v1 : (PyFloat.ofInt 1 : DblR).val = .fin 1 := RFl.val_one
  have v0 : (PyFloat.ofInt 0 : DblR).val = .fin 0 := by
    have := val_ofNat_b64 0 (by norm_num)
    simpa using this
  obtain ⟨z, z1, z2⟩ := b64_err_small (x := 1 / β) (B := 8) (by rw [abs_of_nonneg (by linarith)]; exact q1) (by norm_num)
  rw [view_double.lt, v0, RFl.val_div, v1, hb, Fl.pf_div_fin_ne _ _ hβ.ne', z1, Fl.pf_lt_fin]
  rw [abs_le] at z2
  exact decide_eq_true (by linarith [z2.1])

/-- the rates in doubles -/
theorem linkRates_double [PyPow DblR] [PowLaws DblR] (hacc : PowClose) {lv : List DblR × List DblR × List DblR} {T : ℕ}
    (l1 : lv.1.length = T) (l2 : lv.2.1.length = T) (l3 : lv.2.2.length = T) (Fs : List DblR) {L a b waa alpha : DblR} {l α β ω al : ℝ}
    (h : RateRange L a b l α β) (hw : waa.val = .fin ω) (hal : alpha.val = .fin al) (h0 : 0 ≤ al) (h1 : al ≤ 1)
    (bw : |ω| ≤ 1000) (hT : (4000 / (α * l)) ^ (1 / β) ≤ 2 ^ (64 : ℤ)) :
    ∃ out, linkRates lv Fs L a b waa alpha = .ok out ∧ out.length = T ∧ ∀ t < T,
      ((rd lv.1 t).val = .nan → ∃ r, out[t]? = some r ∧ r.val = .nan) ∧
      ∀ ρ χ ψ, (rd lv.1 t).val = .fin ρ → (rd lv.2.1 t).val = .fin χ → (rd lv.2.2 t).val = .fin ψ → |ρ| ≤ 1000 → |χ| ≤ 1000 → |ψ| ≤ 1000 →
        ∃ (A₁ A₂ R : ℝ) (r : DblR), |A₁ - max 0 (ρ - χ - ω)| ≤ 1 / 10 ^ 12 ∧ |A₂ - max 0 (ρ - ψ - ω)| ≤ 1 / 10 ^ 12 ∧ 0 ≤ A₁ ∧ 0 ≤ A₂ ∧
          out[t]? = some r ∧ r.val = .fin R ∧ |R - mixLaw α β l al A₁ A₂| ≤ 2 ^ (-45 : ℤ) * mixLaw α β l al A₁ A₂ + 2 ^ (-96 : ℤ) := by
  obtain ⟨out, o1, o2, o3⟩ := C124_accuracy hacc (fun _ _ _ => .error .valueError) lv.1 lv.2.1 lv.2.2 Fs L a b "ITU_2005" waa alpha
    (by omega) (by omega) l α β ω al 1000 h hw hal h0 h1 bw
    (le_trans (by norm_num : (1000 : ℝ) ≤ 2 ^ (10 : ℤ)) (zpow_le_zpow_right₀ (by norm_num) (by norm_num)))
    (by norm_num at hT ⊢; exact hT)
  refine ⟨out, o1, by omega, fun t ht => ⟨fun hn => ?_, fun ρ χ ψ hr hx hy br bx bb => ?_⟩⟩
  · have e := retrieval_scalar (fun _ _ _ => .error .valueError) lv.1 lv.2.1 lv.2.2 Fs L a b "ITU_2005" waa alpha none (by omega) (by omega)
      (fun h => absurd rfl h)
    rw [o1] at e
    rw [Except.ok.inj e, List.getElem?_map, List.getElem?_range (by omega), Option.map_some, if_neg (by exact Bool.false_ne_true)]
    refine ⟨_, rfl, ?_⟩
    have nn : ∀ z : DblR, isNaN z = true → z.val = .nan := by
      intro z hz
      rw [view_double.isNaN] at hz
      revert hz
      cases z.val <;> intro hz
      · rfl
      all_goals cases hz
    have one : ∀ x, isNaN (oneRateF a b L waa (rd lv.1 t) x) = true := by
      intro x
      unfold oneRateF
      refine PowLaws.nan _ _ (OrderedPyFloat.div_nan _ _ ?_) (one_div_pos_double h.hβ h.β1 h.β2)
      have e1 : ((rd lv.1 t -ᶠ x) -ᶠ waa).val = .nan := view_double.sub_nan _ _ (Or.inl (view_double.sub_nan _ _ (Or.inl hn)))
      have e2 : (((rd lv.1 t -ᶠ x) -ᶠ waa) <ᶠ PyFloat.ofInt 0) = false := by rw [view_double.lt, e1]; rfl
      unfold netAtten
      dsimp only
      rw [e2, if_neg (by exact Bool.false_ne_true), view_double.isNaN, e1]
      rfl
    apply nn
    unfold mixRateF
    exact LawfulPyFloat.add_nan _ _ (by rw [OrderedPyFloat.mul_nan _ _ (by rw [one]; simp)]; simp)
  · have ho : t < out.length := by omega
    obtain ⟨A₁, A₂, R, a0, b0, ae, be, hR, he⟩ := o3 t _ _ _ _ ρ χ ψ (getElem?_eq_rd (by omega)) (getElem?_eq_rd (by omega))
      (getElem?_eq_rd (by omega)) (List.getElem?_eq_getElem ho) hr hx hy br bx bb
    refine ⟨A₁, A₂, R, _, ae.trans (by norm_num), be.trans (by norm_num), a0, b0, List.getElem?_eq_getElem ho, hR, ?_⟩
    unfold mixLaw lawRate
    rw [max_eq_right a0, max_eq_right b0]
    exact he

theorem clip_close {A B C d e : ℝ} (h : |A - max 0 B| ≤ e) (hBC : |B - C| ≤ d) :
    max 0 C - (d + e) ≤ A ∧ A ≤ max 0 C + (d + e) := by
  have := (abs_max_sub_max_le_abs B C 0)
  rw [max_comm B, max_comm C] at this
  have h' := abs_le.mp (this.trans hBC)
  rw [abs_le] at h
  constructor <;> linarith [h.1, h.2, h'.1, h'.2]

theorem rel_abs_close {R W L U u e : ℝ} (w1 : 0 ≤ 1 - u) (w2 : 0 ≤ 1 + u) (h : |R - W| ≤ u * W + e) (lo : L ≤ W) (hi : W ≤ U) :
    (1 - u) * L - e ≤ R ∧ R ≤ (1 + u) * U + e := by
  have p1 := mul_le_mul_of_nonneg_left lo w1
  have p2 := mul_le_mul_of_nonneg_left hi w2
  rw [abs_le] at h
  constructor <;> linarith [h.1, h.2]

/-- **C147** Rain rates of the nearby approach in doubles, from measured levels and coordinates to rates: compared with exact arithmetic
on the true levels, which differ from the measured ones by at most `E`, the rate of every link at every step is that of
attenuations that differ by at most `2E + 10⁻¹⁰` dB, up to a relative error of `2^-45` and an absolute error of `2^-96`, unless
a distance is within 0.1 mm of the radius or a decision in the reference period is close. Missing rates are the same. -/
theorem C147_doubles [PyTrig DblR] (H : TrigClose) [PyPow DblR] [PowLaws DblR] (hacc : PowClose) {Id : Type} [DecidableEq Id] {E : ℝ}
    (hE : 0 ≤ E) (hE1 : E ≤ 40) {N : Net DblR Id} {N' : Net (Fl ℝ) Id} {p : Params DblR}
    {siteA siteB : List (SiteF DblR)} {qA qB : List Site} (hA : List.Forall₂ SiteIs siteA qA) (hB : List.Forall₂ SiteIs siteB qB)
    (lA : siteA.length = N'.ids.length) (lB : siteB.length = N'.ids.length) (hnd : N'.ids.Nodup) (hP : N'.pmin.length = N'.ids.length)
    (hL : N'.length.length = N'.ids.length) (hT : ∀ xs ∈ N'.pmin, xs.length = N'.T) (hN : CloseNets (·.val) E N N')
    {r₀ θP θL : ℝ} (hr : p.radius.val = .fin r₀) (hr0 : 0 < r₀)
    (h1 : p.threshP.val = .fin θP) (h2 : p.threshPL.val = .fin θL) (hint : 0 < p.interval) (hwin : WindowsFit p N'.T)
    (hfar : ∀ (i j : ℕ) pA pB p'A p'B, i ≠ j → qA[i]? = some pA → qB[i]? = some pB → qA[j]? = some p'A → qB[j]? = some p'B →
      ∀ e ∈ [exactDist pA p'A, exactDist pA p'B, exactDist pB p'A, exactDist pB p'B], e ≤ 6367 * (Real.pi / 2) ∧ 1 / 10 ^ 7 < |e - r₀|)
    (drop : ℕ → ℕ → Fl ℝ) (hd : ∀ j t, DropIs N' (exactParams p) j t (drop j t))
    {pmax : List (List DblR)} {pmax' : List (List (Fl ℝ))} (hM : List.Forall₂ (List.Forall₂ fun x y => UpTo E x.val y) pmax pmax')
    (hMl : pmax'.length = N'.ids.length) (hMT : ∀ xs ∈ pmax', xs.length = N'.T) (hMr : ∀ xs ∈ pmax', ∀ x, .fin x ∈ xs → |x| ≤ 950)
    (n mp : ℕ) (hn : 0 < n) {waa alpha : DblR} {ω al : ℝ} (hw : waa.val = .fin ω) (hal : alpha.val = .fin al) (h0 : 0 ≤ al)
    (h1' : al ≤ 1) (bw : |ω| ≤ 1000) :
    ∃ out out', nearby_wetdry N (asDistF N'.ids siteA siteB) p = .ok out ∧
      nearby_wetdry N' (asDist N'.ids qA qB) (exactParams p) = .ok out' ∧ ∀ i < N'.ids.length, ∃ wet Fs wet' Fs',
        out[i]? = some (wet, Fs) ∧ out'[i]? = some (wet', Fs') ∧
        ∀ (a b : DblR) (l α β : ℝ), RateRange (rd N.length i) a b l α β → (4000 / (α * l)) ^ (1 / β) ≤ 2 ^ (64 : ℤ) →
          ∃ rates rates', linkRates (linkLevels (N.pmin.getD i []) (pmax.getD i []) wet n mp) Fs (rd N.length i) a b waa alpha = .ok rates ∧
            linkRates (linkLevels (N'.pmin.getD i []) (pmax'.getD i []) wet' n mp) Fs' (.fin l) (.fin α) (.fin β) (.fin ω) (.fin al) =
              .ok rates' ∧ rates.length = N'.T ∧ rates'.length = N'.T ∧
            ∀ t < N'.T, (∀ s < N'.T, t ≤ s + n → s ≤ t + 2 →
                Clear N' (asDist N'.ids qA qB) (exactParams p) drop i s E (2 / 10 ^ 11)) →
              (∀ a b, rd (N'.pmin.getD i []) t = .fin a → rd (pmax'.getD i []) t = .fin b → a ≤ b) →
              (∃ r, rates[t]? = some r ∧ r.val = .nan ∧ rates'[t]? = some .nan) ∨
              ∃ (ρ χ ψ R : ℝ) (r : DblR), rd (linkLevels (N'.pmin.getD i []) (pmax'.getD i []) wet' n mp).1 t = .fin ρ ∧
                rd (linkLevels (N'.pmin.getD i []) (pmax'.getD i []) wet' n mp).2.1 t = .fin χ ∧
                rd (linkLevels (N'.pmin.getD i []) (pmax'.getD i []) wet' n mp).2.2 t = .fin ψ ∧
                rates'[t]? = some (.fin (mixLaw α β l al (ρ - χ - ω) (ρ - ψ - ω))) ∧ rates[t]? = some r ∧ r.val = .fin R ∧
                (1 - 2 ^ (-45 : ℤ)) * mixLaw α β l al (ρ - χ - ω - (2 * E + 1 / 10 ^ 10)) (ρ - ψ - ω - (2 * E + 1 / 10 ^ 10)) -
                  2 ^ (-96 : ℤ) ≤ R ∧
                R ≤ (1 + 2 ^ (-45 : ℤ)) * mixLaw α β l al (max 0 (ρ - χ - ω) + (2 * E + 1 / 10 ^ 10))
                  (max 0 (ρ - ψ - ω) + (2 * E + 1 / 10 ^ 10)) + 2 ^ (-96 : ℤ) := by
  have lqA : qA.length = N'.ids.length := by rw [← hA.length_eq, lA]
  have lqB : qB.length = N'.ids.length := by rw [← hB.length_eq, lB]
  have hcons := consistent_doubles (p := p) lqA lqB hnd hP hL hT hr hr0 hint hwin
  have hwi := within_doubles H hA hB lA lB hnd lqA lqB hr hr0 hfar hcons
  obtain ⟨out, out', o1, o2, -, -, o3⟩ := C147_levels view_double (by norm_num) (by norm_num) hE hE1 hcons hwin.1 hN
    (p := p) ⟨rfl, rfl, ⟨θP, h1⟩, ⟨θL, h2⟩, rfl, rfl, rfl, rfl⟩ hwi drop hd hM hMl hMT hMr n mp hn
  refine ⟨out, out', o1, o2, fun i hi => ?_⟩
  obtain ⟨wet, Fs, wet', Fs', a1, a2, l1, l2, l3, l1', l2', l3', a4⟩ := o3 i hi
  refine ⟨wet, Fs, wet', Fs', a1, a2, fun a b l α β hR h4 => ?_⟩
  obtain ⟨k1, k2, k3, -⟩ := linkLevels_get l1 l2 l3 n mp
  obtain ⟨k1', k2', k3', k4'⟩ := linkLevels_get l1' l2' l3' n mp
  have p300 : (0 : ℝ) < 2 ^ (-300 : ℤ) := by positivity
  have hl0 : 0 < l := p300.trans_le hR.l1
  have hα0 : 0 < α := p300.trans_le hR.α1
  have hβ0 : 0 < β := by linarith [hR.β1]
  have hαl : 0 < α * l := mul_pos hα0 hl0
  have hβ : 0 < 1 / β := by positivity
  obtain ⟨rates, r1, r2, r3⟩ := linkRates_double hacc k1 k2 k3 Fs hR hw hal h0 h1' bw h4
  obtain ⟨rates', r1', r2', r3'⟩ := linkRates_exact k1' k2' k3' Fs' (ω := ω) (al := al) hl0 hα0 hβ0
  refine ⟨rates, rates', r1, r1', r2, r2', fun t ht hc hle => ?_⟩
  obtain ⟨-, c1, c2, c3, c4, c5, c6⟩ := a4 t ht hc hle
  obtain ⟨e1, e2⟩ := k4' t ht
  obtain ⟨n1, n2⟩ := r3 t ht
  obtain ⟨n1', n2'⟩ := r3' t ht
  generalize linkLevels (N.pmin.getD i []) (pmax.getD i []) wet n mp = lv at *
  generalize linkLevels (N'.pmin.getD i []) (pmax'.getD i []) wet' n mp = lv' at *
  generalize hv1 : (rd lv.1 t).val = v1 at c1
  generalize hv2 : (rd lv.2.1 t).val = v2 at c2
  generalize hv3 : (rd lv.2.2 t).val = v3 at c3
  generalize hu1 : rd lv'.1 t = u1 at *
  generalize hu2 : rd lv'.2.1 t = u2 at *
  generalize hu3 : rd lv'.2.2 t = u3 at *
  cases c1 with
  | nan =>
    obtain ⟨r, s1, s2⟩ := n1 hv1
    exact Or.inl ⟨r, s1, s2, n1' rfl⟩
  | @fin ρ ρ' d1 =>
    right
    cases c2 with
    | nan => exact absurd e1.symm (corrected_ne_nan _ .nan _ _).1
    | @fin χ χ' d2 =>
      cases c3 with
      | nan => exact absurd e2.symm ((corrected_ne_nan .nan _ .nan _).2 _)
      | @fin ψ ψ' d3 =>
        have b1 := abs_le.mp (c4 ρ' rfl)
        have b2 := abs_le.mp (c5 χ' rfl)
        have b3 := abs_le.mp (c6 ψ' rfl)
        have d1' := abs_le.mp d1
        have d2' := abs_le.mp d2
        have d3' := abs_le.mp d3
        obtain ⟨A₁, A₂, R, r, q1, q2, q3, q4, q5, q6, q7⟩ := n2 ρ χ ψ hv1 hv2 hv3
          (abs_le.mpr ⟨by linarith [d1'.1, d1'.2, b1.1, b1.2], by linarith [d1'.1, d1'.2, b1.1, b1.2]⟩)
          (abs_le.mpr ⟨by linarith [d2'.1, d2'.2, b2.1, b2.2], by linarith [d2'.1, d2'.2, b2.1, b2.2]⟩)
          (abs_le.mpr ⟨by linarith [d3'.1, d3'.2, b3.1, b3.2], by linarith [d3'.1, d3'.2, b3.1, b3.2]⟩)
        refine ⟨ρ', χ', ψ', R, r, rfl, rfl, rfl, n2' ρ' χ' ψ' rfl rfl rfl, q5, q6, ?_⟩
        have f1 : |ρ - χ - ω - (ρ' - χ' - ω)| ≤ 2 * E + 8 / 10 ^ 11 := by
          rw [abs_le]
          constructor <;> linarith [d1'.1, d1'.2, d2'.1, d2'.2]
        have f2 : |ρ - ψ - ω - (ρ' - ψ' - ω)| ≤ 2 * E + 8 / 10 ^ 11 := by
          rw [abs_le]
          constructor <;> linarith [d1'.1, d1'.2, d3'.1, d3'.2]
        obtain ⟨g1, g2⟩ := clip_close q1 f1
        obtain ⟨g3, g4⟩ := clip_close q2 f2
        have m1 := le_max_right 0 (ρ' - χ' - ω)
        have m2 := le_max_right 0 (ρ' - ψ' - ω)
        have lo := mixLaw_mono (α := α) (β := β) (l := l) (al := al) hαl hβ h0 h1'
          (A₁ := ρ' - χ' - ω - (2 * E + 1 / 10 ^ 10)) (B₁ := A₁) (A₂ := ρ' - ψ' - ω - (2 * E + 1 / 10 ^ 10)) (B₂ := A₂)
          (by linarith) (by linarith)
        have hi := mixLaw_mono (α := α) (β := β) (l := l) (al := al) hαl hβ h0 h1'
          (A₁ := A₁) (B₁ := max 0 (ρ' - χ' - ω) + (2 * E + 1 / 10 ^ 10)) (A₂ := A₂) (B₂ := max 0 (ρ' - ψ' - ω) + (2 * E + 1 / 10 ^ 10))
          (by linarith) (by linarith)
        exact rel_abs_close (by norm_num) (by positivity) q7 lo hi

/-- **C147** Rain rates in exact arithmetic for levels known up to `E`: the rate of every link at every step is that of attenuations
that differ by at most `2E`, unless a decision in the reference period is close. -/
theorem C147_level_errors {Id : Type} [DecidableEq Id] {E : ℝ} (hE : 0 ≤ E) (hE1 : E ≤ 40) {N N' : Net (Fl ℝ) Id}
    {d : Nearby.Dist (Fl ℝ) Id} {p : Params (Fl ℝ)} (h : Consistent N' d p) (hneed : 0 < p.minHours * 60 / p.interval)
    (hN : CloseNets id E N N') (h1 : ∃ x, p.threshP = .fin x) (h2 : ∃ x, p.threshPL = .fin x)
    (drop : ℕ → ℕ → Fl ℝ) (hd : ∀ j t, DropIs N' p j t (drop j t))
    {pmax pmax' : List (List (Fl ℝ))} (hM : List.Forall₂ (List.Forall₂ fun x y => UpTo E x y) pmax pmax')
    (hMl : pmax'.length = N'.ids.length) (hMT : ∀ xs ∈ pmax', xs.length = N'.T) (hMr : ∀ xs ∈ pmax', ∀ x, .fin x ∈ xs → |x| ≤ 950)
    (n mp : ℕ) (hn : 0 < n) {ω al : ℝ} (h0 : 0 ≤ al) (h1' : al ≤ 1) :
    ∃ out out', nearby_wetdry N d p = .ok out ∧ nearby_wetdry N' d p = .ok out' ∧ ∀ i < N'.ids.length, ∃ wet Fs wet' Fs',
        out[i]? = some (wet, Fs) ∧ out'[i]? = some (wet', Fs') ∧ ∀ (l α β : ℝ), 0 < l → 0 < α → 0 < β →
          ∃ rates rates', linkRates (linkLevels (N.pmin.getD i []) (pmax.getD i []) wet n mp) Fs (.fin l) (.fin α) (.fin β) (.fin ω)
              (.fin al) = .ok rates ∧
            linkRates (linkLevels (N'.pmin.getD i []) (pmax'.getD i []) wet' n mp) Fs' (.fin l) (.fin α) (.fin β) (.fin ω) (.fin al) =
              .ok rates' ∧ rates.length = N'.T ∧ rates'.length = N'.T ∧
            ∀ t < N'.T, (∀ s < N'.T, t ≤ s + n → s ≤ t + 2 → Clear N' d p drop i s E 0) →
              (∀ a b, rd (N'.pmin.getD i []) t = .fin a → rd (pmax'.getD i []) t = .fin b → a ≤ b) →
              (rates[t]? = some .nan ∧ rates'[t]? = some .nan) ∨
              ∃ ρ χ ψ R : ℝ, rd (linkLevels (N'.pmin.getD i []) (pmax'.getD i []) wet' n mp).1 t = .fin ρ ∧
                rd (linkLevels (N'.pmin.getD i []) (pmax'.getD i []) wet' n mp).2.1 t = .fin χ ∧
                rd (linkLevels (N'.pmin.getD i []) (pmax'.getD i []) wet' n mp).2.2 t = .fin ψ ∧
                rates'[t]? = some (.fin (mixLaw α β l al (ρ - χ - ω) (ρ - ψ - ω))) ∧ rates[t]? = some (.fin R) ∧
                mixLaw α β l al (ρ - χ - ω - 2 * E) (ρ - ψ - ω - 2 * E) ≤ R ∧
                R ≤ mixLaw α β l al (ρ - χ - ω + 2 * E) (ρ - ψ - ω + 2 * E) := by
  obtain ⟨out, out', o1, o2, -, -, o3⟩ := C147_levels view_exact le_rfl (by norm_num) hE hE1 h hneed hN
    ⟨rfl, rfl, h1, h2, rfl, rfl, rfl, rfl⟩ (fun _ _ => rfl) drop hd hM hMl hMT hMr n mp hn
  refine ⟨out, out', o1, o2, fun i hi => ?_⟩
  obtain ⟨wet, Fs, wet', Fs', a1, a2, l1, l2, l3, l1', l2', l3', a4⟩ := o3 i hi
  refine ⟨wet, Fs, wet', Fs', a1, a2, fun l α β hl0 hα0 hβ0 => ?_⟩
  obtain ⟨k1, k2, k3, -⟩ := linkLevels_get l1 l2 l3 n mp
  obtain ⟨k1', k2', k3', k4'⟩ := linkLevels_get l1' l2' l3' n mp
  have hαl : 0 < α * l := mul_pos hα0 hl0
  have hβ : 0 < 1 / β := by positivity
  obtain ⟨rates, r1, r2, r3⟩ := linkRates_exact k1 k2 k3 Fs (ω := ω) (al := al) hl0 hα0 hβ0
  obtain ⟨rates', r1', r2', r3'⟩ := linkRates_exact k1' k2' k3' Fs' (ω := ω) (al := al) hl0 hα0 hβ0
  refine ⟨rates, rates', r1, r1', r2, r2', fun t ht hc hle => ?_⟩
  obtain ⟨-, c1, c2, c3, -⟩ := a4 t ht hc hle
  obtain ⟨e1, e2⟩ := k4' t ht
  obtain ⟨n1, n2⟩ := r3 t ht
  obtain ⟨n1', n2'⟩ := r3' t ht
  simp only [id] at c1 c2 c3
  generalize linkLevels (N.pmin.getD i []) (pmax.getD i []) wet n mp = lv at *
  generalize linkLevels (N'.pmin.getD i []) (pmax'.getD i []) wet' n mp = lv' at *
  generalize rd lv.1 t = v1 at *
  generalize rd lv.2.1 t = v2 at *
  generalize rd lv.2.2 t = v3 at *
  generalize rd lv'.1 t = u1 at *
  generalize rd lv'.2.1 t = u2 at *
  generalize rd lv'.2.2 t = u3 at *
  cases c1 with
  | nan => exact Or.inl ⟨n1 rfl, n1' rfl⟩
  | @fin ρ ρ' d1 =>
    right
    cases c2 with
    | nan => exact absurd e1.symm (corrected_ne_nan _ .nan _ _).1
    | @fin χ χ' d2 =>
      cases c3 with
      | nan => exact absurd e2.symm ((corrected_ne_nan .nan _ .nan _).2 _)
      | @fin ψ ψ' d3 =>
        have d1' := abs_le.mp d1
        have d2' := abs_le.mp d2
        have d3' := abs_le.mp d3
        refine ⟨ρ', χ', ψ', _, rfl, rfl, rfl, n2' ρ' χ' ψ' rfl rfl rfl, n2 ρ χ ψ rfl rfl rfl, ?_, ?_⟩
        · exact mixLaw_mono hαl hβ h0 h1' (by linarith [d1'.1, d2'.2]) (by linarith [d1'.1, d3'.2])
        · exact mixLaw_mono hαl hβ h0 h1' (by linarith [d1'.2, d2'.1]) (by linarith [d1'.2, d3'.1])

/-! ### Examples -/

theorem solo_range (xs : List (Fl ℝ)) (hxs : xs ∈ (oneNet soloLevels).pmin) (x : ℝ) (hx : .fin x ∈ xs) : |x| ≤ 950 := by
  simp only [oneNet, List.mem_singleton] at hxs
  subst hxs
  simp only [soloLevels, List.mem_cons, Fl.fin.injEq, List.not_mem_nil, or_false] at hx
  rcases hx with rfl | rfl | rfl | rfl | rfl | rfl | rfl | rfl <;> norm_num [abs_le]

/-- two dry hours and a drop by 10 dB, measured with errors of 0.01 dB: all hypotheses hold in every hour -/
example : ∃ out out', nearby_wetdry (oneNet soloMeasured) oneDist soloParams = .ok out ∧
    nearby_wetdry (oneNet soloLevels) oneDist soloParams = .ok out' ∧ ∃ wet Fs wet' Fs', out[0]? = some (wet, Fs) ∧
      out'[0]? = some (wet', Fs') ∧ ∃ rates rates',
        linkRates (linkLevels soloMeasured soloMeasured wet 2 1) Fs
          (.fin 2) (.fin 1) (.fin 1) (.fin 1) (.fin (1 / 3)) = .ok rates ∧
        linkRates (linkLevels soloLevels soloLevels wet' 2 1) Fs' (.fin 2) (.fin 1) (.fin 1) (.fin 1) (.fin (1 / 3)) = .ok rates' ∧
        ((rates[2]? = some .nan ∧ rates'[2]? = some .nan) ∨ ∃ A₁ A₂ R : ℝ, rates'[2]? = some (.fin (mixLaw 1 1 2 (1 / 3) A₁ A₂)) ∧
          rates[2]? = some (.fin R) ∧ mixLaw 1 1 2 (1 / 3) (A₁ - 2 * (1 / 100)) (A₂ - 2 * (1 / 100)) ≤ R ∧
          R ≤ mixLaw 1 1 2 (1 / 3) (A₁ + 2 * (1 / 100)) (A₂ + 2 * (1 / 100))) := by
  have hlev : List.Forall₂ (List.Forall₂ fun x y => UpTo (1 / 100 : ℝ) x y) [soloMeasured] [soloLevels] :=
    .cons solo_measured .nil
  obtain ⟨out, out', o1, o2, o3⟩ := C147_level_errors (E := 1 / 100) (by norm_num) (by norm_num)
    (N := oneNet soloMeasured) solo_consistent (by decide)
    { ids := rfl
      length := rfl
      levels := hlev
      lengths := by
        intro ℓ hℓ
        simp only [oneNet, List.mem_singleton] at hℓ
        exact ⟨2, hℓ, by norm_num⟩
      range := solo_range }
    ⟨_, rfl⟩ ⟨_, rfl⟩ _ (dropAt_spec _ _ (by decide)) (pmax := [soloMeasured]) (pmax' := [soloLevels])
    hlev rfl (by simp [oneNet, Net.T]) solo_range 2 1 (by decide) (ω := 1) (al := 1 / 3) (by norm_num) (by norm_num)
  obtain ⟨wet, Fs, wet', Fs', a1, a2, a3⟩ := o3 0 (by decide)
  obtain ⟨rates, rates', r1, r2, -, -, r3⟩ := a3 2 1 1 (by norm_num) (by norm_num) (by norm_num)
  refine ⟨out, out', o1, o2, wet, Fs, wet', Fs', a1, a2, rates, rates', r1, r2, ?_⟩
  rcases r3 2 (by decide) (fun s hs _ _ => solo_clear solo_consistent s hs le_rfl (by norm_num)) (by
    intro a b ha hb
    have : Fl.fin a = Fl.fin b := ha.symm.trans hb
    cases this
    exact le_rfl) with h | ⟨ρ, χ, ψ, R, -, -, -, h⟩
  · exact Or.inl h
  · exact Or.inr ⟨_, _, R, h⟩

/-- the same link in doubles, from (11, 47) to (11, 48), without level errors -/
example : let _ := correctTrig (binary64 (K := ℝ))
    let _ := correctPow (binary64 (K := ℝ))
    let p : SiteF DblR := ⟨PyFloat.ofInt (11 : ℕ), PyFloat.ofInt (47 : ℕ)⟩
    let q : SiteF DblR := ⟨PyFloat.ofInt (11 : ℕ), PyFloat.ofInt (48 : ℕ)⟩
    ∃ out out', nearby_wetdry soloDouble (asDistF [7] [p] [q]) soloDoubleParams = .ok out ∧
      nearby_wetdry (oneNet soloLevels) (asDist [7] [⟨11, 47⟩] [⟨11, 48⟩]) soloParams = .ok out' ∧
      ∃ wet Fs wet' Fs', out[0]? = some (wet, Fs) ∧ out'[0]? = some (wet', Fs') ∧ ∃ rates rates',
        linkRates (linkLevels (soloDouble.pmin.getD 0 []) (soloDouble.pmin.getD 0 []) wet 2 1) Fs (PyFloat.ofInt (2 : ℕ))
          (PyFloat.ofInt (1 : ℕ)) (PyFloat.ofInt (1 : ℕ)) (PyFloat.ofInt (1 : ℕ)) (PyFloat.ofInt (1 : ℕ)) = .ok rates ∧
        linkRates (linkLevels soloLevels soloLevels wet' 2 1) Fs' (.fin 2) (.fin 1) (.fin 1) (.fin 1) (.fin 1) = .ok rates' ∧
        ((∃ r, rates[2]? = some r ∧ r.val = .nan ∧ rates'[2]? = some .nan) ∨ ∃ (A₁ A₂ R : ℝ) (r : DblR),
          rates'[2]? = some (.fin (mixLaw 1 1 2 1 A₁ A₂)) ∧ rates[2]? = some r ∧ r.val = .fin R ∧
          (1 - 2 ^ (-45 : ℤ)) * mixLaw 1 1 2 1 (A₁ - (2 * 0 + 1 / 10 ^ 10)) (A₂ - (2 * 0 + 1 / 10 ^ 10)) - 2 ^ (-96 : ℤ) ≤ R) := by
  intro _ _ p q
  have hlaws := correctPow_laws (binary64 (K := ℝ))
  have hp : SiteIs p ⟨11, 47⟩ := ⟨val_ofNat_b64 11 (by norm_num), val_ofNat_b64 47 (by norm_num), by norm_num, by norm_num⟩
  have hq : SiteIs q ⟨11, 48⟩ := ⟨val_ofNat_b64 11 (by norm_num), val_ofNat_b64 48 (by norm_num), by norm_num, by norm_num⟩
  obtain ⟨e1, e2⟩ := soloDouble_exact
  have v1 := val_neg_b64 1 (by norm_num)
  have n1 : (PyFloat.ofInt (1 : ℕ) : DblR).val = .fin 1 := by simpa using val_ofNat_b64 1 (by norm_num)
  have n2 : (PyFloat.ofInt (2 : ℕ) : DblR).val = .fin 2 := by simpa using val_ofNat_b64 2 (by norm_num)
  have n15 : soloDoubleParams.radius.val = .fin 15 := by
    show (PyFloat.ofInt ((15 : ℕ) : ℤ) : DblR).val = _
    simpa using val_ofNat_b64 15 (by norm_num)
  have v50 := val_neg_b64 50 (by norm_num)
  have v60 := val_neg_b64 60 (by norm_num)
  have hlev : List.Forall₂ (List.Forall₂ fun (x : DblR) y => UpTo (0 : ℝ) x.val y) soloDouble.pmin [soloLevels] := by
    refine .cons (.cons ?_ (.cons ?_ (.cons ?_ (.cons ?_ (.cons ?_ (.cons ?_ (.cons ?_ (.cons ?_ .nil)))))))) .nil <;>
      first | (rw [v50]; exact .fin (by norm_num)) | (rw [v60]; exact .fin (by norm_num))
  have hcons : Consistent (oneNet soloLevels) (asDist [7] [⟨11, 47⟩] [⟨11, 48⟩]) soloParams := by
    have := consistent_doubles (N' := oneNet soloLevels) (p := soloDoubleParams) (qA := [⟨11, 47⟩]) (qB := [⟨11, 48⟩]) rfl rfl
      (by simp [oneNet]) rfl rfl (by simp [oneNet, Net.T]) (ρ := 15) n15 (by norm_num)
      (by decide) (by refine ⟨?_, ?_, ?_, ?_⟩ <;> decide)
    rw [e2] at this
    exact this
  obtain ⟨out, out', o1, o2, o3⟩ := C147_doubles correctTrig_close correctPow_close (E := 0) le_rfl (by norm_num) (N := soloDouble)
    (N' := oneNet soloLevels) (p := soloDoubleParams) (.cons hp .nil) (.cons hq .nil)
    rfl rfl (by simp [oneNet]) rfl rfl (by simp [oneNet, Net.T])
    { ids := rfl
      length := by rw [← e1]; rfl
      levels := hlev
      lengths := by
        intro ℓ hℓ
        simp only [oneNet, List.mem_singleton] at hℓ
        exact ⟨2, hℓ, by norm_num⟩
      range := solo_range }
    (r₀ := 15) n15 (by norm_num) v1 v1 (by decide) (by refine ⟨?_, ?_, ?_, ?_⟩ <;> decide) (by
      intro i j pA pB p'A p'B hij a1 _ a2 _
      have h1 := (List.getElem?_eq_some_iff.mp a1).1
      have h2 := (List.getElem?_eq_some_iff.mp a2).1
      simp at h1 h2
      omega) _ (by rw [e2]; exact dropAt_spec _ _ (by decide)) (pmax := soloDouble.pmin) (pmax' := [soloLevels]) hlev rfl
    (by simp [oneNet, Net.T]) solo_range 2 1 (by decide) (waa := PyFloat.ofInt (1 : ℕ)) (alpha := PyFloat.ofInt (1 : ℕ)) n1 n1 (by norm_num) le_rfl
    (by norm_num)
  rw [e2] at o2 o3
  obtain ⟨wet, Fs, wet', Fs', a1, a2, a3⟩ := o3 0 (by decide)
  have lo : ∀ x : ℝ, 1 ≤ x → (2 : ℝ) ^ (-300 : ℤ) ≤ x := fun x hx =>
    le_trans (zpow_le_one_of_nonpos₀ (by norm_num) (by norm_num)) hx
  have hi : ∀ x : ℝ, x ≤ 2 ^ (10 : ℤ) → x ≤ 2 ^ (300 : ℤ) := fun x hx =>
    le_trans hx (zpow_le_zpow_right₀ (by norm_num) (by norm_num))
  obtain ⟨rates, rates', r1, r2, -, -, r3⟩ := a3 (PyFloat.ofInt (1 : ℕ)) (PyFloat.ofInt (1 : ℕ)) 2 1 1
    ⟨n2, n1, n1, lo _ (by norm_num), hi _ (by norm_num), lo _ (by norm_num), hi _ (by norm_num), by norm_num, by norm_num⟩ (by norm_num)
  refine ⟨out, out', o1, o2, wet, Fs, wet', Fs', a1, a2, rates, rates', r1, r2, ?_⟩
  rcases r3 2 (by decide) (fun s hs _ _ => solo_clear hcons s hs (by norm_num) (by norm_num)) (by
    intro a b ha hb
    have : Fl.fin a = Fl.fin b := ha.symm.trans hb
    cases this
    exact le_rfl) with h | ⟨ρ, χ, ψ, R, r, -, -, -, h1, h2, h3, h4, -⟩
  · exact Or.inl h
  · exact Or.inr ⟨_, _, R, r, h1, h2, h3, h4⟩

end Verif.Props
