import Verif.Props.NearbyClose
import Verif.Props.HaversineAccuracy

/-!
# Property C145: wet/dry decisions of the nearby approach in double precision
-/

namespace Verif.Props
open Verif Verif.Bin Verif.Nearby Verif.Haversine

/-- the error of one operation with a result of at most 80000 -/
theorem b64_err_small {x B : ℝ} (hx : |x| ≤ B) (hB : B ≤ 80000) : ∃ z, (binary64 (K := ℝ)).round (.fin x) = .fin z ∧
    |z - x| ≤ 1 / (9 * 10 ^ 15) * B + 1 / 10 ^ 17 := by
  have hb : (80000 : ℝ) ≤ 2 ^ (1023 : ℤ) :=
    le_trans (by norm_num : (80000 : ℝ) ≤ 2 ^ (20 : ℤ)) (zpow_le_zpow_right₀ (by norm_num) (by norm_num))
  obtain ⟨z, h1, h2⟩ := (binary64_precision (K := ℝ)).err x (hx.trans (hB.trans hb))
  refine ⟨z, h1, h2.trans ?_⟩
  have e1 : (2 : ℝ) ^ (-53 : ℤ) ≤ 1 / (9 * 10 ^ 15) := by norm_num
  have e2 : (2 : ℝ) ^ (-1075 : ℤ) ≤ 1 / 10 ^ 17 :=
    le_trans (zpow_le_zpow_right₀ (by norm_num) (by norm_num : (-1075 : ℤ) ≤ -60)) (by norm_num)
  have := mul_le_mul e1 hx (abs_nonneg x) (by norm_num)
  linarith

/-- doubles have an error of at most 2·10⁻¹¹ in the operations of `nearby_wetdry` -/
theorem view_double : NumView DblR (·.val) (2 / 10 ^ 11) where
  isNaN _ := rfl
  nan := rfl
  lt _ _ := rfl
  le _ _ := rfl
  eq _ _ := rfl
  ofInt n hn := by
    have h2 : -2 ≤ n ∧ n ≤ 2 := abs_le.mp hn
    rw [RFl.val_ofInt]
    rcases le_total 0 n with h | h
    · obtain ⟨k, rfl⟩ := Int.eq_ofNat_of_zero_le h
      exact (binary64_precision (K := ℝ)).int_exact k (by
        have : (k : ℝ) ≤ 2 := by exact_mod_cast h2.2
        linarith [show (2 : ℝ) ≤ 2 ^ 53 by norm_num])
    · obtain ⟨k, hk⟩ := Int.eq_ofNat_of_zero_le (neg_nonneg.mpr h)
      have hk' : n = -(k : ℤ) := by omega
      subst hk'
      have := (binary64_precision (K := ℝ)).int_exact k (by
        have : (k : ℝ) ≤ 2 := by exact_mod_cast (by omega : (k : ℤ) ≤ 2)
        linarith [show (2 : ℝ) ≤ 2 ^ 53 by norm_num])
      rw [Int.cast_neg, Int.cast_natCast]
      exact rnd_neg_of binary64_symmetric this
  sub_nan x y h := by
    rw [RFl.val_sub]
    rcases h with h | h
    · rw [h]; simp [Rounding.round]
    · rw [h]; cases x.val <;> rfl
  sub x y a b hx hy ha hb := by
    rw [RFl.val_sub, hx, hy, Fl.pf_sub_fin]
    obtain ⟨z, h1, h2⟩ := b64_err_small (x := a - b) (B := 2000) (by rw [abs_le] at *; constructor <;> linarith [ha.1, ha.2, hb.1, hb.2]) (by norm_num)
    exact ⟨z, h1, h2.trans (by norm_num)⟩
  div_nan x y h := by
    rw [RFl.val_div, h]
    cases y.val <;> rfl
  div x y a b hx hy ha hb := by
    have hb0 : 0 < b := by linarith
    rw [RFl.val_div, hx, hy, Fl.pf_div_fin_ne _ _ hb0.ne']
    obtain ⟨z, h1, h2⟩ := b64_err_small (x := a / b) (B := 30000) (by
      rw [abs_div, abs_of_pos hb0, div_le_iff₀ hb0]
      linarith) (by norm_num)
    exact ⟨z, h1, h2.trans (by norm_num)⟩
  mean x y a b hx hy ha hb := by
    rw [RFl.val_div, RFl.val_add, hx, hy, Fl.pf_add_fin]
    obtain ⟨s, h1, h2⟩ := b64_err_small (x := a + b) (B := 80000) (by rw [abs_le] at *; constructor <;> linarith [ha.1, ha.2, hb.1, hb.2]) le_rfl
    have two : (PyFloat.ofInt 2 : DblR).val = .fin 2 := by
      have := val_ofNat_b64 2 (by norm_num)
      exact_mod_cast this
    rw [h1, two, Fl.pf_div_fin_ne _ _ (by norm_num)]
    obtain ⟨z, h3, h4⟩ := b64_err_small (x := s / 2) (B := 50000) (by
      rw [abs_le] at *
      constructor <;> linarith [h2.1, h2.2, ha.1, ha.2, hb.1, hb.2]) (by norm_num)
    refine ⟨z, h3, ?_⟩
    rw [abs_le] at *
    constructor <;> linarith [h2.1, h2.2, h4.1, h4.2]
  mean_nan x y h := by
    rw [RFl.val_div, RFl.val_add]
    have e : (x.val +ᶠ y.val) = .nan := by
      rcases h with h | h
      · rw [h]; simp
      · rw [h]; cases x.val <;> rfl
    rw [e]
    have r : (binary64 (K := ℝ)).round .nan = .nan := rfl
    rw [r]
    have d : ∀ w : Fl ℝ, ((.nan : Fl ℝ) /ᶠ w) = .nan := by intro w; cases w <;> rfl
    rw [d, r]

/-- the network with its numbers read as real numbers -/
noncomputable def exactNet {Id : Type} (N : Net DblR Id) : Net (Fl ℝ) Id :=
  ⟨N.ids, N.length.map (·.val), N.pmin.map (·.map (·.val))⟩

/-- the parameters read as real numbers -/
noncomputable def exactParams (p : Params DblR) : Params (Fl ℝ) :=
  ⟨p.radius.val, p.threshP.val, p.threshPL.val, p.minLinks, p.interval, p.timeperiod, p.minHours⟩

/-- a network with one site per end point and series of equal length meets the assumptions -/
theorem consistent_doubles {Id : Type} [DecidableEq Id] {N' : Net (Fl ℝ) Id} {p : Params DblR} {qA qB : List Site}
    (lqA : qA.length = N'.ids.length) (lqB : qB.length = N'.ids.length) (hn : N'.ids.Nodup) (hP : N'.pmin.length = N'.ids.length)
    (hL : N'.length.length = N'.ids.length) (hT : ∀ xs ∈ N'.pmin, xs.length = N'.T) {ρ : ℝ} (hr : p.radius.val = .fin ρ) (hρ : 0 < ρ)
    (hint : 0 < p.interval) (hwin : WindowsFit p N'.T) : Consistent N' (asDist N'.ids qA qB) (exactParams p) :=
  have sq := (C31_entries N'.ids hn qA qB lqA lqB).1
  { nodup := hn
    same := rfl
    aa := sq _ (.head _)
    ab := sq _ (.tail _ (.head _))
    ba := sq _ (.tail _ (.tail _ (.head _)))
    bb := sq _ (.tail _ (.tail _ (.tail _ (.head _))))
    pmin := hP
    len := hL
    times := hT
    own := fun i hi => (C31_own_neighbour N'.ids hn qA qB lqA lqB (exactParams p).radius (by
      show (Fl.fin 0 <ᶠ p.radius.val) = true
      rw [hr, Fl.pf_lt_fin]
      exact decide_eq_true hρ) i i hi hi).1
    interval := hint
    need := hwin.1
    need_le := hwin.2.1
    period_le := hwin.2.2.1
    F_le := hwin.2.2.2 }

/-- distances that are not close to the radius select the same neighbours in doubles -/
theorem within_doubles [PyTrig DblR] (H : TrigClose) {Id : Type} [DecidableEq Id] {N' : Net (Fl ℝ) Id} {p : Params DblR}
    {siteA siteB : List (SiteF DblR)} {qA qB : List Site} (hA : List.Forall₂ SiteIs siteA qA) (hB : List.Forall₂ SiteIs siteB qB)
    (lA : siteA.length = N'.ids.length) (lB : siteB.length = N'.ids.length) (hn : N'.ids.Nodup)
    (lqA : qA.length = N'.ids.length) (lqB : qB.length = N'.ids.length)
    {ρ : ℝ} (hr : p.radius.val = .fin ρ) (hρ : 0 < ρ)
    (hfar : ∀ (i j : ℕ) pA pB p'A p'B, i ≠ j → qA[i]? = some pA → qB[i]? = some pB → qA[j]? = some p'A → qB[j]? = some p'B →
      ∀ e ∈ [exactDist pA p'A, exactDist pA p'B, exactDist pB p'A, exactDist pB p'B], e ≤ 6367 * (Real.pi / 2) ∧ 1 / 10 ^ 7 < |e - ρ|)
    (hcons : Consistent N' (asDist N'.ids qA qB) (exactParams p)) :
    ∀ c ∈ N'.ids, within (asDistF N'.ids siteA siteB) p.radius c = within (asDist N'.ids qA qB) (exactParams p).radius c := by
  obtain ⟨sq, en⟩ := C31_entries N'.ids hn qA qB lqA lqB
  intro c hc
  obtain ⟨i, hi⟩ := List.mem_iff_getElem?.mp hc
  rw [within_eq hcons.toShaped hi]
  have hil : i < N'.ids.length := (List.getElem?_eq_some_iff.mp hi).1
  have site : ∀ j < N'.ids.length, ∃ a b, qA[j]? = some a ∧ qB[j]? = some b := fun j hj =>
    ⟨_, _, List.getElem?_eq_getElem (by omega), List.getElem?_eq_getElem (by omega)⟩
  obtain ⟨pA, pB, a1, a2⟩ := site i hil
  obtain ⟨mask, m1, m2, -⟩ := C144_neighbours H N'.ids hn hA hB lA lB hr hρ (i := i) (j := i) hi a1 a2 a1 a2 (fun h => absurd rfl h)
  rw [m1]
  congr 1
  apply List.ext_getElem?
  intro j
  by_cases hj : j < N'.ids.length
  · obtain ⟨p'A, p'B, b1, b2⟩ := site j hj
    obtain ⟨mask', m1', -, m3, m4⟩ := C144_neighbours H N'.ids hn hA hB lA lB hr hρ (i := i) (j := j) hi a1 a2 b1 b2
      (fun h => hfar i j pA pB p'A p'B h a1 a2 b1 b2)
    rw [m1] at m1'
    cases m1'
    show _ = ((List.range N'.ids.length).map _)[j]?
    rw [List.getElem?_map, List.getElem?_range hj, Option.map_some]
    obtain ⟨e1, e2, e3, e4⟩ := en i j pA pB p'A p'B a1 a2 b1 b2
    have hnear : near (asDist N'.ids qA qB) (exactParams p).radius i j = true ↔ (i = j ∨
        (exactDist pA p'A < ρ ∧ exactDist pA p'B < ρ ∧ exactDist pB p'A < ρ ∧ exactDist pB p'B < ρ)) := by
      unfold near asDist
      show ((at2 _ i j <ᶠ p.radius.val) && (at2 _ i j <ᶠ p.radius.val) && (at2 _ i j <ᶠ p.radius.val) && (at2 _ i j <ᶠ p.radius.val)) = true ↔ _
      rw [at2_of_entry e1, at2_of_entry e2, at2_of_entry e3, at2_of_entry e4, hr]
      simp only [Fl.pf_lt_fin, Bool.and_eq_true, decide_eq_true_eq]
      unfold exactDist
      by_cases hij : i = j
      · simp [hij, hρ]
      · simp only [hij, false_or]
        tauto
    rcases m4 with m4 | m4
    · rw [m4]
      congr 1
      rw [m4] at m3
      symm
      rw [← Bool.not_eq_true, hnear, ← m3]
      simp
    · rw [m4]
      congr 1
      symm
      rw [hnear, ← m3]
      exact m4
  · rw [List.getElem?_eq_none (by omega)]
    show _ = ((List.range N'.ids.length).map _)[j]?
    rw [List.getElem?_eq_none (by simp; omega)]

/-- **C145** The whole wet/dry classification in doubles, from coordinates to flags: the flags are those of exact arithmetic with
exact distances, unless a distance is within 0.1 mm of the radius or a median or a drop within 3·10⁻¹⁰ of its threshold. -/
theorem C145_doubles [PyTrig DblR] (H : TrigClose) {Id : Type} [DecidableEq Id] {N : Net DblR Id} {p : Params DblR}
    {siteA siteB : List (SiteF DblR)} {qA qB : List Site} (hA : List.Forall₂ SiteIs siteA qA) (hB : List.Forall₂ SiteIs siteB qB)
    (lA : siteA.length = N.ids.length) (lB : siteB.length = N.ids.length) (hn : N.ids.Nodup) (hP : N.pmin.length = N.ids.length)
    (hL : N.length.length = N.ids.length) (hT : ∀ xs ∈ N.pmin, xs.length = N.T)
    (hlev : ∀ xs ∈ N.pmin, ∀ x ∈ xs, x.val = .nan ∨ ∃ a, x.val = .fin a ∧ |a| ≤ 950)
    (hlen : ∀ ℓ ∈ N.length, ∃ x, ℓ.val = .fin x ∧ 1 / 10 ≤ x) {ρ θP θL : ℝ} (hr : p.radius.val = .fin ρ) (hρ : 0 < ρ)
    (h1 : p.threshP.val = .fin θP) (h2 : p.threshPL.val = .fin θL) (hint : 0 < p.interval) (hwin : WindowsFit p N.T)
    (hfar : ∀ (i j : ℕ) pA pB p'A p'B, i ≠ j → qA[i]? = some pA → qB[i]? = some pB → qA[j]? = some p'A → qB[j]? = some p'B →
      ∀ e ∈ [exactDist pA p'A, exactDist pA p'B, exactDist pB p'A, exactDist pB p'B], e ≤ 6367 * (Real.pi / 2) ∧ 1 / 10 ^ 7 < |e - ρ|)
    (drop : ℕ → ℕ → Fl ℝ) (hd : ∀ j t, DropIs (exactNet N) (exactParams p) j t (drop j t)) :
    ∃ out out', nearby_wetdry N (asDistF N.ids siteA siteB) p = .ok out ∧
      nearby_wetdry (exactNet N) (asDist N.ids qA qB) (exactParams p) = .ok out' ∧
      out.length = N.ids.length ∧ out'.length = N.ids.length ∧ ∀ i < N.ids.length, ∃ wet Fs wet' Fs', out[i]? = some (wet, Fs) ∧
        out'[i]? = some (wet', Fs') ∧ wet.length = N.T ∧ ∀ t < N.T,
          (∀ s < N.T, t ≤ s + 1 → s ≤ t + 2 → Clear (exactNet N) (asDist N.ids qA qB) (exactParams p) drop i s 0 (2 / 10 ^ 11)) →
          ∃ w, wet[t]? = some w ∧ wet'[t]? = some w.val := by
  have lqA : qA.length = N.ids.length := by rw [← hA.length_eq, lA]
  have lqB : qB.length = N.ids.length := by rw [← hB.length_eq, lB]
  have hT' : (exactNet N).T = N.T := by
    unfold Net.T exactNet
    cases N.pmin with
    | nil => rfl
    | cons a l => simp
  have hcons : Consistent (exactNet N) (asDist N.ids qA qB) (exactParams p) :=
    consistent_doubles (N' := exactNet N) lqA lqB hn (by simp [exactNet, hP]) (by simp [exactNet, hL]) (by
      intro xs hxs
      rw [hT']
      obtain ⟨ys, hy, rfl⟩ := List.mem_map.mp hxs
      rw [List.length_map]
      exact hT ys hy) hr hρ hint (by rw [hT']; exact hwin)
  have hclose : CloseNets (fun x : DblR => x.val) 0 N (exactNet N) :=
    { ids := rfl
      length := rfl
      levels := by
        show List.Forall₂ _ N.pmin (N.pmin.map (·.map (·.val)))
        rw [List.forall₂_map_right_iff, List.forall₂_same]
        intro xs hxs
        rw [List.forall₂_map_right_iff, List.forall₂_same]
        intro x hx
        rcases hlev xs hxs x hx with h | ⟨a, h, _⟩
        · rw [h]; exact .nan
        · rw [h]; exact .fin (by simp)
      lengths := by
        intro ℓ hℓ
        obtain ⟨x, hx, rfl⟩ := List.mem_map.mp hℓ
        exact hlen x hx
      range := by
        intro xs hxs x hx
        obtain ⟨ys, hy, rfl⟩ := List.mem_map.mp hxs
        obtain ⟨z, hz, he⟩ := List.mem_map.mp hx
        rcases hlev ys hy z hz with h | ⟨a, h, ha⟩
        · rw [h] at he; cases he
        · rw [h] at he; cases he; exact ha }
  have hsame : SameParams (fun x : DblR => x.val) p (exactParams p) :=
    ⟨rfl, rfl, ⟨θP, h1⟩, ⟨θL, h2⟩, rfl, rfl, rfl, rfl⟩
  have hw := within_doubles H (N' := exactNet N) hA hB lA lB hn lqA lqB hr hρ hfar hcons
  have := C145_decisions view_double (by norm_num) (by norm_num) (E := 0) le_rfl (by norm_num) hcons hwin.1 hclose hsame hw drop hd
  rw [hT'] at this
  exact this

/-- **C145** Levels that are known up to an error `E`: two networks whose levels differ by at most `E` dB are classified alike
unless a median or a drop is close to its threshold. -/
theorem C145_levels {Id : Type} [DecidableEq Id] {E : ℝ} (hE : 0 ≤ E) (hE1 : E ≤ 40) {N N' : Net (Fl ℝ) Id} {d : Nearby.Dist (Fl ℝ) Id}
    {p : Params (Fl ℝ)} (h : Consistent N' d p) (hneed : 0 < p.minHours * 60 / p.interval) (hN : CloseNets id E N N')
    (h1 : ∃ x, p.threshP = .fin x) (h2 : ∃ x, p.threshPL = .fin x)
    (drop : ℕ → ℕ → Fl ℝ) (hd : ∀ j t, DropIs N' p j t (drop j t)) :
    ∃ out out', nearby_wetdry N d p = .ok out ∧ nearby_wetdry N' d p = .ok out' ∧ out.length = N'.ids.length ∧
      out'.length = N'.ids.length ∧ ∀ i < N'.ids.length, ∃ wet Fs wet' Fs', out[i]? = some (wet, Fs) ∧ out'[i]? = some (wet', Fs') ∧
        wet.length = N'.T ∧ ∀ t < N'.T, (∀ s < N'.T, t ≤ s + 1 → s ≤ t + 2 → Clear N' d p drop i s E 0) → wet[t]? = wet'[t]? := by
  obtain ⟨out, out', o1, o2, o3, o4, o5⟩ := C145_decisions view_exact le_rfl (by norm_num) hE hE1 h hneed hN
    ⟨rfl, rfl, h1, h2, rfl, rfl, rfl, rfl⟩ (fun _ _ => rfl) drop hd
  refine ⟨out, out', o1, o2, o3, o4, fun i hi => ?_⟩
  obtain ⟨wet, Fs, wet', Fs', a1, a2, a3, a4⟩ := o5 i hi
  refine ⟨wet, Fs, wet', Fs', a1, a2, a3, fun t ht hc => ?_⟩
  obtain ⟨w, b1, b2⟩ := a4 t ht hc
  rw [b1, b2]
  rfl

/-! ### Examples -/

/-- hourly levels, a look-back period of two hours, thresholds of -1 dB and -1 dB/km -/
noncomputable def soloParams : Params (Fl ℝ) := ⟨.fin 15, .fin (-1), .fin (-1), 0, 60, 2, 1⟩

/-- two dry hours, a drop by 10 dB and five dry hours -/
noncomputable def soloLevels : List (Fl ℝ) :=
  [.fin (-50), .fin (-50), .fin (-60), .fin (-50), .fin (-50), .fin (-50), .fin (-50), .fin (-50)]

/-- the same with errors of 0.01 dB -/
noncomputable def soloMeasured : List (Fl ℝ) :=
  [.fin (-50.01), .fin (-49.99), .fin (-60.01), .fin (-50), .fin (-50.01), .fin (-50), .fin (-50), .fin (-50)]

theorem solo_drop (t : ℕ) (ht : t < 8) : dropAt (oneNet soloLevels) soloParams 0 t = .fin (if t = 2 then -10 else 0) := by
  have g := fun x => getElem?_deltaP_gen 2 1 soloLevels t x
  have e : dropAt (oneNet soloLevels) soloParams 0 t = rd (deltaP 2 1 soloLevels) t := rfl
  rw [e]
  interval_cases t <;> rw [rd_of_getElem? (g _ rfl)] <;>
    norm_num [dataCount, window, slice, valid, soloLevels, listMax, npMaximum]

theorem solo_clear {d : Nearby.Dist (Fl ℝ) ℕ} (h : Consistent (oneNet soloLevels) d soloParams) (s : ℕ) (hs : s < 8) {E η : ℝ}
    (hE1 : E ≤ 1 / 100) (hη1 : η ≤ 1 / 100) :
    Clear (oneNet soloLevels) d soloParams (dropAt (oneNet soloLevels) soloParams) 0 s E η := by
  have hnb : nbrs (oneNet soloLevels) d soloParams 0 = [0] := by
    unfold nbrs
    rw [show (oneNet soloLevels).ids.length = 1 from rfl, List.filter_eq_self.mpr]
    · rfl
    · intro j hj
      have : j = 0 := by simpa using hj
      rw [this]
      exact h.own 0 (by decide)
  obtain ⟨δ, hδ, hc⟩ : ∃ δ : ℝ, dropAt (oneNet soloLevels) soloParams 0 s = .fin δ ∧ (δ = 0 ∨ δ = -10) := by
    refine ⟨_, solo_drop s hs, ?_⟩
    split_ifs
    · exact Or.inr rfl
    · exact Or.inl rfl
  have hdl : dataLinks (oneNet soloLevels) d soloParams (dropAt (oneNet soloLevels) soloParams) 0 s = [0] := by
    unfold dataLinks
    rw [hnb, List.filter_cons, hδ]
    rfl
  have single : ∀ x m : ℝ, IsMedian [Fl.fin x] (.fin m) → m = x := by
    intro x m hm
    obtain ⟨s, hp, -, a, b, ha, hb, he⟩ := hm
    have hs := List.perm_singleton.mp hp
    rw [hs] at ha hb
    simp at ha hb
    rw [← ha, ← hb, Fl.pf_add_fin, Fl.pf_ofInt, Fl.pf_div_fin_ne _ _ (by norm_num)] at he
    have := Fl.fin.inj he
    rw [this]
    push_cast
    ring
  constructor
  · intro m θ hm hθ
    cases hθ
    rw [hdl, List.map_singleton, hδ] at hm
    rw [single _ _ hm]
    rcases hc with rfl | rfl <;> norm_num <;> linarith
  · intro m θ hm hθ
    cases hθ
    rw [hdl, List.map_singleton, hδ, show rd (oneNet soloLevels).length 0 = .fin 2 from rfl, Fl.pf_div_fin_ne _ _ (by norm_num)] at hm
    rw [single _ _ hm]
    rcases hc with rfl | rfl <;> norm_num <;> linarith
  · intro m hm
    rw [hδ] at hm
    cases hm
    rcases hc with rfl | rfl <;> norm_num <;> linarith

theorem solo_consistent : Consistent (oneNet soloLevels) oneDist soloParams :=
  { one_consistent soloLevels (by decide) with
    own := by
      intro i hi
      have : i = 0 := by simpa [oneNet] using hi
      subst this
      simp [near, oneDist, soloParams, at2, rd]
    interval := by decide
    need := by decide
    need_le := by decide
    period_le := by decide
    F_le := by decide }

theorem solo_measured : List.Forall₂ (fun x y => UpTo (1 / 100 : ℝ) x y) soloMeasured soloLevels := by
  refine .cons (.fin ?_) (.cons (.fin ?_) (.cons (.fin ?_) (.cons (.fin ?_) (.cons (.fin ?_) (.cons (.fin ?_)
    (.cons (.fin ?_) (.cons (.fin ?_) .nil))))))) <;> norm_num [abs_le]

/-- levels with errors of 0.01 dB are classified as the true ones -/
example : ∃ out out', nearby_wetdry (oneNet soloMeasured) oneDist soloParams = .ok out ∧
    nearby_wetdry (oneNet soloLevels) oneDist soloParams = .ok out' ∧ ∃ wet Fs wet' Fs', out[0]? = some (wet, Fs) ∧
      out'[0]? = some (wet', Fs') ∧ wet[2]? = wet'[2]? := by
  obtain ⟨out, out', o1, o2, -, -, o3⟩ := C145_levels (E := 1 / 100) (by norm_num) (by norm_num)
    (N := oneNet soloMeasured) solo_consistent (by decide)
    { ids := rfl
      length := rfl
      levels := by
        exact .cons solo_measured .nil
      lengths := by
        intro ℓ hℓ
        simp only [oneNet, List.mem_singleton] at hℓ
        exact ⟨2, hℓ, by norm_num⟩
      range := by
        intro xs hxs x hx
        simp only [oneNet, List.mem_singleton] at hxs
        subst hxs
        simp only [soloLevels, List.mem_cons, Fl.fin.injEq, List.not_mem_nil, or_false] at hx
        rcases hx with rfl | rfl | rfl | rfl | rfl | rfl | rfl | rfl <;> norm_num [abs_le] }
    ⟨_, rfl⟩ ⟨_, rfl⟩ _ (dropAt_spec _ _ (by decide))
  obtain ⟨wet, Fs, wet', Fs', a1, a2, -, a3⟩ := o3 0 (by decide)
  exact ⟨out, out', o1, o2, wet, Fs, wet', Fs', a1, a2, a3 2 (by decide) fun s hs _ _ =>
    solo_clear solo_consistent s hs le_rfl (by norm_num)⟩

/-- the same link in doubles -/
noncomputable def soloDouble : Net DblR ℕ :=
  ⟨[7], [PyFloat.ofInt (2 : ℕ)], [[PyFloat.ofInt (-(50 : ℕ)), PyFloat.ofInt (-(50 : ℕ)), PyFloat.ofInt (-(60 : ℕ)),
    PyFloat.ofInt (-(50 : ℕ)), PyFloat.ofInt (-(50 : ℕ)), PyFloat.ofInt (-(50 : ℕ)), PyFloat.ofInt (-(50 : ℕ)), PyFloat.ofInt (-(50 : ℕ))]]⟩

/-- the same parameters in doubles -/
noncomputable def soloDoubleParams : Params DblR :=
  ⟨PyFloat.ofInt (15 : ℕ), PyFloat.ofInt (-(1 : ℕ)), PyFloat.ofInt (-(1 : ℕ)), 0, 60, 2, 1⟩

theorem val_neg_b64 (n : ℕ) (h : n ≤ 2 ^ 53) : (PyFloat.ofInt (-(n : ℤ)) : DblR).val = .fin (-n) := by
  have := val_ofNat_b64 n h
  rw [RFl.val_ofInt] at this ⊢
  rw [Int.cast_neg]
  rw [Int.cast_natCast] at this ⊢
  exact rnd_neg_of binary64_symmetric this

theorem soloDouble_exact : exactNet soloDouble = oneNet soloLevels ∧ exactParams soloDoubleParams = soloParams := by
  have v2 := val_ofNat_b64 2 (by norm_num)
  have v15 := val_ofNat_b64 15 (by norm_num)
  have v50 := val_neg_b64 50 (by norm_num)
  have v60 := val_neg_b64 60 (by norm_num)
  have v1 := val_neg_b64 1 (by norm_num)
  constructor
  · simp only [exactNet, soloDouble, oneNet, soloLevels, List.map_cons, List.map_nil, v2, v50, v60]
    norm_num
  · simp only [exactParams, soloDoubleParams, soloParams, v15, v1]
    norm_num

/-- a link from (11, 47) to (11, 48): the flags in doubles are the exact ones -/
example : let _ := correctTrig (binary64 (K := ℝ))
    let p : SiteF DblR := ⟨PyFloat.ofInt (11 : ℕ), PyFloat.ofInt (47 : ℕ)⟩
    let q : SiteF DblR := ⟨PyFloat.ofInt (11 : ℕ), PyFloat.ofInt (48 : ℕ)⟩
    ∃ out out', nearby_wetdry soloDouble (asDistF [7] [p] [q]) soloDoubleParams = .ok out ∧
      nearby_wetdry (oneNet soloLevels) (asDist [7] [⟨11, 47⟩] [⟨11, 48⟩]) soloParams = .ok out' ∧
      ∃ wet Fs wet' Fs' w, out[0]? = some (wet, Fs) ∧ out'[0]? = some (wet', Fs') ∧ wet[2]? = some w ∧ wet'[2]? = some w.val := by
  intro _ p q
  have hp : SiteIs p ⟨11, 47⟩ := ⟨val_ofNat_b64 11 (by norm_num), val_ofNat_b64 47 (by norm_num), by norm_num, by norm_num⟩
  have hq : SiteIs q ⟨11, 48⟩ := ⟨val_ofNat_b64 11 (by norm_num), val_ofNat_b64 48 (by norm_num), by norm_num, by norm_num⟩
  obtain ⟨e1, e2⟩ := soloDouble_exact
  have v1 := val_neg_b64 1 (by norm_num)
  obtain ⟨out, out', o1, o2, -, -, o3⟩ := C145_doubles correctTrig_close (N := soloDouble) (p := soloDoubleParams) (.cons hp .nil) (.cons hq .nil)
    rfl rfl (by simp [soloDouble]) rfl rfl (by simp [soloDouble, Net.T]) (by
      intro xs hxs x hx
      simp only [soloDouble, List.mem_singleton] at hxs
      subst hxs
      right
      simp only [List.mem_cons, List.not_mem_nil, or_false] at hx
      rcases hx with rfl | rfl | rfl | rfl | rfl | rfl | rfl | rfl <;>
        first | exact ⟨_, val_neg_b64 50 (by norm_num), by norm_num⟩ | exact ⟨_, val_neg_b64 60 (by norm_num), by norm_num⟩) (by
      intro ℓ hℓ
      simp only [soloDouble, List.mem_singleton] at hℓ
      subst hℓ
      exact ⟨_, val_ofNat_b64 2 (by norm_num), by norm_num⟩) (val_ofNat_b64 15 (by norm_num)) (by norm_num) v1 v1 (by decide) (by refine ⟨?_, ?_, ?_, ?_⟩ <;> decide) (by
      intro i j pA pB p'A p'B hij a1 _ a2 _
      have h1 := (List.getElem?_eq_some_iff.mp a1).1
      have h2 := (List.getElem?_eq_some_iff.mp a2).1
      simp at h1 h2
      omega) _ (by rw [e1, e2]; exact dropAt_spec _ _ (by decide))
  rw [e1, e2] at o2 o3
  obtain ⟨wet, Fs, wet', Fs', a1, a2, -, a3⟩ := o3 0 (by decide)
  obtain ⟨w, b1, b2⟩ := a3 2 (by decide) fun s hs _ _ => solo_clear
    { solo_consistent with
      same := rfl
      aa := ((C31_entries [(7 : ℕ)] (by simp) [⟨11, 47⟩] [⟨11, 48⟩] rfl rfl).1 _ (.head _))
      ab := ((C31_entries [(7 : ℕ)] (by simp) [⟨11, 47⟩] [⟨11, 48⟩] rfl rfl).1 _ (.tail _ (.head _)))
      ba := ((C31_entries [(7 : ℕ)] (by simp) [⟨11, 47⟩] [⟨11, 48⟩] rfl rfl).1 _ (.tail _ (.tail _ (.head _))))
      bb := ((C31_entries [(7 : ℕ)] (by simp) [⟨11, 47⟩] [⟨11, 48⟩] rfl rfl).1 _ (.tail _ (.tail _ (.tail _ (.head _)))))
      own := fun i hi => (C31_own_neighbour [(7 : ℕ)] (by simp) [⟨11, 47⟩] [⟨11, 48⟩] rfl rfl (.fin 15) (by simp) i i hi hi).1 }
    s hs (by norm_num) (by norm_num)
  exact ⟨out, out', o1, o2, wet, Fs, wet', Fs', w, a1, a2, b1, b2⟩

end Verif.Props
