import Verif.Model.TfSingle
import Verif.Props.TfScale

/-!
# Property C161: single precision numbers in `wet_dry_1d_cnn`
-/

namespace Verif.Props
open Verif Verif.Torch Verif.Tf Verif.Bin Verif.MinMax

variable {ι : Type}

/-- the numbers that are finite in single precision -/
theorem binary32_fin_iff (x : ℝ) : (∃ y, binary32.rnd x = .fin y) ↔ |x| < 2 ^ (128 : ℤ) - 2 ^ (103 : ℤ) := by
  have hfin : (∃ y, binary32.rnd x = .fin y) ↔ rndPos 24 (-149) |x| < 2 ^ (128 : ℤ) := by
    constructor
    · rintro ⟨y, hy⟩
      exact (rndFmt_fin_iff.mp hy).1
    · intro h
      exact ⟨_, rndFmt_fin_iff.mpr ⟨h, rfl⟩⟩
  rw [hfin]
  -- between `2^127` and `2^128` the numbers are multiples of `2^104`
  have hulp : ∀ z : ℝ, 2 ^ (127 : ℤ) ≤ z → z < 2 ^ (128 : ℤ) → ulpExp 24 (-149) z = 104 := by
    intro z h1 h2
    have hz : 0 < z := lt_of_lt_of_le (two_zpow_pos 127) h1
    have a1 : 127 ≤ Int.log 2 z := (Int.zpow_le_iff_le_log (b := 2) one_lt_two hz).mp (by exact_mod_cast h1)
    have a2 : Int.log 2 z < 128 := (Int.lt_zpow_iff_log_lt (b := 2) one_lt_two hz).mp (by exact_mod_cast h2)
    unfold ulpExp
    have : Int.log 2 z = 127 := by omega
    rw [this]
    norm_num
  have e24 : (2 : ℝ) ^ (128 : ℤ) = 2 ^ 24 * 2 ^ (104 : ℤ) := by norm_num
  have e103 : (2 : ℝ) ^ (103 : ℤ) = 1 / 2 * 2 ^ (104 : ℤ) := by norm_num
  have e127 : (2 : ℝ) ^ (127 : ℤ) = 2 ^ 23 * 2 ^ (104 : ℤ) := by norm_num
  have hq : (0 : ℝ) < 2 ^ (104 : ℤ) := two_zpow_pos 104
  constructor
  · intro h
    by_contra hge
    rw [not_lt] at hge
    have hmono := rndPos_mono (p := 24) (emin := -149) (by norm_num) (x := (2 : ℝ) ^ (128 : ℤ) - 2 ^ (103 : ℤ)) (by norm_num) hge
    have hval : rndPos 24 (-149) ((2 : ℝ) ^ (128 : ℤ) - 2 ^ (103 : ℤ)) = 2 ^ (128 : ℤ) := by
      unfold rndPos
      rw [hulp _ (by norm_num) (by norm_num)]
      have : ((2 : ℝ) ^ (128 : ℤ) - 2 ^ (103 : ℤ)) / 2 ^ (104 : ℤ) = 33554431 / 2 := by norm_num
      rw [this]
      have hr : rintK (33554431 / 2 : ℝ) = 16777216 := by
        have hf : ⌊(33554431 / 2 : ℝ)⌋ = 16777215 := by
          rw [Int.floor_eq_iff]; norm_num
        unfold rintK
        rw [hf]
        norm_num
      rw [hr]
      norm_num
    linarith
  · intro h
    rcases lt_or_ge |x| (2 ^ (127 : ℤ)) with h1 | h1
    · have := rndPos_mono (p := 24) (emin := -149) (by norm_num) (abs_nonneg x) h1.le
      rw [rndPos_two_zpow (by norm_num) (by norm_num)] at this
      refine lt_of_le_of_lt this (zpow_lt_zpow_right₀ one_lt_two (by norm_num))
    · have h2 : |x| < 2 ^ (128 : ℤ) := h.trans (by have := two_zpow_pos (K := ℝ) 103; linarith)
      unfold rndPos
      rw [hulp _ h1 h2]
      have hlt : |x| / 2 ^ (104 : ℤ) < 2 ^ 24 - 1 / 2 := by
        rw [div_lt_iff₀ hq]
        rw [e24, e103] at h
        linarith
      have hr : rintK (|x| / 2 ^ (104 : ℤ)) ≤ 2 ^ 24 - 1 := by
        by_contra hc
        have hge : (2 : ℤ) ^ 24 ≤ rintK (|x| / 2 ^ (104 : ℤ)) := by omega
        have hfl : ⌊|x| / 2 ^ (104 : ℤ)⌋ ≤ 2 ^ 24 - 1 := by
          have : ⌊|x| / 2 ^ (104 : ℤ)⌋ < 2 ^ 24 := by
            rw [Int.floor_lt]
            push_cast
            linarith
          omega
        have hle : |x| / 2 ^ (104 : ℤ) - ⌊|x| / 2 ^ (104 : ℤ)⌋ < 1 / 2 ∨ ⌊|x| / 2 ^ (104 : ℤ)⌋ < 2 ^ 24 - 1 := by
          rcases hfl.lt_or_eq with h' | h'
          · exact Or.inr h'
          · left
            rw [h']
            push_cast
            linarith
        unfold rintK at hge
        dsimp only at hge
        rcases hle with h' | h'
        · rw [if_pos h'] at hge
          omega
        · split_ifs at hge <;> omega
      have hr' : (rintK (|x| / 2 ^ (104 : ℤ)) : ℝ) ≤ 2 ^ 24 - 1 := by exact_mod_cast hr
      rw [e24]
      refine mul_lt_mul_of_pos_right ?_ hq
      linarith

/-- the window `data[t - L + 1 .. t]` of link `c` has only numbers that are finite in single precision -/
def Complete32 (vars : List String) (data : String → Nat → Nat → Fl ℝ) (L c t : Nat) : Prop :=
  ∀ j < L, ∀ v ∈ vars, ∃ x, data v c (t + 1 - L + j) = .fin x ∧ |x| < 2 ^ (128 : ℤ) - 2 ^ (103 : ℤ)

theorem complete_cast32 (vars : List String) (data : String → Nat → Nat → Fl ℝ) (L c t : Nat) :
    Complete vars (fun v c t => cast32 (data v c t)) L c t ↔ Complete32 vars data L c t := by
  unfold Complete Complete32
  refine forall₂_congr fun j _ => forall₂_congr fun v _ => ?_
  dsimp only
  generalize data v c (t + 1 - L + j) = d
  cases d with
  | fin x =>
    simp only [Fl.fin.injEq, exists_eq_left']
    exact binary32_fin_iff x
  | nan => simp [cast32, Rounding.round]
  | pinf => simp [cast32, Rounding.round]
  | ninf => simp [cast32, Rounding.round]

theorem holds_cast32 {ds : Ds ι ℝ} {vars : List String} {data : String → Nat → Nat → Fl ℝ} (h : Holds ds vars data) :
    Holds ds.cast32 vars fun v c t => cast32 (data v c t) := by
  refine ⟨h.1, h.2.1, fun v hv => ?_⟩
  obtain ⟨e, he, hd⟩ := h.2.2 v hv
  refine ⟨(e.1, e.2.map fun xs => xs.map cast32), ?_, fun c hc => ?_⟩
  · show (ds.vars.map _).find? _ = _
    rw [List.find?_map]
    have : ((fun e : String × List (List (Fl ℝ)) => e.1 == v) ∘ fun e : String × List (List (Fl ℝ)) =>
        (e.1, e.2.map fun xs => xs.map cast32)) = fun e => e.1 == v := rfl
    rw [this, he]
    rfl
  · rw [List.getElem?_map, hd c hc, Option.map_some, List.map_map]
    rfl

/-- What the network gets for the complete window of link `c` that ends at step `t`: each number rounded to single precision and
scaled with the column of all rounded numbers of its variable in complete windows, again in single precision. -/
noncomputable def window32 (scaler : List ℝ → ℝ → Fl ℝ) (ds : Ds ι ℝ) (vars : List String) (data : String → Nat → Nat → Fl ℝ)
    (L c t : Nat) : List (List (Fl ℝ)) :=
  (List.range L).map fun j => vars.map fun v =>
    cast32 (scaler (pooled ds vars (fun v c t => cast32 (data v c t)) L v) (val (cast32 (data v c (t + 1 - L + j)))))

/-- **C161** `wet_dry_1d_cnn` with its casts to single precision, for a network that treats each sample by itself (value `f`) and
whatever rounding errors the scaler makes: step `t` of link `c` has a probability exactly if all numbers of the window of `seq_len`
steps ending at `t` are less than `2^128 - 2^103` in magnitude (and there are no NaN and infinities). It is the single precision value
of `f` of the rounded and scaled numbers of this window. -/
theorem C161_pipeline [DecidableEq ι] (scaler : List ℝ → ℝ → Fl ℝ) (net : List (List (List (Fl ℝ))) → List (Fl ℝ))
    (f : List (List (Fl ℝ)) → Fl ℝ) (hnet : ∀ xs, net xs = xs.map f) (ds : Ds ι ℝ) (vars : List String)
    (data : String → Nat → Nat → Fl ℝ) (h : Holds ds vars data) (hv : vars ≠ []) (L : Nat)
    (hL : 0 < L) (coords : List String) (hco : "cml_id" ∈ coords) :
    ((∃ c t, c < ds.ids.length ∧ t < ds.nTime ∧ L ≤ t + 1 ∧ Complete32 vars data L c t) →
      ∃ g, wetDry1dCnn32 scaler net ds coords "cml_id" ds.ids vars L none = .ok g ∧ g.length = ds.nTime ∧
        ∀ t c : Nat, ∀ row, c < ds.ids.length → g[t]? = some row →
          (L ≤ t + 1 ∧ Complete32 vars data L c t → row[c]? = some (cast32 (f (window32 scaler ds vars data L c t)))) ∧
          (¬ (L ≤ t + 1 ∧ Complete32 vars data L c t) → row[c]? = some .nan)) ∧
    (¬ (∃ c t, c < ds.ids.length ∧ t < ds.nTime ∧ L ≤ t + 1 ∧ Complete32 vars data L c t) →
      wetDry1dCnn32 scaler net ds coords "cml_id" ds.ids vars L none = .error .indexError) := by
  classical
  have h32 := holds_cast32 h
  set D : String → Nat → Nat → Fl ℝ := fun v c t => cast32 (data v c t) with hD
  have hcomp : ∀ c t, Complete vars D L c t ↔ Complete32 vars data L c t := fun c t => complete_cast32 vars data L c t
  simp only [← hcomp]
  set S := specSamples ds.cast32 vars D L ds.ids with hS
  have hsam := C53_samples ds.cast32 vars D h32 hv L hL ds.ids
  have hnv : vars.length ≠ 0 := by simpa using hv
  constructor
  · rintro ⟨c0, t0, hc0, ht0, hLt0, hcomp0⟩
    have hSne : S ≠ [] := by
      apply List.ne_nil_of_mem (a := (window vars D L c0 t0, ds.ids[c0], t0))
      rw [hS, mem_specSamples _ _ _ h32.2.1]
      exact ⟨c0, t0, List.getElem_mem _, List.getElem?_eq_getElem (l := ds.ids) _, rfl, ht0, hLt0, hcomp0, rfl⟩
    set X := (S.map (·.1)).map fun w => w.map fun row => row.map val with hX
    have hXne : X ≠ [] := by simpa [hX] using hSne
    have hXs : (X.all fun w => w.all fun row => row.length == vars.length) = true := by
      rw [List.all_eq_true]
      intro w hw
      rw [List.all_eq_true]
      intro row hr
      rw [hX, List.mem_map] at hw
      obtain ⟨w', hw', rfl⟩ := hw
      rw [List.mem_map] at hw'
      obtain ⟨e, he, rfl⟩ := hw'
      obtain ⟨c, t, _, _, _, _, _, _, he1⟩ := (mem_specSamples _ _ _ h32.2.1 _ _ e).mp he
      rw [he1] at hr
      unfold window at hr
      rw [List.mem_map] at hr
      obtain ⟨r', hr', rfl⟩ := hr
      rw [List.mem_map] at hr'
      obtain ⟨j, _, rfl⟩ := hr'
      simp
    have hsc : scaleFeatures32 scaler X vars.length = .ok (X.map fun w => w.map fun row =>
        (List.range vars.length).map fun i => cast32 (scaler (feature X i) (row.getD i 0))) := by
      unfold scaleFeatures32
      rw [if_neg (by simpa using hXne), if_pos hXs]
    have hfeat : ∀ i v, vars[i]? = some v → feature X i = pooled ds vars D L v :=
      fun i v hiv => feature_specSamples ds.cast32 vars D h32.2.1 L i v hiv
    set φ : List (List (Fl ℝ)) → Fl ℝ := fun w => cast32 (f ((w.map fun row => row.map val).map fun row =>
      (List.range vars.length).map fun i => cast32 (scaler (feature X i) (row.getD i 0)))) with hφ
    obtain ⟨sm, g, r1, r2, r3, _, r5⟩ := C53_round_trip ds.cast32 vars D h32 hv L hL ds.ids φ
    rw [hsam] at r1
    obtain rfl := Except.ok.inj r1
    refine ⟨g, ?_, r3, ?_⟩
    · unfold wetDry1dCnn32
      rw [if_neg (by simpa using hco), Option.getD_none, hsam]
      dsimp only
      rw [← hS, ← hX, hsc]
      dsimp only
      rw [hnet]
      refine Eq.trans ?_ r2
      congr 1
      rw [hX, List.map_map, List.map_map, List.map_map]
      rfl
    · intro t c row hc hrow
      obtain ⟨q1, q2⟩ := r5 t c ds.ids[c] row (List.getElem?_eq_getElem (l := ds.ids) hc) hrow
      constructor
      · rintro ⟨h1, h2⟩
        rw [q1 (List.getElem_mem _) h1 h2, hφ]
        dsimp only
        congr 3
        unfold window window32
        rw [List.map_map, List.map_map]
        apply List.map_congr_left
        intro j _
        simp only [Function.comp_apply, List.map_map]
        apply List.ext_getElem
        · simp
        · intro i h1 h2
          have hi : i < vars.length := by simpa using h1
          simp only [List.getElem_map, List.getElem_range]
          rw [hfeat i vars[i] (List.getElem?_eq_getElem hi), List.getD_eq_getElem?_getD, List.getElem?_map,
            List.getElem?_eq_getElem hi]
          rfl
      · intro hn
        exact q2 fun hh => hn hh.2
  · intro hno
    have hSe : S = [] := by
      rw [List.eq_nil_iff_forall_not_mem]
      intro e he
      obtain ⟨c, t, _, h2, _, h4, h5, h6, _⟩ := (mem_specSamples _ _ _ h32.2.1 _ _ e).mp he
      exact hno ⟨c, t, (List.getElem?_eq_some_iff.mp h2).1, h4, h5, h6⟩
    unfold wetDry1dCnn32
    rw [if_neg (by simpa using hco), Option.getD_none, hsam, ← hS, hSe]
    dsimp only
    unfold scaleFeatures32
    rw [if_pos (by simp), if_neg hnv]

/-- **C161** What the rounding does: numbers below `2^128 - 2^103` in magnitude change by at most the fraction `2^-24` (and `2^-150` near
zero), whole numbers up to `2^24` and NaN do not change, larger numbers become infinite. -/
theorem C161_rounding (x : ℝ) :
    cast32 .nan = .nan ∧
    (|x| < 2 ^ (128 : ℤ) - 2 ^ (103 : ℤ) → ∃ y, cast32 (.fin x) = .fin y ∧ |y - x| ≤ 2 ^ (-24 : ℤ) * |x| + 2 ^ (-150 : ℤ)) ∧
    (2 ^ (128 : ℤ) - 2 ^ (103 : ℤ) ≤ x → cast32 (.fin x) = .pinf) ∧
    (x ≤ -(2 ^ (128 : ℤ) - 2 ^ (103 : ℤ)) → cast32 (.fin x) = .ninf) ∧
    ∀ n : ℤ, |n| ≤ 2 ^ 24 → x = n → cast32 (.fin x) = .fin x := by
  have hpos : (0 : ℝ) < 2 ^ (128 : ℤ) - 2 ^ (103 : ℤ) := by norm_num
  refine ⟨rfl, ?_, ?_, ?_, ?_⟩
  · intro h
    obtain ⟨y, hy⟩ := (binary32_fin_iff x).2 h
    refine ⟨y, hy, ?_⟩
    rw [rndFmt_err_abs (show rndFmt 24 (-149) 128 x = .fin y from hy)]
    rcases (abs_nonneg x).eq_or_lt with h0 | h0
    · rw [← h0, rndPos_zero]
      simp
    rcases (ulpExp_ge (p := 24) (emin := -149) |x|).lt_or_eq with h1 | h1
    · have := rndPos_err (p := 24) (emin := -149) h0 h1
      have h150 := two_zpow_pos (K := ℝ) (-150)
      unfold unit at this
      norm_num at this ⊢
      norm_num at h150
      linarith
    · have := rndPos_err_ulp (p := 24) (emin := -149) |x|
      rw [← h1] at this
      have h24 : (0 : ℝ) ≤ 2 ^ (-24 : ℤ) * |x| := mul_nonneg (two_zpow_pos _).le h0.le
      have e : (2 : ℝ) ^ (-149 : ℤ) / 2 = 2 ^ (-150 : ℤ) := by norm_num
      rw [e] at this
      exact this.trans (le_add_of_nonneg_left h24)
  · intro h
    have hn : ¬ ∃ y, binary32.rnd x = .fin y := by
      rw [binary32_fin_iff, not_lt]
      exact h.trans (le_abs_self x)
    have h0 : 0 ≤ x := by linarith
    show rndFmt 24 (-149) 128 x = .pinf
    unfold rndFmt
    rw [if_pos h0]
    split_ifs with h1
    · rfl
    · refine absurd ⟨rndPos 24 (-149) x, ?_⟩ hn
      show rndFmt 24 (-149) 128 x = _
      unfold rndFmt
      rw [if_pos h0, if_neg h1]
  · intro h
    have hn : ¬ ∃ y, binary32.rnd x = .fin y := by
      rw [binary32_fin_iff, not_lt]
      have := neg_le_abs x
      linarith
    have h0 : ¬ 0 ≤ x := by linarith
    show rndFmt 24 (-149) 128 x = .ninf
    unfold rndFmt
    rw [if_neg h0]
    split_ifs with h1
    · rfl
    · refine absurd ⟨-rndPos 24 (-149) (-x), ?_⟩ hn
      show rndFmt 24 (-149) 128 x = _
      unfold rndFmt
      rw [if_neg h0, if_neg h1]
  · rintro n hn rfl
    have hP := fmt_precision (K := ℝ) 24 (-149) 128 (by norm_num) (by norm_num) (by norm_num)
    have hna : ((n.natAbs : ℕ) : ℝ) = |(n : ℝ)| := by
      rw [Nat.cast_natAbs]; push_cast; rfl
    have hb : |(n : ℝ)| ≤ 2 ^ 24 := by exact_mod_cast hn
    have h1 := hP.int_exact n.natAbs (by
      rw [hna, le_min_iff]
      refine ⟨hb, hb.trans ?_⟩
      norm_num)
    have h2 := rndFmt_self_iff.mp (show rndFmt 24 (-149) 128 ((n.natAbs : ℕ) : ℝ) = .fin _ from h1)
    rw [hna, abs_abs] at h2
    exact rndFmt_self_iff.mpr h2

/-- **C161** Probabilities stay probabilities: from a number in [0, 1] the cast makes a number in [0, 1] that differs by at most
`2^-25`. -/
theorem C161_probability (p : ℝ) (h0 : 0 ≤ p) (h1 : p ≤ 1) :
    ∃ q, cast32 (.fin p) = .fin q ∧ 0 ≤ q ∧ q ≤ 1 ∧ |q - p| ≤ 2 ^ (-25 : ℤ) := by
  have hlim : |p| < 2 ^ (128 : ℤ) - 2 ^ (103 : ℤ) := by
    rw [abs_of_nonneg h0]
    refine lt_of_le_of_lt h1 ?_
    norm_num
  obtain ⟨q, hq⟩ := (binary32_fin_iff p).2 hlim
  have hq' := (rndFmt_fin_iff.mp (show rndFmt 24 (-149) 128 p = .fin q from hq)).2
  rw [if_pos h0, abs_of_nonneg h0] at hq'
  have hone : rndPos 24 (-149) (1 : ℝ) = 1 := by
    simpa using rndPos_two_zpow (p := 24) (emin := -149) (K := ℝ) (by norm_num) (j := 0) (by norm_num)
  refine ⟨q, hq, ?_, ?_, ?_⟩
  · rw [hq']; exact rndPos_nonneg h0
  · rw [hq', ← hone]
    exact rndPos_mono (by norm_num) h0 h1
  · rcases h1.eq_or_lt with rfl | hlt
    · rw [hq', hone]
      simp
    rcases h0.eq_or_lt with rfl | hp
    · rw [hq', rndPos_zero]
      simp
    rw [hq']
    refine (rndPos_err_ulp p).trans ?_
    have hu : ulpExp 24 (-149) p ≤ -24 := ulpExp_le hp (by norm_num) (by norm_num; linarith)
    have : (2 : ℝ) ^ ulpExp 24 (-149) p ≤ 2 ^ (-24 : ℤ) := zpow_le_zpow_right₀ one_le_two hu
    have e : (2 : ℝ) ^ (-25 : ℤ) = 2 ^ (-24 : ℤ) / 2 := by norm_num
    rw [e]
    exact div_le_div_of_nonneg_right this zero_le_two

/-- one link, three steps, the second too large for single precision; windows of one step, no scaling -/
example : ∃ g, wetDry1dCnn32 (fun _ x => .fin x) (fun xs => xs.map fun _ => .fin 1)
      (⟨"cml_id", [7], 3, [("tl", [[.fin 3, .fin (2 ^ (128 : ℤ)), .fin 4]])]⟩ : Ds ℕ ℝ) ["cml_id"] "cml_id" [7] ["tl"] 1 none = .ok g ∧
    g.length = 3 ∧ ∀ row, g[1]? = some row → row[0]? = some .nan := by
  have hH : Holds (⟨"cml_id", [7], 3, [("tl", [[.fin 3, .fin (2 ^ (128 : ℤ)), .fin 4]])]⟩ : Ds ℕ ℝ) ["tl"]
      (fun _ _ t => if t = 0 then .fin 3 else if t = 1 then .fin (2 ^ (128 : ℤ)) else .fin 4) := by
    refine ⟨rfl, by simp, fun v hv => ?_⟩
    rw [List.mem_singleton] at hv
    subst hv
    refine ⟨_, rfl, fun c hc => ?_⟩
    have : c = 0 := by simpa using hc
    subst this
    simp [List.range_succ]
  obtain ⟨g, h1, h2, h3⟩ := (C161_pipeline (fun _ x => .fin x) (fun xs => xs.map fun _ => .fin 1) (fun _ => .fin 1) (fun _ => rfl) _ ["tl"]
    _ hH (by simp) 1 one_pos ["cml_id"] (by simp)).1 ⟨0, 0, by simp, by simp, by simp, by
      intro j hj v _
      refine ⟨3, by simp; omega, ?_⟩
      rw [abs_of_pos (by norm_num)]
      norm_num⟩
  refine ⟨g, h1, h2, fun row hrow => (h3 1 0 row (by simp) hrow).2 ?_⟩
  rintro ⟨-, hc⟩
  obtain ⟨x, hx, hlt⟩ := hc 0 one_pos "tl" (by simp)
  simp at hx
  rw [← hx, abs_of_pos (by positivity)] at hlt
  have := two_zpow_pos (K := ℝ) 103
  norm_num at hlt

end Verif.Props
