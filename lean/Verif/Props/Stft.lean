import Verif.Model.Stft
import Verif.Lemmas.FlList
import Verif.Lemmas.Rolling
import Mathlib.Data.List.GetD
import Mathlib.Algebra.Order.Ring.Rat
import Mathlib.Algebra.Order.BigOperators.Group.List
import Mathlib.Tactic.FieldSimp

/-!
# Properties C56, C57: rolling Fourier transform classification
-/

namespace Verif.Props
open Verif Verif.Stft

section core
variable {F : Type} [PyFloat F]

theorem rd_map {xs : List F} (g : F → F) {t : Nat} (ht : t < xs.length) :
    rd (xs.map g) t = g (rd xs t) := by
  apply rd_of_getElem?
  rw [List.getElem?_map, getElem?_eq_rd ht]
  rfl

/-- a row of the spectrogram, padded with NaN to the length of the series -/
def extRow (n : Nat) (row : List F) : List F :=
  List.replicate ((n - row.length) / 2) PyFloat.nan ++ row ++
    List.replicate (n - row.length - (n - row.length) / 2) PyFloat.nan

theorem extRow_length {n : Nat} {row : List F} (h : row.length ≤ n) : (extRow n row).length = n := by
  simp [extRow]
  omega

theorem extRow_pad {n : Nat} {row : List F} (h : row.length ≤ n) {t : Nat} (ht : t < n)
    (hp : t < (n - row.length) / 2 ∨ (n - row.length) / 2 + row.length ≤ t) :
    rd (extRow n row) t = PyFloat.nan := by
  apply rd_of_getElem?
  unfold extRow
  by_cases c : t < (n - row.length) / 2
  · rw [List.append_assoc, List.getElem?_append_left (by simpa using c)]
    simp [c]
  · have c2 := hp.resolve_left c
    rw [List.getElem?_append_right (by simp; omega), List.getElem?_replicate, if_pos]
    simp only [List.length_append, List.length_replicate]
    omega

theorem extRow_mid {n : Nat} {row : List F} {k : Nat} (hk : k < row.length) :
    rd (extRow n row) ((n - row.length) / 2 + k) = rd row k := by
  apply rd_of_getElem?
  unfold extRow
  rw [List.append_assoc, List.getElem?_append_right (by simp), List.length_replicate,
    Nat.add_sub_cancel_left, List.getElem?_append_left hk, getElem?_eq_rd hk]

/-- normalised power of frequency row `r` at time `t` -/
def quot (n : Nat) (P : List (List F)) (s e : Int) (r t : Nat) : F :=
  rd (extRow n (P.getD r [])) t /ᶠ npNanmean (pySlice (extRow n (P.getD r [])) s e)

/-- the frequency rows that satisfy a condition -/
def band (f : List F) (c : F → Bool) : List Nat :=
  (List.range f.length).filter fun r => c (rd f r)

/-- the classified quantity at time `t` -/
def sumDiff (n : Nat) (P : List (List F)) (f : List F) (fDivide : F) (s e : Int) (t : Nat) : F :=
  npMean ((band f (· ≤ᶠ fDivide)).map fun r => quot n P s e r t) /ᶠ PyFloat.ofInt 1 -ᶠ
    npMean ((band f (fDivide <ᶠ ·)).map fun r => quot n P s e r t) /ᶠ PyFloat.ofInt 1

theorem pNorm_getD (n : Nat) (P : List (List F)) (s e : Int) (r : Nat) (hr : r < P.length) :
    (List.zipWith (fun row m => row.map fun x => x /ᶠ m) (P.map (extRow n))
      ((P.map (extRow n)).map fun row => npNanmean (pySlice row s e))).getD r [] =
    (extRow n (P.getD r [])).map fun x => x /ᶠ npNanmean (pySlice (extRow n (P.getD r [])) s e) := by
  rw [List.getD_eq_getElem?_getD, List.getElem?_zipWith, List.getElem?_map, List.getElem?_map,
    List.getElem?_map, List.getD_eq_getElem?_getD, List.getElem?_eq_getElem hr]
  rfl

theorem bandMean_ok (n : Nat) (P : List (List F)) (f : List F) (s e : Int) (c : F → Bool)
    (hP : ∀ row ∈ P, row.length ≤ n) (hf : f.length ≤ P.length) :
    bandMean (List.zipWith (fun row m => row.map fun x => x /ᶠ m) (P.map (extRow n))
      ((P.map (extRow n)).map fun row => npNanmean (pySlice row s e))) n (f.map c) =
    .ok ((List.range n).map fun t => npMean ((band f c).map fun r => quot n P s e r t)) := by
  unfold bandMean
  have hidx : ((List.range (f.map c).length).filter fun r => rdB (f.map c) r) = band f c := by
    unfold band
    rw [List.length_map]
    apply List.filter_congr
    intro r hr
    rw [List.mem_range] at hr
    unfold rdB
    rw [List.getD_eq_getElem?_getD, List.getElem?_map, getElem?_eq_rd hr]
    rfl
  have hlt : ∀ r ∈ band f c, r < P.length := by
    intro r hr
    have := List.mem_range.mp (List.mem_filter.mp hr).1
    omega
  dsimp only
  rw [hidx, if_neg]
  · congr 1
    apply List.map_congr_left
    intro t ht
    rw [List.mem_range] at ht
    congr 1
    apply List.map_congr_left
    intro r hr
    have h := hlt r hr
    rw [pNorm_getD n P s e r h]
    have hlen : (P.getD r []).length ≤ n := by
      rw [List.getD_eq_getElem _ _ h]
      exact hP _ (List.getElem_mem h)
    rw [rd_map _ (by rw [extRow_length hlen]; exact ht)]
    rfl
  · rw [List.any_eq_true]
    rintro ⟨r, hr, h⟩
    have := hlt r hr
    rw [decide_eq_true_iff] at h
    simp at h
    omega

/-- the whole function on admissible input -/
theorem stft_core [PySqrt F] (hasFind : Bool)
    (specgram : List F → Nat → Except Err (List (List F) × List F)) (rsl : List F)
    (windowLength : Nat) (threshold fDivide : F) (a : Args F) (P : List (List F)) (f : List F)
    (s e : Int) (c : Nat) (hm : a.mirror = false)
    (hsp : spectrumOf specgram rsl windowLength a = .ok (P, f))
    (hdry : dryPeriod hasFind rsl a = .ok (s, e)) (hne : P ≠ [])
    (hrow : ∀ row ∈ P, row.length = c) (hc : c ≤ rsl.length) (hf : f.length ≤ P.length) :
    ∃ info, stftClassification hasFind specgram rsl windowLength threshold fDivide a =
      .ok ((List.range rsl.length).map fun t =>
        !(isNaN (sumDiff rsl.length P f fDivide s e t)) &&
          threshold <ᶠ (sumDiff rsl.length P f fDivide s e t), info) ∧
      info.pSumDiff = ((List.range rsl.length).map fun t => sumDiff rsl.length P f fDivide s e t) ∧
      info.pxx = P.map (extRow rsl.length) ∧ info.f = f := by
  unfold stftClassification
  rw [hsp]
  dsimp only
  cases P with
  | nil => exact absurd rfl hne
  | cons row0 rest =>
    dsimp only
    have h0 : row0.length = c := hrow row0 (List.mem_cons_self ..)
    rw [hm]
    simp only [Bool.false_eq_true, if_false]
    rw [if_neg (by omega), hdry]
    dsimp only
    have hext : ((row0 :: rest).map fun row =>
        List.replicate (((rsl.length : Int) - row0.length) / 2).toNat PyFloat.nan ++ row ++
          List.replicate ((rsl.length : Int) - row0.length -
            ((rsl.length : Int) - row0.length) / 2).toNat PyFloat.nan) =
        (row0 :: rest).map (extRow (F := F) rsl.length) := by
      apply List.map_congr_left
      intro row hr
      have h1 := hrow row hr
      unfold extRow
      rw [h0, h1]
      congr 2
      · congr 1
        omega
      · omega
    rw [hext, bandMean_ok _ _ f s e (· ≤ᶠ fDivide) (fun row hr => by rw [hrow row hr]; exact hc) hf,
      bandMean_ok _ _ f s e (fDivide <ᶠ ·) (fun row hr => by rw [hrow row hr]; exact hc) hf]
    dsimp only
    have hz : ∀ g h : Nat → F, List.zipWith
        (fun l h => l /ᶠ PyFloat.ofInt 1 -ᶠ h /ᶠ PyFloat.ofInt 1)
        ((List.range rsl.length).map g) ((List.range rsl.length).map h) =
        (List.range rsl.length).map fun t =>
          g t /ᶠ PyFloat.ofInt 1 -ᶠ h t /ᶠ PyFloat.ofInt 1 := by
      intro g h
      rw [List.zipWith_map, List.zipWith_self]
    rw [hz, List.map_map]
    exact ⟨_, rfl, rfl, rfl, rfl⟩

end core

/-- **C56** Raising the threshold never adds wet steps. -/
theorem C56_threshold {F : Type} [PyFloat F] [LawfulPyFloat F] [PySqrt F] (hasFind : Bool)
    (specgram : List F → Nat → Except Err (List (List F) × List F)) (rsl : List F)
    (windowLength : Nat) (thr thr' fDivide : F) (hthr : thr ≤ᶠ thr') (a : Args F)
    (wet wet' : List Bool) (info info' : Info F)
    (h : stftClassification hasFind specgram rsl windowLength thr fDivide a = .ok (wet, info))
    (h' : stftClassification hasFind specgram rsl windowLength thr' fDivide a = .ok (wet', info')) :
    ∀ t : Nat, wet'[t]? = some true → wet[t]? = some true := by
  unfold stftClassification at h h'
  cases hsp : spectrumOf specgram rsl windowLength a with
  | error e => rw [hsp] at h; cases h
  | ok pf =>
    obtain ⟨P, f⟩ := pf
    rw [hsp] at h h'
    cases P with
    | nil => cases h
    | cons row0 rest =>
      dsimp only at h h'
      by_cases hm : a.mirror = true
      · rw [if_pos hm] at h; cases h
      · rw [if_neg hm] at h h'
        split_ifs at h h' with hneg
        cases hd : dryPeriod hasFind rsl a with
        | error e => rw [hd] at h; cases h
        | ok se =>
          obtain ⟨s, e⟩ := se
          rw [hd] at h h'
          dsimp only at h h'
          split at h
          · cases h
          · rename_i low hlow
            rw [hlow] at h'
            dsimp only at h'
            split at h
            · cases h
            · rename_i high hhigh
              rw [hhigh] at h'
              dsimp only at h'
              injection h with h
              injection h' with h'
              injection h with h _
              injection h' with h' _
              subst h h'
              intro t ht
              rw [List.getElem?_map, Option.map_eq_some_iff] at ht ⊢
              obtain ⟨x, hx, hw⟩ := ht
              refine ⟨x, hx, ?_⟩
              rw [Bool.and_eq_true] at hw ⊢
              exact ⟨hw.1, LawfulPyFloat.lt_of_le_of_lt hthr hw.2⟩

section exact
variable {K : Type} [Field K] [LinearOrder K]

theorem fsum_nan {l : List (Fl K)} (h : Fl.nan ∈ l) : fsum l = .nan := by
  unfold fsum
  have hn : ∀ l : List (Fl K), l.foldl (· +ᶠ ·) Fl.nan = .nan := by
    intro l
    induction l with
    | nil => rfl
    | cons x xs ih => rw [List.foldl_cons, Fl.pf_nan_add, ih]
  have : ∀ (l : List (Fl K)) (z : Fl K), Fl.nan ∈ l → l.foldl (· +ᶠ ·) z = .nan := by
    intro l
    induction l with
    | nil => intro z h; cases h
    | cons x xs ih =>
      intro z h
      rw [List.foldl_cons]
      rcases List.mem_cons.mp h with h | h
      · subst h
        rw [Fl.pf_add_nan, hn]
      · exact ih _ h
  exact this l _ h

theorem npMean_nil : npMean ([] : List (Fl K)) = .nan := by
  show (Fl.fin ((0 : Int) : K) /ᶠ Fl.fin ((0 : Int) : K)) = _
  rw [Fl.pf_div_fin]
  simp [Fl.infSign]

theorem npMean_nan {l : List (Fl K)} (h : ∀ x ∈ l, x = .nan) : npMean l = .nan := by
  cases l with
  | nil => exact npMean_nil
  | cons x xs =>
    unfold npMean
    rw [fsum_nan (by rw [← h x (List.mem_cons_self ..)]; exact List.mem_cons_self ..), Fl.pf_nan_div]

theorem sumDiff_nan_of_quot {n : Nat} {P : List (List (Fl K))} {f : List (Fl K)} {fd : Fl K}
    {s e : Int} {t : Nat} (h : ∀ r, quot n P s e r t = .nan) : sumDiff n P f fd s e t = .nan := by
  unfold sumDiff
  rw [npMean_nan (fun x hx => by
    obtain ⟨r, _, rfl⟩ := List.mem_map.mp hx
    exact h r), Fl.pf_nan_div, Fl.pf_nan_sub]

/-- The dry period is `[s, e)`: given by its ends, or by its length and then found by
`find_lowest_std_dev_period`. -/
def DryIs [PySqrt (Fl K)] (hasFind : Bool) (rsl : List (Fl K)) (a : Args (Fl K)) (s e : Int) : Prop :=
  (a.tDryStart = some s ∧ a.tDryStop = some e ∧ a.dryLength = none) ∨
  (a.tDryStart = none ∧ a.tDryStop = none ∧ ∃ len, a.dryLength = some len ∧
    findLowestStdDevPeriod hasFind rsl len = .ok (s, e))

theorem DryIs.dryPeriod [PySqrt (Fl K)] {hasFind : Bool} {rsl : List (Fl K)} {a : Args (Fl K)}
    {s e : Int} (h : DryIs hasFind rsl a s e) : dryPeriod hasFind rsl a = .ok (s, e) := by
  unfold Stft.dryPeriod
  rcases h with ⟨h1, h2, h3⟩ | ⟨h1, h2, len, h3, h4⟩
  · rw [h1, h2, h3]
  · rw [h1, h2, h3]; exact h4

/-- **C56** One flag per sample, False in the padding at both ends (the first
`(len(rsl) - columns) // 2` and the samples after the last spectrogram column). -/
theorem C56_padding [PySqrt (Fl K)] (hasFind : Bool)
    (specgram : List (Fl K) → Nat → Except Err (List (List (Fl K)) × List (Fl K)))
    (rsl : List (Fl K)) (windowLength : Nat) (thr fDivide : Fl K) (a : Args (Fl K))
    (P : List (List (Fl K))) (f : List (Fl K)) (s e : Int) (c : Nat) (hm : a.mirror = false)
    (hsp : a.pxx = some P ∧ a.f = some f ∨
      a.pxx = none ∧ specgram rsl windowLength = .ok (P, f))
    (hdry : DryIs hasFind rsl a s e) (hne : P ≠ [])
    (hrow : ∀ row ∈ P, row.length = c) (hc : c ≤ rsl.length) (hf : f.length ≤ P.length) :
    ∃ wet info, stftClassification hasFind specgram rsl windowLength thr fDivide a =
      .ok (wet, info) ∧ wet.length = rsl.length ∧
      ∀ t : Nat, t < rsl.length →
        (t < (rsl.length - c) / 2 ∨ (rsl.length - c) / 2 + c ≤ t) → wet[t]? = some false := by
  have hs : spectrumOf specgram rsl windowLength a = .ok (P, f) := by
    unfold spectrumOf
    rcases hsp with ⟨h1, h2⟩ | ⟨h1, h2⟩
    · rw [h1, h2]
    · rw [h1]
      simp only [hm]
      exact h2
  obtain ⟨info, h, _⟩ := stft_core hasFind specgram rsl windowLength thr fDivide a P f s e c hm hs
    hdry.dryPeriod hne hrow hc hf
  refine ⟨_, info, h, by simp, ?_⟩
  intro t ht hp
  rw [List.getElem?_map, List.getElem?_range ht]
  simp only [Option.map_some]
  rw [sumDiff_nan_of_quot]
  · rfl
  · intro r
    unfold quot
    by_cases hr : r < P.length
    · have hl : (P.getD r []).length = c := by
        rw [List.getD_eq_getElem _ _ hr]
        exact hrow _ (List.getElem_mem hr)
      rw [extRow_pad (by omega) ht (by rw [hl]; exact hp)]
      exact Fl.pf_nan_div _
    · rw [List.getD_eq_default _ _ (by omega), extRow_pad (by simp) ht (by simp; omega)]
      exact Fl.pf_nan_div _

section scale
variable [IsStrictOrderedRing K]

theorem sc_add {c : K} (hc : 0 < c) (x y : Fl K) :
    Fl.fin c *ᶠ (x +ᶠ y) = Fl.fin c *ᶠ x +ᶠ Fl.fin c *ᶠ y := by
  have p : (Fl.fin c *ᶠ Fl.pinf : Fl K) = .pinf := by
    show Fl.infSign c = _
    simp [Fl.infSign, hc]
  have m : (Fl.fin c *ᶠ Fl.ninf : Fl K) = .ninf := by
    show Fl.infSign (-c) = _
    simp [Fl.infSign, hc, not_lt.mpr hc.le]
  cases x <;> cases y <;>
    first
    | simp [p, m]
    | skip
  all_goals first
    | (show Fl.fin c *ᶠ Fl.nan = _; simp [p, m]; rfl)
    | (show Fl.fin c *ᶠ Fl.pinf = _; simp [p, m]; rfl)
    | (show Fl.fin c *ᶠ Fl.ninf = _; simp [p, m]; rfl)
    | (simp [mul_add])

theorem sc_isNaN {c : K} (hc : 0 < c) (x : Fl K) : isNaN (Fl.fin c *ᶠ x) = isNaN x := by
  cases x with
  | nan => rfl
  | fin x => rfl
  | pinf =>
    show isNaN (Fl.infSign c) = _
    simp [Fl.infSign, hc]
  | ninf =>
    show isNaN (Fl.infSign (-c)) = _
    simp [Fl.infSign, hc, not_lt.mpr hc.le]

theorem sc_div_sc {c : K} (hc : 0 < c) (x y : Fl K) :
    (Fl.fin c *ᶠ x) /ᶠ (Fl.fin c *ᶠ y) = x /ᶠ y := by
  have p : (Fl.fin c *ᶠ Fl.pinf : Fl K) = .pinf := by
    show Fl.infSign c = _
    simp [Fl.infSign, hc]
  have m : (Fl.fin c *ᶠ Fl.ninf : Fl K) = .ninf := by
    show Fl.infSign (-c) = _
    simp [Fl.infSign, hc, not_lt.mpr hc.le]
  have hs : ∀ x : K, c * x < 0 ↔ x < 0 := fun x => by
    constructor
    · intro h
      by_contra h'
      exact absurd (mul_nonneg hc.le (not_lt.mp h')) (not_le.mpr h)
    · exact fun h => mul_neg_of_pos_of_neg hc h
  have hs' : ∀ x : K, 0 < c * x ↔ 0 < x := fun x => mul_pos_iff_of_pos_left hc
  cases x with
  | nan => simp
  | fin x =>
    cases y with
    | nan => simp
    | fin y =>
      rw [Fl.pf_mul_fin, Fl.pf_mul_fin, Fl.pf_div_fin, Fl.pf_div_fin]
      by_cases hy : y = 0
      · rw [if_pos hy, if_pos (by rw [hy, mul_zero])]
        unfold Fl.infSign
        simp only [hs, hs']
      · rw [if_neg hy, if_neg (mul_ne_zero hc.ne' hy), mul_div_mul_left _ _ hc.ne']
    | pinf => rw [p]; rfl
    | ninf => rw [m]; rfl
  | pinf =>
    rw [p]
    cases y with
    | nan => simp
    | fin y =>
      show (if c * y < 0 then Fl.ninf else Fl.pinf) = if y < 0 then Fl.ninf else Fl.pinf
      simp only [hs]
    | pinf => rw [p]
    | ninf => rw [m]
  | ninf =>
    rw [m]
    cases y with
    | nan => simp
    | fin y =>
      show (if c * y < 0 then Fl.pinf else Fl.ninf) = if y < 0 then Fl.pinf else Fl.ninf
      simp only [hs]
    | pinf => rw [p]
    | ninf => rw [m]

theorem sc_div_nat {c : K} (hc : 0 < c) (x : Fl K) (n : Nat) :
    Fl.fin c *ᶠ (x /ᶠ PyFloat.ofInt (n : Int)) = (Fl.fin c *ᶠ x) /ᶠ PyFloat.ofInt (n : Int) := by
  have p : (Fl.fin c *ᶠ Fl.pinf : Fl K) = .pinf := by
    show Fl.infSign c = _
    simp [Fl.infSign, hc]
  have m : (Fl.fin c *ᶠ Fl.ninf : Fl K) = .ninf := by
    show Fl.infSign (-c) = _
    simp [Fl.infSign, hc, not_lt.mpr hc.le]
  have hn : ¬ ((n : Int) : K) < 0 := by
    rw [not_lt]
    exact_mod_cast Nat.zero_le n
  rw [Fl.pf_ofInt]
  cases x with
  | nan => simp
  | fin x =>
    rw [Fl.pf_mul_fin, Fl.pf_div_fin, Fl.pf_div_fin]
    split_ifs with h
    · unfold Fl.infSign
      rcases lt_trichotomy x 0 with hx | hx | hx
      · rw [if_neg (not_lt.mpr hx.le), if_pos hx,
          if_neg (not_lt.mpr (mul_neg_of_pos_of_neg hc hx).le),
          if_pos (mul_neg_of_pos_of_neg hc hx), m]
      · subst hx
        simp
      · rw [if_pos hx, if_pos (mul_pos hc hx), p]
    · rw [Fl.pf_mul_fin, mul_div_assoc]
  | pinf =>
    rw [p]
    show Fl.fin c *ᶠ (if ((n : Int) : K) < 0 then Fl.ninf else Fl.pinf) =
      if ((n : Int) : K) < 0 then Fl.ninf else Fl.pinf
    rw [if_neg hn, p]
  | ninf =>
    rw [m]
    show Fl.fin c *ᶠ (if ((n : Int) : K) < 0 then Fl.pinf else Fl.ninf) =
      if ((n : Int) : K) < 0 then Fl.pinf else Fl.ninf
    rw [if_neg hn, m]

theorem sc_fsum {c : K} (hc : 0 < c) (l : List (Fl K)) :
    fsum (l.map (Fl.fin c *ᶠ ·)) = Fl.fin c *ᶠ fsum l := by
  unfold fsum
  have : ∀ (l : List (Fl K)) (z : Fl K),
      (l.map (Fl.fin c *ᶠ ·)).foldl (· +ᶠ ·) (Fl.fin c *ᶠ z) =
        Fl.fin c *ᶠ l.foldl (· +ᶠ ·) z := by
    intro l
    induction l with
    | nil => intro z; rfl
    | cons x xs ih =>
      intro z
      rw [List.map_cons, List.foldl_cons, List.foldl_cons, ← sc_add hc, ih]
  have h0 : (PyFloat.ofInt 0 : Fl K) = Fl.fin c *ᶠ PyFloat.ofInt 0 := by simp
  conv_lhs => rw [h0]
  exact this l _

theorem sc_nanmean {c : K} (hc : 0 < c) (l : List (Fl K)) :
    npNanmean (l.map (Fl.fin c *ᶠ ·)) = Fl.fin c *ᶠ npNanmean l := by
  unfold npNanmean npMean
  rw [List.filter_map]
  have : ((fun x : Fl K => !(isNaN x)) ∘ fun x => Fl.fin c *ᶠ x) = fun x => !(isNaN x) := by
    funext x
    simp only [Function.comp_apply, sc_isNaN hc]
  rw [this, sc_fsum hc, List.length_map, sc_div_nat hc]

theorem pySlice_map {α β : Type} (g : α → β) (xs : List α) (a b : Int) :
    pySlice (xs.map g) a b = (pySlice xs a b).map g := by
  unfold pySlice slice
  rw [List.length_map, List.map_drop, List.map_take]

/-- **C56** Multiplying the spectrogram by a positive constant does not change the classification
(nor whether an exception is raised). -/
theorem C56_scale [PySqrt (Fl K)] (hasFind : Bool)
    (specgram : List (Fl K) → Nat → Except Err (List (List (Fl K)) × List (Fl K)))
    (rsl : List (Fl K)) (windowLength : Nat) (thr fDivide : Fl K) (a : Args (Fl K))
    (P : List (List (Fl K))) (hP : a.pxx = some P) (c : K) (hc : 0 < c) :
    (stftClassification hasFind specgram rsl windowLength thr fDivide
      { a with pxx := some (P.map fun row => row.map fun x => Fl.fin c *ᶠ x) }).map (·.1) =
    (stftClassification hasFind specgram rsl windowLength thr fDivide a).map (·.1) := by
  have hdr : dryPeriod hasFind rsl
      { a with pxx := some (P.map fun row => row.map fun x => Fl.fin c *ᶠ x) } =
      dryPeriod hasFind rsl a := rfl
  unfold stftClassification
  rw [hdr]
  unfold spectrumOf
  rw [hP]
  dsimp only
  cases a.f with
  | none => rfl
  | some f =>
    dsimp only
    cases P with
    | nil => rfl
    | cons row0 rest =>
      rw [List.map_cons]
      dsimp only
      rw [List.length_map]
      by_cases hm : a.mirror = true
      · rw [if_pos hm, if_pos hm]
        rfl
      · rw [if_neg hm, if_neg hm]
        split_ifs
        · rfl
        cases dryPeriod hasFind rsl a with
        | error e => rfl
        | ok se =>
          obtain ⟨s, e⟩ := se
          dsimp only
          rw [← List.map_cons (f := fun row : List (Fl K) => row.map fun x => Fl.fin c *ᶠ x)]
          generalize hA : (((rsl.length : Int) - row0.length) / 2).toNat = A
          generalize hB : ((rsl.length : Int) - row0.length -
            ((rsl.length : Int) - row0.length) / 2).toNat = B
          have hext : (((row0 :: rest).map fun row => row.map fun x => Fl.fin c *ᶠ x).map fun row =>
              List.replicate A PyFloat.nan ++ row ++ List.replicate B PyFloat.nan) =
              ((row0 :: rest).map fun row =>
                List.replicate A PyFloat.nan ++ row ++ List.replicate B PyFloat.nan).map
                fun row => row.map fun x => Fl.fin c *ᶠ x := by
            rw [List.map_map, List.map_map]
            apply List.map_congr_left
            intro row _
            simp
          rw [hext]
          generalize ((row0 :: rest).map fun row =>
                List.replicate A PyFloat.nan ++ row ++ List.replicate B PyFloat.nan) = ext
          have hnorm : List.zipWith (fun row m => row.map fun x => x /ᶠ m)
              (ext.map fun row => row.map fun x => Fl.fin c *ᶠ x)
              ((ext.map fun row => row.map fun x => Fl.fin c *ᶠ x).map
                fun row => npNanmean (pySlice row s e)) =
              List.zipWith (fun row m => row.map fun x => x /ᶠ m) ext
                (ext.map fun row => npNanmean (pySlice row s e)) := by
            rw [List.map_map, List.zipWith_map, List.zipWith_self, List.zipWith_map_right,
              List.zipWith_self]
            apply List.map_congr_left
            intro row _
            simp only [Function.comp_apply]
            rw [pySlice_map, sc_nanmean hc, List.map_map]
            apply List.map_congr_left
            intro x _
            exact sc_div_sc hc _ _
          rw [hnorm]
          split
          · rfl
          · split <;> rfl

/-- **C56** Computing the spectrogram is the same as supplying the computed one. -/
theorem C56_computed [PySqrt (Fl K)] (hasFind : Bool)
    (specgram : List (Fl K) → Nat → Except Err (List (List (Fl K)) × List (Fl K)))
    (rsl : List (Fl K)) (windowLength : Nat) (thr fDivide : Fl K) (a : Args (Fl K))
    (hm : a.mirror = false) (hp : a.pxx = none) (P : List (List (Fl K))) (f : List (Fl K))
    (h : specgram rsl windowLength = .ok (P, f)) :
    stftClassification hasFind specgram rsl windowLength thr fDivide a =
      stftClassification hasFind specgram rsl windowLength thr fDivide
        { a with pxx := some P, f := some f } := by
  have hdr : dryPeriod hasFind rsl { a with pxx := some P, f := some f } =
      dryPeriod hasFind rsl a := rfl
  unfold stftClassification
  rw [hdr]
  have h1 : spectrumOf specgram rsl windowLength a = .ok (P, f) := by
    unfold spectrumOf
    rw [hp]
    simp only [hm]
    exact h
  have h2 : spectrumOf specgram rsl windowLength { a with pxx := some P, f := some f } =
      .ok (P, f) := rfl
  rw [h1, h2]
  dsimp only
  rw [hm]
  rfl

/-- **C56** Argument errors. `mirror=True` never succeeds; `Pxx` needs `f`; the dry period must be given
either by both ends or by its length. -/
theorem C56_errors [PySqrt (Fl K)] (hasFind : Bool)
    (specgram : List (Fl K) → Nat → Except Err (List (List (Fl K)) × List (Fl K)))
    (rsl : List (Fl K)) (windowLength : Nat) (thr fDivide : Fl K) (a : Args (Fl K)) :
    (a.mirror = true → ∃ err,
      stftClassification hasFind specgram rsl windowLength thr fDivide a = .error err) ∧
    (a.pxx.isSome → a.f = none →
      stftClassification hasFind specgram rsl windowLength thr fDivide a = .error .valueError) ∧
    (¬ ((a.tDryStart = none ∧ a.tDryStop = none ∧ a.dryLength.isSome) ∨
        (a.tDryStart.isSome ∧ a.tDryStop.isSome ∧ a.dryLength = none)) →
      ∃ err, stftClassification hasFind specgram rsl windowLength thr fDivide a = .error err) ∧
    (hasFind = false → a.dryLength.isSome →
      ∃ err, stftClassification hasFind specgram rsl windowLength thr fDivide a = .error err) := by
  have hdryerr : (∃ err, dryPeriod hasFind rsl a = .error err) →
      ∃ err, stftClassification hasFind specgram rsl windowLength thr fDivide a = .error err := by
    rintro ⟨err, he⟩
    unfold stftClassification
    rw [he]
    split
    · exact ⟨_, rfl⟩
    · split
      · exact ⟨_, rfl⟩
      · dsimp only
        split_ifs <;> exact ⟨_, rfl⟩
  refine ⟨?_, ?_, ?_, ?_⟩
  · intro hm
    unfold stftClassification
    split
    · exact ⟨_, rfl⟩
    · split
      · exact ⟨_, rfl⟩
      · dsimp only
        rw [if_pos hm]
        exact ⟨_, rfl⟩
  · intro hp hf
    obtain ⟨P, hP⟩ := Option.isSome_iff_exists.mp hp
    have : spectrumOf specgram rsl windowLength a = .error .valueError := by
      unfold spectrumOf
      rw [hP, hf]
    unfold stftClassification
    rw [this]
  · intro h
    apply hdryerr
    unfold dryPeriod
    split
    · rename_i h1 h2 h3
      exact absurd (Or.inl ⟨h1, h2, by rw [h3]; rfl⟩) h
    · rename_i h1 h2 h3
      exact absurd (Or.inr ⟨by rw [h1]; rfl, by rw [h2]; rfl, h3⟩) h
    · exact ⟨_, rfl⟩
  · intro hF hl
    apply hdryerr
    obtain ⟨l, hl⟩ := Option.isSome_iff_exists.mp hl
    unfold dryPeriod
    rw [hl]
    subst hF
    cases a.tDryStart <;> cases a.tDryStop <;> exact ⟨_, rfl⟩

/-- **C56** The exception of `mirror=True`. The spectrogram is computed for the next even window length; if that fails,
with its exception, otherwise with a TypeError. A supplied spectrogram gives a NameError. -/
theorem C56_mirror_error [PySqrt (Fl K)] (hasFind : Bool)
    (specgram : List (Fl K) → Nat → Except Err (List (List (Fl K)) × List (Fl K)))
    (rsl : List (Fl K)) (windowLength : Nat) (thr fDivide : Fl K) (a : Args (Fl K)) (hm : a.mirror = true) :
    (a.pxx = none → ∀ e, specgram rsl (windowLength + windowLength % 2) = .error e →
      stftClassification hasFind specgram rsl windowLength thr fDivide a = .error e) ∧
    (a.pxx = none → ∀ row P f, specgram rsl (windowLength + windowLength % 2) = .ok (row :: P, f) →
      stftClassification hasFind specgram rsl windowLength thr fDivide a = .error .typeError) ∧
    (∀ row P f, a.pxx = some (row :: P) → a.f = some f →
      stftClassification hasFind specgram rsl windowLength thr fDivide a = .error .nameError) := by
  have hs : a.pxx = none →
      spectrumOf specgram rsl windowLength a = specgram rsl (windowLength + windowLength % 2) := by
    intro hp
    unfold spectrumOf
    rw [hp, hm]
    rcases Nat.mod_two_eq_zero_or_one windowLength with h | h <;> simp [h]
  refine ⟨fun hp e he => ?_, fun hp row P f he => ?_, fun row P f hp hf => ?_⟩
  · unfold stftClassification
    rw [hs hp, he]
  · unfold stftClassification
    rw [hs hp, he]
    simp [hm, hp]
  · unfold stftClassification
    rw [show spectrumOf specgram rsl windowLength a = .ok (row :: P, f) by unfold spectrumOf; rw [hp, hf]]
    simp [hm, hp]

/-- an odd window length of 3 is raised to 4 -/
example [PySqrt (Fl K)] : stftClassification (F := Fl K) true
    (fun _ n => if n = 4 then .ok ([[.fin 1]], [.fin 0]) else .error .valueError) [.fin 0, .fin 1, .fin 2, .fin 3] 3 (.fin 1) (.fin 1)
    { tDryStart := some 0, tDryStop := some 1, dryLength := none, mirror := true, pxx := none, f := none } =
      .error .typeError :=
  (C56_mirror_error _ _ _ _ _ _ _ rfl).2.1 rfl [.fin 1] [] [.fin 0] rfl

/-- **C56** With a spectrogram that fits the series, a dry period given neither by both ends alone nor by its length alone
is an AttributeError, and so is one given by its length as long as `mlab` has no `find`. -/
theorem C56_dry_period_error [PySqrt (Fl K)] (hasFind : Bool)
    (specgram : List (Fl K) → Nat → Except Err (List (List (Fl K)) × List (Fl K)))
    (rsl : List (Fl K)) (windowLength : Nat) (thr fDivide : Fl K) (a : Args (Fl K)) (hm : a.mirror = false)
    (row : List (Fl K)) (P : List (List (Fl K))) (f : List (Fl K)) (hp : a.pxx = some (row :: P)) (hf : a.f = some f)
    (hlen : row.length ≤ rsl.length)
    (h : ¬ ((a.tDryStart = none ∧ a.tDryStop = none ∧ a.dryLength.isSome ∧ hasFind = true) ∨
        (a.tDryStart.isSome ∧ a.tDryStop.isSome ∧ a.dryLength = none))) :
    stftClassification hasFind specgram rsl windowLength thr fDivide a = .error .attributeError := by
  have hd : dryPeriod hasFind rsl a = .error .attributeError := by
    unfold dryPeriod
    split
    · rename_i h1 h2 h3
      unfold findLowestStdDevPeriod
      rw [if_pos]
      rw [← Bool.not_eq_true]
      exact fun hF => h (Or.inl ⟨h1, h2, by rw [h3]; rfl, hF⟩)
    · rename_i h1 h2 h3
      exact absurd (Or.inr ⟨by rw [h1]; rfl, by rw [h2]; rfl, h3⟩) h
    · rfl
  unfold stftClassification
  rw [show spectrumOf specgram rsl windowLength a = .ok (row :: P, f) by unfold spectrumOf; rw [hp, hf]]
  dsimp only
  rw [hm, if_neg (by decide), if_neg (by omega), hd]

/-- only the start of the dry period is given -/
example [PySqrt (Fl K)] : stftClassification (F := Fl K) true (fun _ _ => .error .typeError) [.fin 0, .fin 1, .fin 2] 2 (.fin 1) (.fin 1)
    { tDryStart := some 0, tDryStop := none, dryLength := none, mirror := false, pxx := some [[.fin 1, .fin 1]], f := some [.fin 0] } =
      .error .attributeError :=
  C56_dry_period_error _ _ _ _ _ _ _ rfl _ _ _ rfl rfl (by simp) (by simp)

end scale

section value
variable [IsStrictOrderedRing K]

theorem filter_nan_replicate (k : Nat) :
    (List.replicate k (PyFloat.nan : Fl K)).filter (fun x => !(isNaN x)) = [] := by
  rw [List.filter_eq_nil_iff]
  intro x hx
  rw [(List.mem_replicate.mp hx).2]
  simp

theorem valid_slice_ext (n : Nat) (row : List K) (h : row.length ≤ n) (s e : Nat) :
    (pySlice (extRow n (row.map Fl.fin)) (s : Int) (e : Int)).filter (fun x => !(isNaN x)) =
      ((row.take (e - (n - row.length) / 2)).drop (s - (n - row.length) / 2)).map Fl.fin := by
  unfold pySlice bound slice
  rw [extRow_length (by simpa using h), if_neg (by omega), if_neg (by omega)]
  simp only [Int.toNat_natCast]
  have hl := extRow_length (n := n) (row := row.map Fl.fin) (by simpa using h)
  have ht : (extRow n (row.map Fl.fin)).take (min e n) = (extRow n (row.map Fl.fin)).take e := by
    rcases Nat.le_total e n with h | h
    · rw [Nat.min_eq_left h]
    · rw [Nat.min_eq_right h, List.take_of_length_le (by omega), List.take_of_length_le (by omega)]
  have hd : ((extRow n (row.map Fl.fin)).take e).drop (min s n) =
      ((extRow n (row.map Fl.fin)).take e).drop s := by
    rcases Nat.le_total s n with h | h
    · rw [Nat.min_eq_left h]
    · rw [Nat.min_eq_right h, List.drop_of_length_le (by rw [List.length_take]; omega),
        List.drop_of_length_le (by rw [List.length_take]; omega)]
  rw [ht, hd]
  unfold extRow
  rw [List.length_map]
  simp only [List.take_append, List.drop_append, List.filter_append, List.take_replicate,
    List.drop_replicate, filter_nan_replicate, List.nil_append, List.append_nil,
    List.length_replicate, List.length_append, List.length_map]
  rw [← List.map_take, ← List.map_drop, List.filter_map]
  have : ((fun x : Fl K => !(isNaN x)) ∘ Fl.fin) = fun _ => true := by
    funext x; rfl
  rw [this, List.filter_true]
  rcases Nat.le_total e ((n - row.length) / 2) with h | h
  · rw [show e - (n - row.length) / 2 = 0 by omega]
    simp
  · rw [Nat.min_eq_right h]

/-- mean power of a frequency row over the spectrogram columns between `s` and `e`, where the
columns start at sample `pad` -/
def dryMeanOf (pad s e : Nat) (row : List K) : K :=
  ((row.take (e - pad)).drop (s - pad)).sum / ((row.take (e - pad)).drop (s - pad)).length

/-- the frequency rows with the given property -/
def bandK (f : List K) (c : K → Prop) [DecidablePred c] : List Nat :=
  (List.range f.length).filter fun r => decide (c (f.getD r 0))

/-- mean over the rows `idx` of the power in column `k` relative to the dry mean of the row -/
def bandPower (P : List (List K)) (pad s e : Nat) (idx : List Nat) (k : Nat) : K :=
  (idx.map fun r => (P.getD r []).getD k 0 / dryMeanOf pad s e (P.getD r [])).sum / idx.length

theorem band_map (f : List K) (c : Fl K → Bool) (c' : K → Prop) [DecidablePred c']
    (h : ∀ x, c (Fl.fin x) = decide (c' x)) : band (f.map Fl.fin) c = bandK f c' := by
  unfold band bandK
  rw [List.length_map]
  apply List.filter_congr
  intro r hr
  rw [List.mem_range] at hr
  rw [rd_map_fin hr, h, List.getD_eq_getElem _ _ hr]

theorem getD_map_nil (P : List (List K)) (r : Nat) :
    (P.map fun row => row.map Fl.fin).getD r [] = (P.getD r []).map Fl.fin := by
  rw [List.getD_eq_getElem?_getD, List.getElem?_map, List.getD_eq_getElem?_getD]
  cases P[r]? <;> rfl

/-- **C56** The classified quantity. For a finite spectrogram `P` (rows of equal length `c`, frequencies
`f`) and a dry period `[s, e)` with non-zero mean power (hence at least one column) in every row: the step of column `k` is wet exactly if the mean relative power at frequencies up to
`f_divide` exceeds that at higher frequencies by more than the threshold. -/
theorem C56_value [PySqrt (Fl K)] (hasFind : Bool)
    (specgram : List (Fl K) → Nat → Except Err (List (List (Fl K)) × List (Fl K)))
    (rsl : List (Fl K)) (windowLength : Nat) (thr fDivide : K) (a : Args (Fl K))
    (P : List (List K)) (f : List K) (s e c : Nat) (hm : a.mirror = false)
    (hp : a.pxx = some (P.map fun row => row.map Fl.fin)) (hfa : a.f = some (f.map Fl.fin))
    (hs : a.tDryStart = some (s : Int)) (he : a.tDryStop = some (e : Int)) (hl : a.dryLength = none)
    (hne : P ≠ []) (hrow : ∀ row ∈ P, row.length = c) (hc : c ≤ rsl.length)
    (hf : f.length ≤ P.length) (hlow : ∃ x ∈ f, x ≤ fDivide) (hhigh : ∃ x ∈ f, fDivide < x)
    (hdry : ∀ row ∈ P, dryMeanOf ((rsl.length - c) / 2) s e row ≠ 0) :
    ∃ wet info, stftClassification hasFind specgram rsl windowLength (.fin thr) (.fin fDivide) a =
      .ok (wet, info) ∧
      ∀ k < c, wet[(rsl.length - c) / 2 + k]? = some (decide (thr <
        bandPower P ((rsl.length - c) / 2) s e (bandK f (· ≤ fDivide)) k -
        bandPower P ((rsl.length - c) / 2) s e (bandK f (fDivide < ·)) k)) := by
  obtain ⟨info, h, _⟩ := stft_core hasFind specgram rsl windowLength (.fin thr) (.fin fDivide) a
    (P.map fun row => row.map Fl.fin) (f.map Fl.fin) (s : Int) (e : Int) c hm
    (by unfold spectrumOf; rw [hp, hfa]) (by unfold dryPeriod; rw [hs, he, hl])
    (by simpa using hne)
    (by
      intro row hr
      obtain ⟨r, hr', rfl⟩ := List.mem_map.mp hr
      rw [List.length_map]
      exact hrow r hr') hc (by simpa using hf)
  refine ⟨_, info, h, ?_⟩
  intro k hk
  have hpad : (rsl.length - c) / 2 + k < rsl.length := by omega
  rw [List.getElem?_map, List.getElem?_range hpad]
  simp only [Option.map_some]
  have hq : ∀ r < P.length, quot rsl.length (P.map fun row => row.map Fl.fin) (s : Int) (e : Int) r
      ((rsl.length - c) / 2 + k) =
      .fin ((P.getD r []).getD k 0 / dryMeanOf ((rsl.length - c) / 2) s e (P.getD r [])) := by
    intro r hr
    have hmem : P.getD r [] ∈ P := by
      rw [List.getD_eq_getElem _ _ hr]
      exact List.getElem_mem hr
    have hlen := hrow _ hmem
    unfold quot
    rw [getD_map_nil]
    have h1 : rd (extRow rsl.length ((P.getD r []).map Fl.fin)) ((rsl.length - c) / 2 + k) =
        .fin ((P.getD r []).getD k 0) := by
      have := extRow_mid (n := rsl.length) (row := (P.getD r []).map Fl.fin) (k := k)
        (by rw [List.length_map, hlen]; exact hk)
      rw [List.length_map, hlen] at this
      rw [this, rd_map_fin (by omega), List.getD_eq_getElem (l := P.getD r []) (d := 0) (by omega)]
    rw [h1]
    unfold npNanmean
    rw [valid_slice_ext _ _ (by omega), hlen]
    have hd := hdry _ hmem
    unfold dryMeanOf at hd ⊢
    rw [npMean_map_fin, Fl.pf_div_fin_ne _ _ hd]
    intro h0
    rw [h0] at hd
    simp at hd
  have hmean : ∀ idx : List Nat, (∀ r ∈ idx, r < P.length) → idx ≠ [] →
      npMean (idx.map fun r => quot rsl.length (P.map fun row => row.map Fl.fin) (s : Int) (e : Int) r
        ((rsl.length - c) / 2 + k)) =
      .fin (bandPower P ((rsl.length - c) / 2) s e idx k) := by
    intro idx hidx hidx0
    have : (idx.map fun r => quot rsl.length (P.map fun row => row.map Fl.fin) (s : Int) (e : Int) r
        ((rsl.length - c) / 2 + k)) = (idx.map fun r => (P.getD r []).getD k 0 /
          dryMeanOf ((rsl.length - c) / 2) s e (P.getD r [])).map Fl.fin := by
      rw [List.map_map]
      apply List.map_congr_left
      intro r hr
      exact hq r (hidx r hr)
    rw [this, npMean_map_fin (by simpa using hidx0)]
    unfold bandPower
    rw [List.length_map]
  have hb : ∀ (c' : K → Prop) [DecidablePred c'], (∃ x ∈ f, c' x) →
      (∀ r ∈ bandK f c', r < P.length) ∧ bandK f c' ≠ [] := by
    intro c' _ hx
    constructor
    · intro r hr
      have := List.mem_range.mp (List.mem_filter.mp hr).1
      omega
    · obtain ⟨x, hx, hcx⟩ := hx
      obtain ⟨r, hr⟩ := List.mem_iff_getElem?.mp hx
      obtain ⟨hr1, hr2⟩ := List.getElem?_eq_some_iff.mp hr
      apply List.ne_nil_of_mem (a := r)
      apply List.mem_filter.mpr
      refine ⟨List.mem_range.mpr hr1, ?_⟩
      rw [List.getD_eq_getElem _ _ hr1, hr2]
      exact decide_eq_true hcx
  have hsd : sumDiff rsl.length (P.map fun row => row.map Fl.fin) (f.map Fl.fin) (.fin fDivide)
      (s : Int) (e : Int) ((rsl.length - c) / 2 + k) =
      .fin (bandPower P ((rsl.length - c) / 2) s e (bandK f (· ≤ fDivide)) k -
        bandPower P ((rsl.length - c) / 2) s e (bandK f (fDivide < ·)) k) := by
    unfold sumDiff
    rw [band_map f _ (· ≤ fDivide) (fun x => rfl), band_map f _ (fDivide < ·) (fun x => rfl),
      hmean _ (hb _ hlow).1 (hb _ hlow).2, hmean _ (hb _ hhigh).1 (hb _ hhigh).2, Fl.pf_ofInt,
      Fl.pf_div_fin_ne _ _ (by norm_num), Fl.pf_div_fin_ne _ _ (by norm_num), Fl.pf_sub_fin]
    norm_num
  rw [hsd]
  simp

/-- **C56** Without a spectrogram column in the dry period, or without a frequency on one side of
`f_divide`, everything is classified dry, whatever the data and the threshold. -/
theorem C56_no_reference [PySqrt (Fl K)] (hasFind : Bool)
    (specgram : List (Fl K) → Nat → Except Err (List (List (Fl K)) × List (Fl K)))
    (rsl : List (Fl K)) (windowLength : Nat) (thr fDivide : Fl K) (a : Args (Fl K))
    (P : List (List (Fl K))) (f : List (Fl K)) (s e : Int) (c : Nat) (hm : a.mirror = false)
    (hp : a.pxx = some P) (hfa : a.f = some f)
    (hs : DryIs hasFind rsl a s e)
    (hne : P ≠ []) (hrow : ∀ row ∈ P, row.length = c) (hc : c ≤ rsl.length)
    (hf : f.length ≤ P.length)
    (h : (∀ x ∈ f, (x ≤ᶠ fDivide) = false) ∨ (∀ x ∈ f, (fDivide <ᶠ x) = false) ∨
      (0 ≤ e ∧ e ≤ s) ∨ (0 ≤ e ∧ s < 0 ∧ e ≤ s + rsl.length)) :
    ∃ info, stftClassification hasFind specgram rsl windowLength thr fDivide a =
      .ok (List.replicate rsl.length false, info) := by
  obtain ⟨info, h1, _⟩ := stft_core hasFind specgram rsl windowLength thr fDivide a
    P f s e c hm (by unfold spectrumOf; rw [hp, hfa]) hs.dryPeriod hne hrow hc hf
  refine ⟨info, ?_⟩
  rw [h1]
  have hnan : ∀ t, sumDiff rsl.length P f fDivide s e t = .nan := by
    intro t
    have hband : ∀ g : Fl K → Bool, (∀ x ∈ f, g x = false) → band f g = [] := by
      intro g hg
      unfold band
      rw [List.filter_eq_nil_iff]
      intro r hr
      rw [List.mem_range] at hr
      rw [hg _ (List.mem_of_getElem? (getElem?_eq_rd hr))]
      simp
    rcases h with h | h | h
    · unfold sumDiff
      rw [hband _ h]
      simp only [List.map_nil]
      rw [npMean_nil, Fl.pf_nan_div, Fl.pf_nan_sub]
    · unfold sumDiff
      rw [hband _ h]
      simp only [List.map_nil]
      rw [npMean_nil, Fl.pf_nan_div, Fl.pf_sub_nan]
    · apply sumDiff_nan_of_quot
      intro r
      unfold quot
      have hsl : pySlice (extRow rsl.length (P.getD r [])) s e = [] := by
        have hlen : (extRow rsl.length (P.getD r [])).length = rsl.length := by
          apply extRow_length
          by_cases hr : r < P.length
          · rw [List.getD_eq_getElem _ _ hr, hrow _ (List.getElem_mem hr)]
            exact hc
          · rw [List.getD_eq_default _ _ (by omega)]
            simp
        unfold pySlice slice
        apply List.drop_of_length_le
        rw [List.length_take, hlen]
        unfold bound
        rcases h with h | h
        · split_ifs <;> omega
        · split_ifs <;> omega
      rw [hsl]
      have : npNanmean ([] : List (Fl K)) = .nan := npMean_nil
      rw [this, Fl.pf_div_nan]
  congr 2
  rw [List.eq_replicate_iff]
  refine ⟨by simp, ?_⟩
  intro b hb
  obtain ⟨t, _, rfl⟩ := List.mem_map.mp hb
  rw [hnan]
  rfl

end value

end exact

/-! ## Examples -/

section examples

/-- not used: the dry period is given explicitly -/
local instance : PySqrt (Fl ℚ) := ⟨id⟩

/-- two frequencies, three columns, five samples -/
def exArgs : Args (Fl ℚ) :=
  { tDryStart := some 1, tDryStop := some 3
    pxx := some ([[1, 1, 9], [2, 2, 2]].map fun row => row.map Fl.fin)
    f := some ([1, 5].map Fl.fin) }

-- column 2 (sample 3) has 9 times the dry power at the low frequency and once at the high one
example : (stftClassification false (fun _ _ => .error .outOfModel)
    (List.replicate 5 (.fin 0)) 3 (.fin 7) (.fin 2) exArgs).map (·.1) =
    .ok [false, false, false, true, false] := by decide +kernel

example : (stftClassification false (fun _ _ => .error .outOfModel)
    (List.replicate 5 (.fin 0)) 3 (.fin 8) (.fin 2) exArgs).map (·.1) =
    .ok [false, false, false, false, false] := by decide +kernel

-- the hypotheses of `C56_value` hold for it
example : dryMeanOf ((5 - 3) / 2) 1 3 ([1, 1, 9] : List ℚ) = 1 ∧
    dryMeanOf ((5 - 3) / 2) 1 3 ([2, 2, 2] : List ℚ) = 2 ∧
    bandPower ([[1, 1, 9], [2, 2, 2]] : List (List ℚ)) 1 1 3 (bandK ([1, 5] : List ℚ) (· ≤ 2)) 2 = 9 := by
  decide +kernel

-- an empty dry period
example : (stftClassification false (fun _ _ => .error .outOfModel)
    (List.replicate 5 (.fin 0)) 3 (.fin (-100)) (.fin 2)
    { exArgs with tDryStart := some (-1) }).map (·.1) =
    .ok [false, false, false, false, false] := by decide +kernel

example : (stftClassification false (fun _ _ => .error .outOfModel)
    (List.replicate 5 (.fin 0)) 3 (.fin 7) (.fin 2) { exArgs with mirror := true }).map (·.1) =
    .error .nameError := by decide +kernel

end examples

end Verif.Props
