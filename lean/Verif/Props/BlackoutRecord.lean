import Verif.Props.Blackout
import Verif.Props.Gaps

/-!
# Property C174: blackout detection on records of a receiver that loses the signal in heavy rain
-/

namespace Verif.Props
open Verif Verif.Blackout

variable {K : Type} [Field K] [LinearOrder K] [IsStrictOrderedRing K]

/-- The record of `N` steps of a receiver with sensitivity `S`: no value while the level `L` is below `S` or the logger is `broken`,
otherwise the number `rec t` (the level with measurement errors, quantised). -/
noncomputable def received (N : ℕ) (S : K) (broken : ℕ → Prop) (L rec : ℕ → K) : List (Fl K) :=
  gapSeries N (fun t => L t < S ∨ broken t) rec

omit [IsStrictOrderedRing K] in
theorem received_nan {N : ℕ} {S : K} {broken : ℕ → Prop} {L rec : ℕ → K} {i : ℕ} :
    NanAt (received N S broken L rec) i ↔ i < N ∧ (L i < S ∨ broken i) := by
  classical
  constructor
  · intro h
    have hi : i < N := by simpa [received, gapSeries_length] using h.lt
    refine ⟨hi, ?_⟩
    obtain ⟨x, hx, hn⟩ := h
    unfold received at hx
    rw [gapSeries_get _ _ hi] at hx
    by_contra hc
    rw [if_neg hc] at hx
    obtain rfl := Option.some.inj hx
    cases hn
  · rintro ⟨hi, h⟩
    refine ⟨.nan, ?_, rfl⟩
    unfold received
    rw [gapSeries_get _ _ hi, if_pos h]

omit [IsStrictOrderedRing K] in
theorem received_below {N : ℕ} {S thr : K} {broken : ℕ → Prop} {L rec : ℕ → K} {i : ℕ} :
    BelowAt (received N S broken L rec) (.fin thr) i ↔ i < N ∧ ¬ (L i < S ∨ broken i) ∧ rec i < thr := by
  classical
  constructor
  · intro h
    have hi : i < N := by simpa [received, gapSeries_length] using h.lt
    have hnn : ¬ (L i < S ∨ broken i) := fun hc => below_not_nan h (received_nan.mpr ⟨hi, hc⟩)
    refine ⟨hi, hnn, ?_⟩
    obtain ⟨x, hx, hb⟩ := h
    unfold received at hx
    rw [gapSeries_get _ _ hi, if_neg hnn] at hx
    obtain rfl := Option.some.inj hx
    simpa using hb
  · rintro ⟨hi, h, hlt⟩
    refine ⟨.fin (rec i), ?_, by simpa using hlt⟩
    unfold received
    rw [gapSeries_get _ _ hi, if_neg h]

/-- **C174** A level that changes by at most `Δ` per step, recorded with errors up to `δ`, and a threshold that is at least `Δ + δ` above the sensitivity: a gap that begins (ends)
with a level below the sensitivity is reported in full if there are two values before (after) it; a gap at whose ends the level is at
least `Δ + δ` above the threshold is not reported at all. -/
theorem C174_gaps (N : ℕ) (S thr Δ δ : K) (broken : ℕ → Prop) (L rec : ℕ → K) (hL : ∀ t, t + 1 < N → |L (t + 1) - L t| ≤ Δ)
    (hrec : ∀ t < N, |rec t - L t| ≤ δ) (hthr : S + Δ + δ ≤ thr) :
    ∃ mask, twoSidedMask (received N S broken L rec) (.fin thr) = .ok mask ∧ mask.length = N ∧
      ∀ a b, a ≤ b → b + 1 < N → 0 < a → (∀ k, a ≤ k → k ≤ b → L k < S ∨ broken k) →
        ¬ (L (a - 1) < S ∨ broken (a - 1)) → ¬ (L (b + 1) < S ∨ broken (b + 1)) →
        (L a < S → 2 ≤ a → ¬ (L (a - 2) < S ∨ broken (a - 2)) → ∀ i, a ≤ i → i ≤ b → mask[i]? = some true) ∧
        (L b < S → b + 2 < N → ¬ (L (b + 2) < S ∨ broken (b + 2)) → ∀ i, a ≤ i → i ≤ b → mask[i]? = some true) ∧
        (thr + Δ + δ ≤ L a → thr + Δ + δ ≤ L b → ∀ i, a ≤ i → i ≤ b → mask[i]? = some false) := by
  obtain ⟨mask, hm, hlen, hnan, hg⟩ := C12_two_sided_gap (received N S broken L rec) (.fin thr)
  have hN : (received N S broken L rec).length = N := by unfold received; rw [gapSeries_length]
  rw [hN] at hlen
  refine ⟨mask, hm, hlen, fun a b hab hbN ha hmiss hbefore hafter => ?_⟩
  have hgap : IsGap (received N S broken L rec) a b :=
    ⟨hab, fun k h1 h2 => received_nan.mpr ⟨by omega, hmiss k h1 h2⟩, .inr fun h => hbefore (received_nan.mp h).2,
      fun h => hafter (received_nan.mp h).2⟩
  have hla := abs_le.mp (hL (a - 1) (by omega))
  rw [show a - 1 + 1 = a by omega] at hla
  have hlb := abs_le.mp (hL b hbN)
  have hra := abs_le.mp (hrec (a - 1) (by omega))
  have hrb := abs_le.mp (hrec (b + 1) hbN)
  refine ⟨fun hlow h2 hv i h3 h4 => ?_, fun hlow h2 hv i h3 h4 => ?_, fun hha hhb i h3 h4 => ?_⟩
  · refine (hg a b i hgap h3 h4).mpr (.inl ⟨ha, received_below.mpr ⟨by omega, hbefore, by linarith [hla.1, hra.2]⟩, fun h => hv ?_⟩)
    have e : cycPrev (received N S broken L rec).length (a - 1) = a - 2 := by unfold cycPrev; rw [if_neg (by omega)]; omega
    rw [e] at h
    exact (received_nan.mp h).2
  · refine (hg a b i hgap h3 h4).mpr (.inr ⟨received_below.mpr ⟨hbN, hafter, by linarith [hlb.2, hrb.2]⟩, fun h => hv ?_⟩)
    have e : cycNext (received N S broken L rec).length (b + 1) = b + 2 := by unfold cycNext; rw [hN, if_neg (by omega)]
    rw [e] at h
    exact (received_nan.mp h).2
  · have hi : i < mask.length := by omega
    have hno : ¬ mask[i]? = some true := by
      rw [hg a b i hgap h3 h4]
      rintro (⟨-, hb, -⟩ | ⟨hb, -⟩)
      · linarith [(received_below.mp hb).2.2, hla.2, hra.1]
      · linarith [(received_below.mp hb).2.2, hlb.1, hrb.1]
    rw [List.getElem?_eq_getElem hi] at hno ⊢
    cases hv : mask[i]
    · rfl
    · rw [hv] at hno; exact absurd rfl hno

/-- **C174** A record without other failures whose first two and last two values exist and in which no value is alone between two gaps: the
mask marks exactly the steps at which the level was below the sensitivity. -/
theorem C174_all (N : ℕ) (S thr Δ δ : K) (L rec : ℕ → K) (hL : ∀ t, t + 1 < N → |L (t + 1) - L t| ≤ Δ)
    (hrec : ∀ t < N, |rec t - L t| ≤ δ) (hthr : S + Δ + δ ≤ thr)
    (h0 : S ≤ L 0) (hlast : S ≤ L (N - 1)) (h1 : S ≤ L 1)
    (halone : ∀ t, 0 < t → t + 1 < N → L (t - 1) < S → S ≤ L t → S ≤ L (t + 1)) :
    ∃ mask, twoSidedMask (received N S (fun _ => False) L rec) (.fin thr) = .ok mask ∧ mask.length = N ∧
      ∀ t < N, mask[t]? = some (decide (L t < S)) := by
  obtain ⟨mask, hm, hlen, hg⟩ := C174_gaps N S thr Δ δ (fun _ => False) L rec hL hrec hthr
  refine ⟨mask, hm, hlen, fun t ht => ?_⟩
  simp only [or_false] at hg
  by_cases hlow : L t < S
  · rw [decide_eq_true hlow]
    obtain ⟨a, b, hgap, ha, hb⟩ := exists_gap (received N S (fun _ => False) L rec) t (received_nan.mpr ⟨ht, .inl hlow⟩)
    obtain ⟨hab, hall, hbef, haft⟩ := hgap
    have miss : ∀ k, a ≤ k → k ≤ b → k < N ∧ L k < S := fun k k1 k2 => by
      have := received_nan.mp (hall k k1 k2)
      exact ⟨this.1, by simpa using this.2⟩
    have ha0 : a ≠ 0 := by
      rintro rfl
      exact absurd (miss 0 le_rfl (by omega)).2 (not_lt.mpr h0)
    have ha1 : a ≠ 1 := by
      rintro rfl
      exact absurd (miss 1 le_rfl (by omega)).2 (not_lt.mpr h1)
    have hbN : b + 1 < N := by
      by_contra hc
      have hb1 := miss b (by omega) le_rfl
      have : b = N - 1 := by omega
      rw [this] at hb1
      exact absurd hb1.2 (not_lt.mpr hlast)
    have hbef' : ¬ L (a - 1) < S := by
      rcases hbef with h | h
      · exact absurd h ha0
      · exact fun hc => h (received_nan.mpr ⟨by omega, .inl hc⟩)
    have haft' : ¬ L (b + 1) < S := fun hc => haft (received_nan.mpr ⟨hbN, .inl hc⟩)
    refine (hg a b hab hbN (by omega) (fun k k1 k2 => (miss k k1 k2).2) hbef' haft').1 (miss a le_rfl hab).2 (by omega) ?_ t ha hb
    intro hc
    have := halone (a - 1) (by omega) (by omega) (by rw [show a - 1 - 1 = a - 2 by omega]; exact hc) (not_lt.mp hbef')
    rw [show a - 1 + 1 = a by omega] at this
    exact absurd (miss a le_rfl hab).2 (not_lt.mpr this)
  · rw [decide_eq_false hlow]
    obtain ⟨m, hm', -, hnan, -⟩ := C12_two_sided_gap (received N S (fun _ => False) L rec) (.fin thr)
    rw [hm] at hm'
    obtain rfl := Except.ok.inj hm'
    rw [List.getElem?_eq_getElem (by omega)]
    cases hv : mask[t]'(by omega)
    · rfl
    · exact absurd (received_nan.mp (hnan t (by rw [List.getElem?_eq_getElem (by omega), hv]))).2 (by simpa using hlow)

/-- A level that falls from -50 to -90 dBm and rises again in steps of 10 dB, a receiver that needs -80 dBm, a record that is half
a dB too high, and threshold -69 dBm. -/
example : ∃ mask, twoSidedMask (received 9 (-80 : ℚ) (fun _ => False) (fun t => |10 * (t : ℚ) - 40| - 90)
      fun t => |10 * (t : ℚ) - 40| - 89.5) (.fin (-69)) = .ok mask ∧
    ∀ t : ℕ, t < 9 → mask[t]? = some (decide (|10 * (t : ℚ) - 40| - 90 < -80)) := by
  obtain ⟨mask, h1, -, h2⟩ := C174_all 9 (-80 : ℚ) (-69) 10 1 (fun t => |10 * (t : ℚ) - 40| - 90) (fun t => |10 * (t : ℚ) - 40| - 89.5) (by
    intro t _
    have h := abs_abs_sub_abs_le (10 * ((t + 1 : ℕ) : ℚ) - 40) (10 * (t : ℚ) - 40)
    rw [show (10 * ((t + 1 : ℕ) : ℚ) - 40) - (10 * (t : ℚ) - 40) = 10 by push_cast; ring] at h
    rw [show |10 * ((t + 1 : ℕ) : ℚ) - 40| - 90 - (|10 * (t : ℚ) - 40| - 90) = |10 * ((t + 1 : ℕ) : ℚ) - 40| - |10 * (t : ℚ) - 40| by ring]
    simpa using h) (by
    intro t _
    rw [show |10 * (t : ℚ) - 40| - 89.5 - (|10 * (t : ℚ) - 40| - 90) = 1 / 2 by ring]
    norm_num) (by norm_num) (by norm_num) (by norm_num [abs_of_pos]) (by norm_num [abs_of_neg]) (by
    intro t h0 ht
    have : t = 1 ∨ t = 2 ∨ t = 3 ∨ t = 4 ∨ t = 5 ∨ t = 6 ∨ t = 7 := by omega
    rcases this with rfl | rfl | rfl | rfl | rfl | rfl | rfl <;> norm_num [abs_of_neg, abs_of_pos])
  exact ⟨mask, h1, h2⟩

/-- A sudden fall from -50 dBm to below the sensitivity and back is not reported. -/
example : twoSidedMask [Fl.fin (-50 : ℚ), .fin (-50), .nan, .nan, .fin (-50), .fin (-50)] (.fin (-69)) =
    .ok [false, false, false, false, false, false] := by decide +kernel

end Verif.Props
