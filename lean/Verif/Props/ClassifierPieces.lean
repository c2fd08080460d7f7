import Verif.Props.Mlp
import Verif.Props.Torch
import Verif.Props.TfScale
import Verif.Props.NearbyChain

/-!
# Property C138: what the wet/dry classifications by networks depend on

The MLP ignores level offsets and, like the pytorch network, can be applied to a record in overlapping
pieces; the tensorflow pipeline ignores units and offsets common to all links but scales with all data of the
call.
-/

namespace Verif.Props
open Verif Verif.KR Verif.Mlp

/-! ## The MLP classifiers -/

section mlp
variable {K : Type} [Field K] [LinearOrder K]

open Classical in
/-- value at step `i` made from the series `a`, `b` (differences or detrended samples) -/
noncomputable def mlpCell (f : List (Fl K) → Fl K × Fl K) (before : Nat) (a b : List (Fl K)) (i : Nat) : Fl K × Fl K :=
  if i < before ∨ before + (a.length - 39) ≤ i then (.nan, .nan)
  else if ∃ j < 40, rd a (i - before + j) = .nan ∨ rd b (i - before + j) = .nan then (.nan, .nan)
  else f (((List.range 40).map fun j => rd a (i - before + j)) ++ (List.range 40).map fun j => rd b (i - before + j))

theorem mlp_cells (clf : Clf (Fl K)) (f : List (Fl K) → Fl K × Fl K)
    (hclf : ∀ rows, (∀ row ∈ rows, ∀ x ∈ row, ∃ k, x = .fin k) → clf rows = .ok (rows.map f))
    (before after : Nat) (a b : List (Fl K)) (hl : a.length = b.length) (hw : 40 ≤ a.length)
    (ha : ∀ x ∈ a, IsSample x) (hb : ∀ x ∈ b, IsSample x) :
    ∃ x, design before after 40 a b = .ok x ∧
      predictRows clf x = .ok ((List.range (before + (a.length - 39) + after)).map (mlpCell f before a b)) := by
  obtain ⟨x, out, e1, e2, e3, e4⟩ := mlp_rows clf f hclf before after a b hl hw ha hb
  refine ⟨x, e1, ?_⟩
  rw [e2]
  congr 1
  apply List.ext_getElem?
  intro i
  by_cases hi : i < out.length
  · rw [List.getElem?_map, List.getElem?_range (by omega), List.getElem?_eq_getElem hi]
    simp only [Option.map_some, Option.some.injEq]
    obtain ⟨a1, a2⟩ := e4 i _ (List.getElem?_eq_getElem hi)
    unfold mlpCell
    split_ifs with c d
    · exact a1 c
    · exact (a2 (i - before) (by omega) (by omega)).1 d
    · refine (a2 (i - before) (by omega) (by omega)).2 fun j hj => ?_
      exact ⟨fun h => d ⟨j, hj, Or.inl h⟩, fun h => d ⟨j, hj, Or.inr h⟩⟩
  · rw [List.getElem?_eq_none (by omega), List.getElem?_eq_none (by simp; omega)]

theorem mlpCell_congr (f : List (Fl K) → Fl K × Fl K) (before : Nat) (a b a' b' : List (Fl K)) (i i' : Nat)
    (hr : (i < before ∨ before + (a.length - 39) ≤ i) ↔ (i' < before ∨ before + (a'.length - 39) ≤ i'))
    (h : ¬ (i < before ∨ before + (a.length - 39) ≤ i) → ∀ j < 40,
      rd a (i - before + j) = rd a' (i' - before + j) ∧ rd b (i - before + j) = rd b' (i' - before + j)) :
    mlpCell f before a b i = mlpCell f before a' b' i' := by
  unfold mlpCell
  by_cases c : i < before ∨ before + (a.length - 39) ≤ i
  · rw [if_pos c, if_pos (hr.mp c)]
  · rw [if_neg c, if_neg (fun h => c (hr.mpr h))]
    have h := h c
    have e : (∃ j < 40, rd a (i - before + j) = .nan ∨ rd b (i - before + j) = .nan) ↔
        (∃ j < 40, rd a' (i' - before + j) = .nan ∨ rd b' (i' - before + j) = .nan) := by
      constructor
      · rintro ⟨j, hj, x⟩
        exact ⟨j, hj, by rw [← (h j hj).1, ← (h j hj).2]; exact x⟩
      · rintro ⟨j, hj, x⟩
        exact ⟨j, hj, by rw [(h j hj).1, (h j hj).2]; exact x⟩
    by_cases d : ∃ j < 40, rd a (i - before + j) = .nan ∨ rd b (i - before + j) = .nan
    · rw [if_pos d, if_pos (e.mp d)]
    · rw [if_neg d, if_neg (fun h => d (e.mpr h))]
      congr 2
      · exact List.map_congr_left fun j hj => (h j (List.mem_range.mp hj)).1
      · exact List.map_congr_left fun j hj => (h j (List.mem_range.mp hj)).2

theorem mlp_rd_take (xs : List (Fl K)) (m i : Nat) (h : i < m) : rd (xs.take m) i = rd xs i := by
  simp [rd, List.getD_eq_getElem?_getD, List.getElem?_take_of_lt h]

theorem mlp_rd_drop (xs : List (Fl K)) (m i : Nat) : rd (xs.drop m) i = rd xs (m + i) := by
  simp [rd, List.getD_eq_getElem?_getD, List.getElem?_drop]

theorem slice_of_drop {α : Type} (xs : List α) (q a b : Nat) : slice (xs.drop q) a b = slice xs (q + a) (q + b) := by
  unfold slice
  rw [List.take_drop, List.drop_drop]

theorem slice_of_map {α β : Type} (g : α → β) (xs : List α) (a b : Nat) :
    slice (xs.map g) a b = (slice xs a b).map g := by
  unfold slice
  rw [← List.map_take, ← List.map_drop]

theorem mlp_length_diff (c : List (Fl K)) : (diff c).length = c.length - 1 := by simp [diff]

theorem mlp_diff_samples (c : List (Fl K)) (hc : ∀ x ∈ c, IsSample x) : ∀ x ∈ diff c, IsSample x := by
  intro x hx
  unfold diff at hx
  obtain ⟨k, _, rfl⟩ := List.mem_map.mp hx
  exact (isSample_rd hc _).sub (isSample_rd hc _)

theorem mlp_online (M : Models (Fl K)) (sel : String) (clf : Clf (Fl K))
    (hsel : sel = "rg_online" ∧ clf = M.rgOnline ∨ sel = "rad_online" ∧ clf = M.radOnline)
    (f : List (Fl K) → Fl K × Fl K)
    (hclf : ∀ rows, (∀ row ∈ rows, ∀ x ∈ row, ∃ k, x = .fin k) → clf rows = .ok (rows.map f))
    (ch1 ch2 : List (Fl K)) (hl : ch1.length = ch2.length) (hn : 41 ≤ ch1.length)
    (h1 : ∀ x ∈ ch1, IsSample x) (h2 : ∀ x ∈ ch2, IsSample x) :
    mlpWetDry M ch1 ch2 sel = .ok ((List.range ch1.length).map (mlpCell f 40 (diff ch1) (diff ch2))) := by
  obtain ⟨x, e1, e2⟩ := mlp_cells clf f hclf 40 0 (diff ch1) (diff ch2)
    (by rw [mlp_length_diff, mlp_length_diff, hl]) (by rw [mlp_length_diff]; omega)
    (mlp_diff_samples _ h1) (mlp_diff_samples _ h2)
  rw [mlp_length_diff, show 40 + (ch1.length - 1 - 39) + 0 = ch1.length by omega] at e2
  unfold mlpWetDry selectModel
  rcases hsel with ⟨rfl, rfl⟩ | ⟨rfl, rfl⟩
  · simp only [String.reduceEq, if_false, if_true, or_self, e1, e2]
  · simp only [String.reduceEq, if_false, if_true, or_self, e1, e2]

/-- **C138** The online models can be applied in pieces that overlap by 40 steps: the result for the first `m` steps,
followed by the result for the record from step `m-40` on without its first 40 values, is the result for the whole
record. -/
theorem C138_mlp_online_pieces (M : Models (Fl K)) (sel : String) (clf : Clf (Fl K))
    (hsel : sel = "rg_online" ∧ clf = M.rgOnline ∨ sel = "rad_online" ∧ clf = M.radOnline)
    (f : List (Fl K) → Fl K × Fl K)
    (hclf : ∀ rows, (∀ row ∈ rows, ∀ x ∈ row, ∃ k, x = .fin k) → clf rows = .ok (rows.map f))
    (ch1 ch2 : List (Fl K)) (hl : ch1.length = ch2.length)
    (h1 : ∀ x ∈ ch1, IsSample x) (h2 : ∀ x ∈ ch2, IsSample x)
    (m : Nat) (hm : 41 ≤ m) (hmn : m < ch1.length) :
    ∃ out1 out2, mlpWetDry M (ch1.take m) (ch2.take m) sel = .ok out1 ∧
      mlpWetDry M (ch1.drop (m - 40)) (ch2.drop (m - 40)) sel = .ok out2 ∧
      mlpWetDry M ch1 ch2 sel = .ok (out1 ++ out2.drop 40) := by
  have t1 : ∀ x ∈ ch1.take m, IsSample x := fun x hx => h1 x (List.mem_of_mem_take hx)
  have t2 : ∀ x ∈ ch2.take m, IsSample x := fun x hx => h2 x (List.mem_of_mem_take hx)
  have d1 : ∀ x ∈ ch1.drop (m - 40), IsSample x := fun x hx => h1 x (List.mem_of_mem_drop hx)
  have d2 : ∀ x ∈ ch2.drop (m - 40), IsSample x := fun x hx => h2 x (List.mem_of_mem_drop hx)
  refine ⟨_, _, mlp_online M sel clf hsel f hclf _ _ (by simp [hl]) (by simp; omega) t1 t2,
    mlp_online M sel clf hsel f hclf _ _ (by simp [hl]) (by simp; omega) d1 d2, ?_⟩
  rw [mlp_online M sel clf hsel f hclf ch1 ch2 hl (by omega) h1 h2]
  congr 1
  have hrd : ∀ (c : List (Fl K)) (k : Nat), k + 1 < c.length →
      rd (diff c) k = rd c (k + 1) -ᶠ rd c k := fun c k hk => rd_of_getElem? (diff_get c k hk)
  have lt : (ch1.take m).length = m := by simp; omega
  have lt2 : (ch2.take m).length = m := by simp; omega
  have ld : (ch1.drop (m - 40)).length = ch1.length - (m - 40) := by simp
  have ld2 : (ch2.drop (m - 40)).length = ch1.length - (m - 40) := by simp [hl]
  apply List.ext_getElem?
  intro i
  by_cases hi : i < ch1.length
  · rw [List.getElem?_map, List.getElem?_range hi]
    by_cases him : i < m
    · rw [List.getElem?_append_left (by simp; omega), List.getElem?_map, List.getElem?_range (by omega)]
      simp only [Option.map_some, Option.some.injEq]
      apply mlpCell_congr
      · rw [mlp_length_diff, mlp_length_diff, lt]; omega
      · intro c j hj
        rw [mlp_length_diff] at c
        rw [hrd _ _ (by omega), hrd _ _ (by omega), hrd _ _ (by omega), hrd _ _ (by omega),
          mlp_rd_take _ _ _ (by omega), mlp_rd_take _ _ _ (by omega), mlp_rd_take _ _ _ (by omega), mlp_rd_take _ _ _ (by omega)]
        exact ⟨rfl, rfl⟩
    · rw [List.getElem?_append_right (by simp; omega), List.getElem?_drop, List.getElem?_map,
        List.getElem?_range (by simp; omega)]
      simp only [Option.map_some, Option.some.injEq, List.length_map, List.length_range, lt]
      apply mlpCell_congr
      · rw [mlp_length_diff, mlp_length_diff, ld]; omega
      · intro c j hj
        rw [mlp_length_diff] at c
        rw [hrd _ _ (by omega), hrd _ _ (by omega), hrd _ _ (by omega), hrd _ _ (by omega),
          mlp_rd_drop, mlp_rd_drop, mlp_rd_drop, mlp_rd_drop]
        rw [show m - 40 + (40 + (i - m) - 40 + j + 1) = i - 40 + j + 1 by omega,
          show m - 40 + (40 + (i - m) - 40 + j) = i - 40 + j by omega]
        exact ⟨rfl, rfl⟩
  · rw [List.getElem?_eq_none (by simp; omega), List.getElem?_eq_none (by simp; omega)]

section offline
variable [IsStrictOrderedRing K]

theorem mlp_length_detrend (c : List (Fl K)) : (detrend c).length = c.length := by simp [detrend, centeredMedian]

theorem mlp_detrend_samples (c : List (Fl K)) (hc : ∀ x ∈ c, IsSample x) : ∀ x ∈ detrend c, IsSample x := by
  intro x hx
  obtain ⟨t, ht⟩ := List.mem_iff_getElem?.mp hx
  have htl : t < c.length := by
    have := (List.getElem?_eq_some_iff.mp ht).1
    rwa [mlp_length_detrend] at this
  rw [← rd_of_getElem? ht]
  exact (detrend_rd c hc t htl).1

omit [IsStrictOrderedRing K] in
theorem mlp_detrend_rd (c : List (Fl K)) (t : Nat) (ht : t < c.length) :
    rd (detrend c) t = rd c t -ᶠ (if (valid (slice c (t + 360 - 720) (t + 360))).length < 120 then .nan
      else median (valid (slice c (t + 360 - 720) (t + 360)))) := by
  apply rd_of_getElem?
  unfold detrend centeredMedian
  rw [List.getElem?_zipWith, getElem?_eq_rd ht, List.getElem?_map, List.getElem?_range ht]
  simp only [Option.map_some]
  rw [show t + (12 * 60 - 1) / 2 + 1 = t + 360 by omega, show 12 * 60 = 720 by norm_num]
  rfl

theorem mlp_offline (M : Models (Fl K)) (sel : String) (clf : Clf (Fl K))
    (hsel : sel = "rg" ∧ clf = M.rg ∨ sel = "rad" ∧ clf = M.rad)
    (f : List (Fl K) → Fl K × Fl K)
    (hclf : ∀ rows, (∀ row ∈ rows, ∀ x ∈ row, ∃ k, x = .fin k) → clf rows = .ok (rows.map f))
    (ch1 ch2 : List (Fl K)) (hl : ch1.length = ch2.length) (hn : 361 ≤ ch1.length)
    (h1 : ∀ x ∈ ch1, IsSample x) (h2 : ∀ x ∈ ch2, IsSample x) :
    mlpWetDry M ch1 ch2 sel = .ok ((List.range ch1.length).map (mlpCell f 20 (detrend ch1) (detrend ch2))) := by
  obtain ⟨x, e1, e2⟩ := mlp_cells clf f hclf 20 19 (detrend ch1) (detrend ch2)
    (by rw [mlp_length_detrend, mlp_length_detrend, hl]) (by rw [mlp_length_detrend]; omega)
    (mlp_detrend_samples _ h1) (mlp_detrend_samples _ h2)
  rw [mlp_length_detrend, show 20 + (ch1.length - 39) + 19 = ch1.length by omega] at e2
  unfold mlpWetDry selectModel
  rcases hsel with ⟨rfl, rfl⟩ | ⟨rfl, rfl⟩
  · simp only [String.reduceEq, if_true, or_true]
    rw [if_neg (by omega), show 40 / 2 = 20 by norm_num, show 20 - 1 = 19 by norm_num, e1]
    exact e2
  · simp only [String.reduceEq, if_true, if_false, true_or]
    rw [if_neg (by omega), show 40 / 2 = 20 by norm_num, show 20 - 1 = 19 by norm_num, e1]
    exact e2

/-- **C138** The offline models can be applied in pieces that overlap by 758 steps (the detrending looks 6 hours to
both sides): the first `m` values for the first `m+378` steps, followed by the result for the record from step `m-380`
on without its first 380 values, is the result for the whole record. -/
theorem C138_mlp_offline_pieces (M : Models (Fl K)) (sel : String) (clf : Clf (Fl K))
    (hsel : sel = "rg" ∧ clf = M.rg ∨ sel = "rad" ∧ clf = M.rad)
    (f : List (Fl K) → Fl K × Fl K)
    (hclf : ∀ rows, (∀ row ∈ rows, ∀ x ∈ row, ∃ k, x = .fin k) → clf rows = .ok (rows.map f))
    (ch1 ch2 : List (Fl K)) (hl : ch1.length = ch2.length)
    (h1 : ∀ x ∈ ch1, IsSample x) (h2 : ∀ x ∈ ch2, IsSample x)
    (m : Nat) (hm : 380 ≤ m) (hmn : m + 378 ≤ ch1.length) :
    ∃ out1 out2, mlpWetDry M (ch1.take (m + 378)) (ch2.take (m + 378)) sel = .ok out1 ∧
      mlpWetDry M (ch1.drop (m - 380)) (ch2.drop (m - 380)) sel = .ok out2 ∧
      mlpWetDry M ch1 ch2 sel = .ok (out1.take m ++ out2.drop 380) := by
  have t1 : ∀ x ∈ ch1.take (m + 378), IsSample x := fun x hx => h1 x (List.mem_of_mem_take hx)
  have t2 : ∀ x ∈ ch2.take (m + 378), IsSample x := fun x hx => h2 x (List.mem_of_mem_take hx)
  have d1 : ∀ x ∈ ch1.drop (m - 380), IsSample x := fun x hx => h1 x (List.mem_of_mem_drop hx)
  have d2 : ∀ x ∈ ch2.drop (m - 380), IsSample x := fun x hx => h2 x (List.mem_of_mem_drop hx)
  refine ⟨_, _, mlp_offline M sel clf hsel f hclf _ _ (by simp [hl]) (by simp; omega) t1 t2,
    mlp_offline M sel clf hsel f hclf _ _ (by simp [hl]) (by simp; omega) d1 d2, ?_⟩
  rw [mlp_offline M sel clf hsel f hclf ch1 ch2 hl (by omega) h1 h2]
  congr 1
  have lt : (ch1.take (m + 378)).length = m + 378 := by simp; omega
  have ld : (ch1.drop (m - 380)).length = ch1.length - (m - 380) := by simp
  have ht : ∀ c : List (Fl K), c.length = ch1.length → ∀ t, t + 360 ≤ m + 378 →
      rd (detrend c) t = rd (detrend (c.take (m + 378))) t := by
    intro c hc t htt
    rw [mlp_detrend_rd _ _ (by omega), mlp_detrend_rd _ _ (by simp; omega), mlp_rd_take _ _ _ (by omega)]
    have : slice (c.take (m + 378)) (t + 360 - 720) (t + 360) = slice c (t + 360 - 720) (t + 360) := by
      unfold slice
      rw [List.take_take, min_eq_left (by omega)]
    rw [this]
  have hd : ∀ c : List (Fl K), c.length = ch1.length → ∀ t, t < c.length → m - 20 ≤ t →
      rd (detrend c) t = rd (detrend (c.drop (m - 380))) (t - (m - 380)) := by
    intro c hc t htt hmt
    rw [mlp_detrend_rd _ _ htt, mlp_detrend_rd _ _ (by simp; omega), mlp_rd_drop,
      show m - 380 + (t - (m - 380)) = t by omega]
    have : slice (c.drop (m - 380)) (t - (m - 380) + 360 - 720) (t - (m - 380) + 360) =
        slice c (t + 360 - 720) (t + 360) := by
      rw [slice_of_drop, show m - 380 + (t - (m - 380) + 360 - 720) = t + 360 - 720 by omega,
        show m - 380 + (t - (m - 380) + 360) = t + 360 by omega]
    rw [this]
  apply List.ext_getElem?
  intro i
  by_cases hi : i < ch1.length
  · rw [List.getElem?_map, List.getElem?_range hi]
    by_cases him : i < m
    · rw [List.getElem?_append_left (by simp; omega), List.getElem?_take_of_lt him, List.getElem?_map,
        List.getElem?_range (by omega)]
      simp only [Option.map_some, Option.some.injEq]
      apply mlpCell_congr
      · rw [mlp_length_detrend, mlp_length_detrend, lt]; omega
      · intro c j hj
        exact ⟨ht ch1 rfl _ (by omega), ht ch2 hl.symm _ (by omega)⟩
    · rw [List.getElem?_append_right (by simp; omega), List.getElem?_drop, List.getElem?_map,
        List.getElem?_range (by simp; omega)]
      have hlen : (((List.range (ch1.take (m + 378)).length).map
          (mlpCell f 20 (detrend (ch1.take (m + 378))) (detrend (ch2.take (m + 378))))).take m).length = m := by
        simp; omega
      simp only [Option.map_some, Option.some.injEq, hlen]
      apply mlpCell_congr
      · rw [mlp_length_detrend, mlp_length_detrend, ld]; omega
      · intro c j hj
        rw [mlp_length_detrend] at c
        rw [hd ch1 rfl _ (by omega) (by omega), hd ch2 hl.symm _ (by omega) (by omega),
          show i - 20 + j - (m - 380) = 380 + (i - m) - 20 + j by omega]
        exact ⟨rfl, rfl⟩
  · rw [List.getElem?_eq_none (by simp; omega), List.getElem?_eq_none (by simp; omega)]

omit [IsStrictOrderedRing K] in
theorem mlp_sub_shift (x y : Fl K) (hx : IsSample x) (hy : IsSample y) (c : K) :
    (x +ᶠ .fin c) -ᶠ (y +ᶠ .fin c) = x -ᶠ y := by
  rcases hx with rfl | ⟨a, rfl⟩
  · simp
  · rcases hy with rfl | ⟨b, rfl⟩
    · simp
    · simp

omit [IsStrictOrderedRing K] in
theorem mlp_shift_nan (x : Fl K) (hx : IsSample x) (c : K) : isNaN (x +ᶠ .fin c) = isNaN x := by
  rcases hx with rfl | ⟨a, rfl⟩ <;> simp

omit [IsStrictOrderedRing K] in
theorem mlp_rd_shift (ch : List (Fl K)) (c : K) (t : Nat) (ht : t < ch.length) :
    rd (ch.map fun x => x +ᶠ .fin c) t = rd ch t +ᶠ .fin c := by
  apply rd_of_getElem?
  rw [List.getElem?_map, getElem?_eq_rd ht]
  rfl

theorem mlp_diff_shift (ch : List (Fl K)) (h : ∀ x ∈ ch, IsSample x) (c : K) :
    diff (ch.map fun x => x +ᶠ .fin c) = diff ch := by
  unfold diff
  rw [List.length_map]
  apply List.map_congr_left
  intro k hk
  rw [List.mem_range] at hk
  rw [mlp_rd_shift _ _ _ (by omega), mlp_rd_shift _ _ _ (by omega),
    mlp_sub_shift _ _ (isSample_rd h _) (isSample_rd h _)]

omit [IsStrictOrderedRing K] in
theorem mlp_valid_shift (l : List (Fl K)) (h : ∀ x ∈ l, IsSample x) (c : K) :
    valid (l.map fun x => x +ᶠ .fin c) = (valid l).map fun x => x +ᶠ .fin c := by
  unfold valid
  rw [List.filter_map]
  congr 1
  apply List.filter_congr
  intro x hx
  simp only [Function.comp_apply, mlp_shift_nan x (h x hx)]

theorem mlp_detrend_shift (ch : List (Fl K)) (h : ∀ x ∈ ch, IsSample x) (c : K) :
    detrend (ch.map fun x => x +ᶠ .fin c) = detrend ch := by
  apply List.ext_getElem?
  intro t
  by_cases ht : t < ch.length
  · rw [getElem?_eq_rd (by rw [mlp_length_detrend]; simpa using ht),
      getElem?_eq_rd (by rw [mlp_length_detrend]; exact ht)]
    congr 1
    rw [mlp_detrend_rd _ _ (by simpa using ht), mlp_detrend_rd _ _ ht, mlp_rd_shift _ _ _ ht]
    have hs : ∀ x ∈ slice ch (t + 360 - 720) (t + 360), IsSample x := fun x hx =>
      h x (List.mem_of_mem_take (List.mem_of_mem_drop hx))
    have hv : valid (slice (ch.map fun x => x +ᶠ .fin c) (t + 360 - 720) (t + 360)) =
        (valid (slice ch (t + 360 - 720) (t + 360))).map fun x => x +ᶠ .fin c := by
      rw [slice_of_map]
      exact mlp_valid_shift _ hs c
    have hfin : ∀ x ∈ valid (slice ch (t + 360 - 720) (t + 360)), ∃ r, x = Fl.fin r := by
      intro x hx
      unfold valid at hx
      obtain ⟨hx1, hx2⟩ := List.mem_filter.mp hx
      rcases hs x hx1 with rfl | hx
      · simp at hx2
      · exact hx
    rw [hv, List.length_map]
    split_ifs with hc
    · simp
    · rw [median_offset c _ hfin]
      have hm : IsSample (median (valid (slice ch (t + 360 - 720) (t + 360)))) := by
        refine Or.inr (median_fin (median_spec ?_ ?_) hfin)
        · intro h0
          rw [h0] at hc
          simp at hc
        · intro x hx
          obtain ⟨k, rfl⟩ := hfin x hx
          rfl
      exact mlp_sub_shift _ _ (isSample_rd h t) hm c
  · rw [List.getElem?_eq_none (by rw [mlp_length_detrend]; simpa using ht),
      List.getElem?_eq_none (by rw [mlp_length_detrend]; omega)]

/-- **C138** `mlp_wet_dry` ignores level offsets: with a constant added to a channel (a different one for each) it
gives the same probabilities (or the same error), for each model, whatever the classifiers are. -/
theorem C138_mlp_offset (M : Models (Fl K)) (sel : String) (ch1 ch2 : List (Fl K))
    (h1 : ∀ x ∈ ch1, IsSample x) (h2 : ∀ x ∈ ch2, IsSample x) (c1 c2 : K) :
    mlpWetDry M (ch1.map fun x => x +ᶠ .fin c1) (ch2.map fun x => x +ᶠ .fin c2) sel = mlpWetDry M ch1 ch2 sel := by
  unfold mlpWetDry
  rw [mlp_diff_shift ch1 h1, mlp_diff_shift ch2 h2, mlp_detrend_shift ch1 h1, mlp_detrend_shift ch2 h2,
    List.length_map, List.length_map]

end offline
end mlp

/-! ## The pytorch network -/

section cnn
open Verif.Torch
variable {ι τ α F : Type}

/-- `cnn_wd` written as one formula -/
theorem cnn_cells [DecidableEq ι] [DecidableEq τ] [PyFloat F] (net : List (List α) → List (List F))
    (f : List α → F) (hnet : ∀ batch, net batch = batch.map fun win => [f win]) (ws : Option Int)
    (w h : Nat) (hws : ws.getD 180 = w) (r : Int) (hr : r.tdiv 2 = h) (hh : 1 ≤ h) (hhw : h ≤ w)
    (b : Int) (hb : 1 ≤ b) (d : Data ι τ α) (hnd : d.ids.Nodup) (htd : d.times.Nodup)
    (hl : d.values.length = d.ids.length) (hs : ∀ s ∈ d.values, s.length = d.times.length)
    (hne : d.ids ≠ []) (hn : w ≤ d.times.length) :
    cnnWd net ws d b r = .ok ((List.range d.times.length).map fun t => d.values.map fun s =>
      if w ≤ t + h ∧ t + h ≤ d.times.length then f ((s.drop (t + h - w)).take w) else PyFloat.nan) := by
  obtain ⟨g, g1, g2, g3, g4⟩ := C52_placement net f hnet ws w h hws r hr hh hhw b hb d hnd htd hl hs hne hn
  rw [g1]
  congr 1
  apply List.ext_getElem?
  intro t
  by_cases ht : t < d.times.length
  · rw [List.getElem?_map, List.getElem?_range ht, List.getElem?_eq_getElem (by omega)]
    simp only [Option.map_some, Option.some.injEq]
    apply List.ext_getElem?
    intro c
    have hrl := g3 _ (List.getElem_mem (show t < g.length by omega))
    by_cases hc : c < d.values.length
    · rw [List.getElem?_map, List.getElem?_eq_getElem hc]
      exact g4 t c _ _ ht (List.getElem?_eq_getElem hc) (List.getElem?_eq_getElem (by omega))
    · rw [List.getElem?_eq_none (by omega), List.getElem?_eq_none (by simp; omega)]
  · rw [List.getElem?_eq_none (by omega), List.getElem?_eq_none (by simp; omega)]

/-- **C138** `cnn_wd` can be applied in pieces that overlap by one step less than the window `w`: with
`h = int(reflength/2)`, the values before step `m+1-h` of the first `m` steps, followed by those of the record from step
`m+1-w` on without its first `w-h` values, are the values of the whole record (all batch sizes). -/
theorem C138_cnn_pieces [DecidableEq ι] [DecidableEq τ] [PyFloat F] (net : List (List α) → List (List F))
    (f : List α → F) (hnet : ∀ batch, net batch = batch.map fun win => [f win]) (ws : Option Int)
    (w h : Nat) (hws : ws.getD 180 = w) (r : Int) (hr : r.tdiv 2 = h) (hh : 1 ≤ h) (hhw : h ≤ w)
    (b b1 b2 : Int) (hb : 1 ≤ b) (hb1 : 1 ≤ b1) (hb2 : 1 ≤ b2) (d : Data ι τ α) (hnd : d.ids.Nodup) (htd : d.times.Nodup)
    (hl : d.values.length = d.ids.length) (hs : ∀ s ∈ d.values, s.length = d.times.length)
    (hne : d.ids ≠ []) (m : Nat) (hwm : w ≤ m) (hmn : m < d.times.length) :
    ∃ g1 g2, cnnWd net ws ⟨d.ids, d.times.take m, d.values.map fun s => s.take m⟩ b1 r = .ok g1 ∧
      cnnWd net ws ⟨d.ids, d.times.drop (m + 1 - w), d.values.map fun s => s.drop (m + 1 - w)⟩ b2 r = .ok g2 ∧
      cnnWd net ws d b r = .ok (g1.take (m + 1 - h) ++ g2.drop (w - h)) := by
  have hdn : ∀ k, (d.times.drop k).Nodup := fun k => htd.sublist (List.drop_sublist _ _)
  refine ⟨_, _, cnn_cells net f hnet ws w h hws r hr hh hhw b1 hb1 ⟨d.ids, d.times.take m, d.values.map fun s => s.take m⟩ hnd
      (htd.sublist (List.take_sublist _ _)) (by simpa using hl) (by
        intro s hs'
        obtain ⟨s', h', rfl⟩ := List.mem_map.mp hs'
        simp [hs s' h']) hne (by simp; omega),
    cnn_cells net f hnet ws w h hws r hr hh hhw b2 hb2
      ⟨d.ids, d.times.drop (m + 1 - w), d.values.map fun s => s.drop (m + 1 - w)⟩ hnd (hdn _) (by simpa using hl) (by
        intro s hs'
        obtain ⟨s', h', rfl⟩ := List.mem_map.mp hs'
        simp [hs s' h']) hne (by simp; omega), ?_⟩
  rw [cnn_cells net f hnet ws w h hws r hr hh hhw b hb d hnd htd hl hs hne (by omega)]
  congr 1
  apply List.ext_getElem?
  intro t
  by_cases ht : t < d.times.length
  · rw [List.getElem?_map, List.getElem?_range ht]
    by_cases htm : t < m + 1 - h
    · rw [List.getElem?_append_left (by simp; omega), List.getElem?_take_of_lt htm, List.getElem?_map,
        List.getElem?_range (by simp; omega)]
      simp only [Option.map_some, Option.some.injEq, List.map_map]
      apply List.map_congr_left
      intro s hs'
      simp only [Function.comp_apply, List.length_take]
      by_cases c : w ≤ t + h
      · rw [if_pos ⟨c, by omega⟩, if_pos ⟨c, by omega⟩]
        congr 1
        rw [List.drop_take, List.take_take]
        congr 1
        omega
      · rw [if_neg (fun h => c h.1), if_neg (fun h => c h.1)]
    · rw [List.getElem?_append_right (by simp; omega), List.getElem?_drop, List.getElem?_map,
        List.getElem?_range (by simp; omega)]
      simp only [Option.map_some, Option.some.injEq, List.map_map, List.length_take, List.length_map,
        List.length_range, List.length_drop]
      rw [show min (m + 1 - h) (min m d.times.length) = m + 1 - h by omega,
        show w - h + (t - (m + 1 - h)) = t - (m + 1 - w) by omega]
      apply List.map_congr_left
      intro s hs'
      simp only [Function.comp_apply]
      by_cases c : t + h ≤ d.times.length
      · rw [if_pos ⟨by omega, c⟩, if_pos ⟨by omega, by omega⟩, List.drop_drop,
          show m + 1 - w + (t - (m + 1 - w) + h - w) = t + h - w by omega]
      · rw [if_neg (fun h => c h.2), if_neg (fun h => c (by omega))]
  · rw [List.getElem?_eq_none (by simp; omega), List.getElem?_eq_none (by simp; omega)]

/-- **C138** `cnn_wd` treats each link by itself: its column is the result for this link alone (under any id and time
stamps). -/
theorem C138_cnn_links {ι' τ' : Type} [DecidableEq ι] [DecidableEq τ] [DecidableEq ι'] [DecidableEq τ'] [PyFloat F]
    (net : List (List α) → List (List F))
    (f : List α → F) (hnet : ∀ batch, net batch = batch.map fun win => [f win]) (ws : Option Int)
    (w h : Nat) (hws : ws.getD 180 = w) (r : Int) (hr : r.tdiv 2 = h) (hh : 1 ≤ h) (hhw : h ≤ w)
    (b b1 : Int) (hb : 1 ≤ b) (hb1 : 1 ≤ b1) (d : Data ι τ α) (hnd : d.ids.Nodup) (htd : d.times.Nodup)
    (hl : d.values.length = d.ids.length) (hs : ∀ s ∈ d.values, s.length = d.times.length)
    (hn : w ≤ d.times.length) (c : Nat) (s : List α) (hc : d.values[c]? = some s)
    (id : ι') (times : List τ') (htd' : times.Nodup) (hlt : times.length = d.times.length) :
    ∃ g col, cnnWd net ws d b r = .ok g ∧ cnnWd net ws ⟨[id], times, [s]⟩ b1 r = .ok col ∧
      col = g.map fun row => row[c]?.toList := by
  have hne : d.ids ≠ [] := by
    intro h0
    rw [h0, List.length_nil, List.length_eq_zero_iff] at hl
    rw [hl] at hc
    cases hc
  have hsm : s ∈ d.values := List.mem_of_getElem? hc
  refine ⟨_, _, cnn_cells net f hnet ws w h hws r hr hh hhw b hb d hnd htd hl hs hne hn,
    cnn_cells net f hnet ws w h hws r hr hh hhw b1 hb1 ⟨[id], times, [s]⟩ (by simp) htd' rfl (by
      intro s' hs'
      rw [List.mem_singleton.mp hs', hs s hsm, hlt]) (by simp) (by rw [← hlt] at hn; exact hn), ?_⟩
  rw [List.map_map, hlt]
  apply List.map_congr_left
  intro t _
  simp only [Function.comp_apply, List.getElem?_map, hc, Option.map_some, Option.toList_some, List.map_cons, List.map_nil]

end cnn

/-! ## The tensorflow pipeline -/

section tf
open Verif.Tf
variable {ι F : Type}

theorem tf_affine_fin (a b : ℝ) (x : Fl ℝ) (y : ℝ) (h : x = .fin y) :
    Fl.fin a *ᶠ x +ᶠ Fl.fin b = .fin (a * y + b) := by rw [h]; simp

theorem tf_affine_isFin (a b : ℝ) (ha : 0 < a) (x : Fl ℝ) :
    (∃ y, Fl.fin a *ᶠ x +ᶠ Fl.fin b = .fin y) ↔ ∃ y, x = .fin y := by
  constructor
  · intro h
    cases x with
    | fin x => exact ⟨x, rfl⟩
    | nan => simp at h
    | pinf =>
      obtain ⟨y, hy⟩ := h
      have : (Fl.fin a *ᶠ Fl.pinf : Fl ℝ) = .pinf := by
        show Fl.infSign a = Fl.pinf
        simp [Fl.infSign, ha]
      rw [this] at hy
      cases hy
    | ninf =>
      obtain ⟨y, hy⟩ := h
      have : (Fl.fin a *ᶠ Fl.ninf : Fl ℝ) = .ninf := by
        show Fl.infSign (-a) = Fl.ninf
        simp [Fl.infSign, ha, ha.le]
      rw [this] at hy
      cases hy
  · rintro ⟨y, rfl⟩
    exact ⟨_, tf_affine_fin a b _ y rfl⟩

/-- the values of one variable in other units -/
noncomputable def inUnits (a b : ℝ) (x : Fl ℝ) : Fl ℝ := Fl.fin a *ᶠ x +ᶠ Fl.fin b

theorem tf_complete (vars : List String) (data data' : String → Nat → Nat → Fl ℝ) (a b : String → ℝ)
    (ha : ∀ v ∈ vars, 0 < a v) (L c t : Nat) (hLt : L ≤ t + 1)
    (hd : ∀ v ∈ vars, ∀ u ≤ t, data' v c u = inUnits (a v) (b v) (data v c u)) :
    Complete vars data' L c t ↔ Complete vars data L c t := by
  unfold Complete
  refine forall_congr' fun j => forall_congr' fun hj => forall_congr' fun v => forall_congr' fun hv => ?_
  rw [hd v hv _ (by omega)]
  exact tf_affine_isFin _ _ (ha v hv) _

theorem tf_samples_units [DecidableEq ι] (ds ds' : Ds ι ℝ) (vars : List String) (data data' : String → Nat → Nat → Fl ℝ)
    (hids : ds'.ids = ds.ids) (hT : ds'.nTime = ds.nTime) (a b : String → ℝ) (ha : ∀ v ∈ vars, 0 < a v)
    (hd : ∀ v ∈ vars, ∀ c < ds.ids.length, ∀ t < ds.nTime, data' v c t = inUnits (a v) (b v) (data v c t))
    (L : Nat) (cmlIds : List ι) :
    specSamples ds' vars data' L cmlIds = (specSamples ds vars data L cmlIds).map fun e =>
      (e.1.map fun row => List.zipWith (fun v x => inUnits (a v) (b v) x) vars row, e.2) := by
  classical
  unfold specSamples
  rw [List.map_flatMap, hids, hT]
  congr 1
  funext cml
  cases hc : ds.ids.findIdx? (fun i => decide (i = cml)) with
  | none => rfl
  | some c =>
    have hcl : c < ds.ids.length := by
      rw [List.findIdx?_eq_some_iff_getElem] at hc
      exact hc.1
    dsimp only
    rw [List.map_filterMap]
    apply List.filterMap_congr
    intro t ht
    rw [List.mem_range] at ht
    by_cases hLt : L ≤ t + 1
    · have hcomp := tf_complete vars data data' a b ha L c t hLt fun v hv u hu => hd v hv c hcl u (by omega)
      by_cases hco : Complete vars data L c t
      · rw [if_pos ⟨hLt, hcomp.mpr hco⟩, if_pos ⟨hLt, hco⟩]
        simp only [Option.map_some, Option.some.injEq, Prod.mk.injEq, and_true]
        unfold window
        rw [List.map_map]
        apply List.map_congr_left
        intro j hj
        rw [List.mem_range] at hj
        simp only [Function.comp_apply]
        rw [List.zipWith_map_right, List.zipWith_self]
        apply List.map_congr_left
        intro v hv
        exact hd v hv c hcl _ (by omega)
      · rw [if_neg (fun h => hco (hcomp.mp h.2)), if_neg (fun h => hco h.2)]
        rfl
    · rw [if_neg (fun h => hLt h.1), if_neg (fun h => hLt h.1)]
      rfl

/-- **C138** `wet_dry_1d_cnn` ignores the units and the offset of each variable if they are the same for all links and
steps: with `a*x + b` (`a > 0`, both depending on the variable) instead of `x` it gives the same probabilities or the
same error, for each network. -/
theorem C138_tf_units [DecidableEq ι] [PyFloat F] (net : List (List (List ℝ)) → List F) (ds ds' : Ds ι ℝ)
    (vars : List String) (hv : vars ≠ []) (data data' : String → Nat → Nat → Fl ℝ) (h : Holds ds vars data)
    (h' : Holds ds' vars data') (hids : ds'.ids = ds.ids) (hT : ds'.nTime = ds.nTime) (a b : String → ℝ)
    (ha : ∀ v ∈ vars, 0 < a v)
    (hd : ∀ v ∈ vars, ∀ c < ds.ids.length, ∀ t < ds.nTime, data' v c t = inUnits (a v) (b v) (data v c t))
    (L : Nat) (hL : 0 < L) (coords : List String) (idCoord : String) (idValues : List ι) (cmlIds : Option (List ι)) :
    wetDry1dCnn net ds' coords idCoord idValues vars L cmlIds = wetDry1dCnn net ds coords idCoord idValues vars L cmlIds := by
  unfold wetDry1dCnn
  rw [C53_samples ds vars data h hv L hL, C53_samples ds' vars data' h' hv L hL,
    tf_samples_units ds ds' vars data data' hids hT a b ha hd]
  set S := specSamples ds vars data L (cmlIds.getD idValues) with hS
  by_cases hco : idCoord ∈ coords
  swap
  · rw [if_pos hco, if_pos hco]
  rw [if_neg (by simpa using hco), if_neg (by simpa using hco)]
  dsimp only
  set X := (S.map (·.1)).map fun w => w.map fun row => row.map val with hX
  have hmem := fun e => mem_specSamples ds vars data h.2.1 L (cmlIds.getD idValues) e
  have hX' : ((S.map fun e => (e.1.map fun row => List.zipWith (fun v x => inUnits (a v) (b v) x) vars row, e.2)).map
      (·.1)).map (fun w => w.map fun row => row.map val) = X.map fun w => w.map fun row =>
        (List.range vars.length).map fun i => a (vars.getD i "") * row.getD i 0 + b (vars.getD i "") := by
    rw [hX, List.map_map, List.map_map, List.map_map, List.map_map]
    apply List.map_congr_left
    intro e he
    obtain ⟨c, t, _, h2, _, h4, h5, h6, he1⟩ := (hmem e).mp he
    simp only [Function.comp_apply, List.map_map]
    rw [he1]
    unfold window
    rw [List.map_map, List.map_map]
    apply List.map_congr_left
    intro j hj
    rw [List.mem_range] at hj
    simp only [Function.comp_apply]
    apply List.ext_getElem?
    intro i
    by_cases hi : i < vars.length
    · obtain ⟨x, hx⟩ := h6 j hj vars[i] (List.getElem_mem hi)
      simp [hi, List.getElem?_zipWith, List.getD_eq_getElem?_getD, hx, inUnits, val]
    · rw [List.getElem?_eq_none (by simp; omega), List.getElem?_eq_none (by simp; omega)]
  have hXs : Shape X vars.length := by
    intro w hw row hr
    rw [hX, List.map_map] at hw
    obtain ⟨e, he, rfl⟩ := List.mem_map.mp hw
    obtain ⟨c, t, _, _, _, _, _, _, he1⟩ := (hmem e).mp he
    simp only [Function.comp_apply] at hr
    rw [he1] at hr
    unfold window at hr
    obtain ⟨r', hr', rfl⟩ := List.mem_map.mp hr
    obtain ⟨j, _, rfl⟩ := List.mem_map.mp hr'
    simp
  have hsc : scaleFeatures (X.map fun w => w.map fun row =>
      (List.range vars.length).map fun i => a (vars.getD i "") * row.getD i 0 + b (vars.getD i "")) vars.length =
      scaleFeatures X vars.length := by
    by_cases hXn : X = []
    · rw [hXn]; rfl
    · refine C54_affine_invariant X vars.length hXn hXs (fun i => a (vars.getD i "")) (fun i => b (vars.getD i "")) ?_
      intro i hi
      apply ha
      rw [List.getD_eq_getElem?_getD, List.getElem?_eq_getElem hi]
      exact List.getElem_mem hi
  have hi1 : (S.map fun e => (e.1.map fun row => List.zipWith (fun v x => inUnits (a v) (b v) x) vars row, e.2)).map
      (·.2.1) = S.map (·.2.1) := by rw [List.map_map]; rfl
  have hi2 : (S.map fun e => (e.1.map fun row => List.zipWith (fun v x => inUnits (a v) (b v) x) vars row, e.2)).map
      (·.2.2) = S.map (·.2.2) := by rw [List.map_map]; rfl
  rw [hX', hsc, hi1, hi2, hids, hT]

/-- one link with the levels 0 and 2 -/
def tfOne : Ds Nat ℝ := ⟨"cml_id", [1], 2, [("tl", [[.fin 0, .fin 2]])]⟩

/-- the same link beside one with the level 4 -/
def tfTwo : Ds Nat ℝ := ⟨"cml_id", [1, 2], 2, [("tl", [[.fin 0, .fin 2], [.fin 4, .fin 4]])]⟩

/-- the first step of that link -/
def tfPiece : Ds Nat ℝ := ⟨"cml_id", [1], 1, [("tl", [[.fin 0]])]⟩

theorem tf_std_one : standardize [0, 2] 0 = -1 := by
  have hm : mean [0, 2] = 1 := by unfold mean; norm_num
  have hv : var [0, 2] = 1 := by unfold var; rw [hm]; norm_num
  unfold standardize
  rw [hm, hv]
  norm_num

theorem tf_std_two : standardize [0, 2, 4, 4] 0 ≠ -1 := by
  have hm : mean [0, 2, 4, 4] = 5 / 2 := by unfold mean; norm_num
  have hv : var [0, 2, 4, 4] = 11 / 4 := by unfold var; rw [hm]; norm_num
  unfold standardize
  rw [hm, hv, if_neg (by norm_num)]
  intro h
  have hs : Real.sqrt (11 / 4) ^ 2 = 11 / 4 := Real.sq_sqrt (by norm_num)
  have hp : 0 < Real.sqrt (11 / 4) := Real.sqrt_pos.mpr (by norm_num)
  rw [div_eq_iff hp.ne'] at h
  have : Real.sqrt (11 / 4) = 5 / 2 := by linarith
  rw [this] at hs
  norm_num at hs

theorem tf_std_piece : standardize [0] 0 = 0 := by
  unfold standardize mean
  norm_num

/-- **C138** `wet_dry_1d_cnn` does neither treat the links by themselves nor can it be applied in pieces: the features
are scaled with all data of the call. With a network that returns the scaled level itself, the value of a link at the
first step is different beside another link and in a shorter record. -/
theorem C138_tf_not_local : ∃ net : List (List (List ℝ)) → List (Fl ℝ), (∃ f, ∀ xs, net xs = xs.map f) ∧
    ∃ g g' g'', wetDry1dCnn net tfOne ["cml_id"] "cml_id" tfOne.ids ["tl"] 1 none = .ok g ∧
      wetDry1dCnn net tfTwo ["cml_id"] "cml_id" tfTwo.ids ["tl"] 1 none = .ok g' ∧
      wetDry1dCnn net tfPiece ["cml_id"] "cml_id" tfPiece.ids ["tl"] 1 none = .ok g'' ∧
      (g[0]?.bind (·[0]?)) ≠ (g'[0]?.bind (·[0]?)) ∧ (g[0]?.bind (·[0]?)) ≠ (g''[0]?.bind (·[0]?)) := by
  refine ⟨fun xs => xs.map fun w => .fin (w.flatten.getD 0 0), ⟨_, fun xs => rfl⟩, ?_⟩
  have c1 : createSamples tfOne tfOne.ids ["tl"] 1 = .ok ⟨[[[.fin 0]], [[.fin 2]]], [1, 1], [0, 1]⟩ := rfl
  have c2 : createSamples tfTwo tfTwo.ids ["tl"] 1 =
      .ok ⟨[[[.fin 0]], [[.fin 2]], [[.fin 4]], [[.fin 4]]], [1, 1, 2, 2], [0, 1, 0, 1]⟩ := rfl
  have c3 : createSamples tfPiece tfPiece.ids ["tl"] 1 = .ok ⟨[[[.fin 0]]], [1], [0]⟩ := rfl
  unfold wetDry1dCnn
  simp only [List.mem_singleton, not_true_eq_false, if_false, Option.getD_none, c1, c2, c3, List.map_cons, List.map_nil,
    val, List.length_singleton]
  rw [scaleFeatures_ok _ 1 (by simp) (by intro w hw row hr; fin_cases hw <;> simp_all),
    scaleFeatures_ok _ 1 (by simp) (by intro w hw row hr; fin_cases hw <;> simp_all),
    scaleFeatures_ok _ 1 (by simp) (by intro w hw row hr; fin_cases hw <;> simp_all)]
  simp only [feature, List.map_cons, List.map_nil, List.range_one, List.flatMap_cons, List.flatMap_nil,
    List.cons_append, List.nil_append, List.getD_cons_zero, List.flatten_cons, List.flatten_nil]
  rw [tf_std_one, tf_std_piece]
  refine ⟨_, _, _, rfl, rfl, rfl, ?_, ?_⟩
  · show some (Fl.fin (-1 : ℝ)) ≠ some (Fl.fin (standardize [0, 2, 4, 4] 0))
    intro h
    injection h with h
    injection h with h
    exact tf_std_two h.symm
  · show some (Fl.fin (-1 : ℝ)) ≠ some (Fl.fin 0)
    intro h
    injection h with h
    injection h with h
    norm_num at h

end tf

/-! ## Examples -/

section examples

-- 90 samples, one missing, cut at step 60
example : ∃ out1 out2, mlpWetDry exModels ((exSeries 90 70).take 60) ((exSeries 90 99).take 60) "rg_online" = .ok out1 ∧
    mlpWetDry exModels ((exSeries 90 70).drop 20) ((exSeries 90 99).drop 20) "rg_online" = .ok out2 ∧
    mlpWetDry exModels (exSeries 90 70) (exSeries 90 99) "rg_online" = .ok (out1 ++ out2.drop 40) := by
  have hs : ∀ n g, ∀ x ∈ exSeries n g, IsSample x := by
    intro n g x hx
    obtain ⟨k, _, rfl⟩ := List.mem_map.mp hx
    split_ifs
    · exact Or.inl rfl
    · exact Or.inr ⟨_, rfl⟩
  exact C138_mlp_online_pieces exModels "rg_online" exClf (Or.inl ⟨rfl, rfl⟩) _ (fun _ _ => rfl) _ _ (by simp [exSeries])
    (hs _ _) (hs _ _) 60 (by norm_num) (by simp [exSeries])

-- 1000 samples, cut at step 500
example : ∃ out1 out2, mlpWetDry exModels ((exSeries 1000 70).take 878) ((exSeries 1000 99).take 878) "rad" = .ok out1 ∧
    mlpWetDry exModels ((exSeries 1000 70).drop 120) ((exSeries 1000 99).drop 120) "rad" = .ok out2 ∧
    mlpWetDry exModels (exSeries 1000 70) (exSeries 1000 99) "rad" = .ok (out1.take 500 ++ out2.drop 380) := by
  have hs : ∀ n g, ∀ x ∈ exSeries n g, IsSample x := by
    intro n g x hx
    obtain ⟨k, _, rfl⟩ := List.mem_map.mp hx
    split_ifs
    · exact Or.inl rfl
    · exact Or.inr ⟨_, rfl⟩
  exact C138_mlp_offline_pieces exModels "rad" exClf (Or.inr ⟨rfl, rfl⟩) _ (fun _ _ => rfl) _ _ (by simp [exSeries])
    (hs _ _) (hs _ _) 500 (by norm_num) (by simp [exSeries])

-- an offset of 5 and -3
example : mlpWetDry exModels ((exSeries 43 0).map fun x => x +ᶠ .fin 5) ((exSeries 43 99).map fun x => x +ᶠ .fin (-3))
    "rg_online" = mlpWetDry exModels (exSeries 43 0) (exSeries 43 99) "rg_online" := by decide +kernel

/-- a record of two links with six steps -/
def cnnDemo : Torch.Data String Nat ℚ := ⟨["A", "B"], [0, 1, 2, 3, 4, 5], [[1, 2, 3, 4, 5, 6], [0, 0, 7, 0, 0, 9]]⟩

-- windows of 3 steps with the target one step before the end: cut at step 4
example : ∃ g1 g2,
    Torch.cnnWd (fun b => b.map fun w : List ℚ => [Fl.fin w.sum]) (some 3)
      ⟨cnnDemo.ids, cnnDemo.times.take 4, cnnDemo.values.map fun s => s.take 4⟩ 2 2 = .ok g1 ∧
    Torch.cnnWd (fun b => b.map fun w : List ℚ => [Fl.fin w.sum]) (some 3)
      ⟨cnnDemo.ids, cnnDemo.times.drop 2, cnnDemo.values.map fun s => s.drop 2⟩ 5 2 = .ok g2 ∧
    Torch.cnnWd (fun b => b.map fun w : List ℚ => [Fl.fin w.sum]) (some 3) cnnDemo 1 2 =
      .ok (g1.take 4 ++ g2.drop 2) :=
  C138_cnn_pieces _ (fun w => Fl.fin w.sum) (fun _ => rfl) (some 3) 3 1 rfl 2 rfl (by norm_num) (by norm_num) 1 2 5
    (by norm_num) (by norm_num) (by norm_num) cnnDemo (by decide) (by decide) rfl (by decide) (by decide) 4 (by norm_num)
    (by decide)

-- link B alone, under the id 7 and other time stamps
example : ∃ g col, Torch.cnnWd (fun b => b.map fun w : List ℚ => [Fl.fin w.sum]) (some 3) cnnDemo 4 2 = .ok g ∧
    Torch.cnnWd (fun b => b.map fun w : List ℚ => [Fl.fin w.sum]) (some 3)
      ⟨[7], ["a", "b", "c", "d", "e", "f"], [[0, 0, 7, 0, 0, 9]]⟩ 1 2 = .ok col ∧ col = g.map fun row => row[1]?.toList :=
  C138_cnn_links _ (fun w => Fl.fin w.sum) (fun _ => rfl) (some 3) 3 1 rfl 2 rfl (by norm_num) (by norm_num) 4 1
    (by norm_num) (by norm_num) cnnDemo (by decide) (by decide) rfl (by decide) (by decide) 1 _ rfl 7 _ (by decide) rfl

-- the levels of the example in tenths, shifted by 3: the hypotheses of `C138_tf_units` hold
example (net : List (List (List ℝ)) → List (Fl ℝ)) :
    Tf.wetDry1dCnn net ⟨"cml_id", [1], 2, [("tl", [[.fin 3, .fin 23]])]⟩ ["cml_id"] "cml_id" [1] ["tl"] 1 none =
      Tf.wetDry1dCnn net tfOne ["cml_id"] "cml_id" [1] ["tl"] 1 none := by
  refine C138_tf_units net tfOne ⟨"cml_id", [1], 2, [("tl", [[.fin 3, .fin 23]])]⟩ ["tl"] (by simp)
    (fun _ _ t => if t = 0 then .fin 0 else .fin 2) (fun _ _ t => if t = 0 then .fin 3 else .fin 23) ?_ ?_ rfl rfl
    (fun _ => 10) (fun _ => 3) (by norm_num) ?_ 1 (by norm_num) _ _ _ _
  · refine ⟨rfl, by decide, fun v hv => ?_⟩
    rw [List.mem_singleton] at hv
    subst hv
    refine ⟨_, rfl, fun c hc => ?_⟩
    have : c = 0 := by simpa [tfOne] using hc
    subst this
    rfl
  · refine ⟨rfl, by decide, fun v hv => ?_⟩
    rw [List.mem_singleton] at hv
    subst hv
    refine ⟨_, rfl, fun c hc => ?_⟩
    have : c = 0 := by simpa using hc
    subst this
    rfl
  · intro v _ c _ t _
    by_cases h0 : t = 0
    · simp [h0, inUnits]
    · simp [h0, inUnits]
      norm_num

end examples

end Verif.Props
