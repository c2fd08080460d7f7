import Verif.Model.Idw
import Verif.Lemmas.FlList
import Mathlib.Algebra.BigOperators.Group.List.Lemmas
import Mathlib.Algebra.Order.BigOperators.Group.List
import Mathlib.Data.List.Sort
import Mathlib.Data.List.GetD
import Mathlib.Tactic.IntervalCases

/-!
# Property C46, C47, C69: inverse distance weighting
-/

namespace Verif.Props
open Verif Verif.Idw

/-- distance of a query point to data point number `i` -/
noncomputable def dI (X : List Pt) (q : Pt) (i : Nat) : ℝ := euclid q (X.getD i (0, 0))

/-- data point `i` exists and lies within the maximum distance -/
def inRange (X : List Pt) (q : Pt) (D : Option (Fl ℝ)) (i : Nat) : Prop :=
  i < X.length ∧ match D with
    | none => True
    | some d => ((Fl.fin (dI X q i)) <ᶠ d) = true

/-- `S` lists the nearest data points within the maximum distance, at most `k` of them and as many
as possible, by increasing distance. -/
structure Nearest (X : List Pt) (q : Pt) (D : Option (Fl ℝ)) (k : Nat) (S : List Nat) : Prop where
  nodup : S.Nodup
  le : S.length ≤ k
  mem : ∀ i ∈ S, inRange X q D i
  sorted : S.Pairwise fun i j => dI X q i ≤ dI X q j
  best : ∀ i, inRange X q D i → i ∉ S → S.length = k ∧ ∀ j ∈ S, dI X q j ≤ dI X q i

theorem inRange_iff (X : List Pt) (q : Pt) (D : Option (Fl ℝ)) (i : Nat) :
    inRange X q D i ↔ ∃ x, X[i]? = some x ∧ ((Fl.fin (euclid q x)) <ᶠ ubOf D) = true := by
  unfold inRange dI
  constructor
  · rintro ⟨hi, h⟩
    refine ⟨X[i], List.getElem?_eq_getElem hi, ?_⟩
    rw [List.getD_eq_getElem _ _ hi] at h
    cases D with
    | none => rfl
    | some d => exact h
  · rintro ⟨x, hx, h⟩
    obtain ⟨hi, e⟩ := List.getElem?_eq_some_iff.mp hx
    refine ⟨hi, ?_⟩
    rw [List.getD_eq_getElem _ _ hi, e]
    cases D with
    | none => trivial
    | some d => exact h

/-- The neighbours left after dropping the missing ones. -/
theorem knn_nearest {knn : Knn} (hk : IsKnn knn) (X : List Pt) (q : Pt) (D : Option (Fl ℝ))
    (k : Nat) :
    ∃ S, Nearest X q D k S ∧
      (knn X k 0 (ubOf D) q).filter (fun e => decide (e.2 < X.length)) =
        S.map fun i => (Fl.fin (dI X q i), i) := by
  set r := knn X k 0 (ubOf D) q with hr
  set f := r.filter (fun e => decide (e.2 < X.length)) with hf
  have hfe : ∀ e ∈ f, e = (Fl.fin (dI X q e.2), e.2) ∧ inRange X q D e.2 := by
    intro e he
    obtain ⟨h1, h2⟩ := List.mem_filter.mp he
    rw [decide_eq_true_eq] at h2
    rcases hk.entry X k _ q e h1 with ⟨h, _⟩ | ⟨x, hx, h, h'⟩
    · omega
    · obtain ⟨hi, ex⟩ := List.getElem?_eq_some_iff.mp hx
      refine ⟨?_, (inRange_iff _ _ _ _).mpr ⟨x, hx, h'⟩⟩
      have : dI X q e.2 = euclid q x := by
        unfold dI; rw [List.getD_eq_getElem _ _ hi, ex]
      rw [this, ← h]
  have hfS : f = (f.map (·.2)).map fun i => (Fl.fin (dI X q i), i) := by
    rw [List.map_map]
    conv_lhs => rw [← List.map_id f]
    apply List.map_congr_left
    intro e he
    exact (hfe e he).1
  refine ⟨f.map (·.2), ⟨?_, ?_, ?_, ?_, ?_⟩, hfS⟩
  · have : f.map (·.2) = (r.map (·.2)).filter (· < X.length) := by
      rw [List.filter_map]; rfl
    rw [this]
    exact hk.nodup X k _ q
  · rw [List.length_map]
    exact (List.length_filter_le _ _).trans (hk.length_eq X k _ q).le
  · intro i hi
    obtain ⟨e, he, rfl⟩ := List.mem_map.mp hi
    exact (hfe e he).2
  · have hs : f.Pairwise fun a b => (a.1 ≤ᶠ b.1) = true := (hk.sorted X k _ q).filter _
    rw [hfS, List.pairwise_map] at hs
    simpa using hs
  · intro i hi hn
    obtain ⟨x, hx, hlt⟩ := (inRange_iff _ _ _ _).mp hi
    have hiX := hi.1
    rcases hk.complete X k _ q i x hx hlt with h | h
    · exfalso
      apply hn
      obtain ⟨e, he, rfl⟩ := List.mem_map.mp h
      exact List.mem_map.mpr ⟨e, List.mem_filter.mpr ⟨he, by simpa using hiX⟩, rfl⟩
    · have hall : f = r := List.filter_eq_self.mpr fun e he => by simpa using (h e he).1
      refine ⟨by rw [List.length_map, hall, hk.length_eq], ?_⟩
      intro j hj
      obtain ⟨e, he, rfl⟩ := List.mem_map.mp hj
      have h2 := (h e (List.mem_of_mem_filter he)).2
      rw [(hfe e he).1] at h2
      have : dI X q i = euclid q x := by
        unfold dI
        obtain ⟨h1, ex⟩ := List.getElem?_eq_some_iff.mp hx
        rw [List.getD_eq_getElem _ _ h1, ex]
      rw [this]
      simpa using h2

/-- weight of neighbour `i` -/
noncomputable def wI (X : List Pt) (q : Pt) (p : ℝ) (i : Nat) : ℝ := 1 / dI X q i ^ p

theorem sum_pos_of_pos {l : List ℝ} (h : l ≠ []) (hp : ∀ x ∈ l, 0 < x) : 0 < l.sum := by
  cases l with
  | nil => exact absurd rfl h
  | cons a l =>
    rw [List.sum_cons]
    have : 0 ≤ l.sum := List.sum_nonneg fun x hx => (hp x (by simp [hx])).le
    have := hp a (by simp)
    linarith

theorem map_fin_eq {α : Type} (l : List α) (g : α → ℝ) :
    (l.map fun i => Fl.fin (g i)) = (l.map g).map Fl.fin := by
  rw [List.map_map]; rfl

/-- The weighted mean computed by the loop. -/
theorem idw_weighted {α : Type} (S : List α) (hS : S ≠ []) (W V : α → ℝ)
    (hW : ∀ i ∈ S, 0 < W i) :
    fsum (List.zipWith (· *ᶠ ·)
      ((S.map fun i => Fl.fin (W i)).map (· /ᶠ fsum (S.map fun i => Fl.fin (W i))))
      (S.map fun i => Fl.fin (V i))) =
    .fin ((S.map fun i => W i * V i).sum / (S.map W).sum) := by
  have hs : fsum (S.map fun i => Fl.fin (W i)) = .fin (S.map W).sum := by
    rw [map_fin_eq, fsum_map_fin]
  have hpos : 0 < (S.map W).sum := by
    apply sum_pos_of_pos (by simpa using hS)
    intro x hx
    obtain ⟨i, hi, rfl⟩ := List.mem_map.mp hx
    exact hW i hi
  rw [hs, List.map_map, List.zipWith_map, List.zipWith_self]
  have : (S.map fun a => (((fun x => x /ᶠ Fl.fin (S.map W).sum) ∘ fun i => Fl.fin (W i)) a) *ᶠ
      Fl.fin (V a)) = S.map fun a => Fl.fin (W a / (S.map W).sum * V a) := by
    apply List.map_congr_left
    intro a _
    show ((Fl.fin (W a)) /ᶠ (Fl.fin (S.map W).sum)) *ᶠ Fl.fin (V a) = _
    rw [Fl.pf_div_fin_ne _ _ hpos.ne', Fl.pf_mul_fin]
  rw [this, map_fin_eq, fsum_map_fin]
  congr 1
  rw [div_eq_inv_mul, ← List.sum_map_mul_left]
  congr 1
  apply List.map_congr_left
  intro a _
  field_simp

/-- What an interpolated value must be, in terms of the data alone. -/
structure IdwIs (X : List Pt) (zs : List ℝ) (q : Pt) (D : Option (Fl ℝ)) (k : Nat) (p : ℝ)
    (v : Fl ℝ) (S : List Nat) : Prop where
  nearest : Nearest X q D k S
  none : S = [] → v = .nan
  exact : ∀ i S', S = i :: S' → dI X q i < 1 / 10 ^ 10 → v = .fin (zs.getD i 0)
  mean : S ≠ [] → (∀ i ∈ S, 1 / 10 ^ 10 ≤ dI X q i) →
    v = .fin ((S.map fun i => 1 / dI X q i ^ p * zs.getD i 0).sum /
      (S.map fun i => 1 / dI X q i ^ p).sum)

theorem idwOne_is' {knn : Knn} (hk : IsKnn knn) (X : List Pt) (zs : List ℝ)
    (hlen : X.length = zs.length) (q : Pt) (D : Option (Fl ℝ)) (k : Nat) (p : ℝ) :
    ∃ S, (knn X k 0 (ubOf D) q).filter (fun e => decide (e.2 < X.length)) = S.map (fun i => (Fl.fin (dI X q i), i)) ∧
      IdwIs X zs q D k p (idwOne (zs.map .fin) p (knn X k 0 (ubOf D) q)) S := by
  obtain ⟨S, hS, hf⟩ := knn_nearest hk X q D k
  have hz : (zs.map Fl.fin).length = X.length := by simp [hlen]
  have hrd : ∀ i ∈ S, rd (zs.map Fl.fin) i = .fin (zs.getD i 0) := by
    intro i hi
    have hi' : i < zs.length := hlen ▸ (hS.mem i hi).1
    apply rd_of_getElem?
    rw [List.getElem?_map, List.getElem?_eq_getElem hi', List.getD_eq_getElem _ _ hi']
    rfl
  refine ⟨S, hf, hS, ?_, ?_, ?_⟩
  · rintro rfl
    unfold idwOne idwVal
    rw [hz, hf]
    rfl
  · rintro i S' rfl hd
    unfold idwOne idwVal
    rw [hz, hf]
    simp only [List.map_cons]
    rw [if_pos (by rw [Fl.pf_lt_fin]; exact decide_eq_true hd)]
    exact hrd i (by simp)
  · intro hne hge
    unfold idwOne idwVal
    rw [hz, hf]
    cases S with
    | nil => exact absurd rfl hne
    | cons i S' =>
      rw [List.map_cons]
      dsimp only
      rw [if_neg (by rw [Fl.pf_lt_fin]; simpa using hge i (by simp)), ← List.map_cons
        (f := fun i => (Fl.fin (dI X q i), i))]
      have hpos : ∀ j ∈ i :: S', 0 < dI X q j := fun j hj =>
        lt_of_lt_of_le (by positivity) (hge j hj)
      have e1 : ((i :: S').map fun i => (Fl.fin (dI X q i), i)).map (fun e =>
          PyFloat.ofInt 1 /ᶠ PyPow.pow e.1 (.fin p)) =
          (i :: S').map fun j => Fl.fin (1 / dI X q j ^ p) := by
        rw [List.map_map]
        apply List.map_congr_left
        intro j hj
        show (PyFloat.ofInt 1 : Fl ℝ) /ᶠ Fl.pow (.fin (dI X q j)) (.fin p) = _
        rw [Fl.pow_fin_pos (hpos j hj), Fl.pf_ofInt,
          Fl.pf_div_fin_ne _ _ (Real.rpow_pos_of_pos (hpos j hj) p).ne']
        norm_num
      have e2 : ((i :: S').map fun i => (Fl.fin (dI X q i), i)).map (fun e =>
          rd (zs.map Fl.fin) e.2) = (i :: S').map fun j => Fl.fin (zs.getD j 0) := by
        rw [List.map_map]
        apply List.map_congr_left
        intro j hj
        exact hrd j hj
      rw [e1, e2]
      exact idw_weighted (i :: S') (by simp) (fun j => 1 / dI X q j ^ p) (fun j => zs.getD j 0)
        (fun j hj => by have := Real.rpow_pos_of_pos (hpos j hj) p; positivity)

theorem idwOne_is {knn : Knn} (hk : IsKnn knn) (X : List Pt) (zs : List ℝ)
    (hlen : X.length = zs.length) (q : Pt) (D : Option (Fl ℝ)) (k : Nat) (p : ℝ) :
    ∃ S, IdwIs X zs q D k p (idwOne (zs.map .fin) p (knn X k 0 (ubOf D) q)) S := by
  obtain ⟨S, -, h⟩ := idwOne_is' hk X zs hlen q D k p
  exact ⟨S, h⟩

/-- With finite data, `k >= 1`: the value is NaN exactly if no data point is in range, and
otherwise a number between any bounds of the data values in range. -/
theorem IdwIs.bounds {X : List Pt} {zs : List ℝ} {q : Pt} {D : Option (Fl ℝ)} {k : Nat} {p : ℝ}
    {v : Fl ℝ} {S : List Nat} (h : IdwIs X zs q D k p v S) (hk : 0 < k) :
    (v = .nan ↔ ∀ i, ¬ inRange X q D i) ∧
    ∀ lo hi : ℝ, (∀ i, inRange X q D i → lo ≤ zs.getD i 0 ∧ zs.getD i 0 ≤ hi) →
      (∃ i, inRange X q D i) → ∃ r, v = .fin r ∧ lo ≤ r ∧ r ≤ hi := by
  have hempty : S = [] ↔ ∀ i, ¬ inRange X q D i := by
    constructor
    · rintro rfl i hi
      have := (h.nearest.best i hi (by simp)).1
      simp at this
      omega
    · intro hno
      cases S with
      | nil => rfl
      | cons i S' => exact absurd (h.nearest.mem i (by simp)) (hno i)
  have hb : ∀ lo hi : ℝ, (∀ i, inRange X q D i → lo ≤ zs.getD i 0 ∧ zs.getD i 0 ≤ hi) →
      S ≠ [] → ∃ r, v = .fin r ∧ lo ≤ r ∧ r ≤ hi := by
    intro lo hi hr hne
    cases S with
    | nil => exact absurd rfl hne
    | cons i S' =>
      by_cases hd : dI X q i < 1 / 10 ^ 10
      · exact ⟨_, h.exact i S' rfl hd, hr i (h.nearest.mem i (by simp))⟩
      · have hge : ∀ j ∈ i :: S', 1 / 10 ^ 10 ≤ dI X q j := by
          intro j hj
          rcases List.mem_cons.mp hj with rfl | hj
          · exact not_lt.mp hd
          · exact (not_lt.mp hd).trans ((List.pairwise_cons.mp h.nearest.sorted).1 j hj)
        have hw : ∀ j ∈ i :: S', 0 < 1 / dI X q j ^ p := by
          intro j hj
          have : 0 < dI X q j := lt_of_lt_of_le (by positivity) (hge j hj)
          have := Real.rpow_pos_of_pos this p
          positivity
        refine ⟨_, h.mean (by simp) hge, ?_⟩
        have hpos : 0 < ((i :: S').map fun i => 1 / dI X q i ^ p).sum := by
          apply sum_pos_of_pos (by simp)
          intro x hx
          obtain ⟨j, hj, rfl⟩ := List.mem_map.mp hx
          exact hw j hj
        constructor
        · rw [le_div_iff₀ hpos, ← List.sum_map_mul_left]
          apply List.sum_le_sum
          intro j hj
          have := (hr j (h.nearest.mem j hj)).1
          have := hw j hj
          nlinarith
        · rw [div_le_iff₀ hpos, ← List.sum_map_mul_left]
          apply List.sum_le_sum
          intro j hj
          have := (hr j (h.nearest.mem j hj)).2
          have := hw j hj
          nlinarith
  refine ⟨⟨fun hv => ?_, fun hno => h.none (hempty.mpr hno)⟩, ?_⟩
  · by_contra hc
    have hne : S ≠ [] := fun e => hc (hempty.mp e)
    have : ∃ lo hi : ℝ, ∀ i, inRange X q D i → lo ≤ zs.getD i 0 ∧ zs.getD i 0 ≤ hi := by
      have hbd : ∀ l : List ℝ, ∃ lo hi : ℝ, ∀ i, lo ≤ l.getD i 0 ∧ l.getD i 0 ≤ hi := by
        intro l
        refine ⟨-(l.map abs).sum, (l.map abs).sum, ?_⟩
        intro i
        rw [← abs_le]
        by_cases hi : i < l.length
        · rw [List.getD_eq_getElem _ _ hi]
          apply List.single_le_sum
          · intro x hx
            obtain ⟨y, _, rfl⟩ := List.mem_map.mp hx
            exact abs_nonneg y
          · exact List.mem_map.mpr ⟨_, List.getElem_mem hi, rfl⟩
        · rw [List.getD_eq_default _ _ (by omega)]
          simp only [abs_zero]
          apply List.sum_nonneg
          intro x hx
          obtain ⟨y, _, rfl⟩ := List.mem_map.mp hx
          exact abs_nonneg y
      obtain ⟨lo, hi, hl⟩ := hbd zs
      exact ⟨lo, hi, fun i _ => hl i⟩
    obtain ⟨lo, hi, hl⟩ := this
    obtain ⟨r, hr, _⟩ := hb lo hi hl hne
    rw [hv] at hr
    cases hr
  · rintro lo hi hr ⟨i, hi'⟩
    exact hb lo hi hr fun e => hempty.mp e i hi'

/-! ### A k-d tree that satisfies the contract -/

/-- brute force search: the admissible indices sorted by distance, the first `k`, padded -/
noncomputable def bruteKnn : Knn := fun X k _ ub q =>
  let idx := ((List.range X.length).filter fun i => (Fl.fin (dI X q i)) <ᶠ ub).insertionSort
    fun i j => dI X q i ≤ dI X q j
  (idx.take k).map (fun i => (Fl.fin (dI X q i), i)) ++
    List.replicate (k - idx.length) (.pinf, X.length)

theorem dI_eq {X : List Pt} {i : Nat} {x : Pt} (q : Pt) (h : X[i]? = some x) :
    dI X q i = euclid q x := by
  unfold dI
  obtain ⟨h1, ex⟩ := List.getElem?_eq_some_iff.mp h
  rw [List.getD_eq_getElem _ _ h1, ex]

theorem bruteKnn_isKnn : IsKnn bruteKnn := by
  have hidx : ∀ X ub q i, i ∈ ((List.range X.length).filter fun i =>
      (Fl.fin (dI X q i)) <ᶠ ub).insertionSort (fun i j => dI X q i ≤ dI X q j) ↔
      i < X.length ∧ ((Fl.fin (dI X q i)) <ᶠ ub) = true := by
    intro X ub q i
    rw [List.mem_insertionSort, List.mem_filter, List.mem_range]
  have hsorted : ∀ X ub q, (((List.range X.length).filter fun i =>
      (Fl.fin (dI X q i)) <ᶠ ub).insertionSort fun i j => dI X q i ≤ dI X q j).Pairwise
      fun i j => dI X q i ≤ dI X q j := by
    intro X ub q
    haveI : IsTrans Nat fun i j => dI X q i ≤ dI X q j := ⟨fun _ _ _ => le_trans⟩
    haveI : Std.Total fun i j : Nat => dI X q i ≤ dI X q j := ⟨fun _ _ => le_total _ _⟩
    exact List.pairwise_insertionSort _ _
  refine ⟨?_, ?_, ?_, ?_, ?_⟩
  · intro X k ub q
    simp only [bruteKnn, List.length_append, List.length_map, List.length_take,
      List.length_replicate]
    omega
  · intro X k ub q
    simp only [bruteKnn]
    rw [List.pairwise_append]
    refine ⟨?_, ?_, ?_⟩
    · rw [List.pairwise_map]
      exact ((hsorted X ub q).sublist (List.take_sublist _ _)).imp fun h => by simpa using h
    · rw [List.pairwise_replicate]
      right
      rfl
    · intro a ha b hb
      obtain ⟨i, _, rfl⟩ := List.mem_map.mp ha
      rw [List.eq_of_mem_replicate hb]
      rfl
  · intro X k ub q e he
    simp only [bruteKnn] at he
    rcases List.mem_append.mp he with h | h
    · right
      obtain ⟨i, hi, rfl⟩ := List.mem_map.mp h
      obtain ⟨h1, h2⟩ := (hidx X ub q i).mp (List.mem_of_mem_take hi)
      have hx : X[i]? = some X[i] := List.getElem?_eq_getElem h1
      refine ⟨_, hx, ?_, ?_⟩
      · rw [dI_eq q hx]
      · rw [← dI_eq q hx]; exact h2
    · left
      rw [List.eq_of_mem_replicate h]
      exact ⟨rfl, rfl⟩
  · intro X k ub q
    simp only [bruteKnn, List.map_append, List.map_map, List.map_replicate, List.filter_append]
    have hnil : ∀ m, (List.replicate m X.length).filter (fun x => decide (x < X.length)) = [] := by
      intro m
      rw [List.filter_eq_nil_iff]
      intro a ha
      rw [List.eq_of_mem_replicate ha]
      simp
    rw [hnil, List.append_nil]
    apply List.Nodup.filter
    have : (Prod.snd ∘ fun i : Nat => (Fl.fin (dI X q i), i)) = id := rfl
    rw [this, List.map_id]
    apply List.Nodup.sublist (List.take_sublist _ _)
    rw [(List.perm_insertionSort _ _).nodup_iff]
    exact List.nodup_range.filter _
  · intro X k ub q i x hx hlt
    rw [← dI_eq q hx] at hlt ⊢
    have hi : i < X.length := (List.getElem?_eq_some_iff.mp hx).1
    have hmem := (hidx X ub q i).mpr ⟨hi, hlt⟩
    have hs := hsorted X ub q
    simp only [bruteKnn]
    generalize hL : ((List.range X.length).filter fun i =>
      (Fl.fin (dI X q i)) <ᶠ ub).insertionSort (fun i j => dI X q i ≤ dI X q j) = L at *
    by_cases h : i ∈ L.take k
    · left
      rw [List.map_append, List.mem_append]
      left
      rw [List.map_map]
      exact List.mem_map.mpr ⟨i, h, rfl⟩
    · right
      have hd : i ∈ L.drop k := by
        rw [← List.take_append_drop k L, List.mem_append] at hmem
        exact hmem.resolve_left h
      have hlen : k < L.length := by
        by_contra hc
        rw [List.drop_eq_nil_of_le (by omega)] at hd
        cases hd
      intro e he
      rw [Nat.sub_eq_zero_of_le hlen.le, List.replicate_zero, List.append_nil] at he
      obtain ⟨j, hj, rfl⟩ := List.mem_map.mp he
      have hj' : j ∈ L := List.mem_of_mem_take hj
      rw [← hL] at hj'
      refine ⟨((hidx X ub q j).mp hj').1, ?_⟩
      rw [← List.take_append_drop k L, List.pairwise_append] at hs
      simpa using hs.2.2 j hj i hd

/-! ### C46 -/

/-- result of a fresh object on a batch of query points -/
noncomputable def freshCall (knn : Knn) (X : List Pt) (q : Query) (h : Heap (List Pt))
    (a : CallArgs) : Except Err Out :=
  ((Tree.new X).call knn h q a).1

/-- **C46** For data without NaN, `nnear > 1` and exact search, each interpolated value is
determined as follows by the (at most `nnear`) nearest data points within `max_distance`: NaN if
there is none; the data value of the nearest if that is closer than 1e-10; otherwise the mean
weighted by `1/d^p`. -/
theorem C46_value {knn : Knn} (hk : IsKnn knn) (X : List Pt) (zs : List ℝ)
    (hlen : X.length = zs.length) (qs : List Pt) (hq : qs ≠ []) (nnear : Int) (hn : 1 < nnear)
    (p : ℝ) (D : Option (Fl ℝ)) (h : Heap (List Pt)) :
    ∃ vs, freshCall knn X (.batch (.own qs)) h ⟨zs.map .fin, nnear, 0, p, D⟩ = .ok (.many vs) ∧
      vs.length = qs.length ∧
      ∀ j : Nat, ∀ q v, qs[j]? = some q → vs[j]? = some v →
        ∃ S, IdwIs X zs q D nnear.toNat p v S := by
  refine ⟨idwLoop (qs.map (knn X nnear.toNat 0 (ubOf D))) (zs.map .fin) p, ?_, ?_, ?_⟩
  · unfold freshCall Tree.call
    rw [if_neg (by simp [Tree.new, hlen]), if_neg (by simpa using hn), if_neg (by exact hq)]
    rfl
  · simp [idwLoop]
  · intro j q v hj hv
    unfold idwLoop at hv
    rw [List.map_map, List.getElem?_map, hj] at hv
    simp only [Option.map_some, Option.some.injEq] at hv
    rw [← hv]
    exact idwOne_is hk X zs hlen q D nnear.toNat p

/-- **C46** The interpolated value is NaN exactly if no data point lies within `max_distance`;
otherwise it is a number between the smallest and the largest data value within that distance. -/
theorem C46_bounds {knn : Knn} (hk : IsKnn knn) (X : List Pt) (zs : List ℝ)
    (hlen : X.length = zs.length) (qs : List Pt) (hq : qs ≠ []) (nnear : Int) (hn : 1 < nnear)
    (p : ℝ) (D : Option (Fl ℝ)) (h : Heap (List Pt)) :
    ∃ vs, freshCall knn X (.batch (.own qs)) h ⟨zs.map .fin, nnear, 0, p, D⟩ = .ok (.many vs) ∧
      ∀ j : Nat, ∀ q v, qs[j]? = some q → vs[j]? = some v →
        (v = .nan ↔ ∀ i, ¬ inRange X q D i) ∧
        ∀ lo hi : ℝ, (∀ i, inRange X q D i → lo ≤ zs.getD i 0 ∧ zs.getD i 0 ≤ hi) →
          (∃ i, inRange X q D i) → ∃ r, v = .fin r ∧ lo ≤ r ∧ r ≤ hi := by
  obtain ⟨vs, h1, _, h2⟩ := C46_value hk X zs hlen qs hq nnear hn p D h
  refine ⟨vs, h1, ?_⟩
  intro j q v hj hv
  obtain ⟨S, hS⟩ := h2 j q v hj hv
  exact hS.bounds (by omega)

/-- **C46** Constant data are reproduced wherever there is a data point in range. -/
theorem C46_constant {knn : Knn} (hk : IsKnn knn) (X : List Pt) (c : ℝ) (qs : List Pt)
    (hq : qs ≠ []) (nnear : Int) (hn : 1 < nnear) (p : ℝ) (D : Option (Fl ℝ))
    (h : Heap (List Pt)) :
    ∃ vs, freshCall knn X (.batch (.own qs)) h ⟨X.map fun _ => .fin c, nnear, 0, p, D⟩ =
        .ok (.many vs) ∧
      ∀ j : Nat, ∀ q v, qs[j]? = some q → vs[j]? = some v → (∃ i, inRange X q D i) →
        v = .fin c := by
  have e : (X.map fun _ => Fl.fin c) = (X.map fun _ => c).map Fl.fin := by simp
  rw [e]
  obtain ⟨vs, h1, h2⟩ := C46_bounds hk X (X.map fun _ => c) (by simp) qs hq nnear hn p D h
  refine ⟨vs, h1, fun j q v hj hv hi => ?_⟩
  obtain ⟨r, hr, hlo, hhi⟩ := (h2 j q v hj hv).2 c c (by
    intro i hi
    have hil := hi.1
    rw [List.getD_eq_getElem _ _ (by simpa using hil)]
    simp) hi
  rw [hr, le_antisymm hhi hlo]

/-- Without ties the nearest points are determined. -/
theorem Nearest.unique {X : List Pt} {q : Pt} {D : Option (Fl ℝ)} {k : Nat} {S S' : List Nat}
    (h : Nearest X q D k S) (h' : Nearest X q D k S')
    (hinj : ∀ (i j : Nat), i < X.length → j < X.length → dI X q i = dI X q j → i = j) : S = S' := by
  have sub : ∀ {S S' : List Nat}, Nearest X q D k S → Nearest X q D k S' → ∀ i ∈ S, i ∈ S' := by
    intro S S' h h' i hi
    by_contra hc
    obtain ⟨hl, hb⟩ := h'.best i (h.mem i hi) hc
    have : ∃ j ∈ S', j ∉ S := by
      by_contra hall
      push Not at hall
      have hsub : S' ⊆ S.erase i := by
        intro j hj
        have hne : j ≠ i := fun e => hc (e ▸ hj)
        exact (List.mem_erase_of_ne hne).mpr (hall j hj)
      have := (h'.nodup.subperm hsub).length_le
      rw [List.length_erase_of_mem hi] at this
      have := h.le
      have : 0 < S.length := List.length_pos_of_mem hi
      omega
    obtain ⟨j, hj, hjS⟩ := this
    have a := hb j hj
    have b := (h.best j (h'.mem j hj) hjS).2 i hi
    have := hinj i j (h.mem i hi).1 (h'.mem j hj).1 (le_antisymm b a)
    exact hc (this ▸ hj)
  have hperm : S.Perm S' := (List.perm_ext_iff_of_nodup h.nodup h'.nodup).mpr
    fun i => ⟨sub h h' i, sub h' h i⟩
  refine hperm.eq_of_pairwise (le := fun i j => dI X q i ≤ dI X q j) ?_ h.sorted h'.sorted
  intro i j hi hj a b
  exact hinj i j (h.mem i hi).1 (h'.mem j hj).1 (le_antisymm a b)

theorem dI_scale (X : List Pt) (q : Pt) {c : ℝ} (hc : 0 < c) (i : Nat) :
    dI (X.map fun x => (c * x.1, c * x.2)) (c * q.1, c * q.2) i = c * dI X q i := by
  have : (X.map fun x => (c * x.1, c * x.2)).getD i (0, 0) =
      (c * (X.getD i (0, 0)).1, c * (X.getD i (0, 0)).2) := by
    rw [List.getD_eq_getElem?_getD, List.getD_eq_getElem?_getD, List.getElem?_map]
    cases X[i]? <;> simp
  unfold dI euclid
  rw [this]
  dsimp only
  rw [show (c * q.1 - c * (X.getD i (0, 0)).1) ^ 2 + (c * q.2 - c * (X.getD i (0, 0)).2) ^ 2 =
    c ^ 2 * ((q.1 - (X.getD i (0, 0)).1) ^ 2 + (q.2 - (X.getD i (0, 0)).2) ^ 2) by ring,
    Real.sqrt_mul (by positivity), Real.sqrt_sq hc.le]

theorem inRange_scale (X : List Pt) (q : Pt) {c : ℝ} (hc : 0 < c) (D : Option ℝ) (i : Nat) :
    inRange (X.map fun x => (c * x.1, c * x.2)) (c * q.1, c * q.2)
      ((D.map (c * ·)).map Fl.fin) i ↔ inRange X q (D.map Fl.fin) i := by
  unfold inRange
  rw [List.length_map, dI_scale X q hc]
  cases D with
  | none => simp
  | some d => simp [hc]

/-- **C46** Only ratios of distances matter: changing the unit of length of the data points, the
query points and `max_distance` by a common factor does not change the values (as long as no
distance is below 1e-10 and no two data points are equally far from a query point, in which case
the search may choose between them). -/
theorem C46_scale_free {knn : Knn} (hk : IsKnn knn) (X : List Pt) (zs : List ℝ)
    (hlen : X.length = zs.length) (qs : List Pt) (hq : qs ≠ []) (nnear : Int) (hn : 1 < nnear)
    (p : ℝ) (D : Option ℝ) (h : Heap (List Pt)) (c : ℝ) (hc : 0 < c)
    (hfar : ∀ q ∈ qs, ∀ x ∈ X, 1 / 10 ^ 10 ≤ euclid q x ∧ 1 / 10 ^ 10 ≤ c * euclid q x)
    (hties : ∀ q ∈ qs, ∀ (i j : Nat) (x y : Pt), X[i]? = some x → X[j]? = some y →
      euclid q x = euclid q y → i = j) :
    freshCall knn (X.map fun x => (c * x.1, c * x.2))
        (.batch (.own (qs.map fun q => (c * q.1, c * q.2)))) h
        ⟨zs.map .fin, nnear, 0, p, (D.map (c * ·)).map Fl.fin⟩ =
      freshCall knn X (.batch (.own qs)) h ⟨zs.map .fin, nnear, 0, p, D.map Fl.fin⟩ := by
  obtain ⟨vs, e, hl, hv⟩ := C46_value hk X zs hlen qs hq nnear hn p (D.map Fl.fin) h
  obtain ⟨vs', e', hl', hv'⟩ := C46_value hk (X.map fun x => (c * x.1, c * x.2)) zs
    (by simpa using hlen) (qs.map fun q => (c * q.1, c * q.2)) (by simpa using hq) nnear hn p
    ((D.map (c * ·)).map Fl.fin) h
  rw [e, e']
  congr 2
  rw [List.length_map] at hl'
  apply List.ext_getElem (by omega)
  intro j h1 h2
  have hjq : j < qs.length := by omega
  obtain ⟨S', hS'⟩ := hv' j _ _ (by rw [List.getElem?_map, List.getElem?_eq_getElem hjq]; rfl)
    (List.getElem?_eq_getElem h1)
  obtain ⟨S, hS⟩ := hv j _ _ (List.getElem?_eq_getElem hjq) (List.getElem?_eq_getElem h2)
  have hqm : qs[j] ∈ qs := List.getElem_mem hjq
  set q := qs[j]
  have hdI : ∀ (i : Nat), i < X.length → ∃ x, X[i]? = some x ∧ dI X q i = euclid q x := by
    intro i hi
    exact ⟨X[i], List.getElem?_eq_getElem hi, by unfold dI; rw [List.getD_eq_getElem _ _ hi]⟩
  have hnear : Nearest X q (D.map Fl.fin) nnear.toNat S' := by
    have n := hS'.nearest
    refine ⟨n.nodup, n.le, fun i hi => (inRange_scale X q hc D i).mp (n.mem i hi), ?_, ?_⟩
    · refine n.sorted.imp ?_
      intro a b hab
      rw [dI_scale X q hc, dI_scale X q hc] at hab
      exact le_of_mul_le_mul_left hab hc
    · intro i hi hni
      obtain ⟨a, b⟩ := n.best i ((inRange_scale X q hc D i).mpr hi) hni
      refine ⟨a, fun j hj => ?_⟩
      have := b j hj
      rw [dI_scale X q hc, dI_scale X q hc] at this
      exact le_of_mul_le_mul_left this hc
  have hSS : S' = S := by
    refine hnear.unique hS.nearest ?_
    intro a b ha hb hab
    obtain ⟨x, hx, ex⟩ := hdI a ha
    obtain ⟨y, hy, ey⟩ := hdI b hb
    exact hties q hqm a b x y hx hy (by rw [← ex, ← ey, hab])
  subst hSS
  by_cases hemp : S' = []
  · rw [hS'.none hemp, hS.none hemp]
  · have hge : ∀ i ∈ S', 1 / 10 ^ 10 ≤ dI X q i ∧ 1 / 10 ^ 10 ≤ c * dI X q i := by
      intro i hi
      obtain ⟨x, hx, ex⟩ := hdI i (hS.nearest.mem i hi).1
      rw [ex]
      exact hfar q hqm x (List.mem_of_getElem? hx)
    rw [hS.mean hemp fun i hi => (hge i hi).1,
      hS'.mean hemp fun i hi => by rw [dI_scale X q hc]; exact (hge i hi).2]
    congr 1
    have hcp : 0 < c ^ p := Real.rpow_pos_of_pos hc p
    have hsplit : ∀ i ∈ S', 1 / dI (X.map fun x => (c * x.1, c * x.2)) (c * q.1, c * q.2) i ^ p =
        1 / c ^ p * (1 / dI X q i ^ p) := by
      intro i hi
      have : 0 < dI X q i := lt_of_lt_of_le (by positivity) (hge i hi).1
      rw [dI_scale X q hc, Real.mul_rpow hc.le this.le]
      field_simp
    have s1 : (S'.map fun i => 1 / dI (X.map fun x => (c * x.1, c * x.2)) (c * q.1, c * q.2) i ^ p *
        zs.getD i 0).sum = 1 / c ^ p * (S'.map fun i => 1 / dI X q i ^ p * zs.getD i 0).sum := by
      rw [← List.sum_map_mul_left]
      congr 1
      apply List.map_congr_left
      intro i hi
      rw [hsplit i hi, mul_assoc]
    have s2 : (S'.map fun i => 1 / dI (X.map fun x => (c * x.1, c * x.2)) (c * q.1, c * q.2) i ^ p).sum
        = 1 / c ^ p * (S'.map fun i => 1 / dI X q i ^ p).sum := by
      rw [← List.sum_map_mul_left]
      congr 1
      apply List.map_congr_left
      intro i hi
      rw [hsplit i hi]
    rw [s1, s2, mul_div_mul_left _ _ (by positivity)]

/-- the hypotheses of `C46_scale_free`: two data points, one query point closer to the first, unit
changed from km to m -/
example : (∀ q ∈ [((1 : ℝ), (0 : ℝ))], ∀ x ∈ [((0 : ℝ), (0 : ℝ)), (5, 0)],
      1 / 10 ^ 10 ≤ euclid q x ∧ 1 / 10 ^ 10 ≤ 1000 * euclid q x) ∧
    euclid (1, 0) (0, 0) ≠ euclid (1, 0) (5, 0) := by
  have e1 : euclid (1, 0) (0, 0) = 1 := by unfold euclid; norm_num
  have e2 : euclid (1, 0) (5, 0) = 4 := by
    unfold euclid
    rw [show ((1 : ℝ) - 5) ^ 2 + (0 - 0) ^ 2 = 4 ^ 2 by norm_num, Real.sqrt_sq (by norm_num)]
  constructor
  · intro q hq x hx
    simp only [List.mem_cons, List.not_mem_nil, or_false] at hq hx
    subst hq
    rcases hx with rfl | rfl
    · rw [e1]; norm_num
    · rw [e2]; norm_num
  · rw [e1, e2]; norm_num

/-- **C46** Wrong arguments: data of the wrong length and `nnear <= 1` raise, whatever the state of
the object, which stays as it is. -/
theorem C46_errors (knn : Knn) (h : Heap (List Pt)) (T : Tree) (q : Query) (a : CallArgs) :
    (T.X.length ≠ a.z.length → T.call knn h q a = (.error .assertionError, T)) ∧
    (T.X.length = a.z.length → a.nnear ≤ 1 → T.call knn h q a = (.error .valueError, T)) := by
  constructor
  · intro h1; unfold Tree.call; rw [if_pos h1]
  · intro h1 h2; unfold Tree.call; rw [if_neg (by simpa using h1), if_pos h2]

/-- two data points, query in the middle: inside and outside of `max_distance` -/
example : ∃ vs, freshCall bruteKnn [(0, 0), (2, 0)] (.batch (.own [(1, 0), (50, 0)])) (fun _ => [])
    ⟨[1, 3].map .fin, 2, 0, 1, some (.fin 10)⟩ = .ok (.many vs) ∧
    (∃ r, vs[0]? = some (.fin r) ∧ 1 ≤ r ∧ r ≤ 3) ∧ vs[1]? = some .nan := by
  obtain ⟨vs, h1, hl, _⟩ := C46_value bruteKnn_isKnn [(0, 0), (2, 0)] [1, 3] rfl [(1, 0), (50, 0)]
    (by simp) 2 (by norm_num) 1 (some (.fin 10)) (fun _ => [])
  obtain ⟨vs', h1', h2⟩ := C46_bounds bruteKnn_isKnn [(0, 0), (2, 0)] [1, 3] rfl [(1, 0), (50, 0)]
    (by simp) 2 (by norm_num) 1 (some (.fin 10)) (fun _ => [])
  have : vs' = vs := by rw [h1] at h1'; injection h1' with h; injection h with h; exact h.symm
  subst this
  have l0 : 0 < vs'.length := by rw [hl]; simp
  have l1 : 1 < vs'.length := by rw [hl]; simp
  refine ⟨vs', h1, ?_, ?_⟩
  · obtain ⟨r, hr, hb⟩ := (h2 0 (1, 0) _ rfl (List.getElem?_eq_getElem l0)).2 1 3 (by
      intro i hi
      have := hi.1
      simp only [List.length_cons, List.length_nil] at this
      interval_cases i <;> norm_num) ⟨0, by simp, by simp [dI, euclid]⟩
    exact ⟨r, by rw [List.getElem?_eq_getElem l0, hr], hb⟩
  · have := (h2 1 (50, 0) _ rfl (List.getElem?_eq_getElem l1)).1.mpr (by
      rintro i ⟨h, h'⟩
      simp only [List.length_cons, List.length_nil] at h
      have q1 : (10 : ℝ) ≤ Real.sqrt ((50 - 2) ^ 2) := by
        rw [Real.sqrt_sq (by norm_num)]; norm_num
      interval_cases i
      · simp [dI, euclid] at h'
        norm_num at h'
      · simp [dI, euclid] at h'
        linarith)
    rw [List.getElem?_eq_getElem l1, this]

/-! ### C47 -/

/-- successive calls on one object -/
noncomputable def callSeq (knn : Knn) (h : Heap (List Pt)) : Tree → List (Query × CallArgs) →
    List (Except Err Out)
  | _, [] => []
  | T, (q, a) :: rest => (T.call knn h q a).1 :: callSeq knn h (T.call knn h q a).2 rest

/-- the stored neighbours are the ones for maximum distance `D` -/
def Consistent47 (knn : Knn) (h : Heap (List Pt)) (D : Option (Fl ℝ)) (T : Tree) : Prop :=
  ∀ c, T.cache = some c → c.nb = (c.q.get h).map (knn T.X c.nnear.toNat c.eps (ubOf D))

theorem neighbours_consistent {knn : Knn} {h : Heap (List Pt)} {D : Option (Fl ℝ)} {T : Tree}
    (hT : Consistent47 knn h D T) (s : Src (List Pt)) (nnear : Int) (eps : ℝ) :
    (neighbours knn h T s nnear eps (ubOf D)).1 =
        (s.get h).map (knn T.X nnear.toNat eps (ubOf D)) ∧
      (neighbours knn h T s nnear eps (ubOf D)).2.X = T.X ∧
      Consistent47 knn h D (neighbours knn h T s nnear eps (ubOf D)).2 := by
  have hfresh : Consistent47 knn h D { T with cache := some ⟨s, nnear, eps,
      (s.get h).map (knn T.X nnear.toNat eps (ubOf D))⟩ } := by
    intro c hc
    simp only [Option.some.injEq] at hc
    rw [← hc]
  unfold neighbours
  cases hc : T.cache with
  | none => exact ⟨rfl, rfl, hfresh⟩
  | some c =>
    dsimp only
    by_cases hit : cacheHit h c (s.get h) nnear eps = true
    · rw [if_pos hit]
      refine ⟨?_, rfl, hT⟩
      simp only [cacheHit, Bool.and_eq_true, decide_eq_true_eq] at hit
      rw [hT c hc, hit.1.1, hit.1.2, hit.2]
    · rw [if_neg hit]
      exact ⟨rfl, rfl, hfresh⟩

theorem call_consistent {knn : Knn} {h : Heap (List Pt)} {D : Option (Fl ℝ)} {T : Tree}
    (hT : Consistent47 knn h D T) (q : Query) (a : CallArgs) (ha : a.maxDistance = D) :
    (T.call knn h q a).1 = freshCall knn T.X q h a ∧ (T.call knn h q a).2.X = T.X ∧
      Consistent47 knn h D (T.call knn h q a).2 := by
  have hnew : Consistent47 knn h D (Tree.new T.X) := by
    intro c hc; cases hc
  subst ha
  unfold freshCall Tree.call
  have hX : (Tree.new T.X).X = T.X := rfl
  rw [hX]
  by_cases h1 : T.X.length ≠ a.z.length
  · rw [if_pos h1, if_pos h1]; exact ⟨rfl, rfl, hT⟩
  · rw [if_neg h1, if_neg h1]
    by_cases h2 : a.nnear ≤ 1
    · rw [if_pos h2, if_pos h2]; exact ⟨rfl, rfl, hT⟩
    · rw [if_neg h2, if_neg h2]
      by_cases h3 : q.src.get h = []
      · rw [if_pos h3, if_pos h3]; exact ⟨rfl, rfl, hT⟩
      · rw [if_neg h3, if_neg h3]
        obtain ⟨a1, a2, a3⟩ := neighbours_consistent hT q.src a.nnear a.eps
        obtain ⟨b1, _, _⟩ := neighbours_consistent hnew q.src a.nnear a.eps
        dsimp only
        rw [a1, b1]
        exact ⟨rfl, a2, a3⟩

/-- **C47** For every sequence of calls on one object that all use the same `max_distance` (and
arrays not modified in between), each call returns what a fresh object returns. -/
theorem C47_transparent (knn : Knn) (X : List Pt) (h : Heap (List Pt)) (D : Option (Fl ℝ))
    (calls : List (Query × CallArgs)) (hD : ∀ c ∈ calls, c.2.maxDistance = D) :
    callSeq knn h (Tree.new X) calls = calls.map fun c => freshCall knn X c.1 h c.2 := by
  have gen : ∀ (T : Tree), T.X = X → Consistent47 knn h D T →
      callSeq knn h T calls = calls.map fun c => freshCall knn X c.1 h c.2 := by
    induction calls with
    | nil => intro T _ _; rfl
    | cons c rest ih =>
      intro T hX hT
      obtain ⟨q, a⟩ := c
      obtain ⟨e1, e2, e3⟩ := call_consistent hT q a (hD (q, a) (by simp))
      rw [callSeq, e1, hX, ih (fun c hc => hD c (by simp [hc])) _ (by rw [e2, hX]) e3]
      rfl
  exact gen _ rfl (by intro c hc; cases hc)

/-- **C47** If only `max_distance` (and values or exponent) changes after a successful call, the old
neighbourhood is silently reused: the result is that for the old `max_distance`. -/
theorem C47_stale (knn : Knn) (h : Heap (List Pt)) (X : List Pt) (q : Query) (a a' : CallArgs)
    (o : Out) (hfirst : freshCall knn X q h a = .ok o) (hz : a'.z.length = a.z.length)
    (hn : a'.nnear = a.nnear) (he : a'.eps = a.eps) :
    (((Tree.new X).call knn h q a).2.call knn h q a').1 =
      freshCall knn X q h { a' with maxDistance := a.maxDistance } := by
  unfold freshCall Tree.call at hfirst ⊢
  have hX : (Tree.new X).X = X := rfl
  rw [hX] at hfirst ⊢
  by_cases h1 : X.length ≠ a.z.length
  · rw [if_pos h1] at hfirst; cases hfirst
  · by_cases h2 : a.nnear ≤ 1
    · rw [if_neg h1, if_pos h2] at hfirst; cases hfirst
    · by_cases h3 : q.src.get h = []
      · rw [if_neg h1, if_neg h2, if_pos h3] at hfirst; cases hfirst
      · rw [if_neg h1, if_neg h2, if_neg h3]
        dsimp only
        have e : (neighbours knn h (Tree.new X) q.src a.nnear a.eps (ubOf a.maxDistance)).2 =
          ⟨X, some ⟨q.src, a.nnear, a.eps, (q.src.get h).map
            (knn X a.nnear.toNat a.eps (ubOf a.maxDistance))⟩⟩ := rfl
        rw [e]
        dsimp only
        simp only [hz, hn, he, if_neg h1, if_neg h2, if_neg h3]
        have e2 : neighbours knn h ⟨X, some ⟨q.src, a.nnear, a.eps, (q.src.get h).map
            (knn X a.nnear.toNat a.eps (ubOf a.maxDistance))⟩⟩ q.src a.nnear a.eps
            (ubOf a'.maxDistance) = ((q.src.get h).map
            (knn X a.nnear.toNat a.eps (ubOf a.maxDistance)), ⟨X, some ⟨q.src, a.nnear, a.eps,
            (q.src.get h).map (knn X a.nnear.toNat a.eps (ubOf a.maxDistance))⟩⟩) := by
          unfold neighbours
          dsimp only
          rw [if_pos (by simp [cacheHit])]
        rw [e2]
        rfl

/-- **C47** Witness: with every correct k-d tree there are two calls that differ in `max_distance`
only, where the second one returns a value although no data point lies within its
`max_distance`, so that a fresh object returns NaN. -/
theorem C47_stale_witness {knn : Knn} (hk : IsKnn knn) :
    ∃ (X : List Pt) (q : Query) (a a' : CallArgs), a' = { a with maxDistance := a'.maxDistance } ∧
      freshCall knn X q (fun _ => []) a' = .ok (.many [.nan]) ∧
      ∃ r, (((Tree.new X).call knn (fun _ => []) q a).2.call knn (fun _ => []) q a').1 =
        .ok (.many [.fin r]) := by
  have hr0 : ∀ i, ¬ inRange [(0, 0)] (5, 0) (some (.fin 1)) i := by
    rintro i ⟨h, h'⟩
    simp only [List.length_cons, List.length_nil] at h
    interval_cases i
    simp [dI, euclid] at h'
  have hr1 : inRange [(0, 0)] (5, 0) none 0 := ⟨by simp, trivial⟩
  refine ⟨[(0, 0)], .batch (.own [(5, 0)]), ⟨[7].map .fin, 2, 0, 1, none⟩,
    ⟨[7].map .fin, 2, 0, 1, some (.fin 1)⟩, rfl, ?_, ?_⟩
  · obtain ⟨vs, h1, hl, _⟩ := C46_value hk [(0, 0)] [7] rfl [(5, 0)] (by simp) 2 (by norm_num) 1
      (some (.fin 1)) (fun _ => [])
    obtain ⟨vs', h1', h2⟩ := C46_bounds hk [(0, 0)] [7] rfl [(5, 0)] (by simp) 2 (by norm_num) 1
      (some (.fin 1)) (fun _ => [])
    rw [h1] at h1'
    injection h1' with h1'
    injection h1' with h1'
    subst h1'
    obtain ⟨v, rfl⟩ := List.length_eq_one_iff.mp (by rw [hl]; rfl : vs.length = 1)
    rw [(h2 0 _ v rfl rfl).1.mpr hr0] at h1
    exact h1
  · obtain ⟨vs, h1, hl, _⟩ := C46_value hk [(0, 0)] [7] rfl [(5, 0)] (by simp) 2 (by norm_num) 1
      none (fun _ => [])
    obtain ⟨vs', h1', h2⟩ := C46_bounds hk [(0, 0)] [7] rfl [(5, 0)] (by simp) 2 (by norm_num) 1
      none (fun _ => [])
    rw [h1] at h1'
    injection h1' with h1'
    injection h1' with h1'
    subst h1'
    obtain ⟨v, rfl⟩ := List.length_eq_one_iff.mp (by rw [hl]; rfl : vs.length = 1)
    obtain ⟨r, hr, _⟩ := (h2 0 _ v rfl rfl).2 7 7 (by
      intro i hi
      have := hi.1
      simp only [List.length_cons, List.length_nil] at this
      interval_cases i
      norm_num) ⟨0, hr1⟩
    refine ⟨r, ?_⟩
    rw [C47_stale knn (fun _ => []) [(0, 0)] _ _ ⟨[7].map .fin, 2, 0, 1, some (.fin 1)⟩ _ h1 rfl rfl rfl]
    rw [hr] at h1
    exact h1

/-! ### C69 -/

/-- **C69** Query points passed as a float array are kept by reference. If the caller overwrites that
array and calls again with it (same `nnear`, `eps`), the comparison with the stored array always
succeeds and the neighbours of the *old* contents are used, whatever the new contents. -/
theorem C69_aliased_query (knn : Knn) (h h' : Heap (List Pt)) (X : List Pt) (r : Nat)
    (a a' : CallArgs) (o : Out) (hfirst : freshCall knn X (.batch (.alias r)) h a = .ok o)
    (hnew : h' r ≠ []) (hz : a'.z.length = a.z.length) (hn : a'.nnear = a.nnear)
    (he : a'.eps = a.eps) :
    (((Tree.new X).call knn h (.batch (.alias r)) a).2.call knn h' (.batch (.alias r)) a').1 =
      freshCall knn X (.batch (.own (h r))) h' { a' with maxDistance := a.maxDistance } := by
  have hs : (Query.batch (.alias r)).src = .alias r := rfl
  have hs' : (Query.batch (.own (h r))).src = .own (h r) := rfl
  have hg : ∀ g : Heap (List Pt), (Src.alias r : Src (List Pt)).get g = g r := fun _ => rfl
  have hg' : ∀ g : Heap (List Pt), (Src.own (h r) : Src (List Pt)).get g = h r := fun _ => rfl
  unfold freshCall Tree.call at hfirst ⊢
  have hX : (Tree.new X).X = X := rfl
  rw [hX] at hfirst ⊢
  rw [hs] at hfirst ⊢
  rw [hg] at hfirst
  rw [hg, hg, hs', hg']
  by_cases h1 : X.length ≠ a.z.length
  · rw [if_pos h1] at hfirst; cases hfirst
  · by_cases h2 : a.nnear ≤ 1
    · rw [if_neg h1, if_pos h2] at hfirst; cases hfirst
    · by_cases h3 : h r = []
      · rw [if_neg h1, if_neg h2, if_pos h3] at hfirst; cases hfirst
      · rw [if_neg h1, if_neg h2, if_neg h3]
        dsimp only
        have e : (neighbours knn h (Tree.new X) (.alias r) a.nnear a.eps (ubOf a.maxDistance)).2 =
          ⟨X, some ⟨.alias r, a.nnear, a.eps, (h r).map
            (knn X a.nnear.toNat a.eps (ubOf a.maxDistance))⟩⟩ := rfl
        rw [e]
        dsimp only
        simp only [hz, hn, he, if_neg h1, if_neg h2, if_neg h3, if_neg hnew]
        have e2 : neighbours knn h' ⟨X, some ⟨.alias r, a.nnear, a.eps, (h r).map
            (knn X a.nnear.toNat a.eps (ubOf a.maxDistance))⟩⟩ (.alias r) a.nnear a.eps
            (ubOf a'.maxDistance) = ((h r).map
            (knn X a.nnear.toNat a.eps (ubOf a.maxDistance)), ⟨X, some ⟨.alias r, a.nnear, a.eps,
            (h r).map (knn X a.nnear.toNat a.eps (ubOf a.maxDistance))⟩⟩) := by
          unfold neighbours
          dsimp only
          rw [if_pos (by simp [cacheHit])]
        rw [e2]
        rfl

/-- the hypotheses can be met: a successful first call with an array object -/
example : ∃ o, freshCall bruteKnn [(0, 0), (2, 0)] (.batch (.alias 0)) (fun _ => [(1, 0)])
    ⟨[.fin 1, .fin 3], 2, 0, 1, none⟩ = .ok o := ⟨_, rfl⟩

/-- **C46** A query with a single point gives one number, not an array: the one at the point's place in the result for any array of
query points. -/
theorem C46_point (knn : Knn) (X : List Pt) (qs : List Pt) (h : Heap (List Pt)) (a : CallArgs) (j : Nat) (q : Pt)
    (hq : qs[j]? = some q) :
    (∃ vs v, freshCall knn X (.batch (.own qs)) h a = .ok (.many vs) ∧ vs.length = qs.length ∧ vs[j]? = some v ∧
      freshCall knn X (.point q) h a = .ok (.one v)) ∨
    (∃ e, freshCall knn X (.batch (.own qs)) h a = .error e ∧ freshCall knn X (.point q) h a = .error e) := by
  have hne : qs ≠ [] := by
    rintro rfl
    simp at hq
  unfold freshCall Tree.call
  by_cases h1 : (Tree.new X).X.length ≠ a.z.length
  · right
    exact ⟨.assertionError, by rw [if_pos h1], by rw [if_pos h1]⟩
  by_cases h2 : a.nnear ≤ 1
  · right
    exact ⟨.valueError, by rw [if_neg h1, if_pos h2], by rw [if_neg h1, if_pos h2]⟩
  left
  refine ⟨_, _, by rw [if_neg h1, if_neg h2, if_neg (by simpa [Query.src, Src.get] using hne)]; rfl, ?_, ?_,
    by rw [if_neg h1, if_neg h2, if_neg (by simp [Query.src, Src.get])]; rfl⟩
  · simp [neighbours, Tree.new, Query.src, Src.get, idwLoop]
  · simp [neighbours, Tree.new, Query.src, Src.get, idwLoop, hq, rd]

/-- a point in the middle between two data points, in an array and alone -/
example : ∃ v, freshCall bruteKnn [(0, 0), (2, 0)] (.point (1, 0)) (fun _ => []) ⟨[1, 3].map .fin, 2, 0, 1, none⟩ = .ok (.one v) := by
  rcases C46_point bruteKnn [(0, 0), (2, 0)] [(50, 0), (1, 0)] (fun _ => []) ⟨[1, 3].map .fin, 2, 0, 1, none⟩ 1 (1, 0) rfl with
    ⟨_, v, _, _, _, h⟩ | ⟨e, h, _⟩
  · exact ⟨v, h⟩
  · obtain ⟨vs, h', _⟩ := C46_value bruteKnn_isKnn [(0, 0), (2, 0)] [1, 3] rfl [(50, 0), (1, 0)] (by simp) 2 (by norm_num) 1 none (fun _ => [])
    rw [h'] at h
    cases h

end Verif.Props
