import Verif.Rolling
import Verif.Lemmas.FlList

/-! Lemmas about rolling windows, maxima and medians. -/

namespace Verif

section generic
variable {F : Type} [PyFloat F]

theorem length_rolling (n mc : Nat) (agg : List F → F) (xs : List F) :
    (rolling n mc agg xs).length = xs.length := by simp [rolling]

theorem getElem?_rolling (n mc : Nat) (agg : List F → F) (xs : List F) (t : Nat)
    (ht : t < xs.length) :
    (rolling n mc agg xs)[t]? = some (if (valid (window xs n t)).length < mc then PyFloat.nan
      else agg (valid (window xs n t))) := by
  simp [rolling, ht]

theorem mem_valid {xs : List F} {x : F} : x ∈ valid xs ↔ x ∈ xs ∧ isNaN x = false := by
  simp [valid]

theorem window_congr {α : Type} {xs ys : List α} {n t : Nat} (hn : 0 < n)
    (h : ∀ s, t < s + n → s ≤ t → xs[s]? = ys[s]?) : window xs n t = window ys n t := by
  unfold window slice
  apply List.ext_getElem?
  intro k
  rw [List.getElem?_drop, List.getElem?_drop]
  by_cases hk : t + 1 - n + k < t + 1
  · rw [List.getElem?_take_of_lt hk, List.getElem?_take_of_lt hk]
    exact h _ (by omega) (by omega)
  · rw [List.getElem?_take_eq_none (by omega), List.getElem?_take_eq_none (by omega)]

theorem mem_window {α : Type} {xs : List α} {n t : Nat} {x : α} :
    x ∈ window xs n t ↔ ∃ s, t < s + n ∧ s ≤ t ∧ xs[s]? = some x := by
  unfold window slice
  rw [List.mem_iff_getElem?]
  constructor
  · rintro ⟨k, hk⟩
    rw [List.getElem?_drop] at hk
    have hlt : t + 1 - n + k < t + 1 := by
      by_contra hc
      rw [List.getElem?_take_eq_none (by omega)] at hk
      cases hk
    rw [List.getElem?_take_of_lt hlt] at hk
    exact ⟨_, by omega, by omega, hk⟩
  · rintro ⟨s, h1, h2, h3⟩
    refine ⟨s - (t + 1 - n), ?_⟩
    rw [List.getElem?_drop, List.getElem?_take_of_lt (by omega)]
    rw [← h3]
    congr 1
    omega

theorem window_map {α β : Type} (f : α → β) (xs : List α) (n t : Nat) :
    window (xs.map f) n t = (window xs n t).map f := by
  simp [window, slice, List.map_take, List.map_drop]

variable [LawfulPyFloat F]

theorem npMaximum_spec {a b : F} (ha : isNaN a = false) (hb : isNaN b = false) :
    (npMaximum a b = a ∨ npMaximum a b = b) ∧ a ≤ᶠ npMaximum a b ∧ b ≤ᶠ npMaximum a b := by
  unfold npMaximum
  rw [ha, hb]
  simp only [Bool.false_eq_true, if_false]
  split_ifs with h
  · exact ⟨Or.inr rfl, LawfulPyFloat.le_of_lt h, LawfulPyFloat.le_refl hb⟩
  · exact ⟨Or.inl rfl, LawfulPyFloat.le_refl ha,
      LawfulPyFloat.le_of_not_lt hb ha (by simpa using h)⟩

/-- The maximum of a non-empty list of numbers is an element and an upper bound. -/
theorem listMax_spec {xs : List F} (hne : xs ≠ []) (hv : ∀ x ∈ xs, isNaN x = false) :
    listMax xs ∈ xs ∧ ∀ x ∈ xs, x ≤ᶠ listMax xs := by
  cases xs with
  | nil => exact absurd rfl hne
  | cons x xs =>
    simp only [listMax]
    have hx := hv x (by simp)
    have hvs : ∀ y ∈ xs, isNaN y = false := fun y hy => hv y (by simp [hy])
    clear hv hne
    induction xs generalizing x with
    | nil => simpa using LawfulPyFloat.le_refl hx
    | cons y ys ih =>
      have hy := hvs y (by simp)
      obtain ⟨hc, hl, hr⟩ := npMaximum_spec hx hy
      have hm : isNaN (npMaximum x y) = false := by rcases hc with e | e <;> rw [e] <;> assumption
      obtain ⟨h1, h2⟩ := ih (npMaximum x y) hm (fun z hz => hvs z (by simp [hz]))
      rw [List.foldl_cons]
      have hm0 := h2 _ (List.mem_cons_self)
      refine ⟨?_, ?_⟩
      · rcases List.mem_cons.mp h1 with e | e
        · rw [e]
          rcases hc with e' | e' <;> rw [e'] <;> simp
        · simp [e]
      · intro z hz
        rcases List.mem_cons.mp hz with rfl | hz
        · exact LawfulPyFloat.le_trans hl hm0
        · rcases List.mem_cons.mp hz with rfl | hz
          · exact LawfulPyFloat.le_trans hr hm0
          · exact h2 z (by simp [hz])

omit [LawfulPyFloat F] in
theorem sortF_perm (xs : List F) : (sortF xs).Perm xs := List.perm_insertionSort _ xs

theorem sortF_sorted (xs : List F) (hv : ∀ x ∈ xs, isNaN x = false) :
    (sortF xs).Pairwise fun a b => (a ≤ᶠ b) = true := by
  induction xs with
  | nil => simp [sortF]
  | cons x xs ih =>
    have ih := ih fun y hy => hv y (by simp [hy])
    have hx := hv x (by simp)
    have hv' : ∀ y ∈ sortF xs, isNaN y = false := fun y hy =>
      hv y (List.mem_cons_of_mem _ ((sortF_perm xs).mem_iff.mp hy))
    show (List.orderedInsert _ x (sortF xs)).Pairwise _
    generalize sortF xs = s at ih hv'
    clear hv
    induction s with
    | nil => simp
    | cons y s ihs =>
      rw [List.orderedInsert]
      rw [List.pairwise_cons] at ih
      split_ifs with h
      · rw [List.pairwise_cons]
        refine ⟨fun z hz => ?_, by rw [List.pairwise_cons]; exact ih⟩
        rcases List.mem_cons.mp hz with rfl | hz
        · exact h
        · exact LawfulPyFloat.le_trans h (ih.1 z hz)
      · rw [List.pairwise_cons]
        refine ⟨fun z hz => ?_, ihs ih.2 fun z hz => hv' z (by simp [hz])⟩
        rw [List.mem_orderedInsert] at hz
        rcases hz with rfl | hz
        · rcases LawfulPyFloat.le_total hx (hv' y (by simp)) with h' | h'
          · exact absurd h' h
          · exact h'
        · exact ih.1 z hz

end generic

section fl
variable {K : Type} [Field K] [LinearOrder K]

theorem fl_le_antisymm {a b : Fl K} (h1 : a ≤ᶠ b) (h2 : b ≤ᶠ a) : a = b := by
  cases a <;> cases b <;>
    first
    | rfl
    | (exfalso; revert h1; exact Bool.false_ne_true)
    | (exfalso; revert h2; exact Bool.false_ne_true)
    | (simp only [Fl.pf_le_fin, decide_eq_true_eq] at h1 h2; rw [le_antisymm h1 h2])

/-- Two sorted arrangements of the same numbers are equal. -/
theorem sorted_unique {s t : List (Fl K)} (hp : s.Perm t)
    (hs : s.Pairwise fun a b => (a ≤ᶠ b) = true) (ht : t.Pairwise fun a b => (a ≤ᶠ b) = true) :
    s = t :=
  List.Perm.eq_of_pairwise (fun _ _ _ _ h1 h2 => fl_le_antisymm h1 h2) hs ht hp

theorem median_perm {xs ys : List (Fl K)} (hp : xs.Perm ys)
    (hv : ∀ x ∈ xs, PyFloat.isNaN x = false) : median xs = median ys := by
  have : sortF xs = sortF ys :=
    sorted_unique (((sortF_perm xs).trans hp).trans (sortF_perm ys).symm) (sortF_sorted xs hv)
      (sortF_sorted ys fun y hy => hv y (hp.mem_iff.mpr hy))
  unfold median
  rw [this]

theorem nanMedian_perm {xs ys : List (Fl K)} (hp : xs.Perm ys) : nanMedian xs = nanMedian ys :=
  median_perm (hp.filter _) fun x hx => (mem_valid.mp hx).2

variable [IsStrictOrderedRing K]

theorem half_add_self {x : Fl K} : (x +ᶠ x) /ᶠ PyFloat.ofInt 2 = x := by
  have h2 : ¬ (((2 : Int) : K) < 0) := by norm_num
  cases x with
  | nan => rfl
  | ninf => show (if ((2 : Int) : K) < 0 then _ else _) = _; rw [if_neg h2]
  | pinf => show (if ((2 : Int) : K) < 0 then _ else _) = _; rw [if_neg h2]
  | fin x =>
    rw [Fl.pf_add_fin, Fl.pf_ofInt, Fl.pf_div_fin_ne _ _ (by norm_num)]
    congr 1
    push_cast
    ring

/-- `m` is the median of the numbers `v`: the mean of the two middle elements of a sorted
arrangement (which coincide for an odd number). -/
def IsMedian (v : List (Fl K)) (m : Fl K) : Prop :=
  ∃ s : List (Fl K), s.Perm v ∧ (s.Pairwise fun a b => (a ≤ᶠ b) = true) ∧
    ∃ x y, s[(s.length - 1) / 2]? = some x ∧ s[s.length / 2]? = some y ∧
      m = (x +ᶠ y) /ᶠ PyFloat.ofInt 2

omit [IsStrictOrderedRing K] in
theorem IsMedian.unique {v : List (Fl K)} {m m' : Fl K} (h : IsMedian v m) (h' : IsMedian v m') :
    m = m' := by
  obtain ⟨s, hp, hs, x, y, hx, hy, rfl⟩ := h
  obtain ⟨s', hp', hs', x', y', hx', hy', rfl⟩ := h'
  have : s = s' := sorted_unique (hp.trans hp'.symm) hs hs'
  subst this
  rw [hx] at hx'; rw [hy] at hy'
  cases hx'; cases hy'; rfl

theorem median_spec {v : List (Fl K)} (hne : v ≠ []) (hv : ∀ x ∈ v, PyFloat.isNaN x = false) :
    IsMedian v (median v) := by
  have hl : (sortF v).length = v.length := (sortF_perm v).length_eq
  have hpos : 0 < v.length := List.length_pos_iff.mpr hne
  refine ⟨sortF v, sortF_perm v, sortF_sorted v hv, rd (sortF v) (((sortF v).length - 1) / 2),
    rd (sortF v) ((sortF v).length / 2), getElem?_eq_rd (by omega), getElem?_eq_rd (by omega), ?_⟩
  unfold median
  dsimp only
  rw [if_neg (by omega)]
  split_ifs with h
  · have : ((sortF v).length - 1) / 2 = (sortF v).length / 2 := by omega
    rw [this, half_add_self]
  · have : ((sortF v).length - 1) / 2 = (sortF v).length / 2 - 1 := by omega
    rw [this]

/-- the mean of two finite numbers lies between bounds -/
theorem half_between {lo hi x y : K} (hx : lo ≤ x ∧ x ≤ hi) (hy : lo ≤ y ∧ y ≤ hi) :
    ∃ m : K, ((Fl.fin x +ᶠ Fl.fin y) /ᶠ PyFloat.ofInt 2 : Fl K) = .fin m ∧ lo ≤ m ∧ m ≤ hi := by
  refine ⟨(x + y) / 2, ?_, by linarith [hx.1, hy.1], by linarith [hx.2, hy.2]⟩
  rw [Fl.pf_add_fin, Fl.pf_ofInt, Fl.pf_div_fin_ne _ _ (by norm_num)]
  norm_num

/-- The median of finite numbers lies between any lower and any upper bound of them. -/
theorem IsMedian.between {v : List (Fl K)} {m : Fl K} (h : IsMedian v m) {lo hi : K}
    (hv : ∀ x ∈ v, ∃ r, x = Fl.fin r ∧ lo ≤ r ∧ r ≤ hi) : ∃ r, m = Fl.fin r ∧ lo ≤ r ∧ r ≤ hi := by
  obtain ⟨s, hp, _, x, y, hx, hy, rfl⟩ := h
  obtain ⟨a, rfl, ha⟩ := hv x (hp.mem_iff.mp (List.mem_of_getElem? hx))
  obtain ⟨b, rfl, hb⟩ := hv y (hp.mem_iff.mp (List.mem_of_getElem? hy))
  exact half_between ha hb

end fl

end Verif
