import Verif.Model.WaaModels

/-!
# Piecewise linear interpolation over the reals
-/

namespace Verif.WaaModels
open Verif

/-- `npInterp` over real numbers -/
noncomputable def linI : List (ℝ × ℝ) → ℝ → ℝ
  | [], _ => 0
  | [p], _ => p.2
  | p :: q :: rest, x =>
    if x < q.1 then (q.2 - p.2) / (q.1 - p.1) * (x - p.1) + p.2 else linI (q :: rest) x

abbrev Inc (ns : List (ℝ × ℝ)) : Prop := ns.Pairwise fun p q => p.1 < q.1

theorem npInterp_fin (ns : List (ℝ × ℝ)) (hne : ns ≠ []) (h : Inc ns) (x : ℝ) :
    npInterp (ns.map fun p => (Fl.fin p.1, Fl.fin p.2)) (Fl.fin x) = .fin (linI ns x) := by
  induction ns with
  | nil => exact absurd rfl hne
  | cons p rest ih =>
    cases rest with
    | nil => rfl
    | cons q rest =>
      have hpq : p.1 < q.1 := (List.pairwise_cons.mp h).1 q (by simp)
      have hd : q.1 - p.1 ≠ 0 := (sub_pos.mpr hpq).ne'
      have := ih (by simp) (List.pairwise_cons.mp h).2
      simp only [List.map_cons] at this ⊢
      simp only [npInterp, linI, Fl.pf_lt_fin, Fl.pf_sub_fin, decide_eq_true_eq]
      split_ifs with hx
      · rw [Fl.pf_div_fin_ne _ _ hd]; rfl
      · exact this

theorem seg_bounds {x0 x1 y0 y1 x lo hi : ℝ} (h : x0 < x1) (hx0 : x0 ≤ x) (hx1 : x ≤ x1)
    (h0 : lo ≤ y0) (h0' : y0 ≤ hi) (h1 : lo ≤ y1) (h1' : y1 ≤ hi) :
    lo ≤ (y1 - y0) / (x1 - x0) * (x - x0) + y0 ∧
    (y1 - y0) / (x1 - x0) * (x - x0) + y0 ≤ hi := by
  have hd : 0 < x1 - x0 := sub_pos.mpr h
  have e : (y1 - y0) / (x1 - x0) * (x - x0) + y0 =
      ((x1 - x) * y0 + (x - x0) * y1) / (x1 - x0) := by field_simp; ring
  rw [e, le_div_iff₀ hd, div_le_iff₀ hd]
  constructor <;> nlinarith

theorem linI_bounds (ns : List (ℝ × ℝ)) (h : Inc ns) {lo hi : ℝ}
    (hlo : ∀ p ∈ ns, lo ≤ p.2) (hhi : ∀ p ∈ ns, p.2 ≤ hi) (p0 : ℝ × ℝ)
    (h0 : ns.head? = some p0) (x : ℝ) (hx : p0.1 ≤ x) : lo ≤ linI ns x ∧ linI ns x ≤ hi := by
  induction ns generalizing p0 with
  | nil => simp at h0
  | cons p rest ih =>
    cases rest with
    | nil => exact ⟨hlo p (by simp), hhi p (by simp)⟩
    | cons q rest =>
      simp only [List.head?_cons, Option.some.injEq] at h0
      subst h0
      have hpq : p.1 < q.1 := (List.pairwise_cons.mp h).1 q (by simp)
      unfold linI
      split_ifs with hc
      · exact seg_bounds hpq hx hc.le (hlo p (by simp)) (hhi p (by simp)) (hlo q (by simp))
          (hhi q (by simp))
      · exact ih (List.pairwise_cons.mp h).2 (fun r hr => hlo r (by simp [hr]))
          (fun r hr => hhi r (by simp [hr])) q rfl (not_lt.mp hc)

theorem linI_node (ns : List (ℝ × ℝ)) (h : Inc ns) (p : ℝ × ℝ) (hp : p ∈ ns) :
    linI ns p.1 = p.2 := by
  induction ns with
  | nil => simp at hp
  | cons r rest ih =>
    cases rest with
    | nil => simp at hp; subst hp; rfl
    | cons q rest =>
      obtain ⟨h1, h2⟩ := List.pairwise_cons.mp h
      unfold linI
      rcases List.mem_cons.mp hp with rfl | hp'
      · rw [if_pos (h1 q (by simp))]; simp
      · have : q.1 ≤ p.1 := by
          rcases List.mem_cons.mp hp' with rfl | hp''
          · exact le_rfl
          · exact ((List.pairwise_cons.mp h2).1 p hp'').le
        rw [if_neg (not_lt.mpr this)]
        exact ih h2 hp'

theorem linI_mono (ns : List (ℝ × ℝ)) (h : Inc ns) (hy : ns.Pairwise fun p q => p.2 ≤ q.2)
    (p0 : ℝ × ℝ) (h0 : ns.head? = some p0) (x x' : ℝ) (hx : p0.1 ≤ x) (hxx : x ≤ x') :
    linI ns x ≤ linI ns x' := by
  induction ns generalizing p0 with
  | nil => simp at h0
  | cons p rest ih =>
    cases rest with
    | nil => exact le_rfl
    | cons q rest =>
      simp only [List.head?_cons, Option.some.injEq] at h0
      subst h0
      obtain ⟨h1, h2⟩ := List.pairwise_cons.mp h
      obtain ⟨y1, y2⟩ := List.pairwise_cons.mp hy
      have hpq : p.1 < q.1 := h1 q (by simp)
      have hs : 0 ≤ (q.2 - p.2) / (q.1 - p.1) :=
        div_nonneg (sub_nonneg.mpr (y1 q (by simp))) (sub_pos.mpr hpq).le
      by_cases hc' : x' < q.1
      · have hc : x < q.1 := lt_of_le_of_lt hxx hc'
        unfold linI
        rw [if_pos hc, if_pos hc']
        have := mul_le_mul_of_nonneg_left (sub_le_sub_right hxx p.1) hs
        linarith
      · by_cases hc : x < q.1
        · have e1 : linI (p :: q :: rest) x ≤ q.2 := by
            unfold linI
            rw [if_pos hc]
            exact (seg_bounds hpq hx hc.le le_rfl (y1 q (by simp)) (y1 q (by simp)) le_rfl).2
          have e2 : q.2 ≤ linI (p :: q :: rest) x' := by
            rw [linI, if_neg hc']
            have : q.2 ≤ linI (q :: rest) x' ∧ _ :=
              linI_bounds (q :: rest) h2 (hi := ((q :: rest).map (·.2)).foldr max q.2)
                (fun r hr => by
                  rcases List.mem_cons.mp hr with rfl | hr
                  · exact le_rfl
                  · exact (List.pairwise_cons.mp y2).1 r hr)
                (fun r hr => by
                  have : ∀ (l : List ℝ) (b z : ℝ), z ∈ l → z ≤ l.foldr max b := by
                    intro l
                    induction l with
                    | nil => intro b z hz; simp at hz
                    | cons a l ihl =>
                      intro b z hz
                      rw [List.foldr_cons]
                      rcases List.mem_cons.mp hz with rfl | hz
                      · exact le_max_left _ _
                      · exact le_trans (ihl b z hz) (le_max_right _ _)
                  exact this _ _ _ (List.mem_map_of_mem hr)) q rfl x' (not_lt.mp hc')
            exact this.1
          exact le_trans e1 e2
        · rw [linI, if_neg hc, linI, if_neg hc']
          exact ih h2 y2 q rfl (not_lt.mp hc)

/-- The complement `x - linI ns x` interpolates the differences of the nodes. -/
theorem linI_compl (ns : List (ℝ × ℝ)) (h : Inc ns) (p1 : ℝ × ℝ) (h1 : ns.getLast? = some p1)
    (x : ℝ) (hx : x ≤ p1.1) (p0 : ℝ × ℝ) (h0 : ns.head? = some p0) (hx0 : p0.1 ≤ x) :
    x - linI ns x = linI (ns.map fun p => (p.1, p.1 - p.2)) x := by
  induction ns generalizing p0 with
  | nil => simp at h0
  | cons p rest ih =>
    simp only [List.head?_cons, Option.some.injEq] at h0
    subst h0
    cases rest with
    | nil =>
      simp only [List.getLast?_singleton, Option.some.injEq] at h1
      subst h1
      have : x = p.1 := le_antisymm hx hx0
      subst this
      rfl
    | cons q rest =>
      obtain ⟨hp, h2⟩ := List.pairwise_cons.mp h
      have hpq : p.1 < q.1 := hp q (by simp)
      have hd : q.1 - p.1 ≠ 0 := (sub_pos.mpr hpq).ne'
      have ih' := ih h2 (by rwa [List.getLast?_cons_cons] at h1) q rfl
      simp only [List.map_cons] at ih' ⊢
      simp only [linI]
      split_ifs with hc
      · field_simp; ring
      · exact ih' (not_lt.mp hc)

end Verif.WaaModels
