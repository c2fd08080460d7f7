import Verif.Lemmas.LinInterp
import Verif.Props.RoundedPastorek
import Verif.Props.LookupRecovery

/-!
# Linear interpolation in double arithmetic (for C163)
-/

namespace Verif.Props
open Verif Verif.KR Verif.Bin Verif.WaaModels

/-! ### Interpolation of real numbers -/

/-- neighbouring nodes: values increase, but not more than the abscissae -/
abbrev Gentle (ns : List (ℝ × ℝ)) : Prop := ns.Pairwise fun p q => p.2 ≤ q.2 ∧ q.2 - p.2 ≤ q.1 - p.1

theorem linI_lip (ns : List (ℝ × ℝ)) (h : Inc ns) (hg : Gentle ns) (p0 : ℝ × ℝ) (h0 : ns.head? = some p0) (x y : ℝ)
    (hx : p0.1 ≤ x) (hxy : x ≤ y) : linI ns y - linI ns x ≤ y - x := by
  induction ns generalizing p0 x with
  | nil => simp at h0
  | cons p rest ih =>
    cases rest with
    | nil => simp only [linI]; linarith
    | cons q rest =>
      simp only [List.head?_cons, Option.some.injEq] at h0
      subst h0
      obtain ⟨h1, h2⟩ := List.pairwise_cons.mp h
      obtain ⟨g1, g2⟩ := List.pairwise_cons.mp hg
      have hpq : 0 < q.1 - p.1 := sub_pos.mpr (h1 q (by simp))
      obtain ⟨g3, g4⟩ := g1 q (by simp)
      have hs : (q.2 - p.2) / (q.1 - p.1) ≤ 1 := (div_le_one hpq).mpr g4
      by_cases hy : y < q.1
      · have hc : x < q.1 := lt_of_le_of_lt hxy hy
        rw [linI, if_pos hy, linI, if_pos hc]
        have := mul_le_mul_of_nonneg_right hs (sub_nonneg.mpr hxy)
        linarith
      · by_cases hc : x < q.1
        · have e := ih h2 g2 q rfl q.1 le_rfl (not_lt.mp hy)
          rw [linI_node _ h2 q (by simp)] at e
          rw [linI, if_neg hy, linI, if_pos hc]
          have e1 := mul_le_mul_of_nonneg_right hs (sub_nonneg.mpr hc.le)
          have e2 : (q.2 - p.2) / (q.1 - p.1) * (q.1 - p.1) = q.2 - p.2 := div_mul_cancel₀ _ hpq.ne'
          linarith
        · rw [linI, if_neg hy, linI, if_neg hc]
          exact ih h2 g2 q rfl x (not_lt.mp hc) hxy

/-- a query lies on a segment -/
theorem linI_seg (ns : List (ℝ × ℝ)) (h : Inc ns) (p0 p1 : ℝ × ℝ) (h0 : ns.head? = some p0) (hl : ns.getLast? = some p1)
    (h2 : 2 ≤ ns.length) (x : ℝ) (hx : p0.1 ≤ x) (hx1 : x ≤ p1.1) :
    ∃ (k : ℕ) (p q : ℝ × ℝ) (t : ℝ), ns[k]? = some p ∧ ns[k + 1]? = some q ∧ 0 ≤ t ∧ t ≤ 1 ∧
      x = (1 - t) * p.1 + t * q.1 ∧ linI ns x = (1 - t) * p.2 + t * q.2 := by
  induction ns generalizing p0 with
  | nil => simp at h0
  | cons p rest ih =>
    cases rest with
    | nil => simp at h2
    | cons q rest =>
      simp only [List.head?_cons, Option.some.injEq] at h0
      subst h0
      obtain ⟨k1, k2⟩ := List.pairwise_cons.mp h
      have hpq : 0 < q.1 - p.1 := sub_pos.mpr (k1 q (by simp))
      by_cases hc : x < q.1
      · refine ⟨0, p, q, (x - p.1) / (q.1 - p.1), rfl, rfl, div_nonneg (by linarith) hpq.le, (div_le_one hpq).mpr (by linarith), ?_, ?_⟩
        · field_simp; ring
        · rw [linI, if_pos hc]; field_simp; ring
      · have hq := not_lt.mp hc
        cases rest with
        | nil =>
          simp only [List.getLast?_cons_cons, List.getLast?_singleton, Option.some.injEq] at hl
          subst hl
          have : x = q.1 := le_antisymm hx1 hq
          refine ⟨0, p, q, 1, rfl, rfl, zero_le_one, le_rfl, by rw [this]; ring, ?_⟩
          rw [linI, if_neg hc, linI]; ring
        | cons r rest =>
          rw [List.getLast?_cons_cons] at hl
          obtain ⟨k, p', q', t, a1, a2, a3, a4, a5, a6⟩ := ih k2 q rfl hl (by simp) hq
          refine ⟨k + 1, p', q', t, a1, a2, a3, a4, a5, ?_⟩
          rw [linI, if_neg hc]
          exact a6

/-- the value on a segment -/
theorem linI_at (ns : List (ℝ × ℝ)) (h : Inc ns) (k : ℕ) (p q : ℝ × ℝ) (t : ℝ) (hp : ns[k]? = some p) (hq : ns[k + 1]? = some q)
    (h0 : 0 ≤ t) (h1 : t ≤ 1) : linI ns ((1 - t) * p.1 + t * q.1) = (1 - t) * p.2 + t * q.2 := by
  induction ns generalizing k with
  | nil => simp at hp
  | cons r rest ih =>
    obtain ⟨k1, k2⟩ := List.pairwise_cons.mp h
    cases k with
    | zero =>
      cases rest with
      | nil => simp at hq
      | cons s rest =>
        simp only [List.getElem?_cons_zero, Option.some.injEq] at hp
        simp only [zero_add, List.getElem?_cons_succ, List.getElem?_cons_zero, Option.some.injEq] at hq
        subst hp hq
        have hrs : 0 < s.1 - r.1 := sub_pos.mpr (k1 s (by simp))
        rcases h1.lt_or_eq with h1 | h1
        · have : (1 - t) * r.1 + t * s.1 < s.1 := by nlinarith
          rw [linI, if_pos this]
          have e : (1 - t) * r.1 + t * s.1 - r.1 = t * (s.1 - r.1) := by ring
          rw [e]; field_simp; ring
        · subst h1
          rw [show (1 - 1) * r.1 + 1 * s.1 = s.1 by ring, linI_node _ h s (by simp)]
          ring
    | succ k =>
      cases rest with
      | nil => simp at hp
      | cons s rest =>
        rw [List.getElem?_cons_succ] at hp hq
        have hsp : s.1 ≤ p.1 := by
          cases k with
          | zero =>
            simp only [List.getElem?_cons_zero, Option.some.injEq] at hp
            rw [hp]
          | succ k =>
            rw [List.getElem?_cons_succ] at hp
            exact ((List.pairwise_cons.mp k2).1 p (List.mem_of_getElem? hp)).le
        have hpq : p.1 ≤ q.1 := by
          obtain ⟨i1, e1⟩ := List.getElem?_eq_some_iff.mp hp
          obtain ⟨i2, e2⟩ := List.getElem?_eq_some_iff.mp hq
          have := List.pairwise_iff_getElem.mp k2 k (k + 1) i1 i2 (by omega)
          rw [e1, e2] at this
          exact this.le
        have : ¬ ((1 - t) * p.1 + t * q.1 < s.1) := by
          rw [not_lt]
          nlinarith
        rw [linI, if_neg this]
        exact ih k2 k hp hq

/-- Two tables whose nodes are close: the interpolated values are close. -/
theorem linI_perturb (N : ℕ) (X w Y W : ℕ → ℝ) (hN : 1 ≤ N) (ε δ : ℝ)
    (hX : ∀ i j, i < j → j ≤ N → X i < X j) (hY : ∀ i j, i < j → j ≤ N → Y i < Y j)
    (hW : ∀ i j, i < j → j ≤ N → W i ≤ W j ∧ W j - W i ≤ Y j - Y i) (hY0 : ∀ i, i ≤ N → Y 0 ≤ Y i)
    (h1 : ∀ k, k ≤ N → |X k - Y k| ≤ ε * X k + δ) (h2 : ∀ k, k ≤ N → |w k - W k| ≤ δ)
    (x : ℝ) (hx0 : X 0 ≤ x) (hx0' : Y 0 ≤ x) (hx1 : x ≤ X N) :
    |linI ((List.range (N + 1)).map fun k => (X k, w k)) x - linI ((List.range (N + 1)).map fun k => (Y k, W k)) x| ≤
      ε * x + 2 * δ := by
  set ns := (List.range (N + 1)).map fun k => (X k, w k) with hns
  set ms := (List.range (N + 1)).map fun k => (Y k, W k) with hms
  have get_n : ∀ k, k ≤ N → ns[k]? = some (X k, w k) := by
    intro k hk; rw [hns, List.getElem?_map, List.getElem?_range (by omega)]; rfl
  have get_m : ∀ k, k ≤ N → ms[k]? = some (Y k, W k) := by
    intro k hk; rw [hms, List.getElem?_map, List.getElem?_range (by omega)]; rfl
  have pw : ∀ (R : ℕ → ℕ → Prop), (∀ i j, i < j → j ≤ N → R i j) → (List.range (N + 1)).Pairwise R := by
    intro R hR
    rw [List.pairwise_iff_getElem]
    intro i j hi hj hij
    simp only [List.length_range] at hi hj
    simp only [List.getElem_range]
    exact hR i j hij (by omega)
  have iN : Inc ns := by rw [hns, Inc, List.pairwise_map]; exact pw _ hX
  have iM : Inc ms := by rw [hms, Inc, List.pairwise_map]; exact pw _ hY
  have gM : Gentle ms := by rw [hms, Gentle, List.pairwise_map]; exact pw _ hW
  have mM : ms.Pairwise fun p q => p.2 ≤ q.2 := gM.imp fun h => h.1
  have hdN : ns.head? = some (X 0, w 0) := by rw [List.head?_eq_getElem?]; exact get_n 0 (by omega)
  have hdM : ms.head? = some (Y 0, W 0) := by rw [List.head?_eq_getElem?]; exact get_m 0 (by omega)
  have lsN : ns.getLast? = some (X N, w N) := by
    rw [List.getLast?_eq_getElem?, show ns.length - 1 = N by simp [hns]]; exact get_n N le_rfl
  obtain ⟨k, p, q, t, hp, hq, t0, t1, ex, ev⟩ := linI_seg ns iN _ _ hdN lsN (by simp [hns]; omega) x hx0 hx1
  have hk : k + 1 ≤ N := by
    obtain ⟨i, _⟩ := List.getElem?_eq_some_iff.mp hq
    simp [hns] at i
    omega
  rw [get_n k (by omega), Option.some.injEq] at hp
  rw [get_n (k + 1) hk, Option.some.injEq] at hq
  subst hp hq
  have em := linI_at ms iM k _ _ t (get_m k (by omega)) (get_m (k + 1) hk) t0 t1
  dsimp only at ex ev em
  set y := (1 - t) * Y k + t * Y (k + 1) with hy
  have y0 : Y 0 ≤ y := by
    have a := mul_le_mul_of_nonneg_left (hY0 k (by omega)) (sub_nonneg.mpr t1)
    have b := mul_le_mul_of_nonneg_left (hY0 (k + 1) hk) t0
    rw [hy]; linarith
  have dxy : |x - y| ≤ ε * x + δ := by
    rw [ex, hy, show (1 - t) * X k + t * X (k + 1) - ((1 - t) * Y k + t * Y (k + 1)) =
      (1 - t) * (X k - Y k) + t * (X (k + 1) - Y (k + 1)) by ring]
    refine (abs_add_le _ _).trans ?_
    rw [abs_mul, abs_mul, abs_of_nonneg t0, abs_of_nonneg (sub_nonneg.mpr t1)]
    have a := mul_le_mul_of_nonneg_left (h1 k (by omega)) (sub_nonneg.mpr t1)
    have b := mul_le_mul_of_nonneg_left (h1 (k + 1) hk) t0
    linarith
  have dw : |linI ns x - linI ms y| ≤ δ := by
    rw [ev, em, show (1 - t) * w k + t * w (k + 1) - ((1 - t) * W k + t * W (k + 1)) =
      (1 - t) * (w k - W k) + t * (w (k + 1) - W (k + 1)) by ring]
    refine (abs_add_le _ _).trans ?_
    rw [abs_mul, abs_mul, abs_of_nonneg t0, abs_of_nonneg (sub_nonneg.mpr t1)]
    have a := mul_le_mul_of_nonneg_left (h2 k (by omega)) (sub_nonneg.mpr t1)
    have b := mul_le_mul_of_nonneg_left (h2 (k + 1) hk) t0
    linarith
  have dm : |linI ms y - linI ms x| ≤ |x - y| := by
    rcases le_total x y with h | h
    · have a := linI_lip ms iM gM _ hdM x y hx0' h
      have b := linI_mono ms iM mM _ hdM x y hx0' h
      rw [abs_of_nonneg (by linarith), abs_sub_comm, abs_of_nonneg (by linarith)]
      exact a
    · have a := linI_lip ms iM gM _ hdM y x y0 h
      have b := linI_mono ms iM mM _ hdM y x y0 h
      rw [abs_sub_comm, abs_of_nonneg (by linarith), abs_of_nonneg (by linarith)]
      exact a
  have : |linI ns x - linI ms x| ≤ |linI ns x - linI ms y| + |linI ms y - linI ms x| := abs_sub_le _ _ _
  linarith

/-! ### One segment in doubles -/

theorem seg_real {u η Δy Δx D p2 dy dx s e m v : ℝ} (u0 : 0 ≤ u) (u1 : u ≤ 1 / 1000) (η0 : 0 ≤ η)
    (hΔy : 0 ≤ Δy) (hΔx : 0 < Δx) (hD : 0 ≤ D) (hp2 : 0 ≤ p2)
    (hdy : |dy - Δy| ≤ u * Δy) (hdx : |dx - Δx| ≤ u * Δx) (hs : |s - dy / dx| ≤ u * (dy / dx) + η)
    (he : |e - D| ≤ u * D) (hm : |m - s * e| ≤ u * (s * e) + η) (s0 : 0 ≤ s) (hv : |v - (m + p2)| ≤ u * (m + p2)) :
    |v - (Δy / Δx * D + p2)| ≤ 12 * u * (Δy / Δx * D + p2) + 8 * η * (D + 1) := by
  have M0 : 0 ≤ Δy / Δx := div_nonneg hΔy hΔx.le
  have dx0 : 0 < dx := by have := (abs_le.mp hdx).1; nlinarith
  have dx1 : Δx * (1 - u) ≤ dx := by have := (abs_le.mp hdx).1; linarith
  set M := Δy / Δx with hM
  have eΔy : Δy = M * Δx := by rw [hM, div_mul_cancel₀ _ hΔx.ne']
  clear_value M
  subst eΔy
  -- quotient
  have q1 : |dy / dx - M| ≤ 3 * u * M := by
    rw [div_sub' dx0.ne', abs_div, abs_of_pos dx0, div_le_iff₀ dx0]
    have a : |dy - dx * M| ≤ u * (M * Δx) + M * (u * Δx) := by
      rw [show dy - dx * M = (dy - M * Δx) + M * -(dx - Δx) by ring]
      refine (abs_add_le _ _).trans (add_le_add hdy ?_)
      rw [abs_mul, abs_neg, abs_of_nonneg M0]
      exact mul_le_mul_of_nonneg_left hdx M0
    refine a.trans ?_
    have uM : 0 ≤ u * M := mul_nonneg u0 M0
    have k1 : 3 * u * M * (Δx * (1 - u)) ≤ 3 * u * M * dx := mul_le_mul_of_nonneg_left dx1 (by linarith)
    have k2 : 0 ≤ u * M * Δx := mul_nonneg uM hΔx.le
    have k3 : u * M * Δx * u ≤ u * M * Δx * (1 / 1000) := mul_le_mul_of_nonneg_left u1 k2
    linarith
  obtain ⟨q2, q3⟩ := abs_le.mp q1
  generalize dy / dx = Q at *
  have s1 : |s - M| ≤ 5 * u * M + η := by
    have a := abs_sub_le s Q M
    have uM : 0 ≤ u * M := mul_nonneg u0 M0
    have b : u * Q ≤ u * (M + 3 * u * M) := mul_le_mul_of_nonneg_left (by linarith) u0
    have c : u * (3 * u * M) ≤ 1 / 1000 * (3 * (u * M)) := by
      rw [show 3 * u * M = 3 * (u * M) by ring]
      exact mul_le_mul_of_nonneg_right u1 (by linarith)
    linarith
  obtain ⟨e1, e2⟩ := abs_le.mp he
  have MD0 : 0 ≤ M * D := mul_nonneg M0 hD
  have uMD : 0 ≤ u * (M * D) := mul_nonneg u0 MD0
  have ηD : 0 ≤ η * D := mul_nonneg η0 hD
  have e0 : 0 ≤ e := by nlinarith
  have eu : e ≤ D * (1 + 1 / 1000) := by nlinarith
  have s2 : |s * e - M * D| ≤ 7 * (u * (M * D)) + 2 * (η * D) := by
    rw [show s * e - M * D = (s - M) * e + M * (e - D) by ring]
    refine (abs_add_le _ _).trans ?_
    rw [abs_mul, abs_mul, abs_of_nonneg e0, abs_of_nonneg M0]
    have a : |s - M| * e ≤ (5 * u * M + η) * (D * (1 + 1 / 1000)) :=
      mul_le_mul s1 eu e0 (by positivity)
    have b := mul_le_mul_of_nonneg_left he M0
    nlinarith
  obtain ⟨s3, s4⟩ := abs_le.mp s2
  have se0 : 0 ≤ s * e := mul_nonneg s0 e0
  generalize s * e = S at *
  have m1 : |m - M * D| ≤ 9 * (u * (M * D)) + 4 * (η * D) + η := by
    have a := abs_sub_le m S (M * D)
    have b : u * S ≤ u * (M * D) + u * (7 * (u * (M * D))) + u * (2 * (η * D)) := by
      rw [← mul_add, ← mul_add]
      exact mul_le_mul_of_nonneg_left (by linarith) u0
    have c : u * (7 * (u * (M * D))) ≤ 1 / 1000 * (7 * (u * (M * D))) := mul_le_mul_of_nonneg_right u1 (by linarith)
    have d : u * (2 * (η * D)) ≤ 1 / 1000 * (2 * (η * D)) := mul_le_mul_of_nonneg_right u1 (by linarith)
    linarith
  obtain ⟨m2, m3⟩ := abs_le.mp m1
  have a := abs_sub_le v (m + p2) (M * D + p2)
  rw [show m + p2 - (M * D + p2) = m - M * D by ring] at a
  have b : u * (m + p2) ≤ u * (M * D + p2) + u * (9 * (u * (M * D)) + 4 * (η * D) + η) := by
    rw [← mul_add]
    exact mul_le_mul_of_nonneg_left (by linarith) u0
  have c : u * (9 * (u * (M * D)) + 4 * (η * D) + η) ≤ 1 / 1000 * (9 * (u * (M * D)) + 4 * (η * D) + η) :=
    mul_le_mul_of_nonneg_right u1 (by linarith)
  have up2 : 0 ≤ u * p2 := mul_nonneg u0 hp2
  nlinarith

/-- what the interpolation needs of two neighbouring nodes -/
structure SegOk (p q : ℝ × ℝ) : Prop where
  p2 : 0 ≤ p.2
  p21 : p.2 ≤ p.1
  y : p.2 ≤ q.2
  slope : q.2 - p.2 ≤ q.1 - p.1
  gap : (2 : ℝ) ^ (-40 : ℤ) ≤ q.1 - p.1
  q1 : q.1 ≤ 2 ^ (20 : ℤ)

theorem fin_of_sub {x y z : DblR} {a b : ℝ} (hx : x.val = .fin a) (hy : y.val = .fin b)
    (hz : (binary64 (K := ℝ)).rnd (a - b) = z.val) : (x -ᶠ y).val = z.val := by
  rw [RFl.val_sub, hx, hy, Fl.pf_sub_fin]; exact hz

theorem seg_close {P1 P2 Q1 Q2 X : DblR} {p q : ℝ × ℝ} {x : ℝ} (h : SegOk p q) (hP1 : P1.val = .fin p.1) (hP2 : P2.val = .fin p.2)
    (hQ1 : Q1.val = .fin q.1) (hQ2 : Q2.val = .fin q.2) (hX : X.val = .fin x) (hx0 : p.1 ≤ x) (hx1 : x < q.1) :
    ∃ v : ℝ, ((Q2 -ᶠ P2) /ᶠ (Q1 -ᶠ P1) *ᶠ (X -ᶠ P1) +ᶠ P2).val = .fin v ∧ 0 ≤ v ∧ (x = p.1 → v = p.2) ∧
      |v - ((q.2 - p.2) / (q.1 - p.1) * (x - p.1) + p.2)| ≤
        2 ^ (-49 : ℤ) * ((q.2 - p.2) / (q.1 - p.1) * (x - p.1) + p.2) + 2 ^ (-1000 : ℤ) := by
  obtain ⟨hp2, hp21, hy, hsl, hgap, hq1⟩ := h
  have pr := binary64_precision (K := ℝ)
  have B0 : (2 : ℝ) ^ (20 : ℤ) ≤ 2 ^ (1023 : ℤ) := zpow_le_zpow_right₀ (by norm_num) (by norm_num)
  have g0 : (0 : ℝ) < 2 ^ (-40 : ℤ) := by positivity
  have Δx0 : 0 < q.1 - p.1 := g0.trans_le hgap
  have Δy0 : 0 ≤ q.2 - p.2 := by linarith
  have D0 : 0 ≤ x - p.1 := by linarith
  have q2b : q.2 - p.2 ≤ 2 ^ (20 : ℤ) := by linarith
  obtain ⟨dy, hdy, hdye⟩ := pr.sub_err q.2 p.2 (rep_fin hQ2) (rep_fin hP2) (by rw [abs_of_nonneg Δy0]; exact q2b.trans B0)
  obtain ⟨dx, hdx, hdxe⟩ := pr.sub_err q.1 p.1 (rep_fin hQ1) (rep_fin hP1) (by rw [abs_of_pos Δx0]; exact (by linarith : q.1 - p.1 ≤ _).trans B0)
  obtain ⟨e, he, hee⟩ := pr.sub_err x p.1 (rep_fin hX) (rep_fin hP1) (by rw [abs_of_nonneg D0]; exact (by linarith : x - p.1 ≤ _).trans B0)
  rw [abs_of_nonneg Δy0] at hdye
  rw [abs_of_pos Δx0] at hdxe
  rw [abs_of_nonneg D0] at hee
  have dy0 : 0 ≤ dy := rnd_nonneg hdy Δy0
  have e0 : 0 ≤ e := rnd_nonneg he D0
  have u1 : (2 : ℝ) ^ (-53 : ℤ) ≤ 1 / 1000 := by norm_num
  have u0 := pr.u_nonneg
  have dx0 : 0 < dx := by
    have a := (abs_le.mp hdxe).1
    have b := mul_le_mul_of_nonneg_right u1 Δx0.le
    generalize (2 : ℝ) ^ (-53 : ℤ) = u at *
    linarith only [a, b, Δx0]
  have dydx : dy ≤ dx := by
    have := (binary64 (K := ℝ)).mono _ _ hsl
    rw [hdy, hdx] at this
    simpa using this
  have Q0 : 0 ≤ dy / dx := div_nonneg dy0 dx0.le
  have Q1' : dy / dx ≤ 1 := (div_le_one dx0).mpr dydx
  have one_big : (1 : ℝ) ≤ 2 ^ (1023 : ℤ) := one_le_zpow₀ (by norm_num) (by norm_num)
  obtain ⟨s, hs, hse⟩ := pr.err (dy / dx) (by rw [abs_of_nonneg Q0]; exact Q1'.trans one_big)
  rw [abs_of_nonneg Q0] at hse
  have s0 : 0 ≤ s := rnd_nonneg hs Q0
  have s1 : s ≤ 1 := by
    have := (binary64 (K := ℝ)).mono _ _ Q1'
    rw [hs, (binary64 (K := ℝ)).one] at this
    simpa using this
  have e1 : e ≤ 2 * 2 ^ (20 : ℤ) := by
    have a := (abs_le.mp hee).2
    have b := mul_le_mul_of_nonneg_right u1 D0
    have c : x - p.1 ≤ 2 ^ (20 : ℤ) := by linarith
    generalize (2 : ℝ) ^ (-53 : ℤ) = u at *
    generalize (2 : ℝ) ^ (20 : ℤ) = B at *
    linarith
  have se0 : 0 ≤ s * e := mul_nonneg s0 e0
  have se1 : s * e ≤ 2 ^ (21 : ℤ) := by
    calc s * e ≤ 1 * e := mul_le_mul_of_nonneg_right s1 e0
      _ ≤ 2 * 2 ^ (20 : ℤ) := by linarith
      _ = 2 ^ (21 : ℤ) := by norm_num
  obtain ⟨m, hm, hme⟩ := pr.err (s * e) (by rw [abs_of_nonneg se0]; exact se1.trans (zpow_le_zpow_right₀ (by norm_num) (by norm_num)))
  rw [abs_of_nonneg se0] at hme
  have m0 : 0 ≤ m := rnd_nonneg hm se0
  have η1 : (2 : ℝ) ^ (-1075 : ℤ) ≤ 1 := zpow_le_one_of_nonpos₀ (by norm_num) (by norm_num)
  have mb : m ≤ 2 ^ (23 : ℤ) := by
    have a := (abs_le.mp hme).2
    have b := mul_le_mul_of_nonneg_right u1 se0
    have c : (2 : ℝ) ^ (23 : ℤ) = 4 * 2 ^ (21 : ℤ) := by norm_num
    have d : (1 : ℝ) ≤ 2 ^ (21 : ℤ) := by norm_num
    rw [c]
    generalize (2 : ℝ) ^ (-53 : ℤ) = u at *
    generalize (2 : ℝ) ^ (-1075 : ℤ) = η at *
    generalize (2 : ℝ) ^ (21 : ℤ) = B at *
    linarith
  have p2b : p.2 ≤ 2 ^ (23 : ℤ) := by
    have c : (2 : ℝ) ^ (20 : ℤ) ≤ 2 ^ (23 : ℤ) := by norm_num
    linarith
  obtain ⟨v, hv, hve⟩ := pr.add_err m p.2 ((binary64 (K := ℝ)).idem _ _ hm) (rep_fin hP2) (by
    rw [abs_of_nonneg (add_nonneg m0 hp2)]
    have : m + p.2 ≤ 2 ^ (24 : ℤ) := by
      rw [show (2 : ℝ) ^ (24 : ℤ) = 2 ^ (23 : ℤ) + 2 ^ (23 : ℤ) by norm_num]
      exact add_le_add mb p2b
    exact this.trans (zpow_le_zpow_right₀ (by norm_num) (by norm_num)))
  rw [abs_of_nonneg (add_nonneg m0 hp2)] at hve
  have key := seg_real u0 u1 pr.eta_nonneg Δy0 Δx0 D0 hp2 hdye hdxe hse hee hme s0 hve
  refine ⟨v, ?_, rnd_nonneg hv (add_nonneg m0 hp2), ?_, key.trans ?_⟩
  · rw [RFl.val_add, RFl.val_mul, RFl.val_div, RFl.val_sub, RFl.val_sub, RFl.val_sub, hP1, hP2, hQ1, hQ2, hX, Fl.pf_sub_fin,
      Fl.pf_sub_fin, Fl.pf_sub_fin]
    rw [show (binary64 (K := ℝ)).round (Fl.fin (q.2 - p.2)) = .fin dy from hdy,
      show (binary64 (K := ℝ)).round (Fl.fin (q.1 - p.1)) = .fin dx from hdx,
      show (binary64 (K := ℝ)).round (Fl.fin (x - p.1)) = .fin e from he, Fl.pf_div_fin_ne _ _ dx0.ne',
      show (binary64 (K := ℝ)).round (Fl.fin (dy / dx)) = .fin s from hs, Fl.pf_mul_fin,
      show (binary64 (K := ℝ)).round (Fl.fin (s * e)) = .fin m from hm, Fl.pf_add_fin]
    exact hv
  · intro hxe
    rw [hxe, sub_self, (binary64 (K := ℝ)).zero] at he
    cases he
    rw [mul_zero, (binary64 (K := ℝ)).zero] at hm
    cases hm
    rw [zero_add, rep_fin hP2] at hv
    cases hv
    rfl
  · have G0 : 0 ≤ (q.2 - p.2) / (q.1 - p.1) * (x - p.1) + p.2 := add_nonneg (mul_nonneg (div_nonneg Δy0 Δx0.le) D0) hp2
    refine add_le_add (mul_le_mul_of_nonneg_right (by norm_num) G0) ?_
    have a : x - p.1 + 1 ≤ 2 ^ (21 : ℤ) := by
      have : (2 : ℝ) ^ (21 : ℤ) = 2 ^ (20 : ℤ) + 2 ^ (20 : ℤ) := by norm_num
      have : (1 : ℝ) ≤ 2 ^ (20 : ℤ) := by norm_num
      linarith
    calc 8 * (2 : ℝ) ^ (-1075 : ℤ) * (x - p.1 + 1) ≤ 8 * (2 : ℝ) ^ (-1075 : ℤ) * 2 ^ (21 : ℤ) :=
          mul_le_mul_of_nonneg_left a (by positivity)
      _ = 2 ^ (-1051 : ℤ) := by
          rw [show (8 : ℝ) = 2 ^ (3 : ℤ) by norm_num, ← zpow_add₀ (by norm_num), ← zpow_add₀ (by norm_num)]; norm_num
      _ ≤ _ := zpow_le_zpow_right₀ (by norm_num) (by norm_num)

/-- The interpolation in doubles. -/
theorem npInterp_close (zs : List (DblR × DblR)) (ns : List (ℝ × ℝ))
    (hz : List.Forall₂ (fun z n => z.1.val = .fin n.1 ∧ z.2.val = .fin n.2) zs ns)
    (hc : ns.IsChain SegOk) (hi : Inc ns) (p0 p1 : ℝ × ℝ) (h0 : ns.head? = some p0) (hl : ns.getLast? = some p1) (hp : 0 ≤ p1.2)
    {X : DblR} {x : ℝ} (hX : X.val = .fin x) (hx : p0.1 ≤ x) :
    ∃ v : ℝ, (npInterp zs X).val = .fin v ∧ 0 ≤ v ∧ (∀ n ∈ ns, x = n.1 → v = n.2) ∧
      |v - linI ns x| ≤ 2 ^ (-49 : ℤ) * linI ns x + 2 ^ (-1000 : ℤ) := by
  induction hz generalizing p0 with
  | nil => simp at h0
  | @cons z n zs ns hz1 hz2 ih =>
    simp only [List.head?_cons, Option.some.injEq] at h0
    subst h0
    cases hz2 with
    | nil =>
      simp only [List.getLast?_singleton, Option.some.injEq] at hl
      subst hl
      refine ⟨n.2, hz1.2, hp, ?_, ?_⟩
      · intro m hm _
        rw [List.mem_singleton] at hm
        rw [hm]
      · simp only [linI, sub_self, abs_zero]
        positivity
    | @cons z' n' zs ns hz3 hz4 =>
      have hs : SegOk n n' := (List.isChain_cons_cons.mp hc).1
      obtain ⟨i1, i2⟩ := List.pairwise_cons.mp hi
      have e : (X <ᶠ z'.1) = decide (x < n'.1) := by rw [RFl.lt_def, hX, hz3.1, Fl.pf_lt_fin]
      by_cases hlt : x < n'.1
      · obtain ⟨v, v1, v2, v3, v4⟩ := seg_close hs hz1.1 hz1.2 hz3.1 hz3.2 hX hx hlt
        refine ⟨v, ?_, v2, ?_, ?_⟩
        · rw [npInterp, if_pos (by rw [e]; simpa using hlt)]
          exact v1
        · intro m hm hxm
          rcases List.mem_cons.mp hm with rfl | hm
          · exact v3 hxm
          · exfalso
            rcases List.mem_cons.mp hm with rfl | hm
            · linarith
            · have := (List.pairwise_cons.mp i2).1 m hm
              linarith
        · rw [linI, if_pos hlt]
          exact v4
      · rw [List.getLast?_cons_cons] at hl
        obtain ⟨v, v1, v2, v3, v4⟩ := ih (List.isChain_cons_cons.mp hc).2 i2 n' rfl hl (not_lt.mp hlt)
        refine ⟨v, ?_, v2, ?_, ?_⟩
        · rw [npInterp, if_neg (by rw [e]; simpa using hlt)]
          exact v1
        · intro m hm hxm
          rcases List.mem_cons.mp hm with rfl | hm
          · exfalso
            have := i1 n' (by simp)
            exact hlt (by rw [hxm]; exact this)
          · exact v3 m hm hxm
        · rw [linI, if_neg hlt]
          exact v4

end Verif.Props
