import Verif.Props.Leijnse
import Verif.Props.ItuSpline
import Mathlib.Analysis.Convex.SpecificFunctions.Basic
import Mathlib.Analysis.Convex.SpecificFunctions.Pow

/-!
# C132: the look-up tables of the WAA recover the rain up to their resolution
-/

namespace Verif.Props
open Verif Verif.KR Verif.WaaModels

/-- Interpolating points of a concave curve stays below it. -/
theorem linI_le_concave (w : ℝ → ℝ) (hw : ConcaveOn ℝ (Set.Ici 0) w)
    (hinc : StrictMonoOn (fun t => t + w t) (Set.Ici 0)) (ts : List ℝ) (hs : ts.Pairwise (· < ·))
    (h0 : ∀ t ∈ ts, 0 ≤ t) (lo hi : ℝ) (hlo : ts.head? = some lo) (hhi : ts.getLast? = some hi)
    (A : ℝ) (h1 : lo ≤ A) (h2 : A ≤ hi) :
    linI (ts.map fun t => (t + w t, w t)) (A + w A) ≤ w A := by
  induction ts generalizing lo with
  | nil => simp at hlo
  | cons p rest ih =>
    simp only [List.head?_cons, Option.some.injEq] at hlo
    subst hlo
    have p0 : 0 ≤ p := h0 p (by simp)
    have A0 : 0 ≤ A := p0.trans h1
    cases rest with
    | nil =>
      simp only [List.getLast?_singleton, Option.some.injEq] at hhi
      subst hhi
      have : A = p := le_antisymm h2 h1
      subst this
      exact le_rfl
    | cons q rest =>
      obtain ⟨hp, h3⟩ := List.pairwise_cons.mp hs
      have hpq : p < q := hp q (by simp)
      have q0 : 0 ≤ q := h0 q (by simp)
      have hx : p + w p < q + w q := hinc p0 q0 hpq
      simp only [List.map_cons, linI]
      split_ifs with hc
      · have hAq : A < q := (hinc.lt_iff_lt A0 q0).mp hc
        -- the point on the curve is above the chord
        have hch : w p * (q - A) + w q * (A - p) ≤ w A * (q - p) := by
          have hd : 0 < q - p := sub_pos.mpr hpq
          have := hw.2 p0 q0 (div_nonneg (sub_nonneg.mpr hAq.le) hd.le)
            (div_nonneg (sub_nonneg.mpr h1) hd.le) (by field_simp; ring)
          simp only [smul_eq_mul] at this
          have e : (q - A) / (q - p) * p + (A - p) / (q - p) * q = A := by field_simp; ring
          rw [e] at this
          have e2 : (q - A) / (q - p) * w p + (A - p) / (q - p) * w q =
              (w p * (q - A) + w q * (A - p)) / (q - p) := by field_simp
          rw [e2, div_le_iff₀ hd] at this
          exact this
        have hD : 0 < q + w q - (p + w p) := sub_pos.mpr hx
        have e3 : (w q - w p) / (q + w q - (p + w p)) * (A + w A - (p + w p)) + w p =
            ((w q - w p) * (A + w A - (p + w p)) + w p * (q + w q - (p + w p))) /
              (q + w q - (p + w p)) := by field_simp
        rw [e3, div_le_iff₀ hD]
        nlinarith
      · have hqA : q ≤ A := by
          by_contra hcc
          exact hc (hinc A0 q0 (not_le.mp hcc))
        exact ih h3 (fun t ht => h0 t (by simp [ht])) q rfl (by rwa [List.getLast?_cons_cons] at hhi) hqA

/-- the WAA of Pastorek et al. as a function of the attenuation by rain is concave for `zeta ≤ b` -/
theorem pastorek_concave {a b L A_max zeta d : ℝ} (ha : 0 < a) (hb : 0 < b) (hL : 0 < L)
    (hA : 0 < A_max) (hz : 0 < zeta) (hd : 0 < d) (hzb : zeta ≤ b) :
    ConcaveOn ℝ (Set.Ici 0) fun A => pastorek A_max zeta d (rainOf a b L A) := by
  have haL : 0 < a * L := mul_pos ha hL
  have hval : ∀ A, 0 ≤ A → pastorek A_max zeta d (rainOf a b L A) =
      A_max * (1 - Real.exp (-(d * (A / (a * L)) ^ (zeta / b)))) := by
    intro A hA0
    unfold pastorek rainOf
    rw [← Real.rpow_mul (div_nonneg hA0 haL.le), neg_mul]
    congr 6
    ring
  have hpow := Real.concaveOn_rpow (p := zeta / b) (by positivity) (by rw [div_le_one hb]; exact hzb)
  refine ⟨convex_Ici 0, fun x hx y hy s t hs ht hst => ?_⟩
  rw [Set.mem_Ici] at hx hy
  have hxy : 0 ≤ s • x + t • y := by simp only [smul_eq_mul]; positivity
  simp only [hval x hx, hval y hy, hval _ hxy]
  have h1 := hpow.2 (show x / (a * L) ∈ Set.Ici (0 : ℝ) from div_nonneg hx haL.le)
    (show y / (a * L) ∈ Set.Ici (0 : ℝ) from div_nonneg hy haL.le) hs ht hst
  have h2 := convexOn_exp.2 (Set.mem_univ (-(d * (x / (a * L)) ^ (zeta / b))))
    (Set.mem_univ (-(d * (y / (a * L)) ^ (zeta / b)))) hs ht hst
  simp only [smul_eq_mul] at h1 h2 ⊢
  have e : (s * x + t * y) / (a * L) = s * (x / (a * L)) + t * (y / (a * L)) := by ring
  rw [e]
  set X := (x / (a * L)) ^ (zeta / b)
  set Y := (y / (a * L)) ^ (zeta / b)
  set Z := (s * (x / (a * L)) + t * (y / (a * L))) ^ (zeta / b)
  have h3 : Real.exp (-(d * Z)) ≤ Real.exp (s * -(d * X) + t * -(d * Y)) := by
    apply Real.exp_le_exp.mpr
    nlinarith
  have h4 := h3.trans h2
  have : s * (A_max * (1 - Real.exp (-(d * X)))) + t * (A_max * (1 - Real.exp (-(d * Y)))) =
      A_max * ((s + t) - (s * Real.exp (-(d * X)) + t * Real.exp (-(d * Y)))) := by ring
  rw [this, hst]
  exact mul_le_mul_of_nonneg_left (by linarith) hA.le

/-- the ratio of neighbouring nodes of the table is below 1.36 -/
theorem grid_ratio {k : Nat} (hk : 1 ≤ k) : gridA (k + 1) ≤ 1.36 * gridA k := by
  unfold gridA
  rw [if_neg (by omega), if_neg (by omega)]
  have e : (-10 + 13 * ((k + 1 : Nat) : ℝ) / 99) = 13 / 99 + (-10 + 13 * (k : ℝ) / 99) := by
    push_cast; ring
  rw [e, Real.rpow_add (by norm_num)]
  refine mul_le_mul_of_nonneg_right ?_ (by positivity)
  have h : ((10 : ℝ) ^ (13 / 99 : ℝ)) ^ (99 : ℕ) ≤ (1.36 : ℝ) ^ (99 : ℕ) := by
    rw [← Real.rpow_natCast ((10 : ℝ) ^ (13 / 99 : ℝ)) 99, ← Real.rpow_mul (by norm_num)]
    have : ((13 : ℝ) / 99 * ((99 : ℕ) : ℝ)) = ((13 : ℕ) : ℝ) := by norm_num
    rw [this, Real.rpow_natCast]
    norm_num
  exact le_of_pow_le_pow_left₀ (by norm_num) (by norm_num) h

theorem grid_first : gridA 1 ≤ 1.4e-10 := by
  unfold gridA
  rw [if_neg (by norm_num)]
  have e : (-10 + 13 * ((1 : Nat) : ℝ) / 99) = 13 / 99 + ((-10 : ℤ) : ℝ) := by push_cast; ring
  rw [e, Real.rpow_add (by norm_num), Real.rpow_intCast]
  have h : (10 : ℝ) ^ (13 / 99 : ℝ) ≤ 1.36 := by
    have h : ((10 : ℝ) ^ (13 / 99 : ℝ)) ^ (99 : ℕ) ≤ (1.36 : ℝ) ^ (99 : ℕ) := by
      rw [← Real.rpow_natCast ((10 : ℝ) ^ (13 / 99 : ℝ)) 99, ← Real.rpow_mul (by norm_num)]
      have : ((13 : ℝ) / 99 * ((99 : ℕ) : ℝ)) = ((13 : ℕ) : ℝ) := by norm_num
      rw [this, Real.rpow_natCast]
      norm_num
    exact le_of_pow_le_pow_left₀ (by norm_num) (by norm_num) h
  calc (10 : ℝ) ^ (13 / 99 : ℝ) * (10 : ℝ) ^ (-10 : ℤ) ≤ 1.36 * (10 : ℝ) ^ (-10 : ℤ) :=
        mul_le_mul_of_nonneg_right h (by positivity)
    _ ≤ 1.4e-10 := by norm_num

/-- every attenuation of the table is between two nodes -/
theorem grid_between {A : ℝ} (h0 : 0 ≤ A) (h1 : A ≤ 1000) :
    ∃ k, k < 99 ∧ gridA k ≤ A ∧ A ≤ gridA (k + 1) := by
  by_contra hc
  push Not at hc
  have : ∀ k, k ≤ 98 → gridA (k + 1) < A := by
    intro k
    induction k with
    | zero => intro _; exact hc 0 (by norm_num) (by simpa [gridA] using h0)
    | succ k ih => intro hk; exact hc (k + 1) (by omega) (ih (by omega)).le
  have := this 98 le_rfl
  rw [show 98 + 1 = 99 from rfl, gridA_last] at this
  linarith

/-- An estimate between the same nodes is right up to the resolution of the table. -/
theorem grid_close {k : Nat} {A A' : ℝ} (h1 : gridA k ≤ A) (h2 : A ≤ gridA (k + 1))
    (h3 : gridA k ≤ A') (h4 : A' ≤ gridA (k + 1)) :
    0 ≤ A' ∧ A' ≤ max (1.36 * A) 1.4e-10 ∧ A ≤ max (1.36 * A') 1.4e-10 := by
  refine ⟨(gridA_nonneg k).trans h3, ?_⟩
  rcases Nat.eq_zero_or_pos k with rfl | hk
  · have := grid_first
    exact ⟨le_max_of_le_right (h4.trans this), le_max_of_le_right (h2.trans this)⟩
  · have := grid_ratio hk
    exact ⟨le_max_of_le_left (by linarith), le_max_of_le_left (by linarith)⟩

/-- the look-up of `waa_pastorek_2021_from_A_obs` -/
theorem pastorek_lookup {a b L A_max zeta d : ℝ} (ha : 0 < a) (hb : 0 < b) (hL : 0 < L)
    (hz : 0 < zeta) (spline : Spline) (f_Hz : Fl ℝ) (pol : String)
    (hab : a_b spline [f_Hz /ᶠ PyFloat.ofInt 1000000000] [pol] "ITU_2005" =
      .ok ([.fin a], [.fin b])) (A_obs : List (Fl ℝ))
    (h : A_obs.any (fun x => x <ᶠ PyFloat.ofInt 0) = false) :
    waa_pastorek_2021_from_A_obs spline A_obs f_Hz pol (.fin L) (.fin A_max) (.fin zeta) (.fin d) =
      lookup A_obs ((List.range 100).map fun k =>
        Fl.fin (pastorek A_max zeta d (rainOf a b L (gridA k)))) := by
  rw [from_A_obs_eq]
  rw [if_neg (by rw [h]; simp), rain_table ha hb hL spline _ _ hab]
  show lookup A_obs (List.map (pastorekElem _ _ _) _) = _
  rw [List.map_map]
  congr 1
  apply List.map_congr_left
  intro k _
  rw [Function.comp_apply, pastorekElem_fin hz (rainOf_nonneg ha hL (gridA_nonneg k))]

theorem rainOf_law {a b L R : ℝ} (ha : 0 < a) (hb : 0 < b) (hL : 0 < L) (hR : 0 ≤ R) :
    rainOf a b L (a * R ^ b * L) = R := by
  unfold rainOf
  have : a * R ^ b * L / (a * L) = R ^ b := by field_simp
  rw [this, ← Real.rpow_mul hR, mul_one_div_cancel hb.ne', Real.rpow_one]

/-- C132: the WAA which `waa_pastorek_2021_from_A_obs` takes from the attenuation of rain and the WAA it causes. What
remains is the attenuation by rain up to a factor of 1.36 (or below 1.4e-10 dB), and if `zeta ≤ b` never less than it. -/
theorem C132_pastorek {a b L A_max zeta d : ℝ} (ha : 0 < a) (hb : 0 < b) (hL : 0 < L)
    (hA : 0 < A_max) (hz : 0 < zeta) (hd : 0 < d) (spline : Spline) (f_Hz : Fl ℝ) (pol : String)
    (hab : a_b spline [f_Hz /ᶠ PyFloat.ofInt 1000000000] [pol] "ITU_2005" =
      .ok ([.fin a], [.fin b])) (Rs : List ℝ) (hR : ∀ R ∈ Rs, 0 ≤ R ∧ a * R ^ b * L ≤ 1000) :
    ∃ g : ℝ → ℝ,
      waa_pastorek_2021_from_A_obs spline
        (Rs.map fun R => Fl.fin (a * R ^ b * L + A_max * (1 - Real.exp (-d * R ^ zeta))))
        f_Hz pol (.fin L) (.fin A_max) (.fin zeta) (.fin d) = .ok (Rs.map fun R => Fl.fin (g R)) ∧
      ∀ R ∈ Rs, let A := a * R ^ b * L
        let A' := A + A_max * (1 - Real.exp (-d * R ^ zeta)) - g R
        0 ≤ A' ∧ A' ≤ max (1.36 * A) 1.4e-10 ∧ A ≤ max (1.36 * A') 1.4e-10 ∧
        (zeta ≤ b → A ≤ A') ∧ (R = 0 → A' = 0) := by
  set W : ℝ → ℝ := fun A => pastorek A_max zeta d (rainOf a b L A) with hW
  have hWm : StrictMonoOn W (Set.Ici 0) := fun x hx y hy hxy =>
    pastorek_strictMono hA hz hd (rainOf_nonneg ha hL hx) (rainOf_strictMono ha hb hL hx hxy)
  have hXm : StrictMonoOn (fun t => t + W t) (Set.Ici 0) := fun x hx y hy hxy =>
    add_lt_add hxy (hWm hx hy hxy)
  have hinc : StrictMono fun k => gridA k + W (gridA k) := fun i j hij =>
    hXm (gridA_nonneg i) (gridA_nonneg j) (gridA_strictMono hij)
  have hW0 : W 0 = 0 := by simp only [hW]; rw [rainOf_zero hb, pastorek_zero hz]
  have hWR : ∀ R, 0 ≤ R → W (a * R ^ b * L) = A_max * (1 - Real.exp (-d * R ^ zeta)) := by
    intro R hR0
    simp only [hW]
    rw [rainOf_law ha hb hL hR0]
    rfl
  obtain ⟨g, hg, g1, g2, g3, g4, g5, g6, g7⟩ := lookup_spec_linI (fun k => W (gridA k)) hinc
  have hg0 : gridA 0 = 0 := rfl
  rw [hg0, hW0, gridA_last] at g4 g6
  have hA0 : ∀ R ∈ Rs, 0 ≤ a * R ^ b * L := by
    intro R hR'
    have := (hR R hR').1
    positivity
  have hWn : ∀ t, 0 ≤ t → 0 ≤ W t := fun t ht =>
    pastorek_nonneg hA hz hd (rainOf_nonneg ha hL ht)
  have htop : ∀ t, 0 ≤ t → t ≤ 1000 → t + W t ≤ 1000 + W 1000 := fun t h0 h1 =>
    (hXm.le_iff_le h0 (by norm_num : (0 : ℝ) ≤ 1000)).mpr h1
  refine ⟨fun R => g (a * R ^ b * L + W (a * R ^ b * L)), ?_, ?_⟩
  · rw [pastorek_lookup ha hb hL hz spline f_Hz pol hab, g6]
    · rw [List.map_map]
      congr 1
      refine List.map_congr_left fun R hR' => ?_
      simp only [Function.comp_apply]
      rw [hWR R (hR R hR').1]
    · intro z hz'
      obtain ⟨R, hR', rfl⟩ := List.mem_map.mp hz'
      right
      refine ⟨_, rfl, ?_, ?_⟩
      · rw [← hWR R (hR R hR').1]
        exact add_nonneg (hA0 R hR') (hWn _ (hA0 R hR'))
      · rw [← hWR R (hR R hR').1]
        exact htop _ (hA0 R hR') (hR R hR').2
    · rw [List.any_eq_false]
      intro z hz'
      obtain ⟨R, hR', rfl⟩ := List.mem_map.mp hz'
      rw [← hWR R (hR R hR').1]
      have := add_nonneg (hA0 R hR') (hWn _ (hA0 R hR'))
      simpa using this
  · intro R hR'
    dsimp only
    rw [← hWR R (hR R hR').1]
    have a0 := hA0 R hR'
    have a1 := (hR R hR').2
    have az : R = 0 → a * R ^ b * L = 0 := by
      rintro rfl
      rw [Real.zero_rpow hb.ne', mul_zero, zero_mul]
    generalize a * R ^ b * L = A at a0 a1 az
    obtain ⟨k, hk, k1, k2⟩ := grid_between a0 a1
    have n1 := g1 k (by omega)
    have n2 := g1 (k + 1) (by omega)
    have x1 : gridA k + W (gridA k) ≤ A + W A := (hXm.le_iff_le (gridA_nonneg k) a0).mpr k1
    have x2 : A + W A ≤ gridA (k + 1) + W (gridA (k + 1)) :=
      (hXm.le_iff_le a0 (gridA_nonneg (k + 1))).mpr k2
    have m1 := g4 _ _ (add_nonneg (gridA_nonneg k) (hWn _ (gridA_nonneg k))) x1 (htop A a0 a1)
    have m2 := g4 _ _ (add_nonneg a0 (hWn _ a0)) x2 (htop _ (gridA_nonneg (k + 1)) (by
      rw [← gridA_last]; exact gridA_strictMono.monotone (by omega)))
    rw [n1, add_sub_cancel_right] at m1
    rw [n2, add_sub_cancel_right] at m2
    obtain ⟨c1, c2, c3⟩ := grid_close k1 k2 m1 m2
    refine ⟨c1, c2, c3, fun hzb => ?_, fun h => ?_⟩
    swap
    · have n0 := g1 0 (by omega)
      rw [hg0] at n0
      rw [az h, n0]
      ring
    have := linI_le_concave W (pastorek_concave ha hb hL hA hz hd hzb) hXm
      ((List.range 100).map gridA) (by
        rw [List.pairwise_map]
        exact List.pairwise_lt_range.imp fun h => gridA_strictMono h)
      (by
        intro t ht
        obtain ⟨k, -, rfl⟩ := List.mem_map.mp ht
        exact gridA_nonneg k) 0 1000
      (by rw [List.head?_map, show (List.range 100).head? = some 0 by decide]; rfl)
      (by rw [List.getLast?_map, show (List.range 100).getLast? = some 99 by decide,
            Option.map_some, gridA_last]) A a0 a1
    rw [List.map_map] at this
    rw [hg]
    have e : linI ((List.range 100).map fun k => (gridA k + W (gridA k), W (gridA k))) (A + W A) ≤ W A := this
    linarith

/-- The power law applied to an attenuation that is right up to a factor of 1.36. -/
theorem rate_lookup_close {a b L R A' : ℝ} (ha : 0 < a) (hb : 0.67 ≤ b) (hL : 0 < L) (hR : 0 ≤ R)
    (h0 : 0 ≤ A') (hbig : 1.9e-10 ≤ a * R ^ b * L)
    (h1 : A' ≤ max (1.36 * (a * R ^ b * L)) 1.4e-10) (h2 : a * R ^ b * L ≤ max (1.36 * A') 1.4e-10) :
    R / 1.6 ≤ rainOf a b L A' ∧ rainOf a b L A' ≤ 1.6 * R := by
  have b0 : 0 < b := by linarith
  have i0 : 0 < 1 / b := by positivity
  have haL : 0 < a * L := mul_pos ha hL
  have hc : (1.36 : ℝ) ≤ 1.6 ^ b := by
    have e : (1.36 : ℝ) ≤ 1.6 ^ (0.67 : ℝ) := by
      have h : (1.36 : ℝ) ^ (100 : ℕ) ≤ ((1.6 : ℝ) ^ (0.67 : ℝ)) ^ (100 : ℕ) := by
        rw [← Real.rpow_natCast ((1.6 : ℝ) ^ (0.67 : ℝ)) 100, ← Real.rpow_mul (by norm_num)]
        have : ((0.67 : ℝ) * ((100 : ℕ) : ℝ)) = ((67 : ℕ) : ℝ) := by norm_num
        rw [this, Real.rpow_natCast]
        norm_num
      exact le_of_pow_le_pow_left₀ (by norm_num) (by positivity) h
    exact e.trans (Real.rpow_le_rpow_of_exponent_le (by norm_num) hb)
  have mono : ∀ x y, 0 ≤ x → x ≤ y → rainOf a b L x ≤ rainOf a b L y := by
    intro x y hx hxy
    exact Real.rpow_le_rpow (div_nonneg hx haL.le) (div_le_div_of_nonneg_right hxy haL.le) i0.le
  have hA' : A' ≤ 1.36 * (a * R ^ b * L) := by
    rcases le_max_iff.mp h1 with h | h
    · exact h
    · linarith
  have hA : a * R ^ b * L ≤ 1.36 * A' := by
    rcases le_max_iff.mp h2 with h | h
    · exact h
    · norm_num at h hbig; linarith
  constructor
  · have e := rainOf_law (R := R / 1.6) ha b0 hL (by positivity)
    rw [← e]
    refine mono _ _ (by positivity) ?_
    rw [Real.div_rpow hR (by norm_num)]
    have hp : (0 : ℝ) < 1.6 ^ b := by positivity
    have : a * (R ^ b / 1.6 ^ b) * L = a * R ^ b * L / 1.6 ^ b := by ring
    rw [this, div_le_iff₀ hp]
    nlinarith
  · have e := rainOf_law (R := 1.6 * R) ha b0 hL (by positivity)
    rw [← e]
    refine mono _ _ h0 ?_
    rw [Real.mul_rpow (by norm_num) hR]
    have hn : 0 ≤ a * R ^ b * L := by positivity
    have : a * ((1.6 : ℝ) ^ b * R ^ b) * L = 1.6 ^ b * (a * R ^ b * L) := by ring
    rw [this]
    nlinarith

/-- the rain rates of finite attenuations that are not negative -/
theorem callFP_nonneg {L x u v R_min : ℝ} {p s : String} (hu : 0 < u) (hv : 0 < v) (hL : 0 < L)
    (h : a_b cubicSpline [.fin x] [p] s = .ok ([.fin u], [.fin v])) (As : List ℝ)
    (hA : ∀ A ∈ As, 0 ≤ A) :
    callFP (As.map Fl.fin) L x p s R_min = .ok (As.map fun A =>
      Fl.fin (if rainOf u v L A < R_min then 0 else rainOf u v L A)) := by
  rw [callFP_eq h, callAB_eq, List.map_map]
  congr 1
  refine List.map_congr_left fun A hA' => ?_
  rw [Function.comp_apply, rate_fin hu hv hL, if_neg (not_lt.mpr (hA A hA'))]
  rfl

/-- C132: the rain rates after the correction with `waa_pastorek_2021_from_A_obs` are, for every link of the ITU
table, those of the rain or up to 1.6 times as large, never smaller, and 0 without rain (`zeta ≤ 0.67`, as the default 0.55). -/
theorem C132_pastorek_rain (f L A_max zeta d R_min : ℝ) (pol : String) (hf1 : 1 ≤ f) (hf2 : f ≤ 100)
    (hpol : isH pol ∨ isV pol) (hL : 0 < L) (hA : 0 < A_max) (hz : 0 < zeta) (hz' : zeta ≤ 0.67) (hd : 0 < d) :
    ∃ u v : ℝ, a_b cubicSpline [.fin f] [pol] "ITU_2005" = .ok ([.fin u], [.fin v]) ∧
    ∀ Rs : List ℝ, (∀ R ∈ Rs, R = 0 ∨ (0 ≤ R ∧ 1.9e-10 ≤ u * R ^ v * L ∧ u * R ^ v * L ≤ 1000)) →
      let obs := fun R => u * R ^ v * L + A_max * (1 - Real.exp (-d * R ^ zeta))
      ∃ (waa : List ℝ) (r : List (Fl ℝ)), waa.length = Rs.length ∧
        waa_pastorek_2021_from_A_obs cubicSpline (Rs.map fun R => Fl.fin (obs R)) (.fin (f * 10 ^ 9)) pol
          (.fin L) (.fin A_max) (.fin zeta) (.fin d) = .ok (waa.map Fl.fin) ∧
        callFP (List.zipWith (fun R w => Fl.fin (obs R) -ᶠ Fl.fin w) Rs waa) L f pol "ITU_2005" R_min =
          .ok r ∧ r.length = Rs.length ∧
        ∀ (i : Nat) (R : ℝ), Rs[i]? = some R → ∃ R', R ≤ R' ∧ R' ≤ 1.6 * R ∧
          r[i]? = some (.fin (if R' < R_min then 0 else R')) := by
  obtain ⟨u, v, hab, hu, hv0⟩ := ab_single_pos hf1 hf2 hpol (Or.inr rfl : "ITU_2005" = "ITU_2003" ∨ "ITU_2005" = "ITU_2005")
  obtain ⟨u', v', e1, e2, -, -, hv, -⟩ := C106_positive [.fin f] [pol] "ITU_2005" _ _ hab 0 f rfl
  simp only [List.getElem?_cons_zero, Option.some.injEq, Fl.fin.injEq] at e1 e2
  subst e1
  subst e2
  refine ⟨u, v, hab, fun Rs hR => ?_⟩
  have hR' : ∀ R ∈ Rs, 0 ≤ R ∧ u * R ^ v * L ≤ 1000 := by
    intro R h
    rcases hR R h with rfl | h
    · rw [Real.zero_rpow hv0.ne', mul_zero, zero_mul]
      exact ⟨le_rfl, by norm_num⟩
    · exact ⟨h.1, h.2.2⟩
  have hdiv : (Fl.fin (f * 10 ^ 9) : Fl ℝ) /ᶠ PyFloat.ofInt 1000000000 = .fin f := by
    rw [Fl.pf_ofInt, Fl.pf_div_fin_ne _ _ (by norm_num)]
    congr 1
    push_cast
    field_simp
    norm_num
  obtain ⟨g, hg, hb⟩ := C132_pastorek hu hv0 hL hA hz hd cubicSpline (.fin (f * 10 ^ 9)) pol
    (by rw [hdiv]; exact hab) Rs hR'
  intro obs
  refine ⟨Rs.map g, (Rs.map fun R => obs R - g R).map (fun A =>
      Fl.fin (if rainOf u v L A < R_min then 0 else rainOf u v L A)), by simp, ?_, ?_, ?_, ?_⟩
  · rw [List.map_map]
    exact hg
  · have e : List.zipWith (fun R w => Fl.fin (obs R) -ᶠ Fl.fin w) Rs (Rs.map g) =
        (Rs.map fun R => obs R - g R).map Fl.fin := by
      rw [List.zipWith_map_right, List.zipWith_self, List.map_map]
      refine List.map_congr_left fun R _ => ?_
      rw [Fl.pf_sub_fin]
      rfl
    rw [e]
    refine callFP_nonneg hu hv0 hL hab _ fun A hA' => ?_
    obtain ⟨R, hR', rfl⟩ := List.mem_map.mp hA'
    exact (hb R hR').1
  · simp
  · intro i R hi
    have hmem := List.mem_of_getElem? hi
    obtain ⟨c0, c1, c2, c3, c4⟩ := hb R hmem
    rcases hR R hmem with hz0 | ⟨R0, Rbig, -⟩
    · refine ⟨0, hz0.le, by rw [hz0]; norm_num, ?_⟩
      rw [List.map_map, List.getElem?_map, hi]
      simp only [Option.map_some, Function.comp_apply, obs]
      rw [c4 hz0, rainOf_zero hv0]
    refine ⟨rainOf u v L (obs R - g R), ?_, (rate_lookup_close hu hv hL R0 c0 Rbig c1 c2).2, ?_⟩
    · have e := rainOf_law (R := R) hu hv0 hL R0
      conv_lhs => rw [← e]
      have haL : 0 < u * L := mul_pos hu hL
      refine Real.rpow_le_rpow (div_nonneg (by positivity) haL.le)
        (div_le_div_of_nonneg_right ?_ haL.le) (by positivity)
      exact c3 (hz'.trans hv)
    · rw [List.map_map, List.getElem?_map, hi]
      rfl

/-- Concrete case: 23 GHz, 5 km, default parameters, rain with an attenuation of 1 dB. -/
example : ∃ u v R : ℝ, a_b cubicSpline [.fin 23] ["V"] "ITU_2005" = .ok ([.fin u], [.fin v]) ∧
    0 ≤ R ∧ 1.9e-10 ≤ u * R ^ v * 5 ∧ u * R ^ v * 5 ≤ 1000 ∧
    ∃ (waa : List ℝ) (r : List (Fl ℝ)),
      waa_pastorek_2021_from_A_obs cubicSpline [Fl.fin (1 + 14 * (1 - Real.exp (-0.1 * R ^ (0.55 : ℝ))))]
        (.fin (23 * 10 ^ 9)) "V" (.fin 5) (.fin 14) (.fin 0.55) (.fin 0.1) = .ok (waa.map Fl.fin) ∧
      ∃ R', R ≤ R' ∧ R' ≤ 1.6 * R ∧ r[0]? = some (.fin R') := by
  obtain ⟨u, v, hab, h⟩ := C132_pastorek_rain 23 5 14 0.55 0.1 0 "V" (by norm_num) (by norm_num)
    (by simp [isV]) (by norm_num) (by norm_num) (by norm_num) (by norm_num) (by norm_num)
  obtain ⟨u', v', hab', hu, hv⟩ := ab_single_pos (x := 23) (p := "V") (by norm_num) (by norm_num)
    (by simp [isV]) (Or.inr rfl : "ITU_2005" = "ITU_2003" ∨ "ITU_2005" = "ITU_2005")
  rw [hab] at hab'
  simp only [Except.ok.injEq, Prod.mk.injEq, List.cons.injEq, Fl.fin.injEq, and_true] at hab'
  obtain ⟨rfl, rfl⟩ := hab'
  have hR0 : 0 ≤ (1 / (u * 5)) ^ (1 / v) := by positivity
  have e : u * ((1 / (u * 5)) ^ (1 / v)) ^ v * 5 = 1 := by
    rw [← Real.rpow_mul (by positivity), one_div_mul_cancel hv.ne', Real.rpow_one]
    field_simp
  generalize (1 / (u * 5)) ^ (1 / v) = R at hR0 e
  refine ⟨u, v, R, hab, hR0, by rw [e]; norm_num, by rw [e]; norm_num, ?_⟩
  obtain ⟨waa, r, -, h1, -, -, h4⟩ := h [R] (by
    intro R' h'
    rw [List.mem_singleton] at h'
    subst h'
    exact Or.inr ⟨hR0, by rw [e]; norm_num, by rw [e]; norm_num⟩)
  obtain ⟨R', b1, b2, b3⟩ := h4 0 R rfl
  rw [if_neg (by linarith)] at b3
  refine ⟨waa, r, ?_, R', b1, b2, b3⟩
  simpa only [List.map_cons, List.map_nil, e] using h1

/-- C132: the same for `waa_leijnse_2008_from_A_obs`, as far as attenuation and WAA together increase with the rain. -/
theorem C132_leijnse {a b L : ℝ} (ha : 0 < a) (hb : 0 < b) (hL : 0 < L)
    (spline : Spline) (f_Hz : ℝ) (pol : String) (T_K gamma delta l_antenna : ℝ) (n_antenna : ℂ)
    (hab : a_b spline [Fl.fin f_Hz /ᶠ PyFloat.ofInt 1000000000] [pol] "ITU_2005" =
      .ok ([.fin a], [.fin b]))
    (W : ℝ → ℝ)
    (hW : ∀ R, 0 ≤ R → waa_leijnse_2008 (.array [.fin R]) f_Hz T_K gamma delta n_antenna l_antenna =
      .ok [.fin (W R)])
    (hinc : StrictMonoOn (fun R => a * R ^ b * L + W R) (Set.Ici 0))
    (Rs : List ℝ) (hR : ∀ R ∈ Rs, 0 ≤ R ∧ a * R ^ b * L ≤ 1000) :
    ∃ g : ℝ → ℝ,
      waa_leijnse_2008_from_A_obs spline (Rs.map fun R => Fl.fin (a * R ^ b * L + W R)) f_Hz pol
        (.fin L) T_K gamma delta n_antenna l_antenna = .ok (Rs.map fun R => Fl.fin (g R)) ∧
      ∀ R ∈ Rs, let A := a * R ^ b * L
        let A' := A + W R - g R
        0 ≤ A' ∧ A' ≤ max (1.36 * A) 1.4e-10 ∧ A ≤ max (1.36 * A') 1.4e-10 ∧
        (0.67 ≤ b → 1.9e-10 ≤ A → R / 1.6 ≤ rainOf a b L A' ∧ rainOf a b L A' ≤ 1.6 * R) := by
  have haL : 0 < a * L := mul_pos ha hL
  have inv : ∀ A, 0 ≤ A → a * rainOf a b L A ^ b * L = A := by
    intro A hA
    unfold rainOf
    rw [← Real.rpow_mul (div_nonneg hA haL.le), one_div_mul_cancel hb.ne', Real.rpow_one]
    field_simp
  have rn : ∀ A, 0 ≤ A → 0 ≤ rainOf a b L A := fun A hA => rainOf_nonneg ha hL hA
  have hXm : StrictMonoOn (fun A => A + W (rainOf a b L A)) (Set.Ici 0) := by
    intro x hx y hy hxy
    have := hinc (rn x hx) (rn y hy) (rainOf_strictMono ha hb hL hx hxy)
    simp only [inv x hx, inv y hy] at this
    exact this
  have hW0 : W 0 = 0 := by
    have := hW 0 le_rfl
    unfold waa_leijnse_2008 at this
    simp only [List.map_cons, List.map_nil, leijnseElem, Fl.pf_ofInt, Int.cast_zero] at this
    rw [if_pos (by simp)] at this
    simpa using this.symm
  obtain ⟨g, g0, g1, g2, g3, -, g5, -⟩ := C66_leijnse_from_A_obs ha hb hL spline f_Hz pol T_K gamma delta
    l_antenna n_antenna hab (fun k => W (rainOf a b L (gridA k))) (fun k _ => hW _ (rn _ (gridA_nonneg k)))
    (fun i j hij => hXm (gridA_nonneg i) (gridA_nonneg j) (gridA_strictMono hij))
  rw [gridA_last] at g2 g3 g5
  have hA0 : ∀ R ∈ Rs, 0 ≤ a * R ^ b * L := by
    intro R hR'
    have := (hR R hR').1
    positivity
  have low : ∀ A, 0 ≤ A → 0 ≤ A + W (rainOf a b L A) := by
    intro A hA
    have := (hXm.le_iff_le (le_refl (0 : ℝ)) hA).mpr hA
    simp only [rainOf_zero hb, hW0, add_zero] at this
    exact this
  have htop : ∀ t, 0 ≤ t → t ≤ 1000 → t + W (rainOf a b L t) ≤ 1000 + W (rainOf a b L 1000) :=
    fun t h0 h1 => (hXm.le_iff_le h0 (by norm_num : (0 : ℝ) ≤ 1000)).mpr h1
  refine ⟨fun R => g (a * R ^ b * L + W R), ?_, ?_⟩
  · rw [g5, List.map_map]
    · rfl
    · intro z hz'
      obtain ⟨R, hR', rfl⟩ := List.mem_map.mp hz'
      right
      have h1 := low _ (hA0 R hR')
      have h2 := htop _ (hA0 R hR') (hR R hR').2
      rw [rainOf_law ha hb hL (hR R hR').1] at h1 h2
      exact ⟨_, rfl, h1, h2⟩
  · intro R hR'
    have a0 := hA0 R hR'
    have a1 := (hR R hR').2
    have R0 := (hR R hR').1
    have key : ∀ A, 0 ≤ A → A ≤ 1000 → ∀ A', A' = A + W (rainOf a b L A) - g (A + W (rainOf a b L A)) →
        0 ≤ A' ∧ A' ≤ max (1.36 * A) 1.4e-10 ∧ A ≤ max (1.36 * A') 1.4e-10 := by
      intro A a0 a1 A' hA'
      obtain ⟨k, hk, k1, k2⟩ := grid_between a0 a1
      have n1 := g1 k (by omega)
      have n2 := g1 (k + 1) (by omega)
      have x1 := (hXm.le_iff_le (gridA_nonneg k) a0).mpr k1
      have x2 := (hXm.le_iff_le a0 (gridA_nonneg (k + 1))).mpr k2
      have m1 := g3 _ _ (low _ (gridA_nonneg k)) x1 (htop A a0 a1)
      have m2 := g3 _ _ (low _ a0) x2 (htop _ (gridA_nonneg (k + 1)) (by
        rw [← gridA_last]; exact gridA_strictMono.monotone (by omega)))
      rw [n1, add_sub_cancel_right] at m1
      rw [n2, add_sub_cancel_right] at m2
      rw [hA']
      exact grid_close k1 k2 m1 m2
    have := key _ a0 a1 _ rfl
    rw [rainOf_law ha hb hL R0] at this
    obtain ⟨c0, c1, c2⟩ := this
    exact ⟨c0, c1, c2, fun hb' hbig => rate_lookup_close ha hb' hL R0 c0 hbig c1 c2⟩

/-- The hypotheses can be met: an antenna without water film. -/
example (a b L : ℝ) (ha : 0 < a) (hb : 0 < b) (hL : 0 < L) :
    (∀ R : ℝ, 0 ≤ R → waa_leijnse_2008 (.array [.fin R]) 10000000000 293 0 (24 / 100)
        ⟨173 / 100, 14 / 1000⟩ (1 / 1000) = .ok [.fin 0]) ∧
    StrictMonoOn (fun R : ℝ => a * R ^ b * L + 0) (Set.Ici 0) := by
  refine ⟨fun R hR => ?_, fun x hx y hy hxy => ?_⟩
  · refine C17_no_film [R] ?_ _ _ _ _ _ ?_
      (coverTerm_ne_zero (by norm_num) (by norm_num) (by norm_num) (by norm_num))
    · intro r hr
      rw [List.mem_singleton] at hr
      rw [hr]
      exact hR
    · intro h
      have := (C18_eps_water 10000000000 293 (by norm_num) (by norm_num) (by norm_num)).1
      rw [h] at this
      simp at this
  · have := Real.rpow_lt_rpow hx hxy hb
    have h := mul_lt_mul_of_pos_right (mul_lt_mul_of_pos_left this ha) hL
    simpa using h

end Verif.Props
