import Verif.Lemmas.LinInterp
import Verif.Lemmas.KR
import Verif.Props.AB
import Mathlib.Analysis.SpecialFunctions.Pow.Continuity
import Mathlib.Topology.Order.Basic

/-!
# Properties C15-C18: wet antenna attenuation from rain rates
-/

namespace Verif.Props
open Verif Verif.KR Verif.WaaModels

/-! ### C15 -/

/-- the Pastorek formula on real numbers -/
noncomputable def pastorek (A_max zeta d R : ℝ) : ℝ := A_max * (1 - Real.exp (-d * R ^ zeta))

theorem pastorekElem_fin {A_max zeta d R : ℝ} (hz : 0 < zeta) (hR : 0 ≤ R) :
    pastorekElem (Fl.fin A_max) (Fl.fin zeta) (Fl.fin d) (Fl.fin R) = Fl.fin (pastorek A_max zeta d R) := by
  unfold pastorekElem pastorek
  show (if _ then _ else _ *ᶠ (_ -ᶠ Fl.exp (_ *ᶠ Fl.pow _ _))) = _
  rw [Fl.pf_ofInt, Fl.pf_ofInt, Fl.pf_eq_fin]
  by_cases h : R = 0
  · subst h
    simp [Real.zero_rpow hz.ne']
  · simp only [Int.cast_zero, decide_eq_true_eq, h, if_false, Fl.pf_sub_fin, Fl.pow_fin hR hz,
      Fl.pf_mul_fin, Fl.exp_fin, Int.cast_one]
    rw [zero_sub]

theorem pastorek_strictMono {A_max zeta d x y : ℝ} (hA : 0 < A_max) (hz : 0 < zeta) (hd : 0 < d)
    (hx : 0 ≤ x) (hxy : x < y) : pastorek A_max zeta d x < pastorek A_max zeta d y := by
  unfold pastorek
  have h1 := Real.rpow_lt_rpow hx hxy hz
  have h2 : Real.exp (-d * y ^ zeta) < Real.exp (-d * x ^ zeta) := by
    apply Real.exp_lt_exp.mpr
    nlinarith
  nlinarith

theorem pastorek_zero {A_max zeta d : ℝ} (hz : 0 < zeta) : pastorek A_max zeta d 0 = 0 := by
  simp [pastorek, Real.zero_rpow hz.ne']

theorem pastorek_lt {A_max zeta d x : ℝ} (hA : 0 < A_max) : pastorek A_max zeta d x < A_max := by
  unfold pastorek
  have := Real.exp_pos (-d * x ^ zeta)
  nlinarith

theorem pastorek_nonneg {A_max zeta d x : ℝ} (hA : 0 < A_max) (hz : 0 < zeta) (hd : 0 < d)
    (hx : 0 ≤ x) : 0 ≤ pastorek A_max zeta d x := by
  rcases hx.lt_or_eq with h | h
  · rw [← pastorek_zero (A_max := A_max) (d := d) hz]
    exact (pastorek_strictMono hA hz hd le_rfl h).le
  · rw [← h, pastorek_zero hz]

/-- **C15** The value is `A_max (1 - exp (-d R^zeta))`. It is proportional to `A_max`;
`A_max (1 - 1/e)` where `d R^zeta = 1`; increasing in `d`; and multiplying the rain rate by `c`
is the same as multiplying `d` by `c^zeta`. -/
theorem C15_parameters {A_max zeta d x : ℝ} (hA : 0 < A_max) (hz : 0 < zeta) (hx : 0 < x) :
    ∃ w : ℝ, waa_pastorek_2021 (.array [Fl.fin x]) (Fl.fin A_max) (Fl.fin zeta) (Fl.fin d) = .ok [Fl.fin w] ∧
      w = A_max * (1 - Real.exp (-(d * x ^ zeta))) ∧
      (∀ c, 0 < c → waa_pastorek_2021 (.array [Fl.fin x]) (Fl.fin (c * A_max)) (Fl.fin zeta) (Fl.fin d) =
        .ok [Fl.fin (c * w)]) ∧
      (d * x ^ zeta = 1 → w = A_max * (1 - 1 / Real.exp 1)) ∧
      (∀ d', d < d' → ∃ w', w < w' ∧
        waa_pastorek_2021 (.array [Fl.fin x]) (Fl.fin A_max) (Fl.fin zeta) (Fl.fin d') = .ok [Fl.fin w']) ∧
      (∀ c, 0 < c →
        waa_pastorek_2021 (.array [Fl.fin (c * x)]) (Fl.fin A_max) (Fl.fin zeta) (Fl.fin d) =
        waa_pastorek_2021 (.array [Fl.fin x]) (Fl.fin A_max) (Fl.fin zeta) (Fl.fin (c ^ zeta * d))) := by
  have key : ∀ A d' x', 0 < x' →
      waa_pastorek_2021 (.array [Fl.fin x']) (Fl.fin A) (Fl.fin zeta) (Fl.fin d') =
      .ok [Fl.fin (pastorek A zeta d' x')] := by
    intro A d' x' hx'
    show Except.ok [_] = _
    rw [pastorekElem_fin hz hx'.le]
  refine ⟨_, key A_max d x hx, ?_, ?_, ?_, ?_, ?_⟩
  · unfold pastorek; rw [neg_mul]
  · intro c _
    rw [key _ _ _ hx]
    congr 3
    unfold pastorek
    ring
  · intro h
    unfold pastorek
    rw [neg_mul, h, Real.exp_neg, one_div]
  · intro d' hd'
    refine ⟨_, ?_, key A_max d' x hx⟩
    unfold pastorek
    have : 0 < x ^ zeta := Real.rpow_pos_of_pos hx _
    have : Real.exp (-d' * x ^ zeta) < Real.exp (-d * x ^ zeta) := by
      apply Real.exp_lt_exp.mpr
      nlinarith
    nlinarith
  · intro c hc
    rw [key _ _ _ (mul_pos hc hx), key _ _ _ hx]
    congr 3
    unfold pastorek
    rw [Real.mul_rpow hc.le hx.le]
    congr 3
    ring

/-- the defaults of the code at 10 mm/h -/
example : ∃ w : ℝ, waa_pastorek_2021 (.array [Fl.fin 10]) (Fl.fin 14) (Fl.fin 0.55) (Fl.fin 0.1) =
    .ok [Fl.fin w] ∧ w = 14 * (1 - Real.exp (-(0.1 * 10 ^ (0.55 : ℝ)))) := by
  obtain ⟨w, h1, h2, _⟩ := C15_parameters (A_max := 14) (zeta := 0.55) (d := 0.1) (x := 10)
    (by norm_num) (by norm_num) (by norm_num)
  exact ⟨w, h1, h2⟩

/-- **C15** Values: in `[0, A_max)`, zero exactly at `R = 0`, NaN where `R` is NaN, `A_max` at
infinity; strictly increasing in `R`. -/
theorem C15_pastorek {A_max zeta d : ℝ} (hA : 0 < A_max) (hz : 0 < zeta) (hd : 0 < d)
    (R : List (Fl ℝ)) :
    ∃ waa, waa_pastorek_2021 (.array R) (Fl.fin A_max) (Fl.fin zeta) (Fl.fin d) = .ok waa ∧
      waa.length = R.length ∧
      (∀ i : Nat, R[i]? = some Fl.nan → waa[i]? = some Fl.nan) ∧
      (∀ i : Nat, R[i]? = some Fl.pinf → waa[i]? = some (Fl.fin A_max)) ∧
      (∀ (i : Nat) (x : ℝ), R[i]? = some (Fl.fin x) → 0 ≤ x →
        ∃ w, waa[i]? = some (Fl.fin w) ∧ 0 ≤ w ∧ w < A_max ∧ (w = 0 ↔ x = 0)) ∧
      (∀ (i j : Nat) (x y v w : ℝ), R[i]? = some (Fl.fin x) → R[j]? = some (Fl.fin y) →
        waa[i]? = some (Fl.fin v) → waa[j]? = some (Fl.fin w) → 0 ≤ x → x < y → v < w) := by
  refine ⟨_, rfl, by simp, ?_, ?_, ?_, ?_⟩
  · intro i hi
    rw [List.getElem?_map, hi]
    simp only [Option.map_some, Option.some.injEq]
    have : Fl.pow Fl.nan (Fl.fin zeta) = Fl.nan := by simp [Fl.pow, hz.ne']
    unfold pastorekElem
    show (if _ then _ else _ *ᶠ (_ -ᶠ Fl.exp (_ *ᶠ Fl.pow _ _))) = _
    rw [this]
    rfl
  · intro i hi
    rw [List.getElem?_map, hi]
    simp only [Option.map_some, Option.some.injEq]
    have : Fl.pow Fl.pinf (Fl.fin zeta) = Fl.pinf := by simp [Fl.pow, hz.ne', hz]
    unfold pastorekElem
    show (if _ then _ else _ *ᶠ (_ -ᶠ Fl.exp (_ *ᶠ Fl.pow _ _))) = _
    rw [this, Fl.pf_ofInt, Fl.pf_ofInt, Fl.pf_sub_fin]
    have e : (Fl.fin (((0 : Int) : ℝ) - d) *ᶠ Fl.pinf) = Fl.ninf := by
      show Fl.infSign _ = _
      unfold Fl.infSign
      rw [if_neg (by push_cast; linarith), if_pos (by push_cast; linarith)]
    rw [e]
    have : ((Fl.pinf : Fl ℝ) ==ᶠ Fl.fin ((0 : Int) : ℝ)) = false := rfl
    rw [this]
    simp only [Bool.false_eq_true, if_false, Fl.exp, Fl.pf_sub_fin, Fl.pf_mul_fin]
    norm_num
  · intro i x hi hx
    refine ⟨pastorek A_max zeta d x, ?_, pastorek_nonneg hA hz hd hx, pastorek_lt hA, ?_, ?_⟩
    · rw [List.getElem?_map, hi, Option.map_some, pastorekElem_fin hz hx]
    · intro h
      by_contra hne
      have h0 : 0 < x := lt_of_le_of_ne hx (Ne.symm hne)
      have := pastorek_strictMono hA hz hd le_rfl h0
      rw [pastorek_zero hz] at this
      linarith
    · rintro rfl
      exact pastorek_zero hz
  · intro i j x y v w hi hj hv hw hx hxy
    rw [List.getElem?_map, hi, Option.map_some, pastorekElem_fin hz hx] at hv
    rw [List.getElem?_map, hj, Option.map_some, pastorekElem_fin hz (hx.trans hxy.le)] at hw
    cases hv; cases hw
    exact pastorek_strictMono hA hz hd hx hxy

/-- **C15** A scalar rain rate raises. -/
theorem C15_scalar_raises (R A_max zeta d : Fl ℝ) :
    waa_pastorek_2021 (.scalar R) A_max zeta d = .error .typeError := rfl

example : ∃ waa, waa_pastorek_2021 (.array [Fl.fin 0, Fl.nan, Fl.fin 5]) (Fl.fin (14 : ℝ)) (Fl.fin 0.55) (Fl.fin 0.1)
    = .ok waa ∧ waa.length = 3 := by
  obtain ⟨w, h1, h2, _⟩ := C15_pastorek (A_max := 14) (zeta := 0.55) (d := 0.1) (by norm_num)
    (by norm_num) (by norm_num) [Fl.fin 0, Fl.nan, Fl.fin 5]
  exact ⟨w, h1, h2⟩

/-! ### C16 -/

/-- the nodes of the attenuation grid: 0, then 99 values from about `1.35e-10` to 1000 dB -/
noncomputable def gridA (k : Nat) : ℝ := if k = 0 then 0 else (10 : ℝ) ^ (-10 + 13 * (k : ℝ) / 99)

theorem gridA_strictMono : StrictMono gridA := by
  apply strictMono_nat_of_lt_succ
  intro k
  unfold gridA
  rw [if_neg (Nat.succ_ne_zero k)]
  split_ifs with h
  · positivity
  · apply Real.rpow_lt_rpow_of_exponent_lt (by norm_num)
    push_cast
    linarith

theorem gridA_nonneg (k : Nat) : 0 ≤ gridA k := by
  unfold gridA; split_ifs <;> positivity

theorem gridA_last : gridA 99 = 1000 := by
  unfold gridA
  rw [if_neg (by norm_num)]
  have : (-10 + 13 * ((99 : Nat) : ℝ) / 99) = ((3 : Nat) : ℝ) := by norm_num
  rw [this, Real.rpow_natCast]; norm_num

/-- General look-up, with the interpolating function. -/
theorem lookup_spec_linI (w : Nat → ℝ) (hinc : StrictMono fun k => gridA k + w k) :
    ∃ g : ℝ → ℝ, g = linI ((List.range 100).map fun k => (gridA k + w k, w k)) ∧
      (∀ k, k < 100 → g (gridA k + w k) = w k) ∧
      (∀ x, w 0 ≤ x → x ≤ 1000 + w 99 → 0 ≤ x - g x ∧ x - g x ≤ 1000) ∧
      (∀ lo hi : ℝ, (∀ k, k < 100 → lo ≤ w k ∧ w k ≤ hi) →
        ∀ x, w 0 ≤ x → x ≤ 1000 + w 99 → lo ≤ g x ∧ g x ≤ hi) ∧
      (∀ x y, w 0 ≤ x → x ≤ y → y ≤ 1000 + w 99 → x - g x ≤ y - g y) ∧
      (Monotone w → ∀ x y, w 0 ≤ x → x ≤ y → y ≤ 1000 + w 99 → g x ≤ g y) ∧
      (∀ A_obs : List (Fl ℝ),
        (∀ z ∈ A_obs, z = .nan ∨ ∃ x, z = .fin x ∧ w 0 ≤ x ∧ x ≤ 1000 + w 99) →
        lookup A_obs ((List.range 100).map fun k => Fl.fin (w k)) =
          .ok (A_obs.map fun z => match z with | .fin x => .fin (g x) | _ => .nan)) ∧
      (∀ A_obs : List (Fl ℝ),
        (∃ z ∈ A_obs, z ≠ .nan ∧ ∀ x, z = .fin x → ¬ (w 0 ≤ x ∧ x ≤ 1000 + w 99)) →
        lookup A_obs ((List.range 100).map fun k => Fl.fin (w k)) = .error .valueError) := by
  set ns : List (ℝ × ℝ) := (List.range 100).map fun k => (gridA k + w k, w k) with hns
  have hInc : Inc ns := by
    rw [hns, Inc, List.pairwise_map]
    exact List.pairwise_lt_range.imp fun hab => hinc hab
  have hne : ns ≠ [] := by simp [hns]
  have hhead : ns.head? = some (w 0, w 0) := by
    rw [hns, List.head?_map]
    have : (List.range 100).head? = some 0 := by decide
    rw [this]; simp [gridA]
  have hlast : ns.getLast? = some (1000 + w 99, w 99) := by
    rw [hns, List.getLast?_map]
    have : (List.range 100).getLast? = some 99 := by decide
    rw [this, Option.map_some, gridA_last]
  have hmem : ∀ k, k < 100 → (gridA k + w k, w k) ∈ ns := by
    intro k hk
    rw [hns, List.mem_map]
    exact ⟨k, List.mem_range.mpr hk, rfl⟩
  have hcompl : ∀ x, w 0 ≤ x → x ≤ 1000 + w 99 →
      x - linI ns x = linI (ns.map fun p => (p.1, p.1 - p.2)) x := fun x h1 h2 =>
    linI_compl ns hInc _ hlast x h2 _ hhead h1
  have hcInc : Inc (ns.map fun p => (p.1, p.1 - p.2)) := by
    rw [Inc, List.pairwise_map]; exact hInc
  have hchead : (ns.map fun p => (p.1, p.1 - p.2)).head? = some (w 0, 0) := by
    rw [List.head?_map, hhead]; simp
  have hT : List.zipWith (· +ᶠ ·) aRain ((List.range 100).map fun k => Fl.fin (w k)) =
      ns.map fun p => Fl.fin p.1 := by
    rw [aRain, List.zipWith_map, List.zipWith_self, hns, List.map_map]
    apply List.map_congr_left
    intro k _
    simp only [Fl.pf_add_fin, Function.comp_apply, gridA]
  have hW : ((List.range 100).map fun k => Fl.fin (w k)) = ns.map fun p => Fl.fin p.2 := by
    rw [hns, List.map_map]; rfl
  have hone : ∀ z : Fl ℝ,
      ((z = .nan ∨ ∃ x, z = .fin x ∧ w 0 ≤ x ∧ x ≤ 1000 + w 99) →
        interp1dLinear (ns.map fun p => Fl.fin p.1) (ns.map fun p => Fl.fin p.2) z =
          .ok (match z with | .fin x => .fin (linI ns x) | _ => .nan)) ∧
      ((z ≠ .nan ∧ ∀ x, z = .fin x → ¬ (w 0 ≤ x ∧ x ≤ 1000 + w 99)) →
        interp1dLinear (ns.map fun p => Fl.fin p.1) (ns.map fun p => Fl.fin p.2) z =
          .error .valueError) := by
    intro z
    unfold interp1dLinear
    rw [List.head?_map, List.getLast?_map, hhead, hlast]
    simp only [Option.map_some]
    constructor
    · rintro (rfl | ⟨x, rfl, h1, h2⟩)
      · simp
      · have hb : ((Fl.fin x <ᶠ Fl.fin (w 0)) || (Fl.fin (1000 + w 99) <ᶠ Fl.fin x)) = false := by
          simp; exact ⟨h1, h2⟩
        simp only [Fl.pf_isNaN_fin, Bool.false_eq_true, if_false, hb]
        rw [List.zip_map']
        rw [npInterp_fin ns hne hInc]
    · rintro ⟨h1, h2⟩
      cases z with
      | nan => exact absurd rfl h1
      | ninf => rfl
      | pinf => rfl
      | fin x =>
        have := h2 x rfl
        have hb : ((Fl.fin x <ᶠ Fl.fin (w 0)) || (Fl.fin (1000 + w 99) <ᶠ Fl.fin x)) = true := by
          simp only [Bool.or_eq_true, Fl.pf_lt_fin, decide_eq_true_eq]
          by_contra hc
          push Not at hc
          exact this hc
        simp only [Fl.pf_isNaN_fin, Bool.false_eq_true, if_false, hb, if_true]
  refine ⟨linI ns, rfl, ?_, ?_, ?_, ?_, ?_, ?_, ?_⟩
  · intro k hk
    exact linI_node ns hInc _ (hmem k hk)
  · intro x h1 h2
    rw [hcompl x h1 h2]
    refine linI_bounds _ hcInc ?_ ?_ _ hchead x h1
    · intro p hp
      simp only [hns, List.map_map, List.mem_map] at hp
      obtain ⟨k, _, rfl⟩ := hp
      simpa using gridA_nonneg k
    · intro p hp
      simp only [hns, List.map_map, List.mem_map, List.mem_range] at hp
      obtain ⟨k, hk, rfl⟩ := hp
      have : gridA k ≤ gridA 99 := gridA_strictMono.monotone (by omega)
      rw [gridA_last] at this
      simpa using this
  · intro lo hi hb x h1 h2
    refine linI_bounds ns hInc ?_ ?_ _ hhead x h1
    · intro p hp
      simp only [hns, List.mem_map, List.mem_range] at hp
      obtain ⟨k, hk, rfl⟩ := hp
      exact (hb k hk).1
    · intro p hp
      simp only [hns, List.mem_map, List.mem_range] at hp
      obtain ⟨k, hk, rfl⟩ := hp
      exact (hb k hk).2
  · intro x y h1 h2 h3
    rw [hcompl x h1 (h2.trans h3), hcompl y (h1.trans h2) h3]
    refine linI_mono _ hcInc ?_ _ hchead x y h1 h2
    rw [hns, List.map_map, List.pairwise_map]
    refine List.pairwise_lt_range.imp ?_
    intro a b hab
    simpa using (gridA_strictMono hab).le
  · intro hw x y h1 h2 h3
    refine linI_mono ns hInc ?_ _ hhead x y h1 h2
    rw [hns, List.pairwise_map]
    exact List.pairwise_lt_range.imp fun hab => hw hab.le
  · intro A_obs hA
    unfold lookup lookupOn
    rw [hT, hW]
    exact mapM_ok _ _ _ fun z hz => (hone z).1 (hA z hz)
  · rintro A_obs ⟨z, hz, hbad⟩
    unfold lookup lookupOn
    rw [hT, hW]
    refine mapM_error _ _ _ ?_ z hz ((hone z).2 hbad)
    intro y _
    by_cases hy : y = .nan ∨ ∃ x, y = .fin x ∧ w 0 ≤ x ∧ x ≤ 1000 + w 99
    · exact .inl ⟨_, (hone y).1 hy⟩
    · right
      push Not at hy
      refine (hone y).2 ⟨hy.1, fun x hx hc => ?_⟩
      exact absurd hc.2 (not_le.mpr (hy.2 x hx hc.1))

/-- General look-up: for a table of finite WAA values that keeps `A_rain + WAA` increasing. -/
theorem lookup_spec (w : Nat → ℝ) (hinc : StrictMono fun k => gridA k + w k) :
    ∃ g : ℝ → ℝ,
      (∀ k, k < 100 → g (gridA k + w k) = w k) ∧
      (∀ x, w 0 ≤ x → x ≤ 1000 + w 99 → 0 ≤ x - g x ∧ x - g x ≤ 1000) ∧
      (∀ lo hi : ℝ, (∀ k, k < 100 → lo ≤ w k ∧ w k ≤ hi) →
        ∀ x, w 0 ≤ x → x ≤ 1000 + w 99 → lo ≤ g x ∧ g x ≤ hi) ∧
      (∀ x y, w 0 ≤ x → x ≤ y → y ≤ 1000 + w 99 → x - g x ≤ y - g y) ∧
      (Monotone w → ∀ x y, w 0 ≤ x → x ≤ y → y ≤ 1000 + w 99 → g x ≤ g y) ∧
      (∀ A_obs : List (Fl ℝ),
        (∀ z ∈ A_obs, z = .nan ∨ ∃ x, z = .fin x ∧ w 0 ≤ x ∧ x ≤ 1000 + w 99) →
        lookup A_obs ((List.range 100).map fun k => Fl.fin (w k)) =
          .ok (A_obs.map fun z => match z with | .fin x => .fin (g x) | _ => .nan)) ∧
      (∀ A_obs : List (Fl ℝ),
        (∃ z ∈ A_obs, z ≠ .nan ∧ ∀ x, z = .fin x → ¬ (w 0 ≤ x ∧ x ≤ 1000 + w 99)) →
        lookup A_obs ((List.range 100).map fun k => Fl.fin (w k)) = .error .valueError) := by
  obtain ⟨g, -, h⟩ := lookup_spec_linI w hinc
  exact ⟨g, h⟩

/-- the rain rate of an attenuation, and the table of WAA values -/
noncomputable def rainOf (a b L A : ℝ) : ℝ := (A / (a * L)) ^ (1 / b)

theorem rainOf_strictMono {a b L x y : ℝ} (ha : 0 < a) (hb : 0 < b) (hL : 0 < L) (hx : 0 ≤ x)
    (hxy : x < y) : rainOf a b L x < rainOf a b L y := by
  unfold rainOf
  apply Real.rpow_lt_rpow
  · positivity
  · exact div_lt_div_of_pos_right hxy (by positivity)
  · positivity

theorem rainOf_nonneg {a b L x : ℝ} (ha : 0 < a) (hL : 0 < L) (hx : 0 ≤ x) :
    0 ≤ rainOf a b L x := by
  unfold rainOf; positivity

theorem rainOf_zero {a b L : ℝ} (hb : 0 < b) : rainOf a b L 0 = 0 := by
  unfold rainOf
  rw [zero_div, Real.zero_rpow (by positivity)]

/-- the rain rates of the attenuation grid -/
theorem rain_table {a b L : ℝ} (ha : 0 < a) (hb : 0 < b) (hL : 0 < L) (spline : Spline)
    (f : List (Fl ℝ)) (pol : List String)
    (hab : a_b spline f pol "ITU_2005" = .ok ([.fin a], [.fin b])) :
    calc_R_from_A spline aRain (.fin L) (some f) (some pol) none none "ITU_2005"
      (PyFloat.ofInt 0) =
      .ok ((List.range 100).map fun k => Fl.fin (rainOf a b L (gridA k))) := by
  unfold calc_R_from_A calcR
  dsimp only
  rw [hab]
  show rainRates aRain (.fin L) [.fin a] [.fin b] (PyFloat.ofInt 0) = _
  rw [rainRates_scalar, aRain, List.map_map]
  congr 1
  apply List.map_congr_left
  intro k _
  have h0 := rainOf_nonneg (b := b) ha hL (gridA_nonneg k)
  rw [Function.comp_apply, Fl.pf_ofInt, rate_fin ha hb hL]
  congr 1
  have hg : (if k = 0 then (0 : ℝ) else 10 ^ (-10 + 13 * (k : ℝ) / 99)) = gridA k := rfl
  rw [hg, if_neg (not_lt.mpr (gridA_nonneg k))]
  show (if rainOf a b L (gridA k) < _ then _ else rainOf a b L (gridA k)) = _
  rw [if_neg (by push_cast; exact not_lt.mpr h0)]

/-- **C16** The WAA derived from the observed attenuation. For a link whose power-law
parameters are `a, b > 0`, there is one function `g` such that the result is `g` at every
observed value (NaN stays NaN); `g` lies between 0 and both `A_obs` and `A_max`, `g` and
`A_obs - g` are monotone, `g 0 = 0`, and at the nodes of the look-up table `g` is exactly the
Pastorek formula at the rain rate of the node. -/
theorem C16_from_A_obs {a b L A_max zeta d : ℝ} (ha : 0 < a) (hb : 0 < b) (hL : 0 < L)
    (hA : 0 < A_max) (hz : 0 < zeta) (hd : 0 < d) (spline : Spline) (f_Hz : Fl ℝ) (pol : String)
    (hab : a_b spline [f_Hz /ᶠ PyFloat.ofInt 1000000000] [pol] "ITU_2005" =
      .ok ([.fin a], [.fin b])) :
    ∃ (g : ℝ → ℝ) (top : ℝ), 1000 < top ∧ top < 1000 + A_max ∧
      (∀ k, k < 100 → g (gridA k + pastorek A_max zeta d (rainOf a b L (gridA k))) =
        pastorek A_max zeta d (rainOf a b L (gridA k))) ∧
      g 0 = 0 ∧
      (∀ x, 0 ≤ x → x ≤ top → 0 ≤ g x ∧ g x ≤ x ∧ g x < A_max) ∧
      (∀ x y, 0 ≤ x → x ≤ y → y ≤ top → g x ≤ g y ∧ x - g x ≤ y - g y) ∧
      (∀ A_obs : List (Fl ℝ),
        (∀ z ∈ A_obs, z = .nan ∨ ∃ x, z = .fin x ∧ 0 ≤ x ∧ x ≤ top) →
        waa_pastorek_2021_from_A_obs spline A_obs f_Hz pol (.fin L) (.fin A_max) (.fin zeta)
          (.fin d) =
          .ok (A_obs.map fun z => match z with | .fin x => .fin (g x) | _ => .nan)) ∧
      (∀ A_obs : List (Fl ℝ),
        (∃ z ∈ A_obs, z ≠ .nan ∧ ∀ x, z = .fin x → x < 0 ∨ top < x) →
        waa_pastorek_2021_from_A_obs spline A_obs f_Hz pol (.fin L) (.fin A_max) (.fin zeta)
          (.fin d) = .error .valueError) := by
  set w : Nat → ℝ := fun k => pastorek A_max zeta d (rainOf a b L (gridA k)) with hw
  have hR : ∀ k, 0 ≤ rainOf a b L (gridA k) := fun k => rainOf_nonneg ha hL (gridA_nonneg k)
  have hwm : StrictMono w := fun i j hij =>
    pastorek_strictMono hA hz hd (hR i)
      (rainOf_strictMono ha hb hL (gridA_nonneg i) (gridA_strictMono hij))
  have hw0 : w 0 = 0 := by
    simp only [hw]
    rw [show gridA 0 = 0 from rfl, rainOf_zero hb, pastorek_zero hz]
  have hinc : StrictMono fun k => gridA k + w k := fun i j hij =>
    add_lt_add (gridA_strictMono hij) (hwm hij)
  have hw99 : 0 < w 99 := by rw [← hw0]; exact hwm (by norm_num)
  have hwlt : ∀ k, w k < A_max := fun k => pastorek_lt hA
  obtain ⟨g, g1, g2, g3, g4, g5, g6, g7⟩ := lookup_spec w hinc
  have hfun : ∀ A_obs : List (Fl ℝ), A_obs.any (fun x => x <ᶠ PyFloat.ofInt 0) = false →
      waa_pastorek_2021_from_A_obs spline A_obs f_Hz pol (.fin L) (.fin A_max) (.fin zeta)
        (.fin d) = lookup A_obs ((List.range 100).map fun k => Fl.fin (w k)) := by
    intro A_obs h
    rw [from_A_obs_eq]
    rw [if_neg (by rw [h]; simp), rain_table ha hb hL spline _ _ hab]
    show lookup A_obs (List.map (pastorekElem _ _ _) _) = _
    rw [List.map_map]
    congr 1
    apply List.map_congr_left
    intro k _
    rw [Function.comp_apply, pastorekElem_fin hz (hR k)]
  refine ⟨g, 1000 + w 99, by linarith, by linarith [hwlt 99], g1, ?_, ?_, ?_, ?_, ?_⟩
  · have := g1 0 (by norm_num)
    rw [hw0, show gridA 0 = 0 from rfl, add_zero] at this
    exact this
  · intro x h1 h2
    have b1 := g3 0 (w 99) (fun k hk => ⟨by rw [← hw0]; exact hwm.monotone (Nat.zero_le k),
      hwm.monotone (by omega)⟩) x (by rw [hw0]; exact h1) h2
    have b2 := g2 x (by rw [hw0]; exact h1) h2
    exact ⟨b1.1, by linarith, lt_of_le_of_lt b1.2 (hwlt 99)⟩
  · intro x y h1 h2 h3
    exact ⟨g5 hwm.monotone x y (by rw [hw0]; exact h1) h2 h3,
      g4 x y (by rw [hw0]; exact h1) h2 h3⟩
  · intro A_obs h
    rw [hfun A_obs, g6 A_obs]
    · intro z hz'
      rw [hw0]; exact h z hz'
    · rw [List.any_eq_false]
      intro z hz'
      rcases h z hz' with rfl | ⟨x, rfl, h1, _⟩
      · simp
      · simpa using h1
  · rintro A_obs ⟨z, hz', hne, hbad⟩
    by_cases hneg : A_obs.any (fun x => x <ᶠ PyFloat.ofInt 0) = true
    · rw [from_A_obs_eq]
      rw [if_pos hneg]
    · rw [hfun A_obs (by simpa using hneg)]
      refine g7 A_obs ⟨z, hz', hne, fun x hx hc => ?_⟩
      rw [hw0] at hc
      rcases hbad x hx with h | h
      · linarith [hc.1]
      · linarith [hc.2]

/-- The hypotheses of C16 can be met: 10 GHz, horizontal polarization. -/
example : ∃ (spline : Spline) (a b : ℝ), 0 < a ∧ 0 < b ∧
    a_b spline [Fl.fin (10 ^ 10) /ᶠ PyFloat.ofInt 1000000000] ["H"] "ITU_2005" =
      .ok ([.fin a], [.fin b]) := by
  obtain ⟨spline, hs⟩ := interpolates_exists
  have e : (Fl.fin (10 ^ 10 : ℝ) /ᶠ PyFloat.ofInt 1000000000) = Fl.fin 10 := by
    rw [Fl.pf_ofInt, Fl.pf_div_fin_ne _ _ (by norm_num)]; norm_num
  obtain ⟨⟨a, b⟩, h⟩ := (C25_accepts_iff spline [.fin 10] ["H"] "ITU_2005").1.mpr
    ⟨rfl, by simp, by simp [freqOk]; norm_num, by simp [isH], .inr rfl⟩
  have hk : (row rawTable2005 0)[14]? = some 10 := by decide +kernel
  obtain ⟨v, w, _, _, e3, e4, p1, p2⟩ := (C25_tabulated spline hs _ _ _ _ rfl a b h 0 14 10 "H"
    (by simp) rfl hk).1 (by simp [isH])
  obtain ⟨l1, l2, _⟩ := C25_entries spline _ _ _ _ rfl a b h
  obtain ⟨x, rfl⟩ := List.length_eq_one_iff.mp l1
  obtain ⟨y, rfl⟩ := List.length_eq_one_iff.mp l2
  simp at e3 e4
  subst e3; subst e4
  exact ⟨spline, v, w, by exact_mod_cast p1, by exact_mod_cast p2, by rw [e, h]⟩

end Verif.Props
