import Verif.Props.Leijnse
import Mathlib.Analysis.Calculus.Deriv.Star
import Mathlib.Analysis.Calculus.Deriv.MeanValue
import Mathlib.Analysis.SpecialFunctions.ExpDeriv

/-!
# C75: the Leijnse formula is the transmission loss of a layered medium

A plane wave of wave number `κ = 2 π f / c` hits a stack of layers at normal incidence. In each
medium of refractive index `n` there is a forward amplitude `A` and a backward amplitude `B`;
the tangential fields `E = A + B` and `H = n (A - B)` are continuous at interfaces, and
the amplitudes are multiplied by `exp (± i κ n l)` across a layer of thickness `l`. Nothing comes
back from the air behind the stack.
-/

namespace Verif.Props
open Verif Verif.WaaModels Verif.KR

/-- With amplitudes `A`, `B` at the end of a medium of index `n`, followed by the layers (index,
thickness) and then air, the wave `t` is transmitted. -/
def Transmits (κ : ℝ) : List (ℂ × ℝ) → ℂ → ℂ → ℂ → ℂ → Prop
  | [], n, A, B, t => A + B = t ∧ n * (A - B) = 1 * t
  | (m, l) :: rest, n, A, B, t => ∃ C D, A + B = C + D ∧ n * (A - B) = m * (C - D) ∧
      Transmits κ rest m (C * Complex.exp (Complex.I * κ * m * l))
        (D * Complex.exp (-(Complex.I * κ * m * l))) t

/-- A wave of amplitude 1 coming from the air is transmitted as `t`, some `r` being reflected. -/
def TransmitsAir (κ : ℝ) (layers : List (ℂ × ℝ)) (t : ℂ) : Prop :=
  ∃ r, Transmits κ layers 1 1 r t

/-- Energy flux. -/
noncomputable def flux (n A B : ℂ) : ℝ := (star (A + B) * (n * (A - B))).re

/-- In a passive medium the energy flux does not increase along the way. -/
theorem flux_decay {κ : ℝ} (hκ : 0 ≤ κ) {m : ℂ} (hm : 0 ≤ (m ^ 2).im) {l : ℝ} (hl : 0 ≤ l)
    (C D : ℂ) :
    flux m (C * Complex.exp (Complex.I * κ * m * l)) (D * Complex.exp (-(Complex.I * κ * m * l)))
      ≤ flux m C D := by
  set E : ℝ → ℂ := fun z => C * Complex.exp (Complex.I * κ * m * z) +
    D * Complex.exp (-(Complex.I * κ * m * z)) with hE
  set H : ℝ → ℂ := fun z => m * (C * Complex.exp (Complex.I * κ * m * z) -
    D * Complex.exp (-(Complex.I * κ * m * z))) with hH
  have e1 : ∀ z : ℝ, HasDerivAt (fun z : ℝ => Complex.exp (Complex.I * κ * m * z))
      (Complex.exp (Complex.I * κ * m * z) * (Complex.I * κ * m)) z := by
    intro z
    have h0 : HasDerivAt (fun z : ℝ => Complex.I * κ * m * (z : ℂ)) (Complex.I * κ * m * 1) z :=
      (Complex.ofRealCLM.hasDerivAt).const_mul _
    rw [mul_one] at h0
    exact h0.cexp
  have e2 : ∀ z : ℝ, HasDerivAt (fun z : ℝ => Complex.exp (-(Complex.I * κ * m * z)))
      (Complex.exp (-(Complex.I * κ * m * z)) * (-(Complex.I * κ * m))) z := by
    intro z
    have h0 : HasDerivAt (fun z : ℝ => Complex.I * κ * m * (z : ℂ)) (Complex.I * κ * m * 1) z :=
      (Complex.ofRealCLM.hasDerivAt).const_mul _
    rw [mul_one] at h0
    exact h0.neg.cexp
  have dE : ∀ z, HasDerivAt E (Complex.I * κ * H z) z := by
    intro z
    have := ((e1 z).const_mul C).add ((e2 z).const_mul D)
    refine this.congr_deriv ?_
    rw [hH]; ring
  have dH : ∀ z, HasDerivAt H (Complex.I * κ * m ^ 2 * E z) z := by
    intro z
    have := (((e1 z).const_mul C).sub ((e2 z).const_mul D)).const_mul m
    refine this.congr_deriv ?_
    rw [hE]; ring
  have dS : ∀ z, HasDerivAt (fun z => (star (E z) * H z).re)
      (star (Complex.I * κ * H z) * H z + star (E z) * (Complex.I * κ * m ^ 2 * E z)).re z := by
    intro z
    have := ((dE z).star).mul (dH z)
    exact (Complex.reCLM.hasFDerivAt.comp_hasDerivAt z this)
  have hnonpos : ∀ z, (star (Complex.I * κ * H z) * H z +
      star (E z) * (Complex.I * κ * m ^ 2 * E z)).re ≤ 0 := by
    intro z
    generalize H z = h
    generalize E z = e
    have : (star (Complex.I * κ * h) * h + star e * (Complex.I * κ * m ^ 2 * e)).re =
        -(κ * (m ^ 2).im * Complex.normSq e) := by
      generalize m ^ 2 = q
      simp [Complex.normSq_apply]
      ring
    rw [this]
    have := mul_nonneg (mul_nonneg hκ hm) (Complex.normSq_nonneg e)
    linarith
  have hanti : Antitone fun z => (star (E z) * H z).re :=
    antitone_of_deriv_nonpos (fun z => (dS z).differentiableAt)
      (fun z => by rw [(dS z).deriv]; exact hnonpos z)
  have := hanti hl
  simpa [hE, hH, flux] using this

/-- Transmitted energy is at most the energy flux in front of the stack. -/
theorem transmits_energy {κ : ℝ} (hκ : 0 ≤ κ) (layers : List (ℂ × ℝ))
    (hp : ∀ e ∈ layers, 0 ≤ (e.1 ^ 2).im ∧ 0 ≤ e.2) (n A B t : ℂ)
    (h : Transmits κ layers n A B t) : ‖t‖ ^ 2 ≤ flux n A B := by
  induction layers generalizing n A B with
  | nil =>
    obtain ⟨h1, h2⟩ := h
    unfold flux
    rw [h1, h2, one_mul, ← Complex.normSq_eq_norm_sq]
    simp [Complex.normSq_apply]
  | cons e rest ih =>
    obtain ⟨m, l⟩ := e
    obtain ⟨C, D, h1, h2, h3⟩ := h
    have hml := hp (m, l) (by simp)
    refine (ih (fun e he => hp e (by simp [he])) _ _ _ h3).trans ?_
    refine (flux_decay hκ hml.1 hml.2 C D).trans (le_of_eq ?_)
    unfold flux
    rw [h1, h2]

/-- Two layers: what the continuity conditions amount to. -/
theorem transmits_two {κ : ℝ} {n m : ℂ} {l k : ℝ} (hn : n ≠ 0) (hm : m ≠ 0) {A B t : ℂ}
    (h : Transmits κ [(n, l), (m, k)] 1 A B t) :
    8 * n * m * A =
      ((1 + n) * (n + m) * (m + 1) * Complex.exp (-(Complex.I * κ * (m * k + n * l)))
      + (1 - n) * (n - m) * (m + 1) * Complex.exp (-(Complex.I * κ * (m * k - n * l)))
      + (1 + n) * (n - m) * (m - 1) * Complex.exp (Complex.I * κ * (m * k - n * l))
      + (1 - n) * (n + m) * (m - 1) * Complex.exp (Complex.I * κ * (m * k + n * l))) * t := by
  obtain ⟨C, D, a1, a2, P, Q, b1, b2, c1, c2⟩ := h
  set u := Complex.exp (Complex.I * κ * n * l) with hu
  set u' := Complex.exp (-(Complex.I * κ * n * l)) with hu'
  set v := Complex.exp (Complex.I * κ * m * k) with hv
  set v' := Complex.exp (-(Complex.I * κ * m * k)) with hv'
  have huu : u * u' = 1 := by rw [hu, hu', ← Complex.exp_add]; simp
  have hvv : v * v' = 1 := by rw [hv, hv', ← Complex.exp_add]; simp
  have x1 : Complex.exp (-(Complex.I * κ * (m * k + n * l))) = v' * u' := by
    rw [hv', hu', ← Complex.exp_add]; congr 1; ring
  have x2 : Complex.exp (-(Complex.I * κ * (m * k - n * l))) = v' * u := by
    rw [hv', hu, ← Complex.exp_add]; congr 1; ring
  have x3 : Complex.exp (Complex.I * κ * (m * k - n * l)) = v * u' := by
    rw [hv, hu', ← Complex.exp_add]; congr 1; ring
  have x4 : Complex.exp (Complex.I * κ * (m * k + n * l)) = v * u := by
    rw [hv, hu, ← Complex.exp_add]; congr 1; ring
  rw [x1, x2, x3, x4]
  have p1 : 2 * m * P = (m + 1) * t * v' := by
    have : 2 * m * (P * v) = (m + 1) * t := by linear_combination m * c1 + c2
    calc 2 * m * P = 2 * m * (P * v) * v' := by linear_combination (-(2 * m * P)) * hvv
      _ = _ := by rw [this]
  have p2 : 2 * m * Q = (m - 1) * t * v := by
    have : 2 * m * (Q * v') = (m - 1) * t := by linear_combination m * c1 - c2
    calc 2 * m * Q = 2 * m * (Q * v') * v := by linear_combination (-(2 * m * Q)) * hvv
      _ = _ := by rw [this]
  have q1 : 2 * n * C = ((n + m) * P + (n - m) * Q) * u' := by
    have : 2 * n * (C * u) = (n + m) * P + (n - m) * Q := by linear_combination n * b1 + b2
    calc 2 * n * C = 2 * n * (C * u) * u' := by linear_combination (-(2 * n * C)) * huu
      _ = _ := by rw [this]
  have q2 : 2 * n * D = ((n - m) * P + (n + m) * Q) * u := by
    have : 2 * n * (D * u') = (n - m) * P + (n + m) * Q := by linear_combination n * b1 - b2
    calc 2 * n * D = 2 * n * (D * u') * u := by linear_combination (-(2 * n * D)) * huu
      _ = _ := by rw [this]
  have r : 2 * A = (1 + n) * C + (1 - n) * D := by linear_combination a1 + a2
  linear_combination 4 * n * m * r + 2 * m * (1 + n) * q1 + 2 * m * (1 - n) * q2
    + ((1 + n) * (n + m) * u' + (1 - n) * (n - m) * u) * p1
    + ((1 + n) * (n - m) * u' + (1 - n) * (n + m) * u) * p2

/-- One layer. -/
theorem transmits_one {κ : ℝ} {m : ℂ} {k : ℝ} {A B t : ℂ} (h : Transmits κ [(m, k)] 1 A B t) :
    4 * m * A = ((1 + m) ^ 2 * Complex.exp (-(Complex.I * κ * m * k))
      - (1 - m) ^ 2 * Complex.exp (Complex.I * κ * m * k)) * t := by
  obtain ⟨P, Q, b1, b2, c1, c2⟩ := h
  set v := Complex.exp (Complex.I * κ * m * k) with hv
  set v' := Complex.exp (-(Complex.I * κ * m * k)) with hv'
  have hvv : v * v' = 1 := by rw [hv, hv', ← Complex.exp_add]; simp
  have p1 : 2 * m * P = (m + 1) * t * v' := by
    have : 2 * m * (P * v) = (m + 1) * t := by linear_combination m * c1 + c2
    calc 2 * m * P = 2 * m * (P * v) * v' := by linear_combination (-(2 * m * P)) * hvv
      _ = _ := by rw [this]
  have p2 : 2 * m * Q = (m - 1) * t * v := by
    have : 2 * m * (Q * v') = (m - 1) * t := by linear_combination m * c1 - c2
    calc 2 * m * Q = 2 * m * (Q * v') * v := by linear_combination (-(2 * m * Q)) * hvv
      _ = _ := by rw [this]
  have r : 2 * A = (1 + m) * P + (1 - m) * Q := by linear_combination b1 + b2
  linear_combination 2 * m * r + (1 + m) * p1 + (1 - m) * p2

theorem transmits_exists (κ : ℝ) (layers : List (ℂ × ℝ)) (hl : ∀ e ∈ layers, e.1 ≠ 0) (n t : ℂ)
    (hn : n ≠ 0) : ∃ A B, Transmits κ layers n A B t := by
  induction layers generalizing n with
  | nil =>
    refine ⟨(t + t / n) / 2, (t - t / n) / 2, by ring, ?_⟩
    field_simp
    ring
  | cons e rest ih =>
    obtain ⟨m, l⟩ := e
    obtain ⟨C, D, h⟩ := ih (fun e he => hl e (by simp [he])) m (hl (m, l) (by simp))
    set u := Complex.exp (Complex.I * κ * m * l) with hu
    set u' := Complex.exp (-(Complex.I * κ * m * l)) with hu'
    have huu : u * u' = 1 := by rw [hu, hu', ← Complex.exp_add]; simp
    refine ⟨((C * u' + D * u) + m * (C * u' - D * u) / n) / 2,
      ((C * u' + D * u) - m * (C * u' - D * u) / n) / 2, C * u', D * u, by ring, ?_, ?_⟩
    · field_simp
      ring
    · rw [← hu, ← hu', show C * u' * u = C * (u * u') by ring, show D * u * u' = D * (u * u') by ring,
        huu, mul_one, mul_one]
      exact h

theorem transmits_smul (c : ℂ) (κ : ℝ) (layers : List (ℂ × ℝ)) (n A B t : ℂ)
    (h : Transmits κ layers n A B t) : Transmits κ layers n (c * A) (c * B) (c * t) := by
  induction layers generalizing n A B with
  | nil =>
    obtain ⟨h1, h2⟩ := h
    exact ⟨by linear_combination c * h1, by linear_combination c * h2⟩
  | cons e rest ih =>
    obtain ⟨m, l⟩ := e
    obtain ⟨C, D, h1, h2, h3⟩ := h
    refine ⟨c * C, c * D, by linear_combination c * h1, by linear_combination c * h2, ?_⟩
    have := ih _ _ _ h3
    rwa [← mul_assoc, ← mul_assoc] at this

theorem transmits_sub (κ : ℝ) (layers : List (ℂ × ℝ)) (n A B t A' B' t' : ℂ)
    (h : Transmits κ layers n A B t) (h' : Transmits κ layers n A' B' t') :
    Transmits κ layers n (A - A') (B - B') (t - t') := by
  induction layers generalizing n A B A' B' with
  | nil =>
    obtain ⟨h1, h2⟩ := h
    obtain ⟨h1', h2'⟩ := h'
    exact ⟨by linear_combination h1 - h1', by linear_combination h2 - h2'⟩
  | cons e rest ih =>
    obtain ⟨m, l⟩ := e
    obtain ⟨C, D, h1, h2, h3⟩ := h
    obtain ⟨C', D', h1', h2', h3'⟩ := h'
    refine ⟨C - C', D - D', by linear_combination h1 - h1', by linear_combination h2 - h2', ?_⟩
    have := ih _ _ _ _ _ h3 h3'
    rwa [← sub_mul, ← sub_mul] at this

theorem flux_air (A B : ℂ) : flux 1 A B = ‖A‖ ^ 2 - ‖B‖ ^ 2 := by
  unfold flux
  rw [← Complex.normSq_eq_norm_sq, ← Complex.normSq_eq_norm_sq]
  simp [Complex.normSq_apply]
  ring

/-- A passive stack of layers transmits a uniquely determined, non-zero part of the wave. -/
theorem transmitsAir_wellposed {κ : ℝ} (hκ : 0 ≤ κ) (layers : List (ℂ × ℝ))
    (hp : ∀ e ∈ layers, e.1 ≠ 0 ∧ 0 ≤ (e.1 ^ 2).im ∧ 0 ≤ e.2) :
    ∃ t, t ≠ 0 ∧ ‖t‖ ≤ 1 ∧ ∀ s, TransmitsAir κ layers s ↔ s = t := by
  have hp' : ∀ e ∈ layers, 0 ≤ (e.1 ^ 2).im ∧ 0 ≤ e.2 := fun e he => (hp e he).2
  obtain ⟨A, B, h⟩ := transmits_exists κ layers (fun e he => (hp e he).1) 1 1 one_ne_zero
  have hA : A ≠ 0 := by
    intro h0
    have := transmits_energy hκ layers hp' _ _ _ _ h
    rw [flux_air, h0] at this
    simp at this
    nlinarith [sq_nonneg ‖B‖]
  have h1 := transmits_smul A⁻¹ _ _ _ _ _ _ h
  rw [inv_mul_cancel₀ hA, mul_one] at h1
  refine ⟨A⁻¹, inv_ne_zero hA, ?_, fun s => ⟨?_, ?_⟩⟩
  · have := transmits_energy hκ layers hp' _ _ _ _ h1
    rw [flux_air] at this
    simp only [norm_one] at this
    nlinarith [sq_nonneg ‖A⁻¹ * B‖, norm_nonneg A⁻¹]
  · rintro ⟨r, hr⟩
    have := transmits_energy hκ layers hp' _ _ _ _ (transmits_sub _ _ _ _ _ _ _ _ _ hr h1)
    rw [flux_air] at this
    simp only [sub_self, norm_zero] at this
    have h0 : ‖s - A⁻¹‖ = 0 := by
      have a := sq_nonneg ‖r - A⁻¹ * B‖
      have b := sq_nonneg ‖s - A⁻¹‖
      have : ‖s - A⁻¹‖ ^ 2 = 0 := by linarith
      exact pow_eq_zero_iff (two_ne_zero) |>.mp this
    exact sub_eq_zero.mp (norm_eq_zero.mp h0)
  · rintro rfl
    exact ⟨_, h1⟩

theorem filmRatio_neg (f_Hz : ℝ) (n m : ℂ) (k l : ℝ) :
    filmRatio f_Hz (-n) m k l = filmRatio f_Hz n m k l := by
  unfold filmRatio
  dsimp only
  rw [← neg_div_neg_eq]
  simp only [neg_mul, mul_neg, sub_neg_eq_add, neg_neg, ← sub_eq_add_neg]
  congr 1
  ring

/-- The quotient of the code is the quotient of the amplitudes transmitted without and with
the film. -/
theorem filmRatio_eq {f_Hz : ℝ} {n m : ℂ} {k l : ℝ} (hn : n ≠ 0) (hm : m ≠ 0) {t t' : ℂ}
    (ht : t ≠ 0) (ht' : t' ≠ 0)
    (h : TransmitsAir (2 * Real.pi * f_Hz / 299792458) [(n, l), (m, k)] t)
    (h' : TransmitsAir (2 * Real.pi * f_Hz / 299792458) [(m, k)] t') :
    filmRatio f_Hz n m k l = t' / t := by
  obtain ⟨r, h⟩ := h
  obtain ⟨r', h'⟩ := h'
  have a := transmits_two hn hm h
  have b := transmits_one h'
  unfold filmRatio
  dsimp only
  set κ : ℝ := 2 * Real.pi * f_Hz / 299792458 with hκ
  have e : Complex.I * 2 * Real.pi * f_Hz / 299792458 = Complex.I * κ := by
    rw [hκ]; push_cast; ring
  rw [e]
  simp only [neg_mul]
  rw [← sub_eq_add_neg]
  set X := (1 + n) * (n + m) * (m + 1) * Complex.exp (-(Complex.I * κ * (m * k + n * l)))
      + (1 - n) * (n - m) * (m + 1) * Complex.exp (-(Complex.I * κ * (m * k - n * l)))
      + (1 + n) * (n - m) * (m - 1) * Complex.exp (Complex.I * κ * (m * k - n * l))
      + (1 - n) * (n + m) * (m - 1) * Complex.exp (Complex.I * κ * (m * k + n * l)) with hX
  set Y := (1 + m) ^ 2 * Complex.exp (-(Complex.I * κ * m * k))
      - (1 - m) ^ 2 * Complex.exp (Complex.I * κ * m * k) with hY
  have hY0 : Y ≠ 0 := by
    intro h0
    rw [h0] at b
    have : (4 * m * 1 : ℂ) ≠ 0 := by simpa using hm
    exact this (by rw [b]; ring)
  rw [div_eq_div_iff (mul_ne_zero (mul_ne_zero two_ne_zero hn) hY0) ht]
  linear_combination (-1 : ℂ) * a + 2 * n * b

theorem nWater_sq (f_Hz T_K : ℝ) : nWater f_Hz T_K ^ 2 = eps_water f_Hz T_K := by
  unfold nWater
  have := Complex.cpow_nat_inv_pow (eps_water f_Hz T_K) (n := 2) two_ne_zero
  rwa [show ((2 : ℕ) : ℂ)⁻¹ = 1 / 2 by norm_num] at this

/-- **C75** For every frequency `f ≥ 0`, temperature in the range of C18, passive antenna cover,
non-negative film parameters and rain rate `R ≥ 0`, the computed WAA is a finite number and
equals the loss in transmitted power, `10 log10 (|t_dry|² / |t_wet|²)`, between the cover alone and
the cover with a water film of thickness `gamma R^delta`, as given by the continuity
conditions of the electromagnetic field. These determine `t_dry` and `t_wet` uniquely, both are
non-zero and at most 1, and it does not matter which square root of the permittivity is taken. -/
theorem C75_transmission_loss (f_Hz T_K gamma delta l_antenna R : ℝ) (n_antenna n_water : ℂ)
    (hf : 0 ≤ f_Hz) (h1 : 205 ≤ T_K) (h2 : T_K ≤ 339) (hg : 0 ≤ gamma) (hd : 0 < delta)
    (hl : 0 ≤ l_antenna) (ha : n_antenna ≠ 0) (hp : 0 ≤ (n_antenna ^ 2).im) (hR : 0 ≤ R)
    (hw : n_water ^ 2 = eps_water f_Hz T_K) :
    ∃ tDry tWet : ℂ, tDry ≠ 0 ∧ ‖tDry‖ ≤ 1 ∧ tWet ≠ 0 ∧ ‖tWet‖ ≤ 1 ∧
      (∀ t, TransmitsAir (2 * Real.pi * f_Hz / 299792458) [(n_antenna, l_antenna)] t ↔
        t = tDry) ∧
      (∀ t, TransmitsAir (2 * Real.pi * f_Hz / 299792458)
        [(n_water, gamma * R ^ delta), (n_antenna, l_antenna)] t ↔ t = tWet) ∧
      waa_leijnse_2008 (.array [.fin R]) f_Hz T_K gamma delta n_antenna l_antenna =
        .ok [.fin (10 * Real.logb 10 (‖tDry‖ ^ 2 / ‖tWet‖ ^ 2))] := by
  obtain ⟨w1, w2, -⟩ := C18_eps_water f_Hz T_K hf h1 h2
  have hw0 : n_water ≠ 0 := by
    rintro rfl
    rw [← hw] at w1
    simp at w1
  have hκ : (0 : ℝ) ≤ 2 * Real.pi * f_Hz / 299792458 := by positivity
  have hfilm : 0 ≤ gamma * R ^ delta := by positivity
  obtain ⟨t', t'0, t'1, ht'⟩ := transmitsAir_wellposed hκ [(n_antenna, l_antenna)] (by
    intro e he
    rw [List.mem_singleton] at he
    subst he
    exact ⟨ha, hp, hl⟩)
  obtain ⟨t, t0, t1, ht⟩ := transmitsAir_wellposed hκ
    [(n_water, gamma * R ^ delta), (n_antenna, l_antenna)] (by
      intro e he
      rcases List.mem_cons.mp he with rfl | he
      · exact ⟨hw0, by rw [hw]; exact w2, hfilm⟩
      · rw [List.mem_singleton] at he
        subst he
        exact ⟨ha, hp, hl⟩)
  refine ⟨t', t, t'0, t'1, t0, t1, ht', ht, ?_⟩
  have hratio : filmRatio f_Hz (nWater f_Hz T_K) n_antenna l_antenna (gamma * R ^ delta) =
      t' / t := by
    rw [← filmRatio_eq hw0 ha t0 t'0 ((ht t).mpr rfl) ((ht' t').mpr rfl)]
    have : nWater f_Hz T_K = n_water ∨ nWater f_Hz T_K = -n_water := by
      rw [← sq_eq_sq_iff_eq_or_eq_neg, nWater_sq, hw]
    rcases this with e | e
    · rw [e]
    · rw [e, filmRatio_neg]
  have hq : t' / t ≠ 0 := div_ne_zero t'0 t0
  have hdB : dB (filmRatio f_Hz (nWater f_Hz T_K) n_antenna l_antenna (gamma * R ^ delta)) =
      .fin (10 * Real.logb 10 (‖t'‖ ^ 2 / ‖t‖ ^ 2)) := by
    rw [hratio, dB, if_neg hq, norm_div, div_pow]
  show Except.ok [_] = _
  congr 2
  unfold leijnseElem
  rcases hR.eq_or_lt with h | h
  · subst h
    rw [if_pos (by simp), ← hdB, Real.zero_rpow hd.ne', mul_zero]
    have hnw : nWater f_Hz T_K ≠ 0 := by
      intro h0
      have := nWater_sq f_Hz T_K
      rw [h0] at this
      rw [← this] at w1
      simp at w1
    have hc : coverTerm f_Hz n_antenna l_antenna ≠ 0 := by
      obtain ⟨r, h⟩ := (ht' t').mpr rfl
      have b := transmits_one h
      intro h0
      have e : Complex.I * 2 * Real.pi * f_Hz / 299792458 =
          Complex.I * (2 * Real.pi * f_Hz / 299792458 : ℝ) := by push_cast; ring
      unfold coverTerm at h0
      rw [e] at h0
      simp only [neg_mul] at h0
      rw [h0, zero_mul, mul_one] at b
      exact mul_ne_zero (by norm_num : (4 : ℂ) ≠ 0) ha b
    rw [(filmRatio_zero _ _ _ _ hnw hc).2]
    simp
  · have : ((Fl.fin R : Fl ℝ) ==ᶠ PyFloat.ofInt 0) = false := by
      rw [Fl.pf_ofInt, Fl.pf_eq_fin]; simpa using h.ne'
    rw [this, Fl.pow_fin_pos h, Fl.pf_mul_fin]
    simp only [Bool.false_eq_true, if_false]
    exact hdB

/-- the default antenna of the code, at 20 GHz and 10 mm/h -/
example : ∃ v : ℝ, waa_leijnse_2008 (.array [.fin 10]) 20000000000 290 0.0000206 0.24
    ⟨1.73, 0.014⟩ 0.001 = .ok [.fin v] := by
  obtain ⟨t', t, -, -, -, -, -, -, h⟩ := C75_transmission_loss 20000000000 290 0.0000206 0.24 0.001 10
    ⟨1.73, 0.014⟩ (nWater 20000000000 290) (by norm_num) (by norm_num) (by norm_num) (by norm_num)
    (by norm_num) (by norm_num) (by intro h; have := congrArg Complex.re h; norm_num at this)
    (by simp [pow_two]; norm_num) (by norm_num) (nWater_sq _ _)
  exact ⟨_, h⟩

end Verif.Props
