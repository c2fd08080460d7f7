import Verif.Binary64
import Verif.Props.WaaSchleiss
import Verif.Props.BaselineConstant
import Verif.Props.BaselineLinear
import Mathlib.Tactic.GCongr

/-!
# Properties C80-C83: rounded arithmetic

The models are generic in the float type. Here they are run on `RFl R`, numbers with a rounding
after every operation, in particular on IEEE doubles (`RFl Bin.binary64`).
-/

namespace Verif.Props
open Verif Verif.Waa Verif.Baseline Verif.Spec

section generic
variable {F : Type} [PyFloat F] [OrderedPyFloat F]

theorem ofInt_pos {n : ℤ} (hn : 0 < n) : (PyFloat.ofInt 0 : F) <ᶠ PyFloat.ofInt n :=
  LawfulPyFloat.lt_of_lt_of_le OrderedPyFloat.ofInt_zero_lt_one (OrderedPyFloat.ofInt_mono 1 n hn)

theorem not_eq_zero_of_pos {a : F} (h : (PyFloat.ofInt 0 : F) <ᶠ a) :
    (a ==ᶠ PyFloat.ofInt 0) = false := by
  rw [LawfulPyFloat.eq_iff]
  cases h1 : (a ≤ᶠ PyFloat.ofInt 0)
  · rfl
  · have := LawfulPyFloat.not_lt_of_le h1
    rw [h] at this
    cases this

theorem le_pyMin {a b c : F} (h1 : c ≤ᶠ a) (h2 : isNaN b = false → c ≤ᶠ b) : c ≤ᶠ pyMin a b := by
  unfold pyMin
  split_ifs with h
  · exact h2 (LawfulPyFloat.lt_not_nan _ _ h).1
  · exact h1

/-- The recursion never moves below the previous value. -/
theorem schleiss_step_ge {prev waaMax deltaT tau : F} (h : prev ≤ᶠ waaMax)
    (hdt : (PyFloat.ofInt 0 : F) ≤ᶠ deltaT) (htau : (PyFloat.ofInt 0 : F) <ᶠ tau)
    (hn : isNaN (prev +ᶠ (waaMax -ᶠ prev) *ᶠ PyFloat.ofInt 3 *ᶠ deltaT /ᶠ tau) = false) :
    prev ≤ᶠ (prev +ᶠ (waaMax -ᶠ prev) *ᶠ PyFloat.ofInt 3 *ᶠ deltaT /ᶠ tau) := by
  have n4 : isNaN ((waaMax -ᶠ prev) *ᶠ PyFloat.ofInt 3 *ᶠ deltaT /ᶠ tau) = false := by
    by_contra hc
    have := LawfulPyFloat.add_nan prev ((waaMax -ᶠ prev) *ᶠ PyFloat.ofInt 3 *ᶠ deltaT /ᶠ tau)
      (by simp at hc; simp [hc])
    rw [hn] at this; cases this
  have n3 : isNaN ((waaMax -ᶠ prev) *ᶠ PyFloat.ofInt 3 *ᶠ deltaT) = false := by
    by_contra hc
    have := OrderedPyFloat.div_nan ((waaMax -ᶠ prev) *ᶠ PyFloat.ofInt 3 *ᶠ deltaT) tau
      (by simp at hc; simp [hc])
    rw [n4] at this; cases this
  have n2 : isNaN ((waaMax -ᶠ prev) *ᶠ PyFloat.ofInt 3) = false := by
    by_contra hc
    have := OrderedPyFloat.mul_nan ((waaMax -ᶠ prev) *ᶠ PyFloat.ofInt 3) deltaT
      (by simp at hc; simp [hc])
    rw [n3] at this; cases this
  have n1 : isNaN (waaMax -ᶠ prev) = false := by
    by_contra hc
    have := OrderedPyFloat.mul_nan (waaMax -ᶠ prev) (PyFloat.ofInt 3) (by simp at hc; simp [hc])
    rw [n2] at this; cases this
  have p1 := OrderedPyFloat.sub_nonneg prev waaMax h n1
  have p2 := OrderedPyFloat.mul_nonneg _ _ p1
    (LawfulPyFloat.le_of_lt (ofInt_pos (F := F) (n := 3) (by norm_num))) n2
  have p3 := OrderedPyFloat.mul_nonneg _ _ p2 hdt n3
  have p4 := OrderedPyFloat.div_nonneg _ _ p3 htau n4
  have hp := (LawfulPyFloat.le_not_nan _ _ h).1
  have := OrderedPyFloat.add_le_add (PyFloat.ofInt 0)
    ((waaMax -ᶠ prev) *ᶠ PyFloat.ofInt 3 *ᶠ deltaT /ᶠ tau) prev p4
    (by rw [OrderedPyFloat.add_zero]; exact hp) hn
  rwa [OrderedPyFloat.add_zero] at this

/-- **C80** In any arithmetic with monotone rounding: for a non-negative `waa_max` and `delta_t`, a
positive `tau` and attenuations that are not negative, every WAA is a number in
`[0, min(rsl - baseline, waa_max)]`, the attenuation minus the WAA is not negative, and at a wet step whose
attenuation reaches `waa_max` the WAA is not below the previous one. -/
theorem C80_schleiss_rounded (rsl baseline wet : List F) (waaMax deltaT tau : F)
    (hl : rsl.length = baseline.length) (hw : rsl.length ≤ wet.length)
    (hmax : (PyFloat.ofInt 0 : F) ≤ᶠ waaMax) (hdt : (PyFloat.ofInt 0 : F) ≤ᶠ deltaT)
    (htau : (PyFloat.ofInt 0 : F) <ᶠ tau)
    (hA : ∀ (i : Nat) a b, rsl[i]? = some a → baseline[i]? = some b →
      (PyFloat.ofInt 0 : F) ≤ᶠ (a -ᶠ b)) :
    ∃ out, waaSchleiss rsl baseline wet waaMax deltaT tau = .ok out ∧
      out.length = rsl.length ∧
      (∀ (i : Nat) a b w, rsl[i]? = some a → baseline[i]? = some b → out[i]? = some w →
        PyFloat.ofInt 0 ≤ᶠ w ∧ w ≤ᶠ (a -ᶠ b) ∧ w ≤ᶠ waaMax ∧
        (isNaN ((a -ᶠ b) -ᶠ w) = false → PyFloat.ofInt 0 ≤ᶠ ((a -ᶠ b) -ᶠ w))) ∧
      (∀ (i : Nat) a b f w w', rsl[i + 1]? = some a → baseline[i + 1]? = some b →
        wet[i + 1]? = some f → (f ==ᶠ PyFloat.ofInt 1) = true → waaMax ≤ᶠ (a -ᶠ b) →
        out[i]? = some w → out[i + 1]? = some w' → w ≤ᶠ w') := by
  obtain ⟨out, h1, h2, h3, h4⟩ := schleiss_rec rsl baseline wet waaMax deltaT tau hl hw
    (not_eq_zero_of_pos htau)
  have hAt : ∀ i, i < rsl.length → ∃ a b, rsl[i]? = some a ∧ baseline[i]? = some b ∧
      rd (atten rsl baseline) i = a -ᶠ b := by
    intro i hi
    refine ⟨rd rsl i, rd baseline i, getElem?_eq_rd hi, getElem?_eq_rd (by omega), ?_⟩
    apply rd_of_getElem?
    simp [atten, List.getElem?_zipWith, getElem?_eq_rd hi,
      getElem?_eq_rd (show i < baseline.length by omega)]
  have key : ∀ i, i < rsl.length → PyFloat.ofInt 0 ≤ᶠ rd out i ∧
      rd out i ≤ᶠ rd (atten rsl baseline) i ∧ rd out i ≤ᶠ waaMax := by
    intro i
    induction i with
    | zero =>
      intro hi
      obtain ⟨a, b, ha, hb, hab⟩ := hAt 0 hi
      rw [h3 hi, hab]
      exact ⟨LawfulPyFloat.le_refl (LawfulPyFloat.isNaN_ofInt 0), hA 0 a b ha hb, hmax⟩
    | succ i ih =>
      intro hi
      obtain ⟨a, b, ha, hb, hab⟩ := hAt (i + 1) hi
      have hAi := hA _ a b ha hb
      have ih := ih (by omega)
      have hnA := (LawfulPyFloat.le_not_nan _ _ hAi).2
      have hnm := (LawfulPyFloat.le_not_nan _ _ hmax).2
      rw [h4 (i + 1) (by omega) hi, hab]
      unfold schleissVal
      rw [hab, Nat.add_sub_cancel]
      have g0 : PyFloat.ofInt 0 ≤ᶠ pyMin (a -ᶠ b) waaMax := le_pyMin hAi fun _ => hmax
      have g1 := pyMin_le_left (b := waaMax) hnA
      have g2 := pyMin_le_right hnA hnm
      have g3 := pyMin_not_nan (b := waaMax) hnA
      split_ifs
      · refine ⟨le_pyMin g0 fun hn => ?_, ?_, ?_⟩
        · exact LawfulPyFloat.le_trans ih.1 (schleiss_step_ge ih.2.2 hdt htau hn)
        · exact LawfulPyFloat.le_trans (pyMin_le_left g3) g1
        · exact LawfulPyFloat.le_trans (pyMin_le_left g3) g2
      · exact ⟨g0, g1, g2⟩
  refine ⟨out, h1, h2, ?_, ?_⟩
  · intro i a b w ha hb hw'
    have hi : i < rsl.length := (List.getElem?_eq_some_iff.mp ha).1
    obtain ⟨a', b', ha', hb', hab⟩ := hAt i hi
    obtain rfl : a' = a := by rw [ha'] at ha; injection ha
    obtain rfl : b' = b := by rw [hb'] at hb; injection hb
    obtain rfl := rd_of_getElem? hw'
    have := key i hi
    rw [hab] at this
    exact ⟨this.1, this.2.1, this.2.2, OrderedPyFloat.sub_nonneg _ _ this.2.1⟩
  · intro i a b f w w' ha hb hf hf1 hm hw1 hw2
    have hi : i + 1 < rsl.length := (List.getElem?_eq_some_iff.mp ha).1
    obtain ⟨a', b', ha', hb', hab⟩ := hAt (i + 1) hi
    obtain rfl : a' = a := by rw [ha'] at ha; injection ha
    obtain rfl : b' = b := by rw [hb'] at hb; injection hb
    obtain rfl := rd_of_getElem? hw1
    obtain rfl := rd_of_getElem? hw2
    obtain rfl := rd_of_getElem? hf
    have hk := key i (by omega)
    rw [h4 (i + 1) (by omega) hi]
    unfold schleissVal
    rw [hab, Nat.add_sub_cancel, if_pos hf1]
    refine le_pyMin (le_pyMin (LawfulPyFloat.le_trans hk.2.2 hm) fun _ => hk.2.2) fun hn => ?_
    exact schleiss_step_ge hk.2.2 hdt htau hn

example : waaSchleiss [Fl.fin (0:ℚ), .fin 3, .fin 5, .fin 1] [.fin 0, .fin 0, .fin 0, .fin 0]
      [.fin 0, .fin 1, .fin 1, .fin 0] (.fin 2) (.fin 1) (.fin 15)
      = .ok [.fin 0, .fin (2/5), .fin (18/25), .fin 1] := by decide +kernel

/-- The hypotheses can be met with IEEE doubles. -/
example : ∃ out, waaSchleiss (F := RFl (Bin.binary64 (K := ℚ)))
    [PyFloat.ofInt 0, PyFloat.ofInt 3, PyFloat.ofInt 5] [PyFloat.ofInt 0, PyFloat.ofInt 0, PyFloat.ofInt 0]
    [PyFloat.ofInt 0, PyFloat.ofInt 1, PyFloat.ofInt 1] (PyFloat.ofInt 2) (PyFloat.ofInt 1)
    (PyFloat.ofInt 15) = .ok out ∧ out.length = 3 := by
  have key : ∀ n : ℕ, isNaN ((PyFloat.ofInt n : RFl (Bin.binary64 (K := ℚ))) -ᶠ PyFloat.ofInt 0)
      = false → PyFloat.ofInt 0 ≤ᶠ ((PyFloat.ofInt n : RFl (Bin.binary64 (K := ℚ))) -ᶠ PyFloat.ofInt 0) :=
    fun n h => OrderedPyFloat.sub_nonneg _ _ (OrderedPyFloat.ofInt_mono _ _ (by omega)) h
  have hn : ∀ n : ℕ, isNaN ((PyFloat.ofInt n : RFl (Bin.binary64 (K := ℚ))) -ᶠ PyFloat.ofInt 0) = false := by
    intro n
    rw [RFl.isNaN_def, RFl.val_sub, Rounding.isNaN_round, RFl.val_zero]
    have := (LawfulPyFloat.isNaN_ofInt (F := RFl (Bin.binary64 (K := ℚ))) n)
    rw [RFl.isNaN_def] at this
    generalize (PyFloat.ofInt (n : ℤ) : RFl (Bin.binary64 (K := ℚ))).val = v at *
    cases v <;> first | rfl | cases this
  obtain ⟨out, h1, h2, -⟩ := C80_schleiss_rounded (F := RFl (Bin.binary64 (K := ℚ)))
    [PyFloat.ofInt 0, PyFloat.ofInt 3, PyFloat.ofInt 5] [PyFloat.ofInt 0, PyFloat.ofInt 0, PyFloat.ofInt 0]
    [PyFloat.ofInt 0, PyFloat.ofInt 1, PyFloat.ofInt 1] (PyFloat.ofInt 2) (PyFloat.ofInt 1)
    (PyFloat.ofInt 15) rfl le_rfl (LawfulPyFloat.le_of_lt (ofInt_pos (by norm_num)))
    (LawfulPyFloat.le_of_lt (ofInt_pos (by norm_num))) (ofInt_pos (by norm_num)) (by
      intro i a b ha hb
      have hi : i < 3 := (List.getElem?_eq_some_iff.mp ha).1
      interval_cases i
      · obtain rfl := Option.some.inj ha
        obtain rfl := Option.some.inj hb
        exact key 0 (hn 0)
      · obtain rfl := Option.some.inj ha
        obtain rfl := Option.some.inj hb
        exact key 3 (hn 3)
      · obtain rfl := Option.some.inj ha
        obtain rfl := Option.some.inj hb
        exact key 5 (hn 5))
  exact ⟨out, h1, h2⟩

/-- **C81** In any arithmetic with monotone rounding: inside a closed wet event without NaN flag between
dry levels `u ≤ v` no baseline value lies below `u` and the values never decrease; for
`u ≥ v` no value lies above `u` and they never increase. -/
theorem C81_linear_monotone (rsl wet out : List F) (hN : 0 < rsl.length)
    (hlen : rsl.length ≤ wet.length) (hout : baselineLinear rsl wet false = .ok out)
    (p q : Nat) (hq : q < rsl.length) (hE : WetEvent (FlagWet wet) p q)
    (hB : ¬ BadEvent (FlagNaN wet) p q) (u v : F) (hu : rsl[p]? = some u) (hv : rsl[q]? = some v)
    (i j : Nat) (hi : p ≤ i) (hij : i ≤ j) (hj : j < q) (x y : F) (hx : out[i]? = some x)
    (hy : out[j]? = some y) (hnx : isNaN x = false) (hny : isNaN y = false) :
    (u ≤ᶠ v → u ≤ᶠ x ∧ x ≤ᶠ y) ∧ (v ≤ᶠ u → x ≤ᶠ u ∧ y ≤ᶠ x) := by
  obtain ⟨out', ho, hs⟩ := C08_linear_characterisation rsl wet hN hlen
  obtain rfl : out' = out := by rw [ho] at hout; injection hout
  have hpq := hE.1
  have e1 := (hs.inside p q i hE hq hi (by omega)).2 hB
  have e2 := (hs.inside p q j hE hq (by omega) hj).2 hB
  have su : rsl.getD p PyFloat.nan = u := rd_of_getElem? hu
  have sv : rsl.getD q PyFloat.nan = v := rd_of_getElem? hv
  rw [su, sv] at e1 e2
  rw [hx] at e1
  rw [hy] at e2
  obtain rfl := Option.some.inj e1
  obtain rfl := Option.some.inj e2
  unfold lineAt at *
  have hN' : (PyFloat.ofInt 0 : F) <ᶠ PyFloat.ofInt ((q : ℤ) - p) := ofInt_pos (by omega)
  have hi0 : (PyFloat.ofInt 0 : F) ≤ᶠ PyFloat.ofInt ((i : ℤ) - p) :=
    OrderedPyFloat.ofInt_mono _ _ (by omega)
  have hij' : (PyFloat.ofInt ((i : ℤ) - p) : F) ≤ᶠ PyFloat.ofInt ((j : ℤ) - p) :=
    OrderedPyFloat.ofInt_mono _ _ (by omega)
  generalize (PyFloat.ofInt ((q : ℤ) - p) : F) = N at *
  generalize (PyFloat.ofInt ((i : ℤ) - p) : F) = I at *
  generalize (PyFloat.ofInt ((j : ℤ) - p) : F) = J at *
  have nI : isNaN (I *ᶠ ((v -ᶠ u) /ᶠ N)) = false := by
    by_contra hc
    have := LawfulPyFloat.add_nan u (I *ᶠ ((v -ᶠ u) /ᶠ N)) (by simp at hc; simp [hc])
    rw [hnx] at this; cases this
  have nJ : isNaN (J *ᶠ ((v -ᶠ u) /ᶠ N)) = false := by
    by_contra hc
    have := LawfulPyFloat.add_nan u (J *ᶠ ((v -ᶠ u) /ᶠ N)) (by simp at hc; simp [hc])
    rw [hny] at this; cases this
  have nd : isNaN ((v -ᶠ u) /ᶠ N) = false := by
    by_contra hc
    have := OrderedPyFloat.mul_nan I ((v -ᶠ u) /ᶠ N) (by simp at hc; simp [hc])
    rw [nI] at this; cases this
  have ns : isNaN (v -ᶠ u) = false := by
    by_contra hc
    have := OrderedPyFloat.div_nan (v -ᶠ u) N (by simp at hc; simp [hc])
    rw [nd] at this; cases this
  have nu : isNaN u = false := by
    by_contra hc
    have := LawfulPyFloat.sub_nan v u (by simp at hc; simp [hc])
    rw [ns] at this; cases this
  have nz : isNaN (u +ᶠ PyFloat.ofInt 0) = false := by rw [OrderedPyFloat.add_zero]; exact nu
  constructor
  · intro huv
    have p1 := OrderedPyFloat.div_nonneg _ _ (OrderedPyFloat.sub_nonneg u v huv ns) hN' nd
    have p2 := OrderedPyFloat.mul_nonneg _ _ hi0 p1 nI
    have p3 := OrderedPyFloat.add_le_add _ _ u p2 nz hnx
    rw [OrderedPyFloat.add_zero] at p3
    exact ⟨p3, OrderedPyFloat.add_le_add _ _ u
      (OrderedPyFloat.mul_le_of_nonneg _ _ _ hij' p1 nI nJ) hnx hny⟩
  · intro hvu
    have p1 := OrderedPyFloat.div_nonpos _ _ (OrderedPyFloat.sub_nonpos v u hvu ns) hN' nd
    have p2 := OrderedPyFloat.mul_nonpos _ _ hi0 p1 nI
    have p3 := OrderedPyFloat.add_le_add _ _ u p2 hnx nz
    rw [OrderedPyFloat.add_zero] at p3
    exact ⟨p3, OrderedPyFloat.add_le_add _ _ u
      (OrderedPyFloat.mul_le_of_nonpos _ _ _ hij' p1 nI nJ) hny hnx⟩

end generic

section precision
variable {K : Type} [Field K] [LinearOrder K] [IsStrictOrderedRing K] {R : Rounding K}

theorem rnd_nonneg {x z : K} (h : R.rnd x = .fin z) (hx : 0 ≤ x) : 0 ≤ z := by
  have := R.mono 0 x hx
  rw [R.zero, h] at this
  simpa using this

theorem rnd_nonpos {x z : K} (h : R.rnd x = .fin z) (hx : x ≤ 0) : z ≤ 0 := by
  have := R.mono x 0 hx
  rw [R.zero, h] at this
  simpa using this

/-- A value between representable numbers is rounded to a number between them. -/
theorem rnd_between {a b x : K} (ha : R.rnd a = .fin a) (hb : R.rnd b = .fin b) (h1 : a ≤ x)
    (h2 : x ≤ b) : ∃ z, R.rnd x = .fin z ∧ a ≤ z ∧ z ≤ b := by
  have e1 := R.mono a x h1
  have e2 := R.mono x b h2
  rw [ha] at e1
  rw [hb] at e2
  cases h : R.rnd x with
  | nan => have := R.not_nan x; rw [h] at this; cases this
  | ninf => rw [h] at e1; cases e1
  | pinf => rw [h] at e2; cases e2
  | fin z =>
    rw [h] at e1 e2
    exact ⟨z, rfl, by simpa using e1, by simpa using e2⟩

theorem abs_rnd_le {u eta x z : K} (h : |z - x| ≤ u * |x| + eta) : |z| ≤ (1 + u) * |x| + eta := by
  have : |z| ≤ |z - x| + |x| := by
    have := abs_add_le (z - x) x
    rwa [sub_add_cancel] at this
  linarith

/-- The increment of the linear baseline does not overshoot. -/
theorem line_increment {u eta big imax : K} (hR : R.Precision u eta big imax) {a b : K}
    (ha : R.rnd a = .fin a) (hb : R.rnd b = .fin b) {N i : ℕ} (hi : i < N) (hNm : (N : K) ≤ imax)
    (hbig : (1 + u) * |b - a| ≤ big)
    (hc : ((N : K) - 1) * ((1 + u) ^ 2 * |b - a| / N + eta) * (1 + u) + eta ≤ |b - a|) :
    ∃ d s t, R.rnd (b - a) = .fin d ∧ R.rnd (d / N) = .fin s ∧ R.rnd (i * s) = .fin t ∧
      |t| ≤ |b - a| ∧ (a ≤ b → 0 ≤ t) ∧ (b ≤ a → t ≤ 0) := by
  have hu := hR.u_nonneg
  have he := hR.eta_nonneg
  have hD := abs_nonneg (b - a)
  have hNp : (0 : K) < N := by exact_mod_cast (by omega : 0 < N)
  have hN1 : (1 : K) ≤ N := by exact_mod_cast (by omega : 1 ≤ N)
  have hi' : (i : K) ≤ N - 1 := by
    have : ((i + 1 : ℕ) : K) ≤ N := by exact_mod_cast hi
    push_cast at this
    linarith
  have hi0 : (0 : K) ≤ i := Nat.cast_nonneg i
  have hDb : |b - a| ≤ big := by nlinarith
  obtain ⟨d, hd, hde⟩ := hR.sub_err b a hb ha hDb
  have hd' : |d| ≤ (1 + u) * |b - a| := by
    have := abs_rnd_le (u := u) (eta := 0) (by simpa using hde)
    simpa using this
  have hdN : |d / N| = |d| / N := by rw [abs_div, abs_of_pos hNp]
  have hdN' : |d / N| ≤ (1 + u) * |b - a| / N := by
    rw [hdN]; exact div_le_div_of_nonneg_right hd' hNp.le
  obtain ⟨s, hs, hse⟩ := hR.err (d / N) (by
    rw [hdN]
    exact (div_le_self (abs_nonneg d) hN1).trans (hd'.trans hbig))
  have hs' : |s| ≤ (1 + u) ^ 2 * |b - a| / N + eta := by
    refine (abs_rnd_le hse).trans ?_
    have := mul_le_mul_of_nonneg_left hdN' (by linarith : 0 ≤ 1 + u)
    have e : (1 + u) * ((1 + u) * |b - a| / N) = (1 + u) ^ 2 * |b - a| / N := by ring
    linarith
  have his : |(i : K) * s| ≤ ((N : K) - 1) * ((1 + u) ^ 2 * |b - a| / N + eta) := by
    rw [abs_mul, abs_of_nonneg hi0]
    exact mul_le_mul hi' hs' (abs_nonneg s) (by linarith)
  have hP : 0 ≤ ((N : K) - 1) * ((1 + u) ^ 2 * |b - a| / N + eta) := (abs_nonneg _).trans his
  have hPD : ((N : K) - 1) * ((1 + u) ^ 2 * |b - a| / N + eta) ≤ |b - a| := by nlinarith
  obtain ⟨t, ht, hte⟩ := hR.err (i * s) ((his.trans hPD).trans hDb)
  refine ⟨d, s, t, hd, hs, ht, ?_, ?_, ?_⟩
  · refine (abs_rnd_le hte).trans (le_trans ?_ hc)
    have := mul_le_mul_of_nonneg_left his (by linarith : 0 ≤ 1 + u)
    linarith
  · intro h
    have h1 := rnd_nonneg hd (by linarith)
    have h2 := rnd_nonneg hs (div_nonneg h1 hNp.le)
    exact rnd_nonneg ht (mul_nonneg hi0 h2)
  · intro h
    have h1 := rnd_nonpos hd (by linarith)
    have h2 := rnd_nonpos hs (div_nonpos_of_nonpos_of_nonneg h1 hNp.le)
    exact rnd_nonpos ht (mul_nonpos_of_nonneg_of_nonpos hi0 h2)

/-- **C81** With relative precision `u` and underflow error `eta`: if the event is so short that `(N-1)/N`
times the accumulated relative errors stays below one, every baseline value inside it is a number between the
two dry levels. -/
theorem C81_linear_between {u eta big imax : K} (hR : R.Precision u eta big imax)
    (rsl wet out : List (RFl R)) (hN : 0 < rsl.length)
    (hlen : rsl.length ≤ wet.length) (hout : baselineLinear rsl wet false = .ok out)
    (p q : Nat) (hq : q < rsl.length) (hE : WetEvent (FlagWet wet) p q)
    (hB : ¬ BadEvent (FlagNaN wet) p q) (a b : K) (ra rb : RFl R)
    (hu : rsl[p]? = some ra) (hv : rsl[q]? = some rb) (ha : ra.val = .fin a) (hb : rb.val = .fin b)
    (hNm : ((q - p : ℕ) : K) ≤ imax) (hbig : (1 + u) * |b - a| ≤ big)
    (hc : (((q - p : ℕ) : K) - 1) * ((1 + u) ^ 2 * |b - a| / (q - p : ℕ) + eta) * (1 + u) + eta
      ≤ |b - a|)
    (i : Nat) (hi : p ≤ i) (hiq : i < q) :
    ∃ x z, out[i]? = some x ∧ x.val = .fin z ∧ min a b ≤ z ∧ z ≤ max a b := by
  obtain ⟨out', ho, hs⟩ := C08_linear_characterisation rsl wet hN hlen
  obtain rfl : out' = out := by rw [ho] at hout; injection hout
  have e1 := (hs.inside p q i hE hq hi hiq).2 hB
  have su : rsl.getD p PyFloat.nan = ra := rd_of_getElem? hu
  have sv : rsl.getD q PyFloat.nan = rb := rd_of_getElem? hv
  rw [su, sv] at e1
  have hra := RFl.rnd_of_val ha
  have hrb := RFl.rnd_of_val hb
  obtain ⟨d, s, t, hd, hs', ht, h1, h2, h3⟩ :=
    line_increment hR hra hrb (N := q - p) (i := i - p) (by omega) hNm hbig hc
  have hqp : (((q : ℤ) - p : ℤ) : K) = ((q - p : ℕ) : K) := by
    rw [Nat.cast_sub (by omega)]; push_cast; ring
  have hip : (((i : ℤ) - p : ℤ) : K) = ((i - p : ℕ) : K) := by
    rw [Nat.cast_sub hi]; push_cast; ring
  have hN0 : ((q - p : ℕ) : K) ≠ 0 := by
    exact_mod_cast (by omega : q - p ≠ 0)
  have hival : (PyFloat.ofInt ((i : ℤ) - p) : RFl R).val = .fin ((i - p : ℕ) : K) := by
    rw [RFl.val_ofInt, hip]
    refine hR.int_exact _ (le_trans ?_ hNm)
    exact_mod_cast (by omega : i - p ≤ q - p)
  have hqval : (PyFloat.ofInt ((q : ℤ) - p) : RFl R).val = .fin ((q - p : ℕ) : K) := by
    rw [RFl.val_ofInt, hqp]
    exact hR.int_exact _ hNm
  have hval : (lineAt ra rb p q i).val = R.rnd (a + t) := by
    unfold lineAt
    rw [RFl.val_add, RFl.val_mul, RFl.val_div, RFl.val_sub, ha, hb, hival, hqval, Fl.pf_sub_fin]
    show R.round (_ +ᶠ R.round (_ *ᶠ R.round (R.rnd (b - a) /ᶠ _))) = _
    rw [hd, Fl.pf_div_fin_ne _ _ hN0]
    show R.round (_ +ᶠ R.round (_ *ᶠ R.rnd _)) = _
    rw [hs', Fl.pf_mul_fin]
    show R.round (_ +ᶠ R.rnd _) = _
    rw [ht, Fl.pf_add_fin]
    rfl
  rcases le_total a b with hab | hab
  · rw [abs_of_nonneg (by linarith : 0 ≤ b - a), abs_of_nonneg (h2 hab)] at h1
    obtain ⟨z, hz, z1, z2⟩ := rnd_between hra hrb (x := a + t) (by linarith [h2 hab]) (by linarith)
    exact ⟨_, z, e1, by rw [hval, hz], by rwa [min_eq_left hab], by rwa [max_eq_right hab]⟩
  · rw [abs_of_nonpos (by linarith : b - a ≤ 0), abs_of_nonpos (h3 hab)] at h1
    obtain ⟨z, hz, z1, z2⟩ := rnd_between hrb hra (x := a + t) (by linarith) (by linarith [h3 hab])
    exact ⟨_, z, e1, by rw [hval, hz], by rwa [min_eq_right hab], by rwa [max_eq_left hab]⟩

theorem abs_list_sum_le (ys : List K) : |ys.sum| ≤ (ys.map abs).sum := by
  induction ys with
  | nil => simp
  | cons y ys ih =>
    rw [List.sum_cons, List.map_cons, List.sum_cons]
    exact (abs_add_le y ys.sum).trans (by linarith)

/-- Rounded summation in index order. -/
theorem fsum_error {u eta big imax : K} (hR : R.Precision u eta big imax) (ys : List K)
    (xs : List (RFl R)) (hxs : xs.map RFl.val = ys.map Fl.fin) (hne : ys ≠ [])
    (hbig : (1 + u) ^ ys.length * (ys.map abs).sum ≤ big) :
    ∃ s, (fsum xs).val = .fin s ∧
      |s - ys.sum| ≤ ((1 + u) ^ (ys.length - 1) - 1) * (ys.map abs).sum := by
  have hu := hR.u_nonneg
  have hu1 : (1 : K) ≤ 1 + u := by linarith
  induction ys using List.reverseRecOn generalizing xs with
  | nil => exact absurd rfl hne
  | append_singleton ys y ih =>
    obtain ⟨xs', x, rfl, hx'⟩ : ∃ xs' x, xs = xs' ++ [x] ∧
        xs'.map RFl.val = ys.map Fl.fin ∧ x.val = .fin y := by
      rw [List.map_append, List.map_eq_append_iff] at hxs
      obtain ⟨l1, l2, rfl, h1, h2⟩ := hxs
      obtain ⟨x, rfl, hx⟩ : ∃ x, l2 = [x] ∧ x.val = .fin y := by
        rw [List.map_cons, List.map_nil, List.map_eq_singleton_iff] at h2
        obtain ⟨x, h3, h4⟩ := h2
        exact ⟨x, h3, h4⟩
      exact ⟨l1, x, rfl, h1, hx⟩
    obtain ⟨hx1, hx2⟩ := hx'
    have hfs : fsum (xs' ++ [x]) = fsum xs' +ᶠ x := by
      unfold fsum; rw [List.foldl_append]; rfl
    rw [hfs, RFl.val_add, hx2]
    have hry := RFl.rnd_of_val hx2
    have hSy : ((ys ++ [y]).map abs).sum = (ys.map abs).sum + |y| := by simp
    have hS0 : 0 ≤ (ys.map abs).sum := List.sum_nonneg (by simp)
    rw [hSy, List.length_append, List.length_singleton] at hbig
    rcases List.eq_nil_or_concat' ys with rfl | hys
    · obtain rfl : xs' = [] := by simpa using hx1
      have : (fsum ([] : List (RFl R))).val = .fin 0 := RFl.val_zero
      rw [this, Fl.pf_add_fin]
      refine ⟨y, ?_, by simp⟩
      show R.rnd (0 + y) = _
      rw [zero_add, hry]
    · have hne' : ys ≠ [] := by obtain ⟨L, b, rfl⟩ := hys; simp
      have hlen : 1 ≤ ys.length := List.length_pos_iff.mpr hne'
      have hpow : (1 + u) ^ ys.length ≤ (1 + u) ^ (ys.length + 1) :=
        pow_le_pow_right₀ hu1 (by omega)
      have hp1 : (1 : K) ≤ (1 + u) ^ ys.length := one_le_pow₀ hu1
      obtain ⟨s, hs, hse⟩ := ih xs' hx1 hne' (by
        have h1 : (1 + u) ^ ys.length * (ys.map abs).sum
            ≤ (1 + u) ^ (ys.length + 1) * ((ys.map abs).sum + |y|) :=
          mul_le_mul hpow (by linarith [abs_nonneg y]) hS0 (by positivity)
        linarith)
      have hrs := RFl.rnd_of_val hs
      rw [hs, Fl.pf_add_fin]
      set P := (1 + u) ^ (ys.length - 1) with hP
      have hPs : (1 + u) ^ ys.length = P * (1 + u) := by
        rw [hP, ← pow_succ]; congr 1; omega
      have hP1 : (1 : K) ≤ P := one_le_pow₀ hu1
      have hsum : |ys.sum| ≤ (ys.map abs).sum := abs_list_sum_le ys
      have hsb : |s + y| ≤ P * (ys.map abs).sum + |y| := by
        have h1 := abs_add_le s y
        have h2 : |s| ≤ |s - ys.sum| + |ys.sum| := by
          have := abs_add_le (s - ys.sum) ys.sum
          rwa [sub_add_cancel] at this
        linarith
      have hPS : P * (ys.map abs).sum + |y| ≤ P * ((ys.map abs).sum + |y|) := by
        nlinarith [abs_nonneg y]
      obtain ⟨z, hz, hze⟩ := hR.add_err s y hrs hry (by
        refine (hsb.trans hPS).trans (le_trans ?_ hbig)
        refine mul_le_mul_of_nonneg_right ?_ (by linarith [abs_nonneg y])
        exact pow_le_pow_right₀ hu1 (by omega))
      refine ⟨z, hz, ?_⟩
      rw [hSy, List.sum_append, List.sum_singleton, List.length_append, List.length_singleton,
        Nat.add_sub_cancel, hPs]
      have h3 : |z - (ys.sum + y)| ≤ |z - (s + y)| + |s - ys.sum| := by
        have := abs_add_le (z - (s + y)) (s - ys.sum)
        have e : z - (s + y) + (s - ys.sum) = z - (ys.sum + y) := by ring
        rwa [e] at this
      have h4 : u * |s + y| ≤ u * (P * ((ys.map abs).sum + |y|)) :=
        mul_le_mul_of_nonneg_left (hsb.trans hPS) hu
      have h5 : (P - 1) * (ys.map abs).sum ≤ (P - 1) * ((ys.map abs).sum + |y|) :=
        mul_le_mul_of_nonneg_left (by linarith [abs_nonneg y]) (by linarith)
      calc _ ≤ u * (P * ((ys.map abs).sum + |y|)) + (P - 1) * ((ys.map abs).sum + |y|) := by
            linarith
        _ = _ := by ring

/-- **C82** Error of the constant baseline: with relative precision `u` and underflow error `eta` the
level during a wet event differs from the exact mean of the `n` baseline values before the event by
at most `((1+u)^n - 1) * mean|y| + eta`. -/
theorem C82_constant_error {u eta big imax : K} (hR : R.Precision u eta big imax)
    (trsl : List (RFl R)) (wet : List Bool) (n : Nat) (hn : 1 ≤ n)
    (hlen : trsl.length ≤ wet.length) (out : List (RFl R))
    (hout : baselineConstant trsl wet n = .ok out)
    (s i : Nat) (hs : n ≤ s) (hsi : s ≤ i) (hi : i < trsl.length)
    (hdry : wet[s-1]? = some false) (hwet : WetOn wet s i)
    (ys : List K) (hys : ((out.drop (s - n)).take n).map RFl.val = ys.map Fl.fin)
    (hnm : (n : K) ≤ imax) (hbig : (1 + u) ^ n * (ys.map abs).sum ≤ big) :
    ∃ x z, out[i]? = some x ∧ x.val = .fin z ∧
      |z - ys.sum / n| ≤ ((1 + u) ^ n - 1) * ((ys.map abs).sum / n) + eta := by
  have hu := hR.u_nonneg
  have hu1 : (1 : K) ≤ 1 + u := by linarith
  have hl : ys.length = n := by
    have h1 := congrArg List.length hys
    rw [baselineConstant, if_neg (by omega)] at hout
    obtain rfl : constLoop trsl wet n = out := by injection hout
    simp only [List.length_take, List.length_drop, List.length_map, constLoop_length] at h1
    omega
  have hl2 : ((out.drop (s - n)).take n).length = n := by
    have := congrArg List.length hys
    simpa [hl] using this
  obtain ⟨t, ht, hte⟩ := fsum_error hR ys _ hys (by rintro rfl; simp at hl; omega) (by rwa [hl])
  rw [hl] at hte
  have hnp : (0 : K) < n := by exact_mod_cast hn
  have hS0 : 0 ≤ (ys.map abs).sum := List.sum_nonneg (by simp)
  set P := (1 + u) ^ (n - 1) with hP
  have hPs : (1 + u) ^ n = P * (1 + u) := by
    rw [hP, ← pow_succ]; congr 1; omega
  have hP1 : (1 : K) ≤ P := one_le_pow₀ hu1
  have hsum : |ys.sum| ≤ (ys.map abs).sum := abs_list_sum_le ys
  have htb : |t| ≤ P * (ys.map abs).sum := by
    have h2 : |t| ≤ |t - ys.sum| + |ys.sum| := by
      have := abs_add_le (t - ys.sum) ys.sum
      rwa [sub_add_cancel] at this
    linarith
  have hdiv : |t / n| = |t| / n := by rw [abs_div, abs_of_pos hnp]
  obtain ⟨z, hz, hze⟩ := hR.err (t / n) (by
    rw [hdiv]
    refine (div_le_self (abs_nonneg t) (by exact_mod_cast hn)).trans (htb.trans (le_trans ?_ hbig))
    exact mul_le_mul_of_nonneg_right (pow_le_pow_right₀ hu1 (by omega)) hS0)
  refine ⟨_, z, C02_constant_wet trsl wet n hn hlen out hout s i hs hsi hi hdry hwet, ?_, ?_⟩
  · unfold npMean
    rw [RFl.val_div, ht, hl2, RFl.val_ofInt, Int.cast_natCast, hR.int_exact n hnm,
      Fl.pf_div_fin_ne _ _ hnp.ne']
    exact hz
  · have h1 : |z - ys.sum / n| ≤ |z - t / n| + |t - ys.sum| / n := by
      have := abs_add_le (z - t / n) ((t - ys.sum) / n)
      rw [abs_div (t - ys.sum), abs_of_pos hnp] at this
      have e : z - t / n + (t - ys.sum) / n = z - ys.sum / n := by ring
      rwa [e] at this
    have h2 : |t - ys.sum| / n ≤ (P - 1) * ((ys.map abs).sum / n) := by
      rw [← mul_div_assoc]; exact div_le_div_of_nonneg_right hte hnp.le
    have h3 : u * |t / n| ≤ u * (P * ((ys.map abs).sum / n)) := by
      rw [hdiv, ← mul_div_assoc P]
      exact mul_le_mul_of_nonneg_left (div_le_div_of_nonneg_right htb hnp.le) hu
    rw [hPs]
    calc _ ≤ u * (P * ((ys.map abs).sum / n)) + eta + (P - 1) * ((ys.map abs).sum / n) := by linarith
      _ = _ := by ring

/-- **C82** For `n_average_last_dry = 1` the level during a wet event is the last dry value, without
rounding error and whatever that value is. -/
theorem C82_constant_last_dry (trsl : List (RFl R)) (wet : List Bool)
    (hlen : trsl.length ≤ wet.length) (out : List (RFl R))
    (hout : baselineConstant trsl wet 1 = .ok out)
    (s i : Nat) (hs : 1 ≤ s) (hsi : s ≤ i) (hi : i < trsl.length)
    (hdry : wet[s-1]? = some false) (hwet : WetOn wet s i) :
    out[i]? = trsl[s-1]? := by
  obtain ⟨out', ho, hl, hd⟩ := C01_constant_dry trsl wet 1 le_rfl hlen
  obtain rfl : out' = out := by rw [ho] at hout; injection hout
  rw [C02_constant_wet trsl wet 1 le_rfl hlen out' hout s i hs hsi hi hdry hwet,
    ← hd (s-1) (by omega) (Or.inr hdry)]
  have h1 : s - 1 < out'.length := by omega
  rw [List.getElem?_eq_getElem h1]
  congr 1
  have : (out'.drop (s-1)).take 1 = [out'[s-1]] := by
    rw [List.drop_eq_getElem_cons h1]; rfl
  rw [this]
  generalize out'[s-1] = x
  apply RFl.ext
  have h2 : ((PyFloat.ofInt 0 : RFl R) +ᶠ x) = x := by
    apply RFl.ext
    rw [RFl.val_add, RFl.val_zero]
    have := x.rep
    cases hx : x.val with
    | fin y => rw [Fl.pf_add_fin, zero_add, ← hx]; exact this
    | _ => rfl
  have h3 : npMean [x] = ((PyFloat.ofInt 0 : RFl R) +ᶠ x) /ᶠ PyFloat.ofInt 1 := rfl
  rw [h3, h2, RFl.val_div, RFl.val_one]
  have := x.rep
  cases hx : x.val with
  | fin y =>
    rw [Fl.pf_div_fin_ne _ _ one_ne_zero, div_one, ← hx]; exact this
  | nan => rfl
  | pinf =>
    show R.round (if (1 : K) < 0 then _ else _) = _
    rw [if_neg (not_lt.mpr zero_le_one)]
    rfl
  | ninf =>
    show R.round (if (1 : K) < 0 then _ else _) = _
    rw [if_neg (not_lt.mpr zero_le_one)]
    rfl

end precision

section binary64
open Verif.Bin
variable {K : Type} [Field K] [LinearOrder K] [IsStrictOrderedRing K] [FloorRing K]

/-- Precision of IEEE doubles. -/
theorem binary64_precision : (binary64 (K := K)).Precision (2 ^ (-53 : ℤ)) (2 ^ (-1075 : ℤ))
    (2 ^ (1023 : ℤ)) (2 ^ (53 : ℕ)) := by
  have h := fmt_precision (K := K) 53 (-1074) 1024 (by norm_num) (by norm_num) (by norm_num)
  have e : min ((2 : K) ^ 53) (2 ^ ((1024 : ℤ) - 1)) = 2 ^ 53 := by
    apply min_eq_left
    have := zpow_le_zpow_right₀ (a := (2 : K)) one_le_two (show (53 : ℤ) ≤ 1024 - 1 by norm_num)
    exact_mod_cast this
  rw [e] at h
  exact h

/-- **C81** (IEEE doubles) For levels that differ by at least `2^-900` and at most `2^1000` and events of at most
`2^50` steps every value of the linear baseline inside the event is a number between the two dry levels. -/
theorem C81_linear_between_binary64 (rsl wet out : List (RFl (binary64 (K := K))))
    (hN : 0 < rsl.length) (hlen : rsl.length ≤ wet.length)
    (hout : baselineLinear rsl wet false = .ok out)
    (p q : Nat) (hq : q < rsl.length) (hE : WetEvent (FlagWet wet) p q)
    (hB : ¬ BadEvent (FlagNaN wet) p q) (a b : K) (ra rb : RFl (binary64 (K := K)))
    (hu : rsl[p]? = some ra) (hv : rsl[q]? = some rb) (ha : ra.val = .fin a) (hb : rb.val = .fin b)
    (hNm : q - p ≤ 2 ^ 50) (hlo : 2 ^ (-900 : ℤ) ≤ |b - a|) (hhi : |b - a| ≤ 2 ^ (1000 : ℤ))
    (i : Nat) (hi : p ≤ i) (hiq : i < q) :
    ∃ x z, out[i]? = some x ∧ x.val = .fin z ∧ min a b ≤ z ∧ z ≤ max a b := by
  have hNK : ((q - p : ℕ) : K) ≤ 2 ^ 50 := by exact_mod_cast hNm
  have hN1 : (1 : K) ≤ ((q - p : ℕ) : K) := by
    exact_mod_cast (by have := hE.1; omega : 1 ≤ q - p)
  refine C81_linear_between binary64_precision rsl wet out hN hlen hout p q hq hE hB a b ra rb hu hv
    ha hb ?_ ?_ ?_ i hi hiq
  · refine hNK.trans ?_
    exact pow_le_pow_right₀ one_le_two (by norm_num)
  · have h1 : (1 : K) + 2 ^ (-53 : ℤ) ≤ 2 := by
      have := zpow_le_zpow_right₀ (a := (2 : K)) one_le_two (show (-53 : ℤ) ≤ 0 by norm_num)
      rw [zpow_zero] at this
      linarith
    have h2 : (2 : K) * 2 ^ (1000 : ℤ) ≤ 2 ^ (1023 : ℤ) := by
      rw [← zpow_one_add₀ two_ne_zero]
      exact zpow_le_zpow_right₀ one_le_two (by norm_num)
    refine le_trans ?_ h2
    exact mul_le_mul h1 hhi (abs_nonneg _) (by norm_num)
  · generalize ((q - p : ℕ) : K) = N at *
    generalize |b - a| = D at *
    have hu0 : (0 : K) < 2 ^ (-53 : ℤ) := two_zpow_pos _
    have he0 : (0 : K) < 2 ^ (-1075 : ℤ) := two_zpow_pos _
    have hu1 : (2 : K) ^ (-53 : ℤ) * 2 ^ 50 = 1 / 8 := by
      rw [← zpow_natCast, ← zpow_add₀ two_ne_zero]; norm_num
    have he1 : (2 : K) ^ (-1075 : ℤ) * 2 ^ 50 * 2 ^ 50 ≤ D / 8 := by
      have : (2 : K) ^ (-1075 : ℤ) * 2 ^ 50 * 2 ^ 50 ≤ 2 ^ (-900 : ℤ) / 8 := by
        rw [le_div_iff₀ (by norm_num), ← zpow_natCast, ← zpow_add₀ two_ne_zero,
          ← zpow_add₀ two_ne_zero, show (8 : K) = 2 ^ (3 : ℤ) by norm_num, ← zpow_add₀ two_ne_zero]
        exact zpow_le_zpow_right₀ one_le_two (by norm_num)
      linarith
    generalize (2 : K) ^ (-53 : ℤ) = u at *
    generalize (2 : K) ^ (-1075 : ℤ) = e at *
    have hD : 0 ≤ D := (two_zpow_pos _).le.trans hlo
    have huN : u * N ≤ 1 / 8 := by rw [← hu1]; exact mul_le_mul_of_nonneg_left hNK hu0.le
    have hus : u ≤ 1 / 8 := by nlinarith
    have heN : e * N * N ≤ D / 8 := by
      refine le_trans ?_ he1
      have h50 : (0 : K) ≤ 2 ^ 50 := by positivity
      exact mul_le_mul (mul_le_mul_of_nonneg_left hNK he0.le) hNK (by linarith)
        (mul_nonneg he0.le h50)
    have hu3 : (1 + u) ^ 2 * (1 + u) ≤ 1 + 4 * u := by nlinarith [mul_pos hu0 hu0]
    have hN0 : 0 < N := by linarith
    have e1 : (N - 1) * ((1 + u) ^ 2 * D / N + e) * (1 + u) + e
        = ((N - 1) * ((1 + u) ^ 2 * (1 + u)) * D + (N - 1) * N * e * (1 + u) + e * N) / N := by
      field_simp
    rw [e1, div_le_iff₀ hN0]
    have e2 : (N - 1) * ((1 + u) ^ 2 * (1 + u)) * D ≤ (N - 1) * (1 + 4 * u) * D :=
      mul_le_mul_of_nonneg_right (mul_le_mul_of_nonneg_left hu3 (by linarith)) hD
    have e3 : (N - 1) * N * e * (1 + u) ≤ N * N * e * 2 := by
      have := mul_le_mul_of_nonneg_right (show N - 1 ≤ N by linarith) hN0.le
      have h1 := mul_le_mul_of_nonneg_right this he0.le
      exact mul_le_mul h1 (by linarith) (by linarith) (by positivity)
    have e4 : e * N ≤ e * N * N := le_mul_of_one_le_right (by positivity) hN1
    have e5 : (N - 1) * (4 * u) * D ≤ 1 / 2 * D := by
      refine mul_le_mul_of_nonneg_right ?_ hD
      nlinarith
    nlinarith

theorem val_ofNat_binary64 (n : ℕ) (h : n ≤ 2 ^ 53) :
    (PyFloat.ofInt n : RFl (binary64 (K := ℚ))).val = .fin n := by
  rw [RFl.val_ofInt, Int.cast_natCast]
  exact (binary64_precision (K := ℚ)).int_exact n (by exact_mod_cast h)

/-- Levels 1 and 2 around a wet event of two steps: the baseline values are doubles between 1 and 2
(and not exact thirds). -/
example : ∃ out, baselineLinear (F := RFl (binary64 (K := ℚ)))
      [PyFloat.ofInt 1, PyFloat.ofInt 9, PyFloat.ofInt 9, PyFloat.ofInt 2]
      [PyFloat.ofInt 0, PyFloat.ofInt 1, PyFloat.ofInt 1, PyFloat.ofInt 0] false = .ok out ∧
    ∃ x z, out[1]? = some x ∧ x.val = .fin z ∧ min 1 2 ≤ z ∧ z ≤ max 1 2 := by
  have v1 : (PyFloat.ofInt 1 : RFl (binary64 (K := ℚ))).val = .fin 1 := RFl.val_one
  have v2 : (PyFloat.ofInt 2 : RFl (binary64 (K := ℚ))).val = .fin 2 :=
    val_ofNat_binary64 2 (by norm_num)
  have e10 : ((PyFloat.ofInt 1 : RFl (binary64 (K := ℚ))) ==ᶠ PyFloat.ofInt 0) = false := by
    rw [RFl.eq_def, v1, RFl.val_zero]; decide
  have e00 : ((PyFloat.ofInt 0 : RFl (binary64 (K := ℚ))) ==ᶠ PyFloat.ofInt 0) = true := by
    rw [RFl.eq_def, RFl.val_zero]; decide
  obtain ⟨out, ho, -⟩ := C08_linear_characterisation (F := RFl (binary64 (K := ℚ)))
      [PyFloat.ofInt 1, PyFloat.ofInt 9, PyFloat.ofInt 9, PyFloat.ofInt 2]
      [PyFloat.ofInt 0, PyFloat.ofInt 1, PyFloat.ofInt 1, PyFloat.ofInt 0] (by simp) (by simp)
  refine ⟨out, ho, ?_⟩
  refine C81_linear_between_binary64 _ _ out (by simp) (by simp) ho 0 3 (by simp) ?_ ?_ 1 2 _ _ rfl rfl
    v1 v2 (by norm_num) ?_ ?_ 1 (by norm_num) (by norm_num)
  · refine ⟨by norm_num, fun h => h.1 rfl, ?_, ?_⟩
    · rintro ⟨-, w, hw, h⟩
      obtain rfl := Option.some.inj hw
      rw [e00, LawfulPyFloat.isNaN_ofInt] at h
      simp at h
    · intro k h1 h2
      interval_cases k
      · exact ⟨by norm_num, _, rfl, Or.inr e10⟩
      · exact ⟨by norm_num, _, rfl, Or.inr e10⟩
  · rintro ⟨k, h1, h2, -, w, hw, h⟩
    interval_cases k <;>
    · obtain rfl := Option.some.inj hw
      rw [LawfulPyFloat.isNaN_ofInt] at h
      cases h
  · have : (2 : ℚ) ^ (-900 : ℤ) ≤ 2 ^ (0 : ℤ) := zpow_le_zpow_right₀ one_le_two (by norm_num)
    norm_num at this ⊢
    exact this
  · have : (2 : ℚ) ^ (0 : ℤ) ≤ 2 ^ (1000 : ℤ) := zpow_le_zpow_right₀ one_le_two (by norm_num)
    rw [zpow_zero] at this
    norm_num at this ⊢
    exact this

/-- The mean of 1 and 2 as doubles: the hypotheses of C82 can be met. -/
example : ∃ out, baselineConstant (F := RFl (binary64 (K := ℚ)))
      [PyFloat.ofInt 1, PyFloat.ofInt 2, PyFloat.ofInt 9] [false, false, true] 2 = .ok out ∧
    ∃ x z, out[2]? = some x ∧ x.val = .fin z ∧
      |z - [(1:ℚ), 2].sum / (2 : ℕ)| ≤ ((1 + 2 ^ (-53 : ℤ)) ^ 2 - 1) * (([(1:ℚ), 2].map abs).sum / (2 : ℕ))
        + 2 ^ (-1075 : ℤ) := by
  have v1 : (PyFloat.ofInt 1 : RFl (binary64 (K := ℚ))).val = .fin 1 := RFl.val_one
  have v2 : (PyFloat.ofInt 2 : RFl (binary64 (K := ℚ))).val = .fin 2 :=
    val_ofNat_binary64 2 (by norm_num)
  refine ⟨_, rfl, ?_⟩
  refine C82_constant_error binary64_precision
    [PyFloat.ofInt 1, PyFloat.ofInt 2, PyFloat.ofInt 9] [false, false, true] 2 (by norm_num)
    (by simp) _ rfl 2 2 le_rfl le_rfl (by simp) rfl ?_ [1, 2] ?_ (by norm_num) ?_
  · intro k h1 h2
    obtain rfl : k = 2 := by omega
    rfl
  · show [(PyFloat.ofInt 1 : RFl (binary64 (K := ℚ))).val,
      (PyFloat.ofInt 2 : RFl (binary64 (K := ℚ))).val] = _
    rw [v1, v2]
    rfl
  · have h1 : (2 : ℚ) ^ (4 : ℤ) ≤ 2 ^ (1023 : ℤ) := zpow_le_zpow_right₀ one_le_two (by norm_num)
    refine le_trans ?_ h1
    norm_num

/-- The double nearest to `0.1`. -/
def tenth : RFl (binary64 (K := ℚ)) := RFl.mk' _ (.fin (1 / 10))

/-- **C83** In IEEE doubles a constant signal can have a non-zero attenuation: for the signal `0.1`, four
steps of which the last is wet, and `n_average_last_dry = 3` the baseline at the wet step is
greater than the signal and the attenuation negative. -/
theorem C83_constant_signal_attenuation :
    ∃ y, baselineConstant [tenth, tenth, tenth, tenth] [false, false, false, true] 3
        = .ok [tenth, tenth, tenth, y] ∧
      tenth <ᶠ y ∧ (tenth -ᶠ y) <ᶠ PyFloat.ofInt 0 := by
  have hx : tenth.val = .fin (((7205759403792794 : ℤ) : ℚ) * 2 ^ ((-4 : ℤ) - 52)) := by
    show (binary64 (K := ℚ)).rnd (1 / 10) = _
    exact binary64_rnd (by norm_num) (by norm_num) (by norm_num) (by norm_num)
      (rintK_eq (by norm_num [abs_lt]))
  have h0 : ((PyFloat.ofInt 0 : RFl (binary64 (K := ℚ))) +ᶠ tenth).val
      = .fin (((7205759403792794 : ℤ) : ℚ) * 2 ^ ((-4 : ℤ) - 52)) := by
    rw [RFl.val_add, RFl.val_zero, hx, Fl.pf_add_fin, zero_add, ← hx]
    exact tenth.rep
  have h1 : ((PyFloat.ofInt 0 : RFl (binary64 (K := ℚ))) +ᶠ tenth +ᶠ tenth).val
      = .fin (((7205759403792794 : ℤ) : ℚ) * 2 ^ ((-3 : ℤ) - 52)) := by
    rw [RFl.val_add, h0, hx, Fl.pf_add_fin]
    exact binary64_rnd (by norm_num) (by norm_num) (by norm_num) (by norm_num)
      (rintK_eq (by norm_num [abs_lt]))
  have h2 : ((PyFloat.ofInt 0 : RFl (binary64 (K := ℚ))) +ᶠ tenth +ᶠ tenth +ᶠ tenth).val
      = .fin (((5404319552844596 : ℤ) : ℚ) * 2 ^ ((-2 : ℤ) - 52)) := by
    rw [RFl.val_add, h1, hx, Fl.pf_add_fin]
    refine binary64_rnd (by norm_num) (by norm_num) (by norm_num) (by norm_num) ?_
    -- a tie: 5404319552844595.5
    have : (((7205759403792794 : ℤ) : ℚ) * 2 ^ ((-3 : ℤ) - 52)
        + ((7205759403792794 : ℤ) : ℚ) * 2 ^ ((-4 : ℤ) - 52)) / 2 ^ ((-2 : ℤ) - 52)
        = 10808639105689191 / 2 := by norm_num
    rw [this]
    decide +kernel
  have h3 : (PyFloat.ofInt 3 : RFl (binary64 (K := ℚ))).val = .fin 3 := by
    rw [RFl.val_ofInt]
    have := (binary64_precision (K := ℚ)).int_exact 3 (by norm_num)
    exact_mod_cast this
  have h4 : (npMean [tenth, tenth, tenth]).val
      = .fin (((7205759403792795 : ℤ) : ℚ) * 2 ^ ((-4 : ℤ) - 52)) := by
    show ((((PyFloat.ofInt 0 : RFl (binary64 (K := ℚ))) +ᶠ tenth +ᶠ tenth +ᶠ tenth))
      /ᶠ PyFloat.ofInt 3).val = _
    rw [RFl.val_div, h2, h3, Fl.pf_div_fin_ne _ _ (by norm_num)]
    exact binary64_rnd (by norm_num) (by norm_num) (by norm_num) (by norm_num)
      (rintK_eq (by norm_num [abs_lt]))
  have h5 : tenth <ᶠ npMean [tenth, tenth, tenth] := by
    rw [RFl.lt_def, hx, h4, Fl.pf_lt_fin, decide_eq_true_eq]
    norm_num
  refine ⟨npMean [tenth, tenth, tenth], rfl, h5, ?_⟩
  rw [RFl.lt_def, RFl.val_zero, RFl.val_sub, hx, h4, Fl.pf_sub_fin]
  have h6 : (binary64 (K := ℚ)).rnd (((7205759403792794 : ℤ) : ℚ) * 2 ^ ((-4 : ℤ) - 52)
      - ((7205759403792795 : ℤ) : ℚ) * 2 ^ ((-4 : ℤ) - 52)) = .fin (-(2 ^ (-56 : ℤ))) := by
    have e : ((7205759403792794 : ℤ) : ℚ) * 2 ^ ((-4 : ℤ) - 52)
      - ((7205759403792795 : ℤ) : ℚ) * 2 ^ ((-4 : ℤ) - 52) = -(2 ^ (-56 : ℤ)) := by norm_num
    rw [e]
    refine rndFmt_self_iff.mpr ?_
    rw [abs_neg, abs_of_pos (two_zpow_pos _)]
    exact ⟨rndPos_two_zpow (by norm_num) (by norm_num), zpow_lt_zpow_right₀ one_lt_two (by norm_num)⟩
  show (binary64.rnd _ <ᶠ Fl.fin 0) = true
  rw [h6, Fl.pf_lt_fin, decide_eq_true_eq]
  norm_num

end binary64

end Verif.Props
