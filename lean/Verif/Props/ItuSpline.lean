import Verif.Props.AB
import Verif.Props.KR
import Verif.Lemmas.ItuSpline
import Mathlib.Analysis.Complex.ExponentialBounds

/-!
# Properties C106-C111: the power-law parameters between the tabulated frequencies, and the rain rates computed with them
-/

namespace Verif.Props
open Verif Verif.KR

/-! ### The splines through the rows -/

/-- certificate of row `r` of a table -/
def certOf (s : String) (r : Nat) : SplineCert :=
  if s = "ITU_2003" then
    (if r = 1 then cert2003_1 else if r = 2 then cert2003_2 else if r = 3 then cert2003_3 else cert2003_4)
  else (if r = 1 then cert2005_1 else if r = 2 then cert2005_2 else if r = 3 then cert2005_3 else cert2005_4)

def certN (s : String) : Nat := if s = "ITU_2003" then 20 else 104

theorem ituName_cases {s : String} {P : String → Prop} (h : s = "ITU_2003" ∨ s = "ITU_2005") (h3 : P "ITU_2003")
    (h5 : P "ITU_2005") : P s := by
  rcases h with rfl | rfl
  · exact h3
  · exact h5

theorem tableOf_name {s : String} (h : s = "ITU_2003" ∨ s = "ITU_2005") :
    ∃ t, tableOf s = some t ∧ ∀ r, r = 1 ∨ r = 2 ∨ r = 3 ∨ r = 4 →
      cubicSpline (row t 0) (row t r) = (certOf s r).s := by
  rcases h with rfl | rfl
  · exact ⟨rawTable2003, rfl, by rintro r (rfl | rfl | rfl | rfl) <;> rfl⟩
  · exact ⟨rawTable2005, rfl, by rintro r (rfl | rfl | rfl | rfl) <;> rfl⟩

theorem cert_ok {s : String} (h : s = "ITU_2003" ∨ s = "ITU_2005") {r : Nat} (hr : r = 1 ∨ r = 2 ∨ r = 3 ∨ r = 4) :
    (certOf s r).ok (certN s) = true := by
  rcases h with rfl | rfl <;> rcases hr with rfl | rfl | rfl | rfl
  exacts [ok2003_1, ok2003_2, ok2003_3, ok2003_4, ok2005_1, ok2005_2, ok2005_3, ok2005_4]

theorem cert_f {s : String} (h : s = "ITU_2003" ∨ s = "ITU_2005") {r : Nat} (hr : r = 1 ∨ r = 2 ∨ r = 3 ∨ r = 4) :
    (certOf s r).f 0 = 1 ∧ (certOf s r).f (certN s) = 100 := by
  have e : ∀ (c : SplineCert) (i : Nat) (v : ℝ) (z : ℤ), c.x i = z → (z : ℝ) / 10000000 = v → c.f i = v := by
    intro c i v z hz hv; rw [SplineCert.f, hz, hv]
  rcases h with rfl | rfl <;> rcases hr with rfl | rfl | rfl | rfl <;>
    exact ⟨e _ _ _ 10000000 (by decide +kernel) (by norm_num), e _ _ _ 1000000000 (by decide +kernel) (by norm_num)⟩

theorem cert_a_range {s : String} (h : s = "ITU_2003" ∨ s = "ITU_2005") {r : Nat} (hr : r = 1 ∨ r = 2) {x : ℝ}
    (h1 : 1 ≤ x) (h2 : x ≤ 100) : 0.000025 ≤ (certOf s r).s x ∧ (certOf s r).s x ≤ 1.37 := by
  have hr' : r = 1 ∨ r = 2 ∨ r = 3 ∨ r = 4 := by tauto
  obtain ⟨f0, fN⟩ := cert_f h hr'
  have hc := cert_ok h hr'
  have key : ∀ lo : ℤ, 250 ≤ lo → (certOf s r).range (certN s) lo 13700000 = true →
      0.000025 ≤ (certOf s r).s x ∧ (certOf s r).s x ≤ 1.37 := by
    intro lo hlo hrg
    have := SplineCert.s_range hc hrg (t := x) (by rw [f0]; exact h1) (by rw [fN]; exact h2)
    have hlo' : (250 : ℝ) ≤ lo := by exact_mod_cast hlo
    push_cast at this
    constructor
    · refine le_trans ?_ this.1
      rw [le_div_iff₀ (by norm_num)]; norm_num; linarith
    · refine this.2.trans ?_; norm_num
  rcases h with rfl | rfl <;> rcases hr with rfl | rfl
  · exact key 280 (by norm_num) range2003_1
  · exact key 280 (by norm_num) range2003_2
  · exact key 250 (by norm_num) range2005_1
  · exact key 250 (by norm_num) range2005_2

theorem cert_b_range {s : String} (h : s = "ITU_2003" ∨ s = "ITU_2005") {r : Nat} (hr : r = 3 ∨ r = 4) {x : ℝ}
    (h1 : 1 ≤ x) (h2 : x ≤ 100) : 0.67 ≤ (certOf s r).s x ∧ (certOf s r).s x ≤ 1.71 := by
  have hr' : r = 1 ∨ r = 2 ∨ r = 3 ∨ r = 4 := by tauto
  obtain ⟨f0, fN⟩ := cert_f h hr'
  have hc := cert_ok h hr'
  have hrg : (certOf s r).range (certN s) 6700000 17100000 = true := by
    rcases h with rfl | rfl <;> rcases hr with rfl | rfl
    exacts [range2003_3, range2003_4, range2005_3, range2005_4]
  have := SplineCert.s_range hc hrg (t := x) (by rw [f0]; exact h1) (by rw [fN]; exact h2)
  push_cast at this
  constructor
  · refine le_trans ?_ this.1; norm_num
  · refine this.2.trans ?_; norm_num

/-- entry `i` of a successful call: the values of the splines of its polarization -/
theorem entry_cert {f : List (Fl ℝ)} {pol : List String} {s : String} {a b : List (Fl ℝ)}
    (h : a_b cubicSpline f pol s = .ok (a, b)) {i : Nat} {x : ℝ} (hx : f[i]? = some (.fin x)) :
    (s = "ITU_2003" ∨ s = "ITU_2005") ∧ 1 ≤ x ∧ x ≤ 100 ∧
      ∃ p, pol[i]? = some p ∧ (isH p ∨ isV p) ∧
        (isH p → a[i]? = some (.fin ((certOf s 1).s x)) ∧ b[i]? = some (.fin ((certOf s 3).s x))) ∧
        (isV p → a[i]? = some (.fin ((certOf s 2).s x)) ∧ b[i]? = some (.fin ((certOf s 4).s x))) := by
  obtain ⟨hl, -, hf, hp, hs⟩ := (C25_accepts_iff cubicSpline f pol s).1.mp ⟨_, h⟩
  obtain ⟨t, ht, hrow⟩ := tableOf_name hs
  have hi : i < f.length := (List.getElem?_eq_some_iff.mp hx).1
  have hfx := hf (.fin x) (List.mem_of_getElem? hx)
  obtain ⟨p, hpi⟩ : ∃ p, pol[i]? = some p := ⟨pol[i]'(by omega), List.getElem?_eq_getElem (by omega)⟩
  have e := ((C25_entries cubicSpline f pol s t ht a b h).2.2 i _ p hx hpi).2
  refine ⟨hs, hfx.1, hfx.2, p, hpi, hp p (List.mem_of_getElem? hpi), ?_, ?_⟩
  · intro hh
    have := e.1 x rfl hh
    rwa [hrow 1 (by tauto), hrow 3 (by tauto)] at this
  · intro hv
    have := e.2 x rfl hv
    rwa [hrow 2 (by tauto), hrow 4 (by tauto)] at this

/-! ### C106 -/

/-- **C106** Through four or more points with increasing abscissae there is exactly one cubic spline (with not-a-knot end
conditions) on the range of the points. -/
theorem C106_spline_exists_unique (xs ys : List ℚ) (hs : xs.Pairwise (· < ·)) (hn : 4 ≤ xs.length) :
    (∃ s, IsCubicSpline xs ys s) ∧
    ∀ s s', IsCubicSpline xs ys s → IsCubicSpline xs ys s' →
      ∀ t, ((xs.headD 0 : ℚ) : ℝ) ≤ t → t ≤ ((xs.getLastD 0 : ℚ) : ℝ) → s t = s' t := by
  refine ⟨isCubicSpline_exists ys hs hn, fun s s' h h' t h1 h2 => ?_⟩
  obtain ⟨N, hN⟩ : ∃ N, xs.length = N + 1 := ⟨xs.length - 1, by omega⟩
  have e0 : ((xs.headD 0 : ℚ) : ℝ) = knot xs 0 := by
    cases xs <;> simp [knot]
  have eN : ((xs.getLastD 0 : ℚ) : ℝ) = knot xs N := by
    unfold knot
    rw [List.getLastD_eq_getLast?, List.getLast?_eq_getElem?, hN, List.getD_eq_getElem?_getD]
    simp
  rw [e0] at h1
  rw [eN] at h2
  obtain ⟨i, -, hi, a1, a2⟩ := SplineCert.exists_interval (knot xs) (k := 0) (by omega) h1 h2
  exact isCubicSpline_unique hs hn h h' i (by omega) t a1 a2

/-- **C106** Whatever method computes the cubic splines of the table, the result is the same. -/
theorem C106_any_method (spline : Spline)
    (hsp : ∀ xs ys, xs.Pairwise (· < ·) → 4 ≤ xs.length → IsCubicSpline xs ys (spline xs ys))
    (f : List (Fl ℝ)) (pol : List String) (s : String) :
    a_b spline f pol s = a_b cubicSpline f pol s := by
  by_cases hok : ∃ ab, a_b spline f pol s = .ok ab
  · obtain ⟨⟨a, b⟩, h⟩ := hok
    have hcond := (C25_accepts_iff spline f pol s).1.mp ⟨_, h⟩
    obtain ⟨⟨a', b'⟩, h'⟩ := (C25_accepts_iff cubicSpline f pol s).1.mpr hcond
    obtain ⟨hl, -, hf, hp, hs⟩ := hcond
    obtain ⟨t, ht, -⟩ := tableOf_name hs
    obtain ⟨n, hraw⟩ := tableOf_rawOk ht
    obtain ⟨hrows, hsort, hhead, hlast⟩ := tables_of_rawOk hraw
    have hn : 4 ≤ (row t 0).length := by
      unfold tableOf at ht
      split_ifs at ht <;> cases ht <;> decide +kernel
    have same : ∀ r x, 1 ≤ x → x ≤ 100 → spline (row t 0) (row t r) x = cubicSpline (row t 0) (row t r) x := by
      intro r x h1 h2
      refine (C106_spline_exists_unique _ _ hsort hn).2 _ _ (hsp _ _ hsort hn) (cubicSpline_spec _ hsort hn) x ?_ ?_
      · rw [List.headD_eq_head?_getD, hhead]; simpa using h1
      · rw [List.getLastD_eq_getLast?, hlast]; simpa using h2
    obtain ⟨l1, l2, e⟩ := C25_entries spline f pol s t ht a b h
    obtain ⟨l1', l2', e'⟩ := C25_entries cubicSpline f pol s t ht a' b' h'
    have hall : ∀ i : Nat, a[i]? = a'[i]? ∧ b[i]? = b'[i]? := by
      intro i
      rcases Nat.lt_or_ge i f.length with hi | hi
      · have hx : f[i]? = some f[i] := List.getElem?_eq_getElem hi
        have hpi : pol[i]? = some (pol[i]'(by omega)) := List.getElem?_eq_getElem (by omega)
        obtain ⟨n1, hH1, hV1⟩ := e i _ _ hx hpi
        obtain ⟨n2, hH2, hV2⟩ := e' i _ _ hx hpi
        have hfx := hf _ (List.mem_of_getElem? hx)
        rcases hfi : f[i] with _ | _ | x | _
        · rw [hfi] at n1 n2; rw [(n1 rfl).1, (n2 rfl).1, (n1 rfl).2, (n2 rfl).2]; exact ⟨rfl, rfl⟩
        · rw [hfi] at hfx; exact absurd hfx id
        · rw [hfi] at hfx hH1 hH2 hV1 hV2
          rcases hp _ (List.mem_of_getElem? hpi) with hh | hv
          · rw [(hH1 x rfl hh).1, (hH2 x rfl hh).1, (hH1 x rfl hh).2, (hH2 x rfl hh).2,
              same 1 x hfx.1 hfx.2, same 3 x hfx.1 hfx.2]; exact ⟨rfl, rfl⟩
          · rw [(hV1 x rfl hv).1, (hV2 x rfl hv).1, (hV1 x rfl hv).2, (hV2 x rfl hv).2,
              same 2 x hfx.1 hfx.2, same 4 x hfx.1 hfx.2]; exact ⟨rfl, rfl⟩
        · rw [hfi] at hfx; exact absurd hfx id
      · rw [List.getElem?_eq_none (by omega), List.getElem?_eq_none (by omega),
          List.getElem?_eq_none (by omega), List.getElem?_eq_none (by omega)]
        exact ⟨rfl, rfl⟩
    rw [h, h', List.ext_getElem? fun i => (hall i).1, List.ext_getElem? fun i => (hall i).2]
  · have e1 := (C25_accepts_iff spline f pol s).2.resolve_left hok
    have e2 := (C25_accepts_iff cubicSpline f pol s).2.resolve_left fun h =>
      hok ((C25_accepts_iff spline f pol s).1.mpr ((C25_accepts_iff cubicSpline f pol s).1.mp h))
    rw [e1, e2]

/-- **C106** For every frequency that `a_b` accepts, also between the tabulated ones, and both tables and polarizations
`a` is positive and at most 1.37, and `b` is between 0.67 and 1.71. -/
theorem C106_positive (f : List (Fl ℝ)) (pol : List String) (s : String) (a b : List (Fl ℝ))
    (h : a_b cubicSpline f pol s = .ok (a, b)) (i : Nat) (x : ℝ) (hx : f[i]? = some (.fin x)) :
    ∃ u v : ℝ, a[i]? = some (.fin u) ∧ b[i]? = some (.fin v) ∧
      0.000025 ≤ u ∧ u ≤ 1.37 ∧ 0.67 ≤ v ∧ v ≤ 1.71 := by
  obtain ⟨hs, h1, h2, p, hp, hpol, hH, hV⟩ := entry_cert h hx
  rcases hpol with hh | hv
  · obtain ⟨ea, eb⟩ := hH hh
    exact ⟨_, _, ea, eb, (cert_a_range hs (.inl rfl) h1 h2).1, (cert_a_range hs (.inl rfl) h1 h2).2,
      (cert_b_range hs (.inl rfl) h1 h2).1, (cert_b_range hs (.inl rfl) h1 h2).2⟩
  · obtain ⟨ea, eb⟩ := hV hv
    exact ⟨_, _, ea, eb, (cert_a_range hs (.inr rfl) h1 h2).1, (cert_a_range hs (.inr rfl) h1 h2).2,
      (cert_b_range hs (.inr rfl) h1 h2).1, (cert_b_range hs (.inr rfl) h1 h2).2⟩

/-- the hypotheses can be met: 23.5 GHz is between two tabulated frequencies -/
example : ∃ ab, a_b cubicSpline [.fin 23.5] ["V"] "ITU_2005" = .ok ab := by
  refine (C25_accepts_iff cubicSpline _ _ _).1.mpr ⟨rfl, by simp, ?_, ?_, .inr rfl⟩
  · intro x hx
    rw [List.mem_singleton.mp hx]
    constructor <;> norm_num
  · intro p hp
    rw [List.mem_singleton.mp hp]
    exact .inr (.inr (.inl rfl))

/-! ### C107 -/

/-- both horizontal or both vertical -/
def samePol (p q : String) : Prop := (isH p ∧ isH q) ∨ (isV p ∧ isV q)

theorem isH_not_isV {p : String} (h : isH p) : ¬ isV p := by
  rcases h with rfl | rfl | rfl | rfl <;> simp [isV]

theorem cert_f_val (c : SplineCert) (i : Nat) (v : ℝ) (z : ℤ) (hz : c.x i = z) (hv : (z : ℝ) / 10000000 = v) :
    c.f i = v := by
  rw [SplineCert.f, hz, hv]

theorem cert_a_mono {s : String} (h : s = "ITU_2003" ∨ s = "ITU_2005") {r : Nat} (hr : r = 1 ∨ r = 2) {x x' : ℝ}
    (h0 : s = "ITU_2003" ∧ 2 ≤ x ∨ s = "ITU_2005" ∧ 5 ≤ x) (h1 : x < x') (h2 : x' ≤ 100) :
    (certOf s r).s x < (certOf s r).s x' := by
  have hr' : r = 1 ∨ r = 2 ∨ r = 3 ∨ r = 4 := by tauto
  obtain ⟨-, fN⟩ := cert_f h hr'
  have hc := cert_ok h hr'
  have key : ∀ k lo, (certOf s r).inc k (certN s) = true → k ≤ certN s → (certOf s r).f k = lo → lo ≤ x →
      (certOf s r).s x < (certOf s r).s x' := by
    intro k lo hi hk hf hx
    exact SplineCert.s_strictMono hc hi hk ⟨by rw [hf]; exact hx, by rw [fN]; linarith⟩
      ⟨by rw [hf]; linarith, by rw [fN]; exact h2⟩ h1
  rcases h0 with ⟨rfl, hx⟩ | ⟨rfl, hx⟩ <;> rcases hr with rfl | rfl
  · exact key 1 2 inc2003_1 (by decide) (cert_f_val _ _ _ 20000000 (by decide +kernel) (by norm_num)) hx
  · exact key 1 2 inc2003_2 (by decide) (cert_f_val _ _ _ 20000000 (by decide +kernel) (by norm_num)) hx
  · exact key 8 5 inc2005_1 (by decide) (cert_f_val _ _ _ 50000000 (by decide +kernel) (by norm_num)) hx
  · exact key 8 5 inc2005_2 (by decide) (cert_f_val _ _ _ 50000000 (by decide +kernel) (by norm_num)) hx

theorem cert_b_anti {s : String} (h : s = "ITU_2003" ∨ s = "ITU_2005") {r : Nat} (hr : r = 3 ∨ r = 4) {x x' : ℝ}
    (h0 : s = "ITU_2003" ∧ 8 ≤ x ∨ s = "ITU_2005" ∧ 6 ≤ x) (h1 : x < x') (h2 : x' ≤ 100) :
    (certOf s r).s x' < (certOf s r).s x := by
  have hr' : r = 1 ∨ r = 2 ∨ r = 3 ∨ r = 4 := by tauto
  obtain ⟨-, fN⟩ := cert_f h hr'
  have hc := cert_ok h hr'
  have key : ∀ k lo, (certOf s r).dec k (certN s) = true → k ≤ certN s → (certOf s r).f k = lo → lo ≤ x →
      (certOf s r).s x' < (certOf s r).s x := by
    intro k lo hi hk hf hx
    exact SplineCert.s_strictAnti hc hi hk ⟨by rw [hf]; exact hx, by rw [fN]; linarith⟩
      ⟨by rw [hf]; linarith, by rw [fN]; exact h2⟩ h1
  rcases h0 with ⟨rfl, hx⟩ | ⟨rfl, hx⟩ <;> rcases hr with rfl | rfl
  · exact key 5 8 dec2003_3 (by decide) (cert_f_val _ _ _ 80000000 (by decide +kernel) (by norm_num)) hx
  · exact key 5 8 dec2003_4 (by decide) (cert_f_val _ _ _ 80000000 (by decide +kernel) (by norm_num)) hx
  · exact key 10 6 dec2005_3 (by decide) (cert_f_val _ _ _ 60000000 (by decide +kernel) (by norm_num)) hx
  · exact key 10 6 dec2005_4 (by decide) (cert_f_val _ _ _ 60000000 (by decide +kernel) (by norm_num)) hx

/-- **C107** For links of the same polarization `a` is greater for the greater frequency, from 5 GHz on (2 GHz for the table of
2003). -/
theorem C107_a_increasing (f : List (Fl ℝ)) (pol : List String) (s : String) (a b : List (Fl ℝ))
    (h : a_b cubicSpline f pol s = .ok (a, b)) (i j : Nat) (x x' : ℝ) (p q : String)
    (hx : f[i]? = some (.fin x)) (hx' : f[j]? = some (.fin x')) (hp : pol[i]? = some p) (hq : pol[j]? = some q)
    (hpq : samePol p q) (h0 : s = "ITU_2003" ∧ 2 ≤ x ∨ s = "ITU_2005" ∧ 5 ≤ x) (hlt : x < x') :
    ∃ u u' : ℝ, a[i]? = some (.fin u) ∧ a[j]? = some (.fin u') ∧ u < u' := by
  obtain ⟨hs, h1, h2, p', hp', hpol, hH, hV⟩ := entry_cert h hx
  obtain ⟨-, h1', h2', q', hq', hqol, hH', hV'⟩ := entry_cert h hx'
  rw [hp] at hp'; cases hp'
  rw [hq] at hq'; cases hq'
  rcases hpq with ⟨g, g'⟩ | ⟨g, g'⟩
  · exact ⟨_, _, (hH g).1, (hH' g').1, cert_a_mono hs (.inl rfl) h0 hlt h2'⟩
  · exact ⟨_, _, (hV g).1, (hV' g').1, cert_a_mono hs (.inr rfl) h0 hlt h2'⟩

/-- **C107** And `b` is smaller for the greater frequency, from 6 GHz on (8 GHz for the table of 2003). -/
theorem C107_b_decreasing (f : List (Fl ℝ)) (pol : List String) (s : String) (a b : List (Fl ℝ))
    (h : a_b cubicSpline f pol s = .ok (a, b)) (i j : Nat) (x x' : ℝ) (p q : String)
    (hx : f[i]? = some (.fin x)) (hx' : f[j]? = some (.fin x')) (hp : pol[i]? = some p) (hq : pol[j]? = some q)
    (hpq : samePol p q) (h0 : s = "ITU_2003" ∧ 8 ≤ x ∨ s = "ITU_2005" ∧ 6 ≤ x) (hlt : x < x') :
    ∃ v v' : ℝ, b[i]? = some (.fin v) ∧ b[j]? = some (.fin v') ∧ v' < v := by
  obtain ⟨hs, h1, h2, p', hp', hpol, hH, hV⟩ := entry_cert h hx
  obtain ⟨-, h1', h2', q', hq', hqol, hH', hV'⟩ := entry_cert h hx'
  rw [hp] at hp'; cases hp'
  rw [hq] at hq'; cases hq'
  rcases hpq with ⟨g, g'⟩ | ⟨g, g'⟩
  · exact ⟨_, _, (hH g).2, (hH' g').2, cert_b_anti hs (.inl rfl) h0 hlt h2'⟩
  · exact ⟨_, _, (hV g).2, (hV' g').2, cert_b_anti hs (.inr rfl) h0 hlt h2'⟩

/-- the spline at a tabulated frequency -/
theorem cert_at_knot {c : SplineCert} {N : Nat} (hc : c.ok N = true) {i : Nat} (hi : i ≤ N) :
    c.s (c.f i) = (c.y i : ℝ) / 10000000 := by
  have hN := SplineCert.ok_N hc
  have hsp := cubicSpline_spec (SplineCert.scaled c.Y) (SplineCert.ok_sorted hc) (by rw [SplineCert.ok_len hc]; omega)
  obtain ⟨p, -, -, py, -⟩ := hsp
  have := py i (by rw [SplineCert.ok_len hc]; omega)
  rw [SplineCert.knot_X, SplineCert.knot_scaled] at this
  rw [SplineCert.s, this, SplineCert.y]; simp

/-- **C107** (negative) Below that it is not so: with the default table `a` at 4 GHz is smaller than at 3 GHz (horizontal). -/
theorem C107_a_not_monotone :
    a_b cubicSpline [.fin 3, .fin 4] ["H", "H"] "ITU_2005" =
      .ok ([.fin 0.000139, .fin 0.0001071], [.fin 1.2322, .fin 1.6009]) := by
  obtain ⟨⟨a, b⟩, h⟩ := (C25_accepts_iff cubicSpline [.fin 3, .fin 4] ["H", "H"] "ITU_2005").1.mpr
    ⟨rfl, by simp, by
      intro x hx
      rcases List.mem_cons.mp hx with rfl | hx
      · constructor <;> norm_num
      · rw [List.mem_singleton.mp hx]; constructor <;> norm_num, by
      intro p hp
      simp only [List.mem_cons, List.not_mem_nil, or_false, or_self] at hp
      exact .inl (.inr (.inl hp)), .inr rfl⟩
  obtain ⟨l1, l2, -⟩ := C25_entries cubicSpline _ _ _ rawTable2005 rfl a b h
  obtain ⟨-, -, -, p, hp, -, hH, -⟩ := entry_cert h (i := 0) (x := 3) rfl
  cases hp
  obtain ⟨-, -, -, p, hp, -, hH', -⟩ := entry_cert h (i := 1) (x := 4) rfl
  cases hp
  obtain ⟨a0, b0⟩ := hH (.inr (.inl rfl))
  obtain ⟨a1, b1⟩ := hH' (.inr (.inl rfl))
  have v : ∀ (c : SplineCert) (i : Nat) (x y : ℝ) (z w : ℤ), c.ok 104 = true → i ≤ 104 → c.x i = z →
      (z : ℝ) / 10000000 = x → c.y i = w → (w : ℝ) / 10000000 = y → c.s x = y := by
    intro c i x y z w hc hi hz hx hw hy
    rw [← cert_f_val c i x z hz hx, cert_at_knot hc hi, hw, hy]
  rw [v cert2005_1 4 3 0.000139 30000000 1390 ok2005_1 (by norm_num) (by decide +kernel) (by norm_num) (by decide +kernel)
    (by norm_num) |> (fun e => by exact e : _ → (certOf "ITU_2005" 1).s 3 = 0.000139)] at a0
  rw [v cert2005_1 6 4 0.0001071 40000000 1071 ok2005_1 (by norm_num) (by decide +kernel) (by norm_num) (by decide +kernel)
    (by norm_num) |> (fun e => by exact e : _ → (certOf "ITU_2005" 1).s 4 = 0.0001071)] at a1
  rw [v cert2005_3 4 3 1.2322 30000000 12322000 ok2005_3 (by norm_num) (by decide +kernel) (by norm_num) (by decide +kernel)
    (by norm_num) |> (fun e => by exact e : _ → (certOf "ITU_2005" 3).s 3 = 1.2322)] at b0
  rw [v cert2005_3 6 4 1.6009 40000000 16009000 ok2005_3 (by norm_num) (by decide +kernel) (by norm_num) (by decide +kernel)
    (by norm_num) |> (fun e => by exact e : _ → (certOf "ITU_2005" 3).s 4 = 1.6009)] at b1
  rw [h]
  congr 1
  have two : ∀ (l : List (Fl ℝ)) (x y : Fl ℝ), l.length = 2 → l[0]? = some x → l[1]? = some y → l = [x, y] := by
    intro l x y hl h0 h1
    match l, hl with
    | [_, _], _ => simp at h0 h1; rw [h0, h1]
  rw [two a _ _ l1 a0 a1, two b _ _ l2 b0 b1]

/-! ### C108 -/

/-- **C108** A small change of the frequency changes the parameters little: `a` by at most 0.0223 per GHz, `b` by at most 0.41 per
GHz. -/
theorem C108_lipschitz (f : List (Fl ℝ)) (pol : List String) (s : String) (a b : List (Fl ℝ))
    (h : a_b cubicSpline f pol s = .ok (a, b)) (i j : Nat) (x x' : ℝ) (p q : String)
    (hx : f[i]? = some (.fin x)) (hx' : f[j]? = some (.fin x')) (hp : pol[i]? = some p) (hq : pol[j]? = some q)
    (hpq : samePol p q) :
    ∃ u u' v v' : ℝ, a[i]? = some (.fin u) ∧ a[j]? = some (.fin u') ∧ b[i]? = some (.fin v) ∧ b[j]? = some (.fin v') ∧
      |u' - u| ≤ 0.0223 * |x' - x| ∧ |v' - v| ≤ 0.41 * |x' - x| := by
  obtain ⟨hs, h1, h2, p', hp', hpol, hH, hV⟩ := entry_cert h hx
  obtain ⟨-, h1', h2', q', hq', hqol, hH', hV'⟩ := entry_cert h hx'
  rw [hp] at hp'; cases hp'
  rw [hq] at hq'; cases hq'
  have key : ∀ (c : SplineCert) (K : ℤ) (k : ℝ), c.ok (certN s) = true → c.f 0 = 1 → c.f (certN s) = 100 →
      c.flat (certN s) K = true → (K : ℝ) / 10000 = k → |c.s x' - c.s x| ≤ k * |x' - x| := by
    intro c K k hc f0 fN hfl hk
    rcases lt_trichotomy x x' with hlt | rfl | hlt
    · rw [abs_of_pos (sub_pos.mpr hlt), ← hk]
      exact (SplineCert.s_lipschitz hc hfl (by rw [f0]; exact h1) hlt (by rw [fN]; exact h2')).le
    · simp
    · rw [abs_sub_comm x' x, abs_of_pos (sub_pos.mpr hlt), ← hk, abs_sub_comm]
      exact (SplineCert.s_lipschitz hc hfl (by rw [f0]; exact h1') hlt (by rw [fN]; exact h2)).le
  have hk1 : ((223 : ℤ) : ℝ) / 10000 = 0.0223 := by norm_num
  have hk2 : ((4100 : ℤ) : ℝ) / 10000 = 0.41 := by norm_num
  have fl : ∀ r, (r = 1 ∨ r = 2 → (certOf s r).flat (certN s) 223 = true) ∧
      (r = 3 ∨ r = 4 → (certOf s r).flat (certN s) 4100 = true) := by
    intro r
    constructor <;> rintro (rfl | rfl) <;> rcases hs with rfl | rfl
    exacts [flat2003_1, flat2005_1, flat2003_2, flat2005_2, flat2003_3, flat2005_3, flat2003_4, flat2005_4]
  have all : ∀ r, r = 1 ∨ r = 2 ∨ r = 3 ∨ r = 4 →
      (certOf s r).ok (certN s) = true ∧ (certOf s r).f 0 = 1 ∧ (certOf s r).f (certN s) = 100 :=
    fun r hr => And.intro (cert_ok hs hr) (cert_f hs hr)
  rcases hpq with ⟨g, g'⟩ | ⟨g, g'⟩
  · obtain ⟨o1, f1, g1⟩ := all 1 (.inl rfl)
    obtain ⟨o3, f3, g3⟩ := all 3 (.inr (.inr (.inl rfl)))
    exact ⟨_, _, _, _, (hH g).1, (hH' g').1, (hH g).2, (hH' g').2, key _ _ _ o1 f1 g1 ((fl 1).1 (.inl rfl)) hk1,
      key _ _ _ o3 f3 g3 ((fl 3).2 (.inl rfl)) hk2⟩
  · obtain ⟨o1, f1, g1⟩ := all 2 (.inr (.inl rfl))
    obtain ⟨o3, f3, g3⟩ := all 4 (.inr (.inr (.inr rfl)))
    exact ⟨_, _, _, _, (hV g).1, (hV' g').1, (hV g).2, (hV' g').2, key _ _ _ o1 f1 g1 ((fl 2).1 (.inr rfl)) hk1,
      key _ _ _ o3 f3 g3 ((fl 4).2 (.inr rfl)) hk2⟩

/-! ### C109 -/

/-- the call `calc_R_from_A(A, L, f_GHz=x, pol=p, a_b_approximation=s, R_min=R_min)` for one frequency and polarization -/
noncomputable def callFP (A : List (Fl ℝ)) (L x : ℝ) (p s : String) (R_min : ℝ) : Except Err (List (Fl ℝ)) :=
  calc_R_from_A cubicSpline A (.fin L) (some [.fin x]) (some [p]) none none s (.fin R_min)

/-- one frequency: the parameters are the values of the splines of its polarization -/
theorem ab_single {x : ℝ} {p s : String} (h1 : 1 ≤ x) (h2 : x ≤ 100) (hp : isH p ∨ isV p)
    (hs : s = "ITU_2003" ∨ s = "ITU_2005") :
    ∃ r r', (isH p ∧ r = 1 ∧ r' = 3 ∨ isV p ∧ r = 2 ∧ r' = 4) ∧
      a_b cubicSpline [.fin x] [p] s = .ok ([.fin ((certOf s r).s x)], [.fin ((certOf s r').s x)]) := by
  obtain ⟨⟨a, b⟩, h⟩ := (C25_accepts_iff cubicSpline [.fin x] [p] s).1.mpr
    ⟨rfl, by simp, fun y hy => by rw [List.mem_singleton.mp hy]; exact ⟨h1, h2⟩,
      fun q hq => by rw [List.mem_singleton.mp hq]; exact hp, hs⟩
  obtain ⟨t, ht, -⟩ := tableOf_name hs
  obtain ⟨l1, l2, -⟩ := C25_entries cubicSpline _ _ _ t ht a b h
  have one : ∀ (l : List (Fl ℝ)) (y : Fl ℝ), l.length = 1 → l[0]? = some y → l = [y] := by
    intro l y hl h0
    match l, hl with
    | [_], _ => simp at h0; rw [h0]
  obtain ⟨-, -, -, q, hq, -, hH, hV⟩ := entry_cert h (i := 0) (x := x) rfl
  cases hq
  rcases hp with hp | hp
  · exact ⟨1, 3, .inl ⟨hp, rfl, rfl⟩, by rw [h, one a _ l1 (hH hp).1, one b _ l2 (hH hp).2]⟩
  · exact ⟨2, 4, .inr ⟨hp, rfl, rfl⟩, by rw [h, one a _ l1 (hV hp).1, one b _ l2 (hV hp).2]⟩

theorem ab_single_pos {x : ℝ} {p s : String} (h1 : 1 ≤ x) (h2 : x ≤ 100) (hp : isH p ∨ isV p)
    (hs : s = "ITU_2003" ∨ s = "ITU_2005") :
    ∃ u v : ℝ, a_b cubicSpline [.fin x] [p] s = .ok ([.fin u], [.fin v]) ∧ 0 < u ∧ 0 < v := by
  obtain ⟨r, r', hr, h⟩ := ab_single h1 h2 hp hs
  refine ⟨_, _, h, ?_, ?_⟩
  · refine lt_of_lt_of_le ?_ (cert_a_range hs (r := r) (by tauto) h1 h2).1; norm_num
  · refine lt_of_lt_of_le ?_ (cert_b_range hs (r := r') (by tauto) h1 h2).1; norm_num

theorem callFP_eq {A : List (Fl ℝ)} {L x u v : ℝ} {p s : String} {R_min : ℝ}
    (h : a_b cubicSpline [.fin x] [p] s = .ok ([.fin u], [.fin v])) :
    callFP A L x p s R_min = callAB cubicSpline A L u v R_min := by
  rw [callFP, C22_calc_R_from_frequency _ _ _ _ _ _ _ _ _ h]; rfl

/-- **C109** For every frequency from 1 to 100 GHz, both polarizations and tables, and every series of attenuations the rain rate is
computed, is NaN exactly where the attenuation is, and otherwise is zero or at least `R_min`, and never negative. -/
theorem C109_total (A : List (Fl ℝ)) (L x R_min : ℝ) (p s : String) (h1 : 1 ≤ x) (h2 : x ≤ 100) (hp : isH p ∨ isV p)
    (hs : s = "ITU_2003" ∨ s = "ITU_2005") (hL : 0 < L) :
    ∃ R, callFP A L x p s R_min = .ok R ∧ R.length = A.length ∧
      (∀ i : Nat, R[i]? = some Fl.nan ↔ A[i]? = some Fl.nan) ∧
      ∀ r ∈ R, r = .nan ∨ r = .fin 0 ∨ ((Fl.fin R_min ≤ᶠ r) = true ∧ (Fl.fin 0 ≤ᶠ r) = true) := by
  obtain ⟨u, v, h, hu, hv⟩ := ab_single_pos h1 h2 hp hs
  obtain ⟨R, hR, hl, -⟩ := C19_rain_rate cubicSpline A L u v R_min hu hv hL
  obtain ⟨n, rg⟩ := C19_rain_rate_range cubicSpline A R L u v R_min hu hv hL hR
  exact ⟨R, by rw [callFP_eq h, hR], hl, n, rg⟩

/-- **C109** The rain rate does not decrease with the attenuation. -/
theorem C109_monotone (A A' R R' : List (Fl ℝ)) (L x R_min : ℝ) (p s : String) (h1 : 1 ≤ x) (h2 : x ≤ 100)
    (hp : isH p ∨ isV p) (hs : s = "ITU_2003" ∨ s = "ITU_2005") (hL : 0 < L)
    (hR : callFP A L x p s R_min = .ok R) (hR' : callFP A' L x p s R_min = .ok R')
    (h : List.Forall₂ (fun x y => (x ≤ᶠ y) = true) A A') :
    List.Forall₂ (fun x y => (x ≤ᶠ y) = true) R R' := by
  obtain ⟨u, v, e, hu, hv⟩ := ab_single_pos h1 h2 hp hs
  rw [callFP_eq e] at hR hR'
  exact C20_monotone_in_A cubicSpline A A' R R' L u v R_min hu hv hL hR hR' h

/-- **C109** The rain rates that produce attenuations by the power law with the parameters of `a_b` are computed back from them. -/
theorem C109_round_trip (Rs : List ℝ) (L x R_min : ℝ) (p s : String) (h1 : 1 ≤ x) (h2 : x ≤ 100)
    (hp : isH p ∨ isV p) (hs : s = "ITU_2003" ∨ s = "ITU_2005") (hL : 0 < L)
    (hR : ∀ R ∈ Rs, 0 ≤ R ∧ R_min ≤ R) :
    ∃ u v : ℝ, a_b cubicSpline [.fin x] [p] s = .ok ([.fin u], [.fin v]) ∧
      callFP (Rs.map fun R => .fin (u * R ^ v * L)) L x p s R_min = .ok (Rs.map Fl.fin) := by
  obtain ⟨u, v, e, hu, hv⟩ := ab_single_pos h1 h2 hp hs
  exact ⟨u, v, e, by rw [callFP_eq e]; exact C21_round_trip cubicSpline Rs L u v R_min hu hv hL hR⟩

/-- the hypotheses can be met -/
example : ∃ R, callFP [.fin 3, .nan, .fin (-1)] 5 23.5 "V" "ITU_2005" 0.1 = .ok R ∧ R.length = 3 := by
  obtain ⟨R, h, hl, -⟩ := C109_total [.fin 3, .nan, .fin (-1)] 5 23.5 0.1 "V" "ITU_2005" (by norm_num) (by norm_num)
    (.inr (.inr (.inl rfl))) (.inr rfl) (by norm_num)
  exact ⟨R, h, hl⟩

/-! ### C110 -/

/-- the uncut rain rate of an attenuation solves the power law -/
theorem rate_solves {u v L x : ℝ} (hu : 0 < u) (hv : 0 < v) (hL : 0 < L) (hx : 0 ≤ x) :
    u * ((x / (u * L)) ^ (1 / v)) ^ v = x / L := by
  have h0 : 0 ≤ x / (u * L) := div_nonneg hx (mul_pos hu hL).le
  rw [← Real.rpow_mul h0, one_div_mul_cancel hv.ne', Real.rpow_one]
  field_simp

theorem rate_nonneg' {u v L x : ℝ} (hu : 0 < u) (hL : 0 < L) (hx : 0 ≤ x) : 0 ≤ (x / (u * L)) ^ (1 / v) :=
  Real.rpow_nonneg (div_nonneg hx (mul_pos hu hL).le) _

/-- where the one power law is below the other, at either of the two rain rates, its rain rate is the greater one -/
theorem rate_compare {u v u' v' L x : ℝ} (hu : 0 < u) (hv : 0 < v) (hu' : 0 < u') (hv' : 0 < v') (hL : 0 < L)
    (hx : 0 ≤ x) {S : ℝ → Prop} (hS : ∀ ρ, S ρ → u * ρ ^ v ≤ u' * ρ ^ v')
    (h : S ((x / (u * L)) ^ (1 / v)) ∨ S ((x / (u' * L)) ^ (1 / v'))) :
    (x / (u' * L)) ^ (1 / v') ≤ (x / (u * L)) ^ (1 / v) := by
  have e := rate_solves hu hv hL hx
  have e' := rate_solves hu' hv' hL hx
  have n := rate_nonneg' (v := v) hu hL hx
  have n' := rate_nonneg' (v := v') hu' hL hx
  rcases h with h | h
  · have := hS _ h
    rw [e, ← e'] at this
    exact (Real.rpow_le_rpow_iff n' n hv').mp (le_of_mul_le_mul_left this hu')
  · have := hS _ h
    rw [e', ← e] at this
    exact (Real.rpow_le_rpow_iff n' n hv).mp (le_of_mul_le_mul_left this hu)

theorem log_100_lt : Real.log 100 < 4.63 := by
  have h : Real.log (100 ^ 3) < Real.log (2 ^ 20) := Real.log_lt_log (by norm_num) (by norm_num)
  rw [Real.log_pow, Real.log_pow] at h
  have := Real.log_two_lt_d9
  norm_num at h ⊢; linarith

theorem log_50_lt : Real.log 50 < 4 := by
  have h : Real.log (50 ^ 3) < Real.log (2 ^ 17) := Real.log_lt_log (by norm_num) (by norm_num)
  rw [Real.log_pow, Real.log_pow] at h
  have := Real.log_two_lt_d9
  norm_num at h ⊢; linarith

theorem log_5_gt : 1.5 < Real.log 5 := by
  have h : Real.log (2 ^ 16) < Real.log (5 ^ 7) := Real.log_lt_log (by norm_num) (by norm_num)
  rw [Real.log_pow, Real.log_pow] at h
  have := Real.log_two_gt_d9
  norm_num at h ⊢; linarith

theorem log_1000_lt : Real.log 1000 < 7 := by
  have h : Real.log 1000 < Real.log (2 ^ 10) := Real.log_lt_log (by norm_num) (by norm_num)
  rw [Real.log_pow] at h
  have := Real.log_two_lt_d9
  norm_num at h ⊢; linarith

theorem log_200_gt : 5 < Real.log 200 := by
  have h : Real.log (2 ^ 15) < Real.log (200 ^ 2) := Real.log_lt_log (by norm_num) (by norm_num)
  rw [Real.log_pow, Real.log_pow] at h
  have := Real.log_two_gt_d9
  norm_num at h ⊢; linarith

theorem powerlaw_exp {u v R : ℝ} (hu : 0 < u) (hR : 0 < R) : u * R ^ v = Real.exp (Real.log u + Real.log R * v) := by
  rw [Real.exp_add, Real.exp_log hu, Real.rpow_def_of_pos hR]

/-- table, smallest frequency and greatest rain rate for which the specific attenuation increases with the frequency -/
def freqRange (s : String) (x lim : ℝ) : Prop :=
  s = "ITU_2005" ∧ 6 ≤ x ∧ lim = 100 ∨ s = "ITU_2003" ∧ 8 ≤ x ∧ lim = 50

theorem cert_att_mono {s : String} {r r' : Nat} (hr : r = 1 ∧ r' = 3 ∨ r = 2 ∧ r' = 4) {x x' lim R : ℝ}
    (h0 : freqRange s x lim) (h1 : x < x') (h2 : x' ≤ 100) (hR0 : 0 < R) (hR : R ≤ lim) :
    (certOf s r).s x * R ^ (certOf s r').s x < (certOf s r).s x' * R ^ (certOf s r').s x' := by
  have hs : s = "ITU_2003" ∨ s = "ITU_2005" := by rcases h0 with h | h <;> tauto
  have hx : 1 ≤ x := by rcases h0 with h | h <;> linarith [h.2.1]
  have pos : ∀ y, 1 ≤ y → y ≤ 100 → 0 < (certOf s r).s y := fun y a b =>
    lt_of_lt_of_le (by norm_num) (cert_a_range hs (r := r) (by tauto) a b).1
  rw [powerlaw_exp (pos x hx (by linarith)) hR0, powerlaw_exp (pos x' (by linarith) h2) hR0, Real.exp_lt_exp]
  obtain ⟨-, fN⟩ := cert_f hs (r := r) (by tauto)
  have hlog : Real.log R ≤ Real.log lim := Real.log_le_log hR0 hR
  have key : ∀ (k : Nat) (C lo hi : ℤ) (f0 : ℝ), k ≤ certN s →
      (certOf s r).logInc (certOf s r') k (certN s) C = true → (certOf s r').dec k (certN s) = true →
      0 < lo → (certOf s r).range (certN s) lo hi = true → (certOf s r).X = (certOf s r').X →
      (certOf s r).f k = f0 → f0 ≤ x → Real.log R ≤ C / 10000 →
      Real.log ((certOf s r).s x) + Real.log R * (certOf s r').s x <
        Real.log ((certOf s r).s x') + Real.log R * (certOf s r').s x' := by
    intro k C lo hi f0 hk hl hd hlo hrg hX hf hx0 hC
    exact SplineCert.log_strictMono (cert_ok hs (by tauto)) (cert_ok hs (by tauto)) hX hk hl hd hlo hrg hC
      ⟨by rw [hf]; exact hx0, by rw [fN]; linarith⟩ ⟨by rw [hf]; linarith, by rw [fN]; exact h2⟩ h1
  rcases h0 with ⟨rfl, hx0, rfl⟩ | ⟨rfl, hx0, rfl⟩
  · have hC : Real.log R ≤ ((46300 : ℤ) : ℝ) / 10000 := by
      refine (hlog.trans log_100_lt.le).trans ?_; norm_num
    rcases hr with ⟨rfl, rfl⟩ | ⟨rfl, rfl⟩
    · exact key 10 46300 250 13700000 6 (by decide) logInc2005_H dec2005_3 (by norm_num) range2005_1 rfl
        (cert_f_val _ _ _ 60000000 (by decide +kernel) (by norm_num)) hx0 hC
    · exact key 10 46300 250 13700000 6 (by decide) logInc2005_V dec2005_4 (by norm_num) range2005_2 rfl
        (cert_f_val _ _ _ 60000000 (by decide +kernel) (by norm_num)) hx0 hC
  · have hC : Real.log R ≤ ((40000 : ℤ) : ℝ) / 10000 := by
      refine (hlog.trans log_50_lt.le).trans ?_; norm_num
    rcases hr with ⟨rfl, rfl⟩ | ⟨rfl, rfl⟩
    · exact key 5 40000 280 13700000 8 (by decide) logInc2003_H dec2003_3 (by norm_num) range2003_1 rfl
        (cert_f_val _ _ _ 80000000 (by decide +kernel) (by norm_num)) hx0 hC
    · exact key 5 40000 280 13700000 8 (by decide) logInc2003_V dec2003_4 (by norm_num) range2003_2 rfl
        (cert_f_val _ _ _ 80000000 (by decide +kernel) (by norm_num)) hx0 hC

/-- **C110** The specific attenuation `a R^b` increases with the frequency: with the default table from 6 GHz on and for rain rates
up to 100 mm/h, with the table of 2003 from 8 GHz on and up to 50 mm/h. -/
theorem C110_attenuation_increasing (s : String) (x x' lim R u v u' v' : ℝ) (p q : String) (hpq : samePol p q)
    (h0 : freqRange s x lim) (h1 : x < x') (h2 : x' ≤ 100) (hR0 : 0 < R) (hR : R ≤ lim)
    (h : a_b cubicSpline [.fin x] [p] s = .ok ([.fin u], [.fin v]))
    (h' : a_b cubicSpline [.fin x'] [q] s = .ok ([.fin u'], [.fin v'])) :
    u * R ^ v < u' * R ^ v' := by
  have hs : s = "ITU_2003" ∨ s = "ITU_2005" := by rcases h0 with h | h <;> tauto
  have hx : 1 ≤ x := by rcases h0 with h | h <;> linarith [h.2.1]
  obtain ⟨r, r', hr, e⟩ := ab_single (x := x) (p := p) hx (by linarith) (by rcases hpq with h | h <;> tauto) hs
  obtain ⟨ρ, ρ', hρ, e'⟩ := ab_single (x := x') (p := q) (by linarith) h2 (by rcases hpq with h | h <;> tauto) hs
  rw [h] at e; cases e
  rw [h'] at e'; cases e'
  rcases hpq with ⟨g, g'⟩ | ⟨g, g'⟩
  · obtain ⟨-, rfl, rfl⟩ := hr.resolve_right fun h => isH_not_isV g h.1
    obtain ⟨-, rfl, rfl⟩ := hρ.resolve_right fun h => isH_not_isV g' h.1
    exact cert_att_mono (.inl ⟨rfl, rfl⟩) h0 h1 h2 hR0 hR
  · obtain ⟨-, rfl, rfl⟩ := hr.resolve_left fun h => isH_not_isV h.1 g
    obtain ⟨-, rfl, rfl⟩ := hρ.resolve_left fun h => isH_not_isV h.1 g'
    exact cert_att_mono (.inr ⟨rfl, rfl⟩) h0 h1 h2 hR0 hR

/-- **C110** So the same attenuation means no more rain at the greater frequency, as long as one of the two rain rates is within these
limits. -/
theorem C110_rain_rate_decreasing (A R R' : List (Fl ℝ)) (L R_min x x' lim : ℝ) (s p q : String) (hpq : samePol p q)
    (h0 : freqRange s x lim) (h1 : x < x') (h2 : x' ≤ 100) (hL : 0 < L) (hm : R_min ≤ lim)
    (hR : callFP A L x p s R_min = .ok R) (hR' : callFP A L x' q s R_min = .ok R')
    (i : Nat) (r r' : ℝ) (hr : R[i]? = some (.fin r)) (hr' : R'[i]? = some (.fin r')) (hlim : r ≤ lim ∨ r' ≤ lim) :
    r' ≤ r := by
  have hs : s = "ITU_2003" ∨ s = "ITU_2005" := by rcases h0 with h | h <;> tauto
  have hx : 1 ≤ x := by rcases h0 with h | h <;> linarith [h.2.1]
  obtain ⟨u, v, e, hu, hv⟩ := ab_single_pos (x := x) (p := p) hx (by linarith) (by rcases hpq with h | h <;> tauto) hs
  obtain ⟨u', v', e', hu', hv'⟩ := ab_single_pos (x := x') (p := q) (by linarith) h2
    (by rcases hpq with h | h <;> tauto) hs
  rw [callFP_eq e, callAB_eq] at hR
  rw [callFP_eq e', callAB_eq] at hR'
  cases hR; cases hR'
  rw [List.getElem?_map] at hr hr'
  rcases hA : A[i]? with _ | y
  · rw [hA] at hr; cases hr
  rw [hA, Option.map_some, Option.some.injEq] at hr hr'
  rcases y with _ | _ | y | _
  · rw [rate_nan] at hr; cases hr
  · rw [rate_ninf] at hr hr'; cases hr; cases hr'; exact le_rfl
  · rw [rate_fin hu hv hL] at hr
    rw [rate_fin hu' hv' hL] at hr'
    cases hr; cases hr'
    by_cases hy : y < 0
    · simp [hy]
    rw [if_neg hy] at hlim ⊢
    rw [if_neg hy] at hlim ⊢
    have hy0 := not_lt.mp hy
    have n := rate_nonneg' (v := v) hu hL hy0
    have n' := rate_nonneg' (v := v') hu' hL hy0
    have hc : (y / (u' * L)) ^ (1 / v') ≤ (y / (u * L)) ^ (1 / v) := by
      refine rate_compare hu hv hu' hv' hL hy0 (S := fun ρ => 0 ≤ ρ ∧ ρ ≤ lim) ?_ ?_
      · rintro ρ ⟨ρ0, ρ1⟩
        rcases ρ0.eq_or_lt with rfl | ρ0
        · rw [Real.zero_rpow hv.ne', Real.zero_rpow hv'.ne']; simp
        · exact (C110_attenuation_increasing s x x' lim ρ u v u' v' p q hpq h0 h1 h2 ρ0 ρ1 e e').le
      · rcases hlim with hl | hl
        · left; refine ⟨n, ?_⟩
          split_ifs at hl with hcut
          · linarith
          · exact hl
        · right; refine ⟨n', ?_⟩
          split_ifs at hl with hcut
          · linarith
          · exact hl
    split_ifs with c1 c2 c2
    · exact le_rfl
    · exact n
    · linarith
    · exact hc
  · rw [rate_pinf hu hv hL] at hr; cases hr

/-- **C110** (negative) Outside these limits it is not so: at 98 GHz there is an attenuation that means 200 mm/h, but more than that
at 99 GHz. -/
theorem C110_not_above_limit :
    ∃ y r' : ℝ, callFP [.fin y] 1 98 "H" "ITU_2005" 0.1 = .ok [.fin 200] ∧
      callFP [.fin y] 1 99 "H" "ITU_2005" 0.1 = .ok [.fin r'] ∧ 200 < r' := by
  have val : ∀ (c : SplineCert) (i : Nat) (x y : ℝ) (z w : ℤ), c.ok 104 = true → i ≤ 104 → c.x i = z →
      (z : ℝ) / 10000000 = x → c.y i = w → (w : ℝ) / 10000000 = y → c.s x = y := by
    intro c i x y z w hc hi hz hx hw hy
    rw [← cert_f_val c i x z hz hx, cert_at_knot hc hi, hw, hy]
  have a98 : (certOf "ITU_2005" 1).s 98 = 1.3515 :=
    val cert2005_1 102 98 1.3515 980000000 13515000 ok2005_1 (by norm_num) (by decide +kernel) (by norm_num)
      (by decide +kernel) (by norm_num)
  have a99 : (certOf "ITU_2005" 1).s 99 = 1.3594 :=
    val cert2005_1 103 99 1.3594 990000000 13594000 ok2005_1 (by norm_num) (by decide +kernel) (by norm_num)
      (by decide +kernel) (by norm_num)
  have b98 : (certOf "ITU_2005" 3).s 98 = 0.6838 :=
    val cert2005_3 102 98 0.6838 980000000 6838000 ok2005_3 (by norm_num) (by decide +kernel) (by norm_num)
      (by decide +kernel) (by norm_num)
  have b99 : (certOf "ITU_2005" 3).s 99 = 0.6826 :=
    val cert2005_3 103 99 0.6826 990000000 6826000 ok2005_3 (by norm_num) (by decide +kernel) (by norm_num)
      (by decide +kernel) (by norm_num)
  have hH : isH "H" := .inr (.inl rfl)
  obtain ⟨r, r', hr, e⟩ := ab_single (x := 98) (p := "H") (s := "ITU_2005") (by norm_num) (by norm_num) (.inl hH) (.inr rfl)
  obtain ⟨ρ, ρ', hρ, e'⟩ := ab_single (x := 99) (p := "H") (s := "ITU_2005") (by norm_num) (by norm_num) (.inl hH) (.inr rfl)
  obtain ⟨-, rfl, rfl⟩ := hr.resolve_right fun h => isH_not_isV hH h.1
  obtain ⟨-, rfl, rfl⟩ := hρ.resolve_right fun h => isH_not_isV hH h.1
  rw [a98, b98] at e
  rw [a99, b99] at e'
  refine ⟨1.3515 * 200 ^ (0.6838 : ℝ) * 1, (1.3515 * 200 ^ (0.6838 : ℝ) * 1 / (1.3594 * 1)) ^ (1 / (0.6826 : ℝ)), ?_, ?_, ?_⟩
  · rw [callFP_eq e]
    exact C21_round_trip cubicSpline [200] 1 1.3515 0.6838 0.1 (by norm_num) (by norm_num) (by norm_num)
      (by intro R hR; rw [List.mem_singleton.mp hR]; norm_num)
  all_goals
    have hlt : (200 : ℝ) < (1.3515 * 200 ^ (0.6838 : ℝ) * 1 / (1.3594 * 1)) ^ (1 / (0.6826 : ℝ)) := by
      have hy : (0 : ℝ) ≤ 1.3515 * 200 ^ (0.6838 : ℝ) * 1 := by positivity
      have hsol := rate_solves (u := 1.3594) (v := 0.6826) (L := 1) (by norm_num) (by norm_num) (by norm_num) hy
      have n := rate_nonneg' (u := 1.3594) (v := 0.6826) (L := 1) (by norm_num) (by norm_num) hy
      rw [← Real.rpow_lt_rpow_iff (by norm_num) n (show (0 : ℝ) < 0.6826 by norm_num)]
      have hsplit : (200 : ℝ) ^ (0.6838 : ℝ) = 200 ^ (0.6826 : ℝ) * 200 ^ (0.0012 : ℝ) := by
        rw [← Real.rpow_add (by norm_num)]; norm_num
      have hexp : (1.006 : ℝ) ≤ 200 ^ (0.0012 : ℝ) := by
        rw [Real.rpow_def_of_pos (by norm_num)]
        refine le_trans ?_ (Real.add_one_le_exp _)
        have := log_200_gt
        norm_num at this ⊢; linarith
      have hp : (0 : ℝ) < 200 ^ (0.6826 : ℝ) := by positivity
      rw [hsplit] at hsol ⊢
      have h3 := mul_le_mul_of_nonneg_left hexp hp.le
      norm_num at hsol h3 hp ⊢
      nlinarith
  · rw [callFP_eq e', callAB_eq, List.map_cons, List.map_nil, rate_fin (by norm_num) (by norm_num) (by norm_num),
      if_neg (by push Not; positivity), if_neg (by push Not; linarith)]
  · exact hlt

/-- the hypotheses can be met -/
example : freqRange "ITU_2005" 15.3 100 ∧ samePol "V" "vertical" := by
  refine ⟨.inl ⟨rfl, by norm_num, rfl⟩, .inr ⟨.inr (.inl rfl), .inr (.inr (.inl rfl))⟩⟩

/-! ### C111 -/

/-- smallest frequency from which horizontal polarization attenuates at least as much as vertical polarization -/
def polRange (s : String) (x : ℝ) : Prop := s = "ITU_2005" ∧ 5 ≤ x ∨ s = "ITU_2003" ∧ 1 ≤ x

theorem cert_pol {s : String} {x R : ℝ} (h0 : polRange s x) (h2 : x ≤ 100) (hR5 : 5 ≤ R) (hR : R ≤ 1000) :
    (certOf s 2).s x * R ^ (certOf s 4).s x ≤ (certOf s 1).s x * R ^ (certOf s 3).s x := by
  have hs : s = "ITU_2003" ∨ s = "ITU_2005" := by rcases h0 with h | h <;> tauto
  have hx : 1 ≤ x := by rcases h0 with h | h <;> linarith [h.2]
  have hR0 : 0 < R := by linarith
  have pH : 0 < (certOf s 1).s x := lt_of_lt_of_le (by norm_num) (cert_a_range hs (.inl rfl) hx h2).1
  have pV : 0 < (certOf s 2).s x := lt_of_lt_of_le (by norm_num) (cert_a_range hs (.inr rfl) hx h2).1
  have c1 : 1.5 ≤ Real.log R := log_5_gt.le.trans (Real.log_le_log (by norm_num) hR5)
  have c2 : Real.log R ≤ 7 := (Real.log_le_log hR0 hR).trans log_1000_lt.le
  have two : 0 ≤ 1.5 * ((certOf s 1).s x * ((certOf s 3).s x - (certOf s 4).s x)) + ((certOf s 1).s x - (certOf s 2).s x) ∧
      0 ≤ 7 * ((certOf s 1).s x * ((certOf s 3).s x - (certOf s 4).s x)) + ((certOf s 1).s x - (certOf s 2).s x) := by
    obtain ⟨-, fN⟩ := cert_f hs (r := 1) (.inl rfl)
    have key : ∀ (k : Nat) (C : ℤ) (c f0 : ℝ), k < certN s →
        SplineCert.polGe (certOf s 1) (certOf s 2) (certOf s 3) (certOf s 4) k (certN s) C = true →
        (certOf s 2).X = (certOf s 1).X → (certOf s 3).X = (certOf s 1).X → (certOf s 4).X = (certOf s 1).X →
        (certOf s 1).f k = f0 → f0 ≤ x → (C : ℝ) / 10000 = c →
        0 ≤ c * ((certOf s 1).s x * ((certOf s 3).s x - (certOf s 4).s x)) + ((certOf s 1).s x - (certOf s 2).s x) := by
      intro k C c f0 hk hg e2 e3 e4 hf hx0 hC
      have := SplineCert.polGe_nonneg (cert_ok hs (r := 1) (.inl rfl)) (cert_ok hs (r := 2) (.inr (.inl rfl)))
        (cert_ok hs (r := 3) (.inr (.inr (.inl rfl)))) (cert_ok hs (r := 4) (.inr (.inr (.inr rfl)))) e2 e3 e4 hg hk
        (t := x) (by rw [hf]; exact hx0) (by rw [fN]; exact h2)
      rwa [hC] at this
    have n1 : ((15000 : ℤ) : ℝ) / 10000 = 1.5 := by norm_num
    have n2 : ((70000 : ℤ) : ℝ) / 10000 = 7 := by norm_num
    rcases h0 with ⟨rfl, hx0⟩ | ⟨rfl, hx0⟩
    · have hf : (certOf "ITU_2005" 1).f 8 = 5 := cert_f_val _ _ _ 50000000 (by decide +kernel) (by norm_num)
      exact ⟨key 8 15000 1.5 5 (by decide) polGe2005_lo rfl rfl rfl hf hx0 n1,
        key 8 70000 7 5 (by decide) polGe2005_hi rfl rfl rfl hf hx0 n2⟩
    · have hf : (certOf "ITU_2003" 1).f 0 = 1 := cert_f_val _ _ _ 10000000 (by decide +kernel) (by norm_num)
      exact ⟨key 0 15000 1.5 1 (by decide) polGe2003_lo rfl rfl rfl hf hx0 n1,
        key 0 70000 7 1 (by decide) polGe2003_hi rfl rfl rfl hf hx0 n2⟩
  rw [powerlaw_exp pH hR0, powerlaw_exp pV hR0, Real.exp_le_exp]
  have hl : Real.log ((certOf s 2).s x) - Real.log ((certOf s 1).s x) ≤
      (certOf s 2).s x / (certOf s 1).s x - 1 := by
    rw [← Real.log_div pV.ne' pH.ne']
    exact Real.log_le_sub_one_of_pos (div_pos pV pH)
  generalize Real.log R = c at c1 c2 ⊢
  generalize (certOf s 1).s x = aH at *
  generalize (certOf s 2).s x = aV at *
  generalize (certOf s 3).s x = bH at *
  generalize (certOf s 4).s x = bV at *
  have hlin : 0 ≤ c * (aH * (bH - bV)) + (aH - aV) := by
    obtain ⟨t1, t2⟩ := two
    nlinarith [mul_nonneg (sub_nonneg.mpr c1) t2, mul_nonneg (sub_nonneg.mpr c2) t1]
  have hdiv : aV / aH - 1 ≤ c * (bH - bV) := by
    rw [sub_le_iff_le_add, div_le_iff₀ pH]
    linarith
  linarith

/-- **C111** Horizontal polarization attenuates at least as much as vertical polarization, for rain rates from 5 to 1000 mm/h and
frequencies from 5 GHz on (all frequencies for the table of 2003). -/
theorem C111_polarization (s : String) (x R u v u' v' : ℝ) (p q : String) (hp : isV p) (hq : isH q)
    (h0 : polRange s x) (h2 : x ≤ 100) (hR5 : 5 ≤ R) (hR : R ≤ 1000)
    (h : a_b cubicSpline [.fin x] [p] s = .ok ([.fin u], [.fin v]))
    (h' : a_b cubicSpline [.fin x] [q] s = .ok ([.fin u'], [.fin v'])) :
    u * R ^ v ≤ u' * R ^ v' := by
  have hs : s = "ITU_2003" ∨ s = "ITU_2005" := by rcases h0 with h | h <;> tauto
  have hx : 1 ≤ x := by rcases h0 with h | h <;> linarith [h.2]
  obtain ⟨r, r', hr, e⟩ := ab_single (x := x) (p := p) hx h2 (.inr hp) hs
  obtain ⟨ρ, ρ', hρ, e'⟩ := ab_single (x := x) (p := q) hx h2 (.inl hq) hs
  rw [h] at e; cases e
  rw [h'] at e'; cases e'
  obtain ⟨-, rfl, rfl⟩ := hr.resolve_left fun h => isH_not_isV h.1 hp
  obtain ⟨-, rfl, rfl⟩ := hρ.resolve_right fun h => isH_not_isV hq h.1
  exact cert_pol h0 h2 hR5 hR

/-- **C111** So the same attenuation means at least as much rain on a vertically polarized link, if one of the two rain rates is
between 5 and 1000 mm/h. -/
theorem C111_rain_rate (A R R' : List (Fl ℝ)) (L R_min x : ℝ) (s p q : String) (hp : isV p) (hq : isH q)
    (h0 : polRange s x) (h2 : x ≤ 100) (hL : 0 < L)
    (hR : callFP A L x p s R_min = .ok R) (hR' : callFP A L x q s R_min = .ok R')
    (i : Nat) (r r' : ℝ) (hr : R[i]? = some (.fin r)) (hr' : R'[i]? = some (.fin r'))
    (hlim : 5 ≤ r ∧ r ≤ 1000 ∨ 5 ≤ r' ∧ r' ≤ 1000) :
    r' ≤ r := by
  have hs : s = "ITU_2003" ∨ s = "ITU_2005" := by rcases h0 with h | h <;> tauto
  have hx : 1 ≤ x := by rcases h0 with h | h <;> linarith [h.2]
  obtain ⟨u, v, e, hu, hv⟩ := ab_single_pos (x := x) (p := p) hx h2 (.inr hp) hs
  obtain ⟨u', v', e', hu', hv'⟩ := ab_single_pos (x := x) (p := q) hx h2 (.inl hq) hs
  rw [callFP_eq e, callAB_eq] at hR
  rw [callFP_eq e', callAB_eq] at hR'
  cases hR; cases hR'
  rw [List.getElem?_map] at hr hr'
  rcases hA : A[i]? with _ | y
  · rw [hA] at hr; cases hr
  rw [hA, Option.map_some, Option.some.injEq] at hr hr'
  rcases y with _ | _ | y | _
  · rw [rate_nan] at hr; cases hr
  · rw [rate_ninf] at hr hr'; cases hr; cases hr'; exact le_rfl
  · rw [rate_fin hu hv hL] at hr
    rw [rate_fin hu' hv' hL] at hr'
    cases hr; cases hr'
    by_cases hy : y < 0
    · simp [hy]
    rw [if_neg hy] at hlim ⊢
    rw [if_neg hy] at hlim ⊢
    have hy0 := not_lt.mp hy
    have n := rate_nonneg' (v := v) hu hL hy0
    have hc : (y / (u' * L)) ^ (1 / v') ≤ (y / (u * L)) ^ (1 / v) := by
      refine rate_compare hu hv hu' hv' hL hy0 (S := fun ρ => 5 ≤ ρ ∧ ρ ≤ 1000) ?_ ?_
      · rintro ρ ⟨ρ0, ρ1⟩
        exact C111_polarization s x ρ u v u' v' p q hp hq h0 h2 ρ0 ρ1 e e'
      · rcases hlim with hl | hl
        · left
          split_ifs at hl with hcut
          · linarith [hl.1]
          · exact hl
        · right
          split_ifs at hl with hcut
          · linarith [hl.1]
          · exact hl
    split_ifs with c1 c2 c2
    · exact le_rfl
    · exact n
    · linarith
    · exact hc
  · rw [rate_pinf hu hv hL] at hr; cases hr

/-- **C111** (negative) For weak rain it is not so: at 98 GHz there is an attenuation that means 1 mm/h on a vertically polarized link and
more than that on a horizontally polarized one. -/
theorem C111_not_weak_rain :
    ∃ y r' : ℝ, callFP [.fin y] 1 98 "V" "ITU_2005" 0.1 = .ok [.fin 1] ∧
      callFP [.fin y] 1 98 "H" "ITU_2005" 0.1 = .ok [.fin r'] ∧ 1 < r' := by
  have val : ∀ (c : SplineCert) (i : Nat) (x y : ℝ) (z w : ℤ), c.ok 104 = true → i ≤ 104 → c.x i = z →
      (z : ℝ) / 10000000 = x → c.y i = w → (w : ℝ) / 10000000 = y → c.s x = y := by
    intro c i x y z w hc hi hz hx hw hy
    rw [← cert_f_val c i x z hz hx, cert_at_knot hc hi, hw, hy]
  have aH : (certOf "ITU_2005" 1).s 98 = 1.3515 :=
    val cert2005_1 102 98 1.3515 980000000 13515000 ok2005_1 (by norm_num) (by decide +kernel) (by norm_num)
      (by decide +kernel) (by norm_num)
  have aV : (certOf "ITU_2005" 2).s 98 = 1.352 :=
    val cert2005_2 102 98 1.352 980000000 13520000 ok2005_2 (by norm_num) (by decide +kernel) (by norm_num)
      (by decide +kernel) (by norm_num)
  have bH : (certOf "ITU_2005" 3).s 98 = 0.6838 :=
    val cert2005_3 102 98 0.6838 980000000 6838000 ok2005_3 (by norm_num) (by decide +kernel) (by norm_num)
      (by decide +kernel) (by norm_num)
  have hH : isH "H" := .inr (.inl rfl)
  have hV : isV "V" := .inr (.inl rfl)
  obtain ⟨r, r', hr, e⟩ := ab_single (x := 98) (p := "V") (s := "ITU_2005") (by norm_num) (by norm_num) (.inr hV) (.inr rfl)
  obtain ⟨ρ, ρ', hρ, e'⟩ := ab_single (x := 98) (p := "H") (s := "ITU_2005") (by norm_num) (by norm_num) (.inl hH) (.inr rfl)
  obtain ⟨-, rfl, rfl⟩ := hr.resolve_left fun h => isH_not_isV h.1 hV
  obtain ⟨-, rfl, rfl⟩ := hρ.resolve_right fun h => isH_not_isV hH h.1
  have bV := (cert_b_range (s := "ITU_2005") (r := 4) (.inr rfl) (.inr rfl) (x := 98) (by norm_num) (by norm_num)).1
  have hlt : (1 : ℝ) < (1.352 / (1.3515 * 1)) ^ (1 / (0.6838 : ℝ)) := Real.one_lt_rpow (by norm_num) (by norm_num)
  rw [aV] at e
  rw [aH, bH] at e'
  refine ⟨1.352, (1.352 / (1.3515 * 1)) ^ (1 / (0.6838 : ℝ)), ?_, ?_, hlt⟩
  · rw [callFP_eq e, callAB_eq, List.map_cons, List.map_nil, rate_fin (by norm_num)
      (lt_of_lt_of_le (by norm_num) bV) (by norm_num), if_neg (by norm_num)]
    rw [show (1.352 / (1.352 * 1) : ℝ) = 1 by norm_num, Real.one_rpow, if_neg (by norm_num)]
  · rw [callFP_eq e', callAB_eq, List.map_cons, List.map_nil, rate_fin (by norm_num) (by norm_num) (by norm_num),
      if_neg (by norm_num), if_neg (by push Not; linarith)]

/-- the hypotheses can be met -/
example : polRange "ITU_2005" 15.3 ∧ isV "vertical" ∧ isH "h" := by
  refine ⟨.inl ⟨rfl, by norm_num⟩, .inr (.inr (.inl rfl)), .inl rfl⟩

end Verif.Props
