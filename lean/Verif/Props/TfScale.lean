import Verif.Props.TfInference
import Mathlib.Tactic.FieldSimp
import Mathlib.Tactic.Linarith
import Mathlib.Tactic.Positivity

/-!
# Properties C53 (whole pipeline), C54 (scaling), C72 (id_coord)
-/

namespace Verif.Props
open Verif Verif.Torch Verif.Tf

variable {ι F : Type}

theorem sum_map_shift (xs : List ℝ) (m s : ℝ) :
    (xs.map fun x => (x - m) / s).sum = (xs.sum - xs.length * m) / s := by
  induction xs with
  | nil => simp
  | cons a l ih =>
    rw [List.map_cons, List.sum_cons, ih, List.sum_cons, List.length_cons]
    push_cast
    ring

theorem sum_map_div (xs : List ℝ) (g : ℝ → ℝ) (s : ℝ) :
    (xs.map fun x => g x / s).sum = (xs.map g).sum / s := by
  induction xs with
  | nil => simp
  | cons a l ih => rw [List.map_cons, List.sum_cons, ih, List.map_cons, List.sum_cons]; ring

theorem sum_sq_nonneg (xs : List ℝ) (g : ℝ → ℝ) : 0 ≤ (xs.map fun x => g x ^ 2).sum := by
  induction xs with
  | nil => simp
  | cons a l ih => rw [List.map_cons, List.sum_cons]; positivity

theorem sum_sq_zero (xs : List ℝ) (g : ℝ → ℝ) (h : (xs.map fun x => g x ^ 2).sum = 0) :
    ∀ x ∈ xs, g x = 0 := by
  induction xs with
  | nil => intro x hx; cases hx
  | cons a l ih =>
    rw [List.map_cons, List.sum_cons] at h
    have h1 := sum_sq_nonneg l g
    have h2 : 0 ≤ g a ^ 2 := by positivity
    have h3 : g a ^ 2 = 0 := by linarith
    have h4 : (l.map fun x => g x ^ 2).sum = 0 := by linarith
    intro x hx
    rcases List.mem_cons.mp hx with rfl | hx
    · exact pow_eq_zero_iff (by norm_num) |>.mp h3
    · exact ih h4 x hx

theorem var_nonneg (xs : List ℝ) : 0 ≤ var xs := by
  unfold var
  have := sum_sq_nonneg xs (fun x => x - mean xs)
  positivity

theorem var_zero {xs : List ℝ} (h : var xs = 0) : ∀ x ∈ xs, x = mean xs := by
  intro x hx
  have hl : 0 < xs.length := List.length_pos_of_mem hx
  have hl' : (xs.length : ℝ) ≠ 0 := by positivity
  unfold var at h
  rw [div_eq_zero_iff] at h
  have h0 : (xs.map fun x => (x - mean xs) ^ 2).sum = 0 := h.resolve_right hl'
  have := sum_sq_zero xs (fun x => x - mean xs) h0 x hx
  linarith

theorem mean_const {xs : List ℝ} {a : ℝ} (hne : xs ≠ []) (h : ∀ x ∈ xs, x = a) : mean xs = a := by
  have : xs = List.replicate xs.length a := List.eq_replicate_of_mem h
  unfold mean
  have hl : (xs.length : ℝ) ≠ 0 := by
    have := List.length_pos_iff.mpr hne
    positivity
  have hs : xs.sum = xs.length * a := by
    rw [this, List.sum_replicate, List.length_replicate]
    simp
  rw [hs]
  field_simp

theorem var_const {xs : List ℝ} {a : ℝ} (h : ∀ x ∈ xs, x = a) : var xs = 0 := by
  rcases eq_or_ne xs [] with rfl | hne
  · simp [var]
  · unfold var
    have : (xs.map fun x => (x - mean xs) ^ 2) = xs.map fun _ => (0 : ℝ) := by
      apply List.map_congr_left
      intro x hx
      rw [mean_const hne h, h x hx]
      ring
    rw [this]
    simp

theorem feature_map (X : List (List (List ℝ))) (n i : Nat) (hi : i < n) (g : Nat → ℝ → ℝ) :
    feature (X.map fun w => w.map fun row => (List.range n).map fun i => g i (row.getD i 0)) i =
      (feature X i).map (g i) := by
  unfold feature
  rw [List.flatMap_map, List.map_flatMap]
  congr 1
  funext w
  rw [List.map_map, List.map_map]
  apply List.map_congr_left
  intro row _
  simp only [Function.comp_apply]
  rw [List.getD_eq_getElem?_getD, List.getElem?_map, List.getElem?_range hi]
  rfl

/-- all samples have `n` features -/
def Shape (X : List (List (List ℝ))) (n : Nat) : Prop := ∀ w ∈ X, ∀ row ∈ w, row.length = n

theorem scaleFeatures_ok (X : List (List (List ℝ))) (n : Nat) (hX : X ≠ []) (hs : Shape X n) :
    scaleFeatures X n = .ok (X.map fun w => w.map fun row =>
      (List.range n).map fun i => standardize (feature X i) (row.getD i 0)) := by
  unfold scaleFeatures
  rw [if_neg (by simpa using hX), if_pos]
  rw [List.all_eq_true]
  intro w hw
  rw [List.all_eq_true]
  intro row hr
  rw [hs w hw row hr]
  simp

/-- All values of feature `i`, over all samples and steps. -/
def featureValues (X : List (List (List ℝ))) (i : Nat) : List ℝ :=
  X.flatMap fun w => w.map fun row => row.getD i 0

/-- **C54** Standardisation: the scaled array has the same shape; every feature has sum 0 over all
samples and steps; unless it is constant the mean of its squares is 1; a constant feature becomes 0. -/
theorem C54_standardized (X : List (List (List ℝ))) (n : Nat) (hX : X ≠ []) (hs : Shape X n) :
    ∃ Y, scaleFeatures X n = .ok Y ∧ Y.map (List.map List.length) = X.map (List.map List.length) ∧
      ∀ i < n, (featureValues Y i).length = (featureValues X i).length ∧ (featureValues Y i).sum = 0 ∧
        ((∃ a ∈ featureValues X i, ∃ b ∈ featureValues X i, a ≠ b) →
          ((featureValues Y i).map fun y : ℝ => y ^ 2).sum / ((featureValues Y i).length : ℝ) = 1) ∧
        (∀ a, (∀ x ∈ featureValues X i, x = a) → ∀ y ∈ featureValues Y i, y = 0) := by
  show ∃ Y, scaleFeatures X n = .ok Y ∧ Y.map (List.map List.length) = X.map (List.map List.length) ∧
      ∀ i < n, (feature Y i).length = (feature X i).length ∧ (feature Y i).sum = 0 ∧
        ((∃ a ∈ feature X i, ∃ b ∈ feature X i, a ≠ b) →
          ((feature Y i).map fun y : ℝ => y ^ 2).sum / ((feature Y i).length : ℝ) = 1) ∧
        (∀ a, (∀ x ∈ feature X i, x = a) → ∀ y ∈ feature Y i, y = 0)
  refine ⟨_, scaleFeatures_ok X n hX hs, ?_, ?_⟩
  · rw [List.map_map]
    apply List.map_congr_left
    intro w hw
    rw [Function.comp_apply, List.map_map]
    apply List.map_congr_left
    intro row hr
    rw [Function.comp_apply, List.length_map, List.length_range, hs w hw row hr]
  · intro i hi
    rw [feature_map X n i hi fun i x => standardize (feature X i) x]
    set xs := feature X i with hxs
    refine ⟨by rw [List.length_map], ?_, ?_, ?_⟩
    · unfold standardize
      rw [sum_map_shift]
      rcases eq_or_ne xs [] with h | h
      · rw [h]; simp
      · have hl : (xs.length : ℝ) ≠ 0 := by
          have := List.length_pos_iff.mpr h
          positivity
        have : xs.sum - xs.length * mean xs = 0 := by
          unfold mean
          field_simp
          ring
        rw [this, zero_div]
    · rintro ⟨a, ha, b, hb, hab⟩
      have hv : var xs ≠ 0 := by
        intro h
        exact hab ((var_zero h a ha).trans (var_zero h b hb).symm)
      have hl : (xs.length : ℝ) ≠ 0 := by
        have := List.length_pos_of_mem ha
        positivity
      rw [List.map_map, List.length_map]
      have e : ((fun y : ℝ => y ^ 2) ∘ fun x => standardize xs x) =
          fun x => (x - mean xs) ^ 2 / var xs := by
        funext x
        simp only [Function.comp_apply, standardize, if_neg hv]
        rw [div_pow, Real.sq_sqrt (var_nonneg xs)]
      rw [e, sum_map_div xs (fun x => (x - mean xs) ^ 2)]
      have : (xs.map fun x => (x - mean xs) ^ 2).sum = var xs * xs.length := by
        unfold var
        field_simp
      rw [this]
      field_simp
    · intro a ha y hy
      rw [List.mem_map] at hy
      obtain ⟨x, hx, rfl⟩ := hy
      unfold standardize
      rw [mean_const (List.ne_nil_of_mem hx) ha, ha x hx, sub_self, zero_div]

/-- **C54** Each entry is scaled by two numbers of its feature (`s > 0`), so the order of values is
kept. -/
theorem C54_affine_map (X : List (List (List ℝ))) (n : Nat) (hX : X ≠ []) (hs : Shape X n) :
    ∃ m s : Nat → ℝ, (∀ i, 0 < s i) ∧ scaleFeatures X n = .ok (X.map fun w => w.map fun row =>
      (List.range n).map fun i => (row.getD i 0 - m i) / s i) := by
  refine ⟨fun i => mean (feature X i),
    fun i => if var (feature X i) = 0 then 1 else Real.sqrt (var (feature X i)), ?_,
    scaleFeatures_ok X n hX hs⟩
  intro i
  dsimp only
  split_ifs with h
  · exact one_pos
  · exact Real.sqrt_pos.mpr (lt_of_le_of_ne (var_nonneg _) (Ne.symm h))

/-- **C54** Positive affine changes of the features (other units, other offset) make no
difference. -/
theorem C54_affine_invariant (X : List (List (List ℝ))) (n : Nat) (hX : X ≠ []) (hs : Shape X n)
    (a b : Nat → ℝ) (ha : ∀ i < n, 0 < a i) :
    scaleFeatures (X.map fun w => w.map fun row =>
      (List.range n).map fun i => a i * row.getD i 0 + b i) n = scaleFeatures X n := by
  rw [scaleFeatures_ok X n hX hs, scaleFeatures_ok _ n (by simpa using hX) (by
    intro w hw row hr
    rw [List.mem_map] at hw
    obtain ⟨w', _, rfl⟩ := hw
    rw [List.mem_map] at hr
    obtain ⟨r', _, rfl⟩ := hr
    simp), List.map_map]
  congr 1
  apply List.map_congr_left
  intro w hw
  rw [Function.comp_apply, List.map_map]
  apply List.map_congr_left
  intro row hr
  rw [Function.comp_apply]
  apply List.map_congr_left
  intro i hi
  rw [List.mem_range] at hi
  have hx : row.getD i 0 ∈ feature X i := by
    unfold feature
    rw [List.mem_flatMap]
    exact ⟨w, hw, List.mem_map.mpr ⟨row, hr, rfl⟩⟩
  have hg : ((List.range n).map fun i => a i * row.getD i 0 + b i).getD i 0 =
      a i * row.getD i 0 + b i := by
    rw [List.getD_eq_getElem?_getD, List.getElem?_map, List.getElem?_range hi]
    rfl
  rw [hg, feature_map X n i hi fun i x => a i * x + b i]
  set xs := feature X i with hxs
  set x := row.getD i 0 with hxdef
  have hl : (xs.length : ℝ) ≠ 0 := by
    have := List.length_pos_of_mem hx
    positivity
  have hm : mean (xs.map fun x => a i * x + b i) = a i * mean xs + b i := by
    unfold mean
    have : (xs.map fun x => a i * x + b i).sum = a i * xs.sum + xs.length * b i := by
      clear hx hl hg hxs
      induction xs with
      | nil => simp
      | cons y l ih =>
        rw [List.map_cons, List.sum_cons, ih, List.sum_cons, List.length_cons]
        push_cast
        ring
    rw [this, List.length_map]
    field_simp
  have hvar : var (xs.map fun x => a i * x + b i) = a i ^ 2 * var xs := by
    unfold var
    rw [hm, List.map_map, List.length_map]
    have : ((fun y => (y - (a i * mean xs + b i)) ^ 2) ∘ fun x => a i * x + b i) =
        fun x => (x - mean xs) ^ 2 / (1 / a i ^ 2) := by
      funext y
      simp only [Function.comp_apply]
      have := (ha i hi).ne'
      field_simp
      ring
    rw [this, sum_map_div xs (fun x => (x - mean xs) ^ 2)]
    have := (ha i hi).ne'
    field_simp
  have ha0 := ha i hi
  unfold standardize
  rw [hm, hvar]
  by_cases hv : var xs = 0
  · rw [hv, if_pos (by ring), if_pos rfl, var_zero hv x hx]
    ring
  · rw [if_neg (mul_ne_zero (by positivity) hv), if_neg hv,
      Real.sqrt_mul (by positivity), Real.sqrt_sq ha0.le]
    have : Real.sqrt (var xs) ≠ 0 :=
      (Real.sqrt_pos.mpr (lt_of_le_of_ne (var_nonneg _) (Ne.symm hv))).ne'
    have ha1 := ha0.ne'
    field_simp
    ring

/-- **C54** Scaling is global: the scaled first sample changes when another sample is added. -/
theorem C54_global : ∃ (X : List (List (List ℝ))) (w : List (List ℝ)) (Y Y' : List (List (List ℝ))),
    scaleFeatures X 1 = .ok Y ∧ scaleFeatures (X ++ [w]) 1 = .ok Y' ∧ X[0]? = (X ++ [w])[0]? ∧
      Y[0]? ≠ Y'[0]? := by
  refine ⟨[[[0]], [[2]]], [[4]], _, _, scaleFeatures_ok _ 1 (by simp) (by
    intro w hw row hr; fin_cases hw <;> simp_all), scaleFeatures_ok _ 1 (by simp) (by
    intro w hw row hr; fin_cases hw <;> simp_all), rfl, ?_⟩
  have h1 : standardize [0, 2] 0 = -1 := by
    have hm : mean [0, 2] = 1 := by unfold mean; norm_num
    have hv : var [0, 2] = 1 := by unfold var; rw [hm]; norm_num
    unfold standardize
    rw [hm, hv]
    norm_num
  have h2 : standardize [0, 2, 4] 0 ≠ -1 := by
    have hm : mean [0, 2, 4] = 2 := by unfold mean; norm_num
    have hv : var [0, 2, 4] = 8 / 3 := by unfold var; rw [hm]; norm_num
    unfold standardize
    rw [hm, hv, if_neg (by norm_num)]
    intro h
    have hs : Real.sqrt (8 / 3) ^ 2 = 8 / 3 := Real.sq_sqrt (by norm_num)
    have hp : 0 < Real.sqrt (8 / 3) := Real.sqrt_pos.mpr (by norm_num)
    rw [div_eq_iff hp.ne'] at h
    have : Real.sqrt (8 / 3) = 2 := by linarith
    rw [this] at hs
    norm_num at hs
  simp only [feature, List.map_cons, List.map_nil, List.range_one, List.flatMap_cons,
    List.flatMap_nil, List.cons_append, List.nil_append, List.getD_cons_zero,
    List.getElem?_cons_zero, ne_eq, Option.some.injEq, List.cons.injEq, and_true]
  rw [h1]
  exact fun h => h2 h.symm

example : ∃ Y, scaleFeatures [[[1, 5]], [[3, 5]]] 2 = .ok Y ∧ ∀ y ∈ featureValues Y 1, y = 0 := by
  obtain ⟨Y, h1, _, h3⟩ := C54_standardized [[[1, 5]], [[3, 5]]] 2 (by simp) (by
    intro w hw row hr; fin_cases hw <;> simp_all)
  exact ⟨Y, h1, (h3 1 (by norm_num)).2.2.2 5 (by intro x hx; simp [featureValues] at hx; simpa using hx)⟩

/-! ### the pipeline -/

/-- the complete window with its numbers scaled -/
noncomputable def scaledWindow (vars : List String) (data : String → Nat → Nat → Fl ℝ)
    (m s : Nat → ℝ) (L c t : Nat) : List (List ℝ) :=
  (List.range L).map fun j => (List.range vars.length).map fun i =>
    ((vars.map fun v => val (data v c (t + 1 - L + j))).getD i 0 - m i) / s i

open Classical in
/-- All numbers of variable `v` that the complete windows of all links contain, window by window (a step counts once for
each complete window it is in). -/
noncomputable def pooled (ds : Ds ι ℝ) (vars : List String) (data : String → Nat → Nat → Fl ℝ) (L : Nat) (v : String) :
    List ℝ :=
  (List.range ds.ids.length).flatMap fun c =>
    ((List.range ds.nTime).filter fun t => decide (L ≤ t + 1 ∧ Complete vars data L c t)).flatMap fun t =>
      (List.range L).map fun j => val (data v c (t + 1 - L + j))

/-- `m` is the mean of the numbers and `s` their standard deviation, or 1 if they are all equal -/
def IsScale (xs : List ℝ) (m s : ℝ) : Prop :=
  m * xs.length = xs.sum ∧ 0 < s ∧ ((∀ x ∈ xs, ∀ y ∈ xs, x = y) → s = 1) ∧
  ((∃ x ∈ xs, ∃ y ∈ xs, x ≠ y) → s ^ 2 * xs.length = (xs.map fun x => (x - m) ^ 2).sum)

theorem isScale_standard {xs : List ℝ} (hne : xs ≠ []) :
    IsScale xs (mean xs) (if var xs = 0 then 1 else Real.sqrt (var xs)) := by
  have hl : (xs.length : ℝ) ≠ 0 := by
    have := List.length_pos_iff.mpr hne
    positivity
  refine ⟨?_, ?_, ?_, ?_⟩
  · unfold mean
    field_simp
  · split_ifs with h
    · exact one_pos
    · exact Real.sqrt_pos.mpr (lt_of_le_of_ne (var_nonneg _) (Ne.symm h))
  · intro h
    obtain ⟨a, ha⟩ := List.exists_mem_of_ne_nil xs hne
    rw [if_pos (var_const (a := a) fun x hx => h x hx a ha)]
  · rintro ⟨x, hx, y, hy, hxy⟩
    rw [if_neg fun h0 => hxy ((var_zero h0 x hx).trans (var_zero h0 y hy).symm), Real.sq_sqrt (var_nonneg _)]
    unfold var
    field_simp

theorem feature_specSamples [DecidableEq ι] (ds : Ds ι ℝ) (vars : List String) (data : String → Nat → Nat → Fl ℝ) (hnd : ds.ids.Nodup)
    (L i : Nat) (v : String) (hv : vars[i]? = some v) :
    feature (((specSamples ds vars data L ds.ids).map (·.1)).map fun w => w.map fun row => row.map val) i =
      pooled ds vars data L v := by
  classical
  unfold feature pooled specSamples
  rw [List.flatMap_map, List.flatMap_map, List.flatMap_assoc]
  have hids : ds.ids = (List.range ds.ids.length).attach.map fun c => ds.ids[c.1]'(by simpa using c.2) := by
    apply List.ext_getElem
    · simp
    · intro k h1 h2
      simp
  conv_lhs => rw [hids]
  rw [List.flatMap_map]
  conv_rhs => rw [← List.attach_map_subtype_val (List.range ds.ids.length), List.flatMap_map]
  apply List.flatMap_congr
  rintro ⟨c, hc⟩ -
  have hc' : c < ds.ids.length := by simpa using hc
  dsimp only
  have hf : ds.ids.findIdx? (fun i => decide (i = ds.ids[c])) = some c := by
    rw [List.findIdx?_eq_some_iff_getElem]
    refine ⟨hc', by simp, fun k hk => ?_⟩
    simpa using fun h => absurd ((hnd.getElem_inj_iff).1 h) (by omega)
  rw [← hids, hf]
  dsimp only
  induction List.range ds.nTime with
  | nil => rfl
  | cons t ts ih =>
    rw [List.filterMap_cons, List.filter_cons]
    by_cases h : L ≤ t + 1 ∧ Complete vars data L c t
    · rw [if_pos h, if_pos (by simpa using h)]
      dsimp only
      rw [List.flatMap_cons, List.flatMap_cons, ih]
      congr 1
      unfold window
      rw [List.map_map, List.map_map]
      apply List.map_congr_left
      intro j _
      simp only [Function.comp_apply, List.map_map]
      rw [List.getD_eq_getElem?_getD, List.getElem?_map, hv]
      rfl
    · rw [if_neg h, if_neg (by simpa using h)]
      exact ih

/-- **C53** `wet_dry_1d_cnn` for a network that treats each sample by itself (value `f`): with the mean `m i` and the standard
deviation `s i` of variable `i` over all complete windows of all links, the
probability stored at step `t` of link `c` is `f` of the scaled window of `seq_len` steps ending at
`t` if that window is complete, and NaN otherwise. If there is no complete window at all the call
raises `IndexError`. -/
theorem C53_pipeline [DecidableEq ι] [PyFloat F] (net : List (List (List ℝ)) → List F)
    (f : List (List ℝ) → F) (hnet : ∀ xs, net xs = xs.map f) (ds : Ds ι ℝ) (vars : List String)
    (data : String → Nat → Nat → Fl ℝ) (h : Holds ds vars data) (hv : vars ≠ []) (L : Nat)
    (hL : 0 < L) (coords : List String) (hco : "cml_id" ∈ coords) :
    ((∃ c t, c < ds.ids.length ∧ t < ds.nTime ∧ L ≤ t + 1 ∧ Complete vars data L c t) →
      ∃ g, ∃ m s : Nat → ℝ, (∀ i v, vars[i]? = some v → IsScale (pooled ds vars data L v) (m i) (s i)) ∧
        wetDry1dCnn net ds coords "cml_id" ds.ids vars L none = .ok g ∧ g.length = ds.nTime ∧
        ∀ t c : Nat, ∀ row, c < ds.ids.length → g[t]? = some row →
          (L ≤ t + 1 ∧ Complete vars data L c t →
            row[c]? = some (f (scaledWindow vars data m s L c t))) ∧
          (¬ (L ≤ t + 1 ∧ Complete vars data L c t) → row[c]? = some PyFloat.nan)) ∧
    (¬ (∃ c t, c < ds.ids.length ∧ t < ds.nTime ∧ L ≤ t + 1 ∧ Complete vars data L c t) →
      wetDry1dCnn net ds coords "cml_id" ds.ids vars L none = .error .indexError) := by
  classical
  set S := specSamples ds vars data L ds.ids with hS
  have hsam := C53_samples ds vars data h hv L hL ds.ids
  have hnv : vars.length ≠ 0 := by simpa using hv
  constructor
  · rintro ⟨c0, t0, hc0, ht0, hLt0, hcomp0⟩
    have hSne : S ≠ [] := by
      apply List.ne_nil_of_mem (a := (window vars data L c0 t0, ds.ids[c0], t0))
      rw [hS, mem_specSamples _ _ _ h.2.1]
      exact ⟨c0, t0, List.getElem_mem _, List.getElem?_eq_getElem _, rfl, ht0, hLt0, hcomp0, rfl⟩
    set X := (S.map (·.1)).map fun w => w.map fun row => row.map val with hX
    have hXne : X ≠ [] := by simpa [hX] using hSne
    have hXs : Shape X vars.length := by
      intro w hw row hr
      rw [hX, List.mem_map] at hw
      obtain ⟨w', hw', rfl⟩ := hw
      rw [List.mem_map] at hw'
      obtain ⟨e, he, rfl⟩ := hw'
      obtain ⟨c, t, _, _, _, _, _, _, he1⟩ := (mem_specSamples _ _ _ h.2.1 _ _ e).mp he
      rw [he1] at hr
      unfold window at hr
      rw [List.mem_map] at hr
      obtain ⟨r', hr', rfl⟩ := hr
      rw [List.mem_map] at hr'
      obtain ⟨j, _, rfl⟩ := hr'
      simp
    obtain ⟨m, s, hs, hsc⟩ : ∃ m s : Nat → ℝ,
        (∀ i v, vars[i]? = some v → IsScale (pooled ds vars data L v) (m i) (s i)) ∧
        scaleFeatures X vars.length = .ok (X.map fun w => w.map fun row =>
          (List.range vars.length).map fun i => (row.getD i 0 - m i) / s i) := by
      refine ⟨fun i => mean (feature X i),
        fun i => if var (feature X i) = 0 then 1 else Real.sqrt (var (feature X i)), ?_, scaleFeatures_ok X _ hXne hXs⟩
      intro i v hiv
      have hp : feature X i = pooled ds vars data L v := feature_specSamples ds vars data h.2.1 L i v hiv
      rw [← hp]
      refine isScale_standard fun h0 => ?_
      obtain ⟨w, hw⟩ := List.exists_mem_of_ne_nil X hXne
      unfold feature at h0
      rw [List.flatMap_eq_nil_iff] at h0
      have hw0 : w = [] := by simpa using h0 w hw
      rw [hX, List.mem_map] at hw
      obtain ⟨w', hw', rfl⟩ := hw
      rw [List.mem_map] at hw'
      obtain ⟨e, he, rfl⟩ := hw'
      obtain ⟨c, t, _, _, _, _, _, _, he1⟩ := (mem_specSamples _ _ _ h.2.1 _ _ e).mp he
      rw [he1] at hw0
      have := congrArg List.length hw0
      simp [window] at this
      omega
    set φ : List (List (Fl ℝ)) → F := fun w => f ((w.map fun row => row.map val).map fun row =>
      (List.range vars.length).map fun i => (row.getD i 0 - m i) / s i) with hφ
    obtain ⟨sm, g, r1, r2, r3, _, r5⟩ := C53_round_trip ds vars data h hv L hL ds.ids φ
    rw [hsam] at r1
    obtain rfl := Except.ok.inj r1
    refine ⟨g, m, s, hs, ?_, r3, ?_⟩
    · unfold wetDry1dCnn
      rw [if_neg (by simpa using hco), Option.getD_none, hsam]
      dsimp only
      rw [← hS, ← hX, hsc]
      dsimp only
      rw [hnet, ← r2]
      congr 1
      rw [hX, List.map_map, List.map_map]
      rfl
    · intro t c row hc hrow
      obtain ⟨q1, q2⟩ := r5 t c ds.ids[c] row (List.getElem?_eq_getElem hc) hrow
      constructor
      · rintro ⟨h1, h2⟩
        rw [q1 (List.getElem_mem _) h1 h2, hφ]
        dsimp only
        congr 2
        unfold window scaledWindow
        rw [List.map_map, List.map_map]
        apply List.map_congr_left
        intro j _
        simp only [Function.comp_apply, List.map_map]
        rfl
      · intro hn
        exact q2 fun hh => hn hh.2
  · intro hno
    have hSe : S = [] := by
      rw [List.eq_nil_iff_forall_not_mem]
      intro e he
      obtain ⟨c, t, _, h2, _, h4, h5, h6, _⟩ := (mem_specSamples _ _ _ h.2.1 _ _ e).mp he
      exact hno ⟨c, t, (List.getElem?_eq_some_iff.mp h2).1, h4, h5, h6⟩
    unfold wetDry1dCnn
    rw [if_neg (by simpa using hco), Option.getD_none, hsam, ← hS, hSe]
    dsimp only
    unfold scaleFeatures
    rw [if_pos (by simp), if_neg hnv]

/-- **C72** A missing `id_coord` is reported with `KeyError` before anything else is looked at. -/
theorem C72_id_coord_checked [DecidableEq ι] [PyFloat F] (net : List (List (List ℝ)) → List F)
    (ds : Ds ι ℝ) (vars : List String) (L : Nat) (coords : List String) (idCoord : String)
    (hco : idCoord ∉ coords) (idValues : List ι) (cmlIds : Option (List ι)) :
    wetDry1dCnn net ds coords idCoord idValues vars L cmlIds = .error .keyError := by
  unfold wetDry1dCnn
  rw [if_pos hco]

/-- **C72** `id_coord` is checked for presence but links are always selected with `cml_id=`: for a
dataset whose link dimension has another name every call raises `IndexError`, whatever
`id_coord`, ids and data. -/
theorem C72_id_coord_unused [DecidableEq ι] [PyFloat F] (net : List (List (List ℝ)) → List F)
    (ds : Ds ι ℝ) (hd : ds.dim ≠ "cml_id") (vars : List String) (hv : vars ≠ []) (L : Nat)
    (hL : 0 < L) (coords : List String) (idCoord : String) (hco : idCoord ∈ coords)
    (idValues : List ι) (cmlIds : Option (List ι)) :
    wetDry1dCnn net ds coords idCoord idValues vars L cmlIds = .error .indexError := by
  have hnv : vars.length ≠ 0 := by simpa using hv
  have one : ∀ cml ∈ cmlIds.getD idValues, samplesOne ds vars L cml = .ok ⟨[], [], []⟩ := by
    intro cml _
    unfold samplesOne inputsOf Ds.pos
    rw [if_pos hd]
  unfold wetDry1dCnn
  rw [if_neg (by simpa using hco)]
  unfold createSamples
  rw [if_neg (by omega), mapM_ok _ _ _ one]
  dsimp only
  have : ∀ l : List ι, (l.map fun _ => (⟨[], [], []⟩ : Tf.Samples ι ℝ)).flatMap (·.x) = [] := by
    intro l
    rw [List.flatMap_eq_nil_iff]
    intro x hx
    rw [List.mem_map] at hx
    obtain ⟨_, _, rfl⟩ := hx
    rfl
  rw [this]
  unfold scaleFeatures
  rw [if_pos (by simp), if_neg hnv]

theorem tf_cols_missing (ds : Ds ι K) (c : Nat) (vars : List String)
    (h : ∃ v ∈ vars, ds.vars.find? (fun e => e.1 == v) = none) : vars.mapM (ds.col c) = .error .keyError := by
  induction vars with
  | nil => simp at h
  | cons v vs ih =>
    rw [List.mapM_cons]
    cases hf : ds.vars.find? (fun e => e.1 == v) with
    | none =>
      have : ds.col c v = .error .keyError := by
        unfold Ds.col
        rw [hf]
      rw [this]
      rfl
    | some e =>
      have h1 : ds.col c v = .ok (e.2.getD c []) := by
        unfold Ds.col
        rw [hf]
      have h2 : ∃ v ∈ vs, ds.vars.find? (fun e => e.1 == v) = none := by
        obtain ⟨w, hw, hwn⟩ := h
        rcases List.mem_cons.mp hw with rfl | hw
        · rw [hf] at hwn
          cases hwn
        · exact ⟨w, hw, hwn⟩
      rw [h1, ih h2]
      rfl

/-- **C72** An input variable that is not in the dataset is not reported: the `KeyError` is caught for every link and the
call ends with `IndexError` in the scaling. -/
theorem C72_missing_variable [DecidableEq ι] [PyFloat F] (net : List (List (List ℝ)) → List F)
    (ds : Ds ι ℝ) (hnd : ds.ids.Nodup) (vars : List String) (v : String) (hv : v ∈ vars)
    (hmiss : ∀ e ∈ ds.vars, e.1 ≠ v) (L : Nat) (hL : 0 < L) (coords : List String) (idCoord : String)
    (hco : idCoord ∈ coords) (idValues : List ι) (cmlIds : Option (List ι)) :
    wetDry1dCnn net ds coords idCoord idValues vars L cmlIds = .error .indexError := by
  have hnv : vars.length ≠ 0 := by
    rintro h0
    rw [List.length_eq_zero_iff] at h0
    simp [h0] at hv
  have hnone : ds.vars.find? (fun e => e.1 == v) = none := by
    rw [List.find?_eq_none]
    intro e he
    simpa using hmiss e he
  have one : ∀ cml ∈ cmlIds.getD idValues, samplesOne ds vars L cml = .ok ⟨[], [], []⟩ := by
    intro cml _
    unfold samplesOne inputsOf Ds.pos
    by_cases hd : ds.dim = "cml_id"
    · rw [if_neg (by simpa using hd)]
      cases hf : ds.ids.findIdx? (fun i => decide (i = cml)) with
      | none => rfl
      | some c =>
        dsimp only
        rw [List.findIdx?_eq_some_iff_getElem] at hf
        obtain ⟨hlt, hce, _⟩ := hf
        simp only [decide_eq_true_eq] at hce
        rw [if_pos (List.count_eq_one_of_mem hnd (hce ▸ List.getElem_mem hlt))]
        dsimp only
        rw [if_neg hnv, tf_cols_missing ds c vars ⟨v, hv, hnone⟩]
    · rw [if_pos hd]
  unfold wetDry1dCnn
  rw [if_neg (by simpa using hco)]
  unfold createSamples
  rw [if_neg (by omega), mapM_ok _ _ _ one]
  dsimp only
  have : ∀ l : List ι, (l.map fun _ => (⟨[], [], []⟩ : Tf.Samples ι ℝ)).flatMap (·.x) = [] := by
    intro l
    rw [List.flatMap_eq_nil_iff]
    intro x hx
    rw [List.mem_map] at hx
    obtain ⟨_, _, rfl⟩ := hx
    rfl
  rw [this]
  unfold scaleFeatures
  rw [if_pos (by simp), if_neg hnv]

/-- **C72** Without input variables the call raises `ValueError` as soon as one of the requested links exists. -/
theorem C72_no_variables [DecidableEq ι] [PyFloat F] (net : List (List (List ℝ)) → List F)
    (ds : Ds ι ℝ) (hd : ds.dim = "cml_id") (hnd : ds.ids.Nodup) (L : Nat) (hL : 0 < L) (coords : List String)
    (idCoord : String) (hco : idCoord ∈ coords) (idValues : List ι) (cmlIds : Option (List ι))
    (hex : ∃ cml ∈ cmlIds.getD idValues, cml ∈ ds.ids) :
    wetDry1dCnn net ds coords idCoord idValues [] L cmlIds = .error .valueError := by
  have hh : Holds ds [] (fun _ _ _ => Fl.nan) := ⟨hd, hnd, by simp⟩
  have known : ∀ cml ∈ ds.ids, samplesOne ds [] L cml = .error .valueError := by
    intro cml hm
    obtain ⟨c, hc⟩ := List.mem_iff_getElem?.mp hm
    unfold samplesOne inputsOf
    rw [(pos_ok hh cml).1 c hc]
    rfl
  have unknown : ∀ cml, cml ∉ ds.ids → samplesOne ds [] L cml = .ok ⟨[], [], []⟩ := by
    intro cml hm
    unfold samplesOne inputsOf
    rw [(pos_ok hh cml).2 hm]
  have all : ∀ l : List ι, (∃ cml ∈ l, cml ∈ ds.ids) → l.mapM (samplesOne ds [] L) = .error .valueError := by
    intro l
    induction l with
    | nil => simp
    | cons x xs ih =>
      rintro ⟨cml, hc, hm⟩
      rw [List.mapM_cons]
      by_cases hx : x ∈ ds.ids
      · rw [known x hx]
        rfl
      · rw [unknown x hx, ih ?_]
        · rfl
        · rcases List.mem_cons.mp hc with rfl | hc
          · exact absurd hm hx
          · exact ⟨cml, hc, hm⟩
  unfold wetDry1dCnn
  rw [if_neg (by simpa using hco)]
  unfold createSamples
  rw [if_neg (by omega), all _ hex]

/-- a dataset with two links, one NaN -/
def exDs : Ds String ℝ :=
  ⟨"cml_id", ["A", "B"], 3, [("tl1", [[.fin 1, .fin 2, .fin 3], [.fin 4, .nan, .fin 6]])]⟩

/-- its values -/
def exData : String → Nat → Nat → Fl ℝ := fun _ c t =>
  ((exDs.vars.head?.map (·.2)).getD []).getD c [] |>.getD t .nan

theorem exHolds : Holds exDs ["tl1"] exData := by
  refine ⟨rfl, by decide, ?_⟩
  intro v hv
  rw [List.mem_singleton] at hv
  subst hv
  refine ⟨_, rfl, ?_⟩
  intro c hc
  have : c = 0 ∨ c = 1 := by
    simp [exDs] at hc
    omega
  rcases this with rfl | rfl <;> rfl

example : ∃ g, ∃ m s : Nat → ℝ, IsScale (pooled exDs ["tl1"] exData 2 "tl1") (m 0) (s 0) ∧
    wetDry1dCnn (F := Fl ℝ) (fun xs => xs.map fun w => Fl.fin w.flatten.sum) exDs ["cml_id"]
      "cml_id" exDs.ids ["tl1"] 2 none = .ok g := by
  obtain ⟨g, m, s, h1, h2, _⟩ := (C53_pipeline (F := Fl ℝ) (fun xs => xs.map fun w =>
    Fl.fin w.flatten.sum) _ (fun _ => rfl) exDs ["tl1"] exData exHolds (by simp) 2 (by norm_num)
    ["cml_id"] (by simp)).1 ⟨0, 1, by decide, by decide, by norm_num, by
      intro j hj v _
      have : j = 0 ∨ j = 1 := by omega
      rcases this with rfl | rfl
      · exact ⟨1, rfl⟩
      · exact ⟨2, rfl⟩⟩
  exact ⟨g, m, s, h1 0 _ rfl, h2⟩

example : storePredictions (F := Fl ℚ) ["A", "B"] 3 [.fin 1, .fin 2, .fin 3] ["B", "X", "B"]
    [0, 1, 7] none = .ok [[.nan, .fin 1], [.nan, .nan], [.nan, .nan]] := by decide +kernel

example : wetDry1dCnn (F := Fl ℝ) (fun xs => xs.map fun w => Fl.fin w.flatten.sum)
    { exDs with dim := "link" } ["link"] "link" ["A", "B"] ["tl1"] 2 none = .error .indexError :=
  C72_id_coord_unused _ _ (by simp) _ (by simp) _ (by norm_num) _ _ (by simp) _ _

example : wetDry1dCnn (F := Fl ℝ) (fun xs => xs.map fun w => Fl.fin w.flatten.sum) exDs ["cml_id"] "cml_id" exDs.ids
    ["tl1", "tl2"] 2 none = .error .indexError :=
  C72_missing_variable _ _ exHolds.2.1 _ "tl2" (by simp) (by simp [exDs]) _ (by norm_num) _ _ (by simp) _ _

example : wetDry1dCnn (F := Fl ℝ) (fun xs => xs.map fun w => Fl.fin w.flatten.sum) exDs ["cml_id"] "cml_id" exDs.ids
    [] 2 (some ["X", "B"]) = .error .valueError :=
  C72_no_variables _ _ rfl exHolds.2.1 _ (by norm_num) _ _ (by simp) _ _ ⟨"B", by simp, by simp [exDs]⟩

end Verif.Props
