import Verif.Model.HourlyMap
import Verif.Props.GapMap

/-!
Maps of rain amounts: hourly means of the rates, their sum, links that are wet too often left out, inverse distance weighting.  Exact arithmetic.
-/

namespace Verif.Props

open Verif Verif.Idw Verif.HourlyMap

/-- a record of `T` rain rates, some of them missing -/
noncomputable def rateRecord (T : ℕ) (ρ : ℕ → Option ℝ) : List (Fl ℝ) := (List.range T).map fun t => optF (ρ t)

/-- number of rates in hour `h`, `m` steps per hour -/
def hourCount (m : ℕ) (ρ : ℕ → Option ℝ) (h : ℕ) : ℕ := ((Finset.range m).filter fun k => (ρ (m * h + k)).isSome).card

/-- sum of the rates in hour `h` that are not missing -/
noncomputable def hourSum (m : ℕ) (ρ : ℕ → Option ℝ) (h : ℕ) : ℝ := ∑ k ∈ Finset.range m, (ρ (m * h + k)).getD 0

theorem optF_filter (l : List (Option ℝ)) : ((l.map optF).filter fun x => !(isNaN x)) = (l.filterMap id).map Fl.fin := by
  induction l with
  | nil => rfl
  | cons a l ih => cases a <;> simpa [optF] using ih

theorem filterMap_id_sum (l : List (Option ℝ)) : (l.filterMap id).sum = (l.map fun x => x.getD 0).sum := by
  induction l with
  | nil => rfl
  | cons a l ih => cases a <;> simpa using ih

theorem filterMap_id_length (l : List (Option ℝ)) : (l.filterMap id).length = (l.filter Option.isSome).length := by
  induction l with
  | nil => rfl
  | cons a l ih => cases a <;> simpa using ih

theorem nanmean_optF (l : List (Option ℝ)) :
    npNanmean (l.map optF) = if (l.filter Option.isSome).length = 0 then .nan else
      .fin ((l.map fun x => x.getD 0).sum / (l.filter Option.isSome).length) := by
  unfold npNanmean
  rw [optF_filter, ← filterMap_id_length, ← filterMap_id_sum]
  split
  · next h => rw [List.length_eq_zero_iff.mp h]; exact (by unfold npMean fsum; simp [Fl.pf_div_fin, Fl.infSign])
  · next h => exact npMean_map_fin h

theorem block_get (m H : ℕ) (ρ : ℕ → Option ℝ) (h : ℕ) (hh : h < H) :
    ((rateRecord (m * H) ρ).drop (m * h)).take m = ((List.range m).map fun k => ρ (m * h + k)).map optF := by
  have e : m * h + m ≤ m * H := by
    have := Nat.mul_le_mul_left m (show h + 1 ≤ H from hh)
    rwa [Nat.mul_add, Nat.mul_one] at this
  apply List.ext_getElem?
  intro k
  rw [List.getElem?_take]
  unfold rateRecord
  split
  · next hk =>
    rw [List.getElem?_drop, List.getElem?_map, List.getElem?_map, List.getElem?_map, List.getElem?_range hk,
      List.getElem?_range (by omega)]
    rfl
  · next hk => rw [List.getElem?_eq_none (by simpa using hk)]

theorem hourMeans_eq {m : ℕ} (hm : 0 < m) (H : ℕ) (ρ : ℕ → Option ℝ) :
    hourMeans m (rateRecord (m * H) ρ) =
      (List.range H).map fun h => if hourCount m ρ h = 0 then .nan else .fin (hourSum m ρ h / hourCount m ρ h) := by
  unfold hourMeans blocks
  have e : ((rateRecord (m * H) ρ).length + m - 1) / m = H := by
    have : (rateRecord (m * H) ρ).length = m * H := by simp [rateRecord]
    rw [this, Nat.add_sub_assoc (by omega), Nat.mul_add_div hm, Nat.div_eq_of_lt (by omega)]
    rfl
  rw [e, List.map_map]
  refine List.map_congr_left fun h hh => ?_
  rw [Function.comp_apply, block_get m H ρ h (List.mem_range.mp hh), nanmean_optF]
  have c : (((List.range m).map fun k => ρ (m * h + k)).filter Option.isSome).length = hourCount m ρ h := by
    unfold hourCount
    rw [List.filter_map, List.length_map, Finset.card_def, Finset.filter_val, ← Multiset.coe_card]
    congr 1
    show _ = Multiset.filter _ (↑(List.range m) : Multiset ℕ)
    rw [Multiset.filter_coe]
    congr 2
    funext k
    simp
  rw [c, List.map_map]
  rfl

/-- **C178** An hourly mean is the mean of the rates of the hour that are not missing, NaN if all are. -/
theorem C178_hours {m : ℕ} (hm : 0 < m) (H : ℕ) (ρ : ℕ → Option ℝ) :
    (hourMeans m (rateRecord (m * H) ρ)).length = H ∧ ∀ h < H,
      ((∀ k < m, ρ (m * h + k) = none) → (hourMeans m (rateRecord (m * H) ρ))[h]? = some .nan) ∧
      ((∃ k < m, ρ (m * h + k) ≠ none) → ∃ r, (hourMeans m (rateRecord (m * H) ρ))[h]? = some (.fin r) ∧
        r * ((Finset.range m).filter fun k => (ρ (m * h + k)).isSome).card = ∑ k ∈ Finset.range m, (ρ (m * h + k)).getD 0 ∧
        ∀ lo hi : ℝ, (∀ k < m, ∀ x, ρ (m * h + k) = some x → lo ≤ x ∧ x ≤ hi) → lo ≤ r ∧ r ≤ hi) := by
  rw [hourMeans_eq hm]
  refine ⟨by simp, fun h hh => ?_⟩
  rw [List.getElem?_map, List.getElem?_range hh, Option.map_some]
  constructor
  · intro hn
    rw [if_pos]
    unfold hourCount
    rw [Finset.card_eq_zero, Finset.filter_eq_empty_iff]
    intro k hk
    simp [hn k (Finset.mem_range.mp hk)]
  · rintro ⟨k, hk, hs⟩
    have hpos : 0 < hourCount m ρ h := by
      unfold hourCount
      exact Finset.card_pos.mpr ⟨k, Finset.mem_filter.mpr ⟨Finset.mem_range.mpr hk, Option.isSome_iff_ne_none.mpr hs⟩⟩
    have hpos' : (0 : ℝ) < hourCount m ρ h := by exact_mod_cast hpos
    rw [if_neg (by omega)]
    refine ⟨_, rfl, div_mul_cancel₀ _ hpos'.ne', fun lo hi hb => ?_⟩
    have hsum : hourSum m ρ h = ∑ k ∈ (Finset.range m).filter (fun k => (ρ (m * h + k)).isSome), (ρ (m * h + k)).getD 0 := by
      unfold hourSum
      rw [Finset.sum_filter]
      refine Finset.sum_congr rfl fun k _ => ?_
      cases ρ (m * h + k) <;> simp
    have hbk : ∀ k ∈ (Finset.range m).filter (fun k => (ρ (m * h + k)).isSome), lo ≤ (ρ (m * h + k)).getD 0 ∧ (ρ (m * h + k)).getD 0 ≤ hi := by
      intro k hk
      obtain ⟨h1, h2⟩ := Finset.mem_filter.mp hk
      obtain ⟨x, hx⟩ := Option.isSome_iff_exists.mp h2
      rw [hx]
      exact hb k (Finset.mem_range.mp h1) x hx
    have h1 := Finset.card_nsmul_le_sum _ _ lo fun k hk => (hbk k hk).1
    have h2 := Finset.sum_le_card_nsmul _ _ hi fun k hk => (hbk k hk).2
    rw [nsmul_eq_mul] at h1 h2
    rw [hsum]
    exact ⟨(le_div_iff₀' hpos').mpr h1, (div_le_iff₀' hpos').mpr h2⟩

theorem amount_eq {m : ℕ} (hm : 0 < m) (H : ℕ) (ρ : ℕ → Option ℝ) :
    amount m (rateRecord (m * H) ρ) = .fin (∑ h ∈ Finset.range H, hourSum m ρ h / hourCount m ρ h) := by
  unfold amount Validator.nansum
  rw [hourMeans_eq hm]
  have e : ((List.range H).map fun h => if hourCount m ρ h = 0 then (Fl.nan : Fl ℝ) else .fin (hourSum m ρ h / hourCount m ρ h)) =
      ((List.range H).map fun h => if hourCount m ρ h = 0 then none else some (hourSum m ρ h / hourCount m ρ h)).map optF := by
    rw [List.map_map]
    refine List.map_congr_left fun h _ => ?_
    rw [Function.comp_apply]
    split <;> rfl
  rw [e, optF_filter, fsum_map_fin, filterMap_id_sum, List.map_map]
  congr 1
  show _ = ((List.range H).map fun h => hourSum m ρ h / (hourCount m ρ h : ℝ)).sum
  congr 1
  refine List.map_congr_left fun h _ => ?_
  rw [Function.comp_apply]
  split
  · next h0 => simp [h0]
  · rfl

theorem sum_hours (m H : ℕ) (f : ℕ → ℝ) :
    ∑ h ∈ Finset.range H, ∑ k ∈ Finset.range m, f (m * h + k) = ∑ t ∈ Finset.range (m * H), f t := by
  induction H with
  | zero => simp
  | succ H ih => rw [Finset.sum_range_succ, ih, Nat.mul_succ, Finset.sum_range_add]

theorem hourCount_full (m : ℕ) (r : ℕ → ℝ) (h : ℕ) : hourCount m (fun t => some (r t)) h = m := by
  simp [hourCount]

/-- **C178** If no rate is missing, the amount is the sum of the rates (per hour) times the step (hours). -/
theorem C178_amount {m : ℕ} (hm : 0 < m) (H : ℕ) (r : ℕ → ℝ) :
    amount m (rateRecord (m * H) fun t => some (r t)) = .fin ((∑ t ∈ Finset.range (m * H), r t) / m) := by
  rw [amount_eq hm]
  congr 1
  rw [← sum_hours, Finset.sum_div]
  refine Finset.sum_congr rfl fun h _ => ?_
  rw [hourCount_full]
  rfl

/-- **C178** With missing rates: the amount is the sum of the means of the hours with a rate. An hour in which rates are missing counts as if its other rates were the mean of the present ones; an hour
without rates counts as dry. So if each rate is within `e` of the mean of the true rates of its hour, the amount is within `H e` of the true amount over the hours with a rate. -/
theorem C178_missing {m : ℕ} (hm : 0 < m) (H : ℕ) (ρ : ℕ → Option ℝ) (R : ℕ → ℝ) (e : ℝ)
    (he : ∀ h < H, ∀ k < m, ∀ x, ρ (m * h + k) = some x → |x - (∑ j ∈ Finset.range m, R (m * h + j)) / m| ≤ e) :
    ∃ A, amount m (rateRecord (m * H) ρ) = .fin A ∧
      |A - (∑ h ∈ (Finset.range H).filter (fun h => ∃ k < m, ρ (m * h + k) ≠ none), ∑ j ∈ Finset.range m, R (m * h + j)) / m| ≤
        e * ((Finset.range H).filter fun h => ∃ k < m, ρ (m * h + k) ≠ none).card := by
  have hz : ∀ h, ¬ (∃ k < m, ρ (m * h + k) ≠ none) → hourSum m ρ h / hourCount m ρ h = 0 := by
    intro h hn
    push Not at hn
    rw [show hourSum m ρ h = 0 from Finset.sum_eq_zero fun k hk => by rw [hn k (Finset.mem_range.mp hk)]; rfl, zero_div]
  refine ⟨_, amount_eq hm H ρ, ?_⟩
  rw [← Finset.sum_filter_of_ne (p := fun h => ∃ k < m, ρ (m * h + k) ≠ none)
    (fun h _ hne => by by_contra hc; exact hne (hz h hc)), Finset.sum_div, ← Finset.sum_sub_distrib]
  refine (Finset.abs_sum_le_sum_abs _ _).trans ?_
  rw [mul_comm, ← nsmul_eq_mul]
  refine Finset.sum_le_card_nsmul _ _ _ fun h hh => ?_
  obtain ⟨h1, h2⟩ := Finset.mem_filter.mp hh
  have h1 := Finset.mem_range.mp h1
  obtain ⟨r, g1, g2, g3⟩ := ((C178_hours hm H ρ).2 h h1).2 h2
  have hr : r = hourSum m ρ h / hourCount m ρ h := by
    obtain ⟨k, hk, hs⟩ := h2
    have hpos : 0 < hourCount m ρ h := by
      unfold hourCount
      exact Finset.card_pos.mpr ⟨k, Finset.mem_filter.mpr ⟨Finset.mem_range.mpr hk, Option.isSome_iff_ne_none.mpr hs⟩⟩
    have : (0 : ℝ) < hourCount m ρ h := by exact_mod_cast hpos
    rw [eq_div_iff this.ne']
    exact g2
  rw [← hr, abs_le]
  have := g3 ((∑ j ∈ Finset.range m, R (m * h + j)) / m - e) ((∑ j ∈ Finset.range m, R (m * h + j)) / m + e) (fun k hk x hx => by
    have := abs_le.mp (he h h1 k hk x hx)
    constructor <;> linarith [this.1, this.2])
  constructor <;> linarith [this.1, this.2]

/-- **C178** (finding) A link without any rate has the amount 0, not NaN. -/
theorem C178_dead {m : ℕ} (hm : 0 < m) (H : ℕ) : amount m (rateRecord (m * H) fun _ => none) = .fin 0 := by
  rw [amount_eq hm]
  congr 1
  refine Finset.sum_eq_zero fun h _ => ?_
  simp [hourSum]

/-- A link stays in the map: it has wet flags, of which less than the share `limit` is 1. -/
def Kept (limit : ℝ) (wet : List (Fl ℝ)) : Prop :=
  wet ≠ [] ∧ ({i ∈ Finset.range wet.length | wet[i]? = some (.fin 1)}.card : ℝ) < limit * wet.length

theorem count_wet (wet : List (Fl ℝ)) : (wet.filter fun w => w ==ᶠ PyFloat.ofInt 1).length =
    {i ∈ Finset.range wet.length | wet[i]? = some (.fin 1)}.card := by
  induction wet using List.reverseRecOn with
  | nil => rfl
  | append_singleton l a ih =>
    rw [List.filter_append, List.length_append, ih, List.length_append, List.length_singleton, Finset.range_add_one, Finset.filter_insert]
    have hl : ({i ∈ Finset.range l.length | (l ++ [a])[i]? = some (Fl.fin 1)} : Finset ℕ) = {i ∈ Finset.range l.length | l[i]? = some (Fl.fin 1)} := by
      refine Finset.filter_congr fun i hi => ?_
      rw [List.getElem?_append_left (Finset.mem_range.mp hi)]
    have ha : (l ++ [a])[l.length]? = some a := by simp
    rw [hl, ha]
    have hb : ((a ==ᶠ PyFloat.ofInt 1) = true) ↔ some a = some (Fl.fin (1 : ℝ)) := by
      cases a with
      | fin x => simp
      | nan => simp
      | pinf => constructor <;> intro hc <;> cases hc
      | ninf => constructor <;> intro hc <;> cases hc
    by_cases h : some a = some (Fl.fin (1 : ℝ))
    · rw [if_pos h, Finset.card_insert_of_notMem (by simp), List.filter_cons_of_pos (p := fun w => w ==ᶠ PyFloat.ofInt 1) (hb.mpr h)]
      rfl
    · rw [if_neg h, List.filter_cons_of_neg (p := fun w => w ==ᶠ PyFloat.ofInt 1) (fun hc => h (hb.mp hc))]
      rfl

open Classical in
theorem mapValue_eq (limit : ℝ) (m : ℕ) (rates wet : List (Fl ℝ)) :
    mapValue (.fin limit) m rates wet = if Kept limit wet then amount m rates else .nan := by
  unfold mapValue wetFraction Kept
  rw [count_wet]
  rcases eq_or_ne wet [] with rfl | hne
  · simp [Fl.pf_div_fin, Fl.infSign]
  · have hl : (0 : ℝ) < wet.length := by exact_mod_cast List.length_pos_iff.mpr hne
    rw [Fl.pf_ofInt, Fl.pf_ofInt, Fl.pf_div_fin_ne (y := ((wet.length : ℤ) : ℝ)) _ (by simpa using hne), Fl.pf_lt_fin]
    simp only [Int.cast_natCast, decide_eq_true_eq, div_lt_iff₀ hl, hne, ne_eq, not_false_eq_true, true_and]
    rfl

open Classical in
/-- The map of the amounts is that of the amounts of the links kept. -/
theorem amountMap_idw (knn : Knn) (cfg : Config) (hcfg : cfg.excludeNan = true) (limit : ℝ) (m : ℕ) (links : List MapLink)
    (v : MapLink → ℝ) (hv : ∀ l ∈ links, Kept limit l.wet → amount m l.rates = .fin (v l)) (xg yg : Grid ℝ) :
    amountMap knn cfg (.fin limit) m links xg yg = idwMap knn cfg.nnear cfg.p cfg.maxDistance
      (links.map fun l => (l.pos, if Kept limit l.wet then some (v l) else none)) xg yg := by
  obtain ⟨nn, p, ex, D⟩ := cfg
  subst hcfg
  unfold amountMap idwMap
  rw [List.map_map, List.map_map, List.map_map]
  have : (links.map fun l => mapValue (.fin limit) m l.rates l.wet) =
      links.map ((fun e : Pt × Option ℝ => optF e.2) ∘ fun l : MapLink => (l.pos, if Kept limit l.wet then some (v l) else none)) := by
    refine List.map_congr_left fun l hl => ?_
    rw [mapValue_eq, Function.comp_apply]
    by_cases hk : Kept limit l.wet
    · simp only [if_pos hk, hv l hl hk, optF]
    · simp only [if_neg hk, optF]
  rw [this]
  rfl

theorem idwMap_sum {knn : Knn} (hk : IsKnn knn) {nnear : Int} (hn : 1 < nnear) (p : ℝ) (D : Option (Fl ℝ))
    (pts : List (Pt × Option (ℕ → ℝ))) (xg yg : Grid ℝ)
    (hshape : xg.map List.length = yg.map List.length) (hne : xg.flatten ≠ []) (zt : ℕ → Grid (Fl ℝ))
    (hzt : ∀ t, idwMap knn nnear p D (pts.map fun e => (e.1, e.2.map fun f => f t)) xg yg = .ok (zt t)) (c : ℝ) (n : ℕ) :
    ∃ z, idwMap knn nnear p D (pts.map fun e => (e.1, e.2.map fun f => c * ∑ t ∈ Finset.range n, f t)) xg yg = .ok z ∧
      z.map List.length = xg.map List.length ∧
      ∀ i < xg.flatten.length, ((∀ t, (zt t).flatten[i]? = some .nan) ∧ z.flatten[i]? = some .nan) ∨
        ∃ r : ℕ → ℝ, (∀ t, (zt t).flatten[i]? = some (.fin (r t))) ∧ z.flatten[i]? = some (.fin (c * ∑ t ∈ Finset.range n, r t)) := by
  have lin : ∀ (f g h : (ℕ → ℝ) → ℝ) (s t : ℝ), (∀ u, h u = s * f u + t * g u) →
      ∃ z1 z2 z, idwMap knn nnear p D (pts.map fun e => (e.1, e.2.map f)) xg yg = .ok z1 ∧
        idwMap knn nnear p D (pts.map fun e => (e.1, e.2.map g)) xg yg = .ok z2 ∧
        idwMap knn nnear p D (pts.map fun e => (e.1, e.2.map h)) xg yg = .ok z ∧ z.map List.length = xg.map List.length ∧
        ∀ i < xg.flatten.length,
          (z1.flatten[i]? = some .nan ∧ z2.flatten[i]? = some .nan ∧ z.flatten[i]? = some .nan) ∨
          ∃ r1 r2, z1.flatten[i]? = some (.fin r1) ∧ z2.flatten[i]? = some (.fin r2) ∧ z.flatten[i]? = some (.fin (s * r1 + t * r2)) := by
    intro f g h s t hh
    obtain ⟨z1, z2, z, a1, a2, a3, -, -, b, c⟩ := C133_linear hk hn p D (pts.map fun e => (e.1, e.2.map fun u => (f u, g u))) s t xg yg hshape hne
    have e : ∀ q : ℝ × ℝ → ℝ, valuesOf q (pts.map fun e => (e.1, e.2.map fun u => (f u, g u))) =
        pts.map fun e => (e.1, e.2.map fun u => q (f u, g u)) := by
      intro q
      unfold valuesOf
      rw [List.map_map]
      refine List.map_congr_left fun e _ => ?_
      simp [Function.comp_def]
    rw [e] at a1 a2 a3
    refine ⟨z1, z2, z, a1, a2, ?_, b, c⟩
    rw [← a3]
    congr 2
    funext e
    congr 2
    funext u
    exact hh u
  have same : ∀ t t' i, i < xg.flatten.length → ((zt t).flatten[i]? = some .nan ∧ (zt t').flatten[i]? = some .nan) ∨
      ∃ r r', (zt t).flatten[i]? = some (.fin r) ∧ (zt t').flatten[i]? = some (.fin r') := by
    intro t t' i hi
    obtain ⟨z1, z2, z, a1, a2, -, -, c⟩ := lin (fun f => f t) (fun f => f t') (fun f => 1 * f t + 1 * f t') 1 1 (fun _ => rfl)
    rw [hzt] at a1 a2
    cases a1
    cases a2
    rcases c i hi with ⟨h1, h2, -⟩ | ⟨r1, r2, h1, h2, -⟩
    · exact .inl ⟨h1, h2⟩
    · exact .inr ⟨r1, r2, h1, h2⟩
  induction n with
  | zero =>
    obtain ⟨z1, z2, z, a1, a2, a3, b, c'⟩ := lin (fun f => f 0) (fun f => f 0) (fun f => c * ∑ t ∈ Finset.range 0, f t) 0 0 (by simp)
    rw [hzt] at a1
    cases a1
    refine ⟨z, a3, b, fun i hi => ?_⟩
    rcases c' i hi with ⟨h1, -, h3⟩ | ⟨r1, r2, h1, -, h3⟩
    · left
      refine ⟨fun t => ?_, h3⟩
      rcases same 0 t i hi with ⟨-, h⟩ | ⟨r, r', h, -⟩
      · exact h
      · rw [h1] at h; cases h
    · right
      have : ∀ t, ∃ r, (zt t).flatten[i]? = some (.fin r) := by
        intro t
        rcases same 0 t i hi with ⟨h, -⟩ | ⟨r, r', -, h⟩
        · rw [h1] at h; cases h
        · exact ⟨r', h⟩
      choose r hr using this
      exact ⟨r, hr, by rw [h3]; simp⟩
  | succ n ih =>
    obtain ⟨z0, d1, d2, d3⟩ := ih
    obtain ⟨z1, z2, z, a1, a2, a3, b, c'⟩ := lin (fun f => c * ∑ t ∈ Finset.range n, f t) (fun f => f n)
      (fun f => c * ∑ t ∈ Finset.range (n + 1), f t) 1 c (by intro u; rw [Finset.sum_range_succ]; ring)
    rw [hzt] at a2
    rw [d1] at a1
    cases a1
    cases a2
    refine ⟨z, a3, b, fun i hi => ?_⟩
    rcases d3 i hi with ⟨g1, g2⟩ | ⟨r, g1, g2⟩
    · rcases c' i hi with ⟨-, -, h3⟩ | ⟨r1, r2, h1, -, -⟩
      · exact .inl ⟨g1, h3⟩
      · rw [g2] at h1; cases h1
    · rcases c' i hi with ⟨h1, -, -⟩ | ⟨r1, r2, h1, h2, h3⟩
      · rw [g2] at h1; cases h1
      · right
        refine ⟨r, g1, ?_⟩
        rw [g2] at h1
        rw [g1] at h2
        cases h1
        cases h2
        rw [h3, Finset.sum_range_succ]
        congr 2
        ring

/-- A link with a rate at every step. -/
structure RainLink where
  pos : Pt
  r : ℕ → ℝ
  wet : List (Fl ℝ)

open Classical in
/-- **C178** The map of the amounts is the sum of the maps of the rates of the single steps times the step, if no rate is missing: both of the links that are wet less often than the limit. -/
theorem C178_map {knn : Knn} (hk : IsKnn knn) (cfg : Config) (hcfg : cfg.excludeNan = true) (hn : 1 < cfg.nnear) (limit : ℝ) {m : ℕ} (hm : 0 < m) (H : ℕ)
    (links : List RainLink) (xg yg : Grid ℝ) (hshape : xg.map List.length = yg.map List.length) (hne : xg.flatten ≠ []) :
    ∃ z, amountMap knn cfg (.fin limit) m (links.map fun l => ⟨l.pos, rateRecord (m * H) fun t => some (l.r t), l.wet⟩) xg yg = .ok z ∧
      z.map List.length = xg.map List.length ∧
      ∃ zt : ℕ → Grid (Fl ℝ), (∀ t, idwMap knn cfg.nnear cfg.p cfg.maxDistance
          (links.map fun l => (l.pos, if Kept limit l.wet then some (l.r t) else none)) xg yg = .ok (zt t)) ∧
        ∀ i < xg.flatten.length, ((∀ t, (zt t).flatten[i]? = some .nan) ∧ z.flatten[i]? = some .nan) ∨
          ∃ r : ℕ → ℝ, (∀ t, (zt t).flatten[i]? = some (.fin (r t))) ∧
            z.flatten[i]? = some (.fin ((∑ t ∈ Finset.range (m * H), r t) / m)) := by
  have hzt : ∀ t, ∃ z, idwMap knn cfg.nnear cfg.p cfg.maxDistance
      (links.map fun l => (l.pos, if Kept limit l.wet then some (l.r t) else none)) xg yg = .ok z := fun t => by
    obtain ⟨z, h, -⟩ := idwMap_cells knn hn cfg.p cfg.maxDistance
      (links.map fun l => (l.pos, if Kept limit l.wet then some (l.r t) else none)) xg yg hshape hne
    exact ⟨z, h⟩
  choose zt hzt using hzt
  have hz := idwMap_sum hk hn cfg.p cfg.maxDistance (links.map fun l => (l.pos, if Kept limit l.wet then some l.r else none)) xg yg hshape hne zt
    (fun t => by
      rw [← hzt t, List.map_map]
      congr 1
      refine List.map_congr_left fun l _ => ?_
      rw [Function.comp_apply]
      split <;> rfl) (1 / m) (m * H)
  obtain ⟨z, h1, h2, h3⟩ := hz
  refine ⟨z, ?_, h2, zt, hzt, fun i hi => ?_⟩
  · obtain ⟨nn, p, ex, D⟩ := cfg
    subst hcfg
    rw [← h1]
    unfold amountMap idwMap
    simp only [List.map_map]
    have : ∀ l ∈ links, mapValue (.fin limit) m (rateRecord (m * H) fun t => some (l.r t)) l.wet =
        optF ((if Kept limit l.wet then some l.r else none).map fun f => 1 / (m : ℝ) * ∑ t ∈ Finset.range (m * H), f t) := by
      intro l _
      rw [mapValue_eq, C178_amount hm]
      split
      · simp only [Option.map_some, optF]
        congr 1
        ring
      · rfl
    rw [show (links.map ((fun l : MapLink => mapValue (.fin limit) m l.rates l.wet) ∘
        fun l : RainLink => ⟨l.pos, rateRecord (m * H) fun t => some (l.r t), l.wet⟩)) = _ from List.map_congr_left this]
    rfl
  · rcases h3 i hi with h | ⟨r, g1, g2⟩
    · exact .inl h
    · exact .inr ⟨r, g1, by rw [g2]; congr 2; ring⟩

open Classical in
/-- **C178** Links that are wet too often have no influence on the map: leaving them out gives the same map. -/
theorem C178_filter (knn : Knn) (cfg : Config) (hcfg : cfg.excludeNan = true) (hn : 1 < cfg.nnear) (limit : ℝ) (m : ℕ) (links : List MapLink)
    (hfin : ∀ l ∈ links, Kept limit l.wet → ∃ v, amount m l.rates = .fin v) (xg yg : Grid ℝ)
    (hshape : xg.map List.length = yg.map List.length) (hne : xg.flatten ≠ []) :
    amountMap knn cfg (.fin limit) m links xg yg = amountMap knn cfg (.fin limit) m (links.filter fun l => Kept limit l.wet) xg yg := by
  have hv : ∃ v : MapLink → ℝ, ∀ l ∈ links, Kept limit l.wet → amount m l.rates = .fin (v l) := by
    have : ∀ l : MapLink, ∃ v, l ∈ links → Kept limit l.wet → amount m l.rates = .fin v := by
      intro l
      by_cases h : l ∈ links ∧ Kept limit l.wet
      · obtain ⟨v, hv⟩ := hfin l h.1 h.2
        exact ⟨v, fun _ _ => hv⟩
      · exact ⟨0, fun h1 h2 => absurd ⟨h1, h2⟩ h⟩
    choose v hv using this
    exact ⟨v, hv⟩
  obtain ⟨v, hv⟩ := hv
  rw [amountMap_idw knn cfg hcfg limit m links v hv, amountMap_idw knn cfg hcfg limit m _ v (fun l hl => hv l (List.mem_of_mem_filter hl))]
  obtain ⟨z1, a1, a2, a3⟩ := idwMap_cells knn hn cfg.p cfg.maxDistance
    (links.map fun l => (l.pos, if Kept limit l.wet then some (v l) else none)) xg yg hshape hne
  obtain ⟨z2, b1, b2, b3⟩ := idwMap_cells knn hn cfg.p cfg.maxDistance
    ((links.filter fun l => Kept limit l.wet).map fun l => (l.pos, if Kept limit l.wet then some (v l) else none)) xg yg hshape hne
  rw [a1, b1]
  congr 1
  refine grid_ext (a2.trans b2.symm) ?_
  have : withValue (links.map fun l => (l.pos, if Kept limit l.wet then some (v l) else none)) =
      withValue ((links.filter fun l => Kept limit l.wet).map fun l => (l.pos, if Kept limit l.wet then some (v l) else none)) := by
    clear hv hfin a1 a3 b1 b3
    induction links with
    | nil => rfl
    | cons l ls ih =>
      by_cases h : Kept limit l.wet
      · rw [List.filter_cons_of_pos (by simpa using h)]
        simp only [List.map_cons, withValue, if_pos h, List.filterMap_cons, Option.map_some] at ih ⊢
        rw [ih]
      · rw [List.filter_cons_of_neg (by simpa using h)]
        simp only [List.map_cons, withValue, if_neg h, List.filterMap_cons, Option.map_none] at ih ⊢
        exact ih
  rw [a3, b3, this]

open Classical in
/-- **C178** (finding) A link without any rate, but with dry flags, pulls the map to zero: at its centre the map is 0, whatever the others measured. -/
theorem C178_hole {knn : Knn} (hk : IsKnn knn) (cfg : Config) (hcfg : cfg.excludeNan = true) (hn : 1 < cfg.nnear) (hp : 0 < cfg.p) (limit : ℝ) {m : ℕ} (hm : 0 < m)
    (H : ℕ) (links links' : List MapLink) (x : Pt) (wet : List (Fl ℝ)) (hwet : Kept limit wet)
    (hfin : ∀ l ∈ links ++ links', Kept limit l.wet → ∃ v, amount m l.rates = .fin v)
    (s : ℝ) (hs : 0 < s) (hfar : ∀ l ∈ links ++ links', s ≤ euclid x l.pos) (hD : within cfg.maxDistance 0 = true) (xg yg : Grid ℝ)
    (hshape : xg.map List.length = yg.map List.length) (hne : xg.flatten ≠ []) :
    ∃ z, amountMap knn cfg (.fin limit) m (links ++ ⟨x, rateRecord (m * H) fun _ => none, wet⟩ :: links') xg yg = .ok z ∧
      ∀ i : ℕ, xg.flatten[i]? = some x.1 → yg.flatten[i]? = some x.2 → z.flatten[i]? = some (.fin 0) := by
  have hv : ∃ v : MapLink → ℝ, ∀ l ∈ links ++ ⟨x, rateRecord (m * H) fun _ => none, wet⟩ :: links', Kept limit l.wet → amount m l.rates = .fin (v l) := by
    have : ∀ l : MapLink, ∃ v, l ∈ links ++ ⟨x, rateRecord (m * H) fun _ => none, wet⟩ :: links' → Kept limit l.wet → amount m l.rates = .fin v := by
      intro l
      by_cases h : l ∈ links ++ ⟨x, rateRecord (m * H) fun _ => none, wet⟩ :: links' ∧ Kept limit l.wet
      · have : l ∈ links ++ links' ∨ l = ⟨x, rateRecord (m * H) fun _ => none, wet⟩ := by
          rcases List.mem_append.mp h.1 with h | h
          · exact .inl (List.mem_append_left _ h)
          · rcases List.mem_cons.mp h with h | h
            · exact .inr h
            · exact .inl (List.mem_append_right _ h)
        rcases this with h' | rfl
        · obtain ⟨v, hv⟩ := hfin l h' h.2
          exact ⟨v, fun _ _ => hv⟩
        · exact ⟨0, fun _ _ => C178_dead hm H⟩
      · exact ⟨0, fun h1 h2 => absurd ⟨h1, h2⟩ h⟩
    choose v hv using this
    exact ⟨v, hv⟩
  obtain ⟨v, hv⟩ := hv
  have h0 : v ⟨x, rateRecord (m * H) fun _ => none, wet⟩ = 0 := by
    have := hv ⟨x, rateRecord (m * H) fun _ => none, wet⟩ (by simp) hwet
    rw [C178_dead hm H] at this
    injection this with this
    exact this.symm
  rw [amountMap_idw knn cfg hcfg limit m _ v hv, List.map_append, List.map_cons]
  simp only [if_pos hwet, h0]
  obtain ⟨z, h1, h2⟩ := C133_near hk hn hp.le cfg.maxDistance (links.map fun l => (l.pos, if Kept limit l.wet then some (v l) else none))
    (links'.map fun l => (l.pos, if Kept limit l.wet then some (v l) else none)) x 0 xg yg hshape hne
  refine ⟨z, h1, fun i ha hb => ?_⟩
  have hxx : euclid (x.1, x.2) x = 0 := by simp [euclid]
  obtain ⟨r, g1, g2⟩ := h2 i x.1 x.2 ha hb s (((links ++ links').map fun l => |v l|).sum)
    (List.sum_nonneg (by intro y hy; obtain ⟨l, -, rfl⟩ := List.mem_map.mp hy; exact abs_nonneg _))
    (by rw [hxx]; exact hs) (by rw [hxx]; exact hD) (by
      rw [← List.map_append]
      intro e he w hw _
      obtain ⟨l, hl, rfl⟩ := List.mem_map.mp he
      refine ⟨hfar l hl, ?_⟩
      by_cases hkl : Kept limit l.wet
      · simp only [if_pos hkl, Option.some.injEq] at hw
        subst hw
        rw [sub_zero]
        exact List.single_le_sum (by intro y hy; obtain ⟨l, -, rfl⟩ := List.mem_map.mp hy; exact abs_nonneg _) _ (List.mem_map.mpr ⟨l, hl, rfl⟩)
      · simp only [if_neg hkl] at hw
        cases hw)
  rw [hxx, zero_div, Real.zero_rpow hp.ne', mul_zero, zero_mul, sub_zero] at g2
  rw [g1, abs_nonpos_iff.mp g2]

open Classical in
/-- **C178** Errors of the rates: if those of the links kept are within `e` of the true rain on the links, the map of amounts is within `e` times the number of hours of the map of the true amounts. -/
theorem C178_error {knn : Knn} (hk : IsKnn knn) (cfg : Config) (hcfg : cfg.excludeNan = true) (hn : 1 < cfg.nnear) (limit : ℝ) {m : ℕ} (hm : 0 < m) (H : ℕ)
    (links : List (RainLink × (ℕ → ℝ))) (e : ℝ) (he : ∀ l ∈ links, Kept limit l.1.wet → ∀ t < m * H, |l.1.r t - l.2 t| ≤ e) (xg yg : Grid ℝ)
    (hshape : xg.map List.length = yg.map List.length) (hne : xg.flatten ≠ []) :
    ∃ z z', amountMap knn cfg (.fin limit) m (links.map fun l => ⟨l.1.pos, rateRecord (m * H) fun t => some (l.1.r t), l.1.wet⟩) xg yg = .ok z ∧
      idwMap knn cfg.nnear cfg.p cfg.maxDistance
        (links.map fun l => (l.1.pos, if Kept limit l.1.wet then some ((∑ t ∈ Finset.range (m * H), l.2 t) / m) else none)) xg yg = .ok z' ∧
      ∀ i < xg.flatten.length, (z.flatten[i]? = some .nan ∧ z'.flatten[i]? = some .nan) ∨
        ∃ r r', z.flatten[i]? = some (.fin r) ∧ z'.flatten[i]? = some (.fin r') ∧ |r - r'| ≤ e * H := by
  obtain ⟨z, z', h1, h2, h3⟩ := C133_difference hk hn cfg.p cfg.maxDistance (links.map fun l => (l.1.pos,
    if Kept limit l.1.wet then some ((∑ t ∈ Finset.range (m * H), l.1.r t) / (m : ℝ), (∑ t ∈ Finset.range (m * H), l.2 t) / (m : ℝ)) else none)) xg yg hshape hne
  refine ⟨z, z', ?_, ?_, fun i hi => ?_⟩
  · rw [← h1]
    obtain ⟨nn, p, ex, D⟩ := cfg
    subst hcfg
    unfold amountMap idwMap valuesOf
    simp only [List.map_map]
    have : ∀ l ∈ links, mapValue (.fin limit) m (rateRecord (m * H) fun t => some (l.1.r t)) l.1.wet =
        optF ((if Kept limit l.1.wet then some ((∑ t ∈ Finset.range (m * H), l.1.r t) / (m : ℝ), (∑ t ∈ Finset.range (m * H), l.2 t) / (m : ℝ)) else none).map
          (·.1)) := by
      intro l _
      rw [mapValue_eq, C178_amount hm]
      split <;> rfl
    rw [show (links.map ((fun l : MapLink => mapValue (.fin limit) m l.rates l.wet) ∘
        fun l : RainLink × (ℕ → ℝ) => ⟨l.1.pos, rateRecord (m * H) fun t => some (l.1.r t), l.1.wet⟩)) = _ from List.map_congr_left this]
    rfl
  · rw [← h2]
    unfold valuesOf
    rw [List.map_map]
    congr 1
    refine List.map_congr_left fun l _ => ?_
    rw [Function.comp_apply]
    split <;> rfl
  · have hy : i < yg.flatten.length := by
      rwa [List.length_flatten, ← hshape, ← List.length_flatten]
    have := h3 i _ _ (List.getElem?_eq_getElem hi) (List.getElem?_eq_getElem hy) (-(e * H)) (e * H) (by
      intro q hq v hv _
      obtain ⟨l, hl, rfl⟩ := List.mem_map.mp hq
      by_cases hkl : Kept limit l.1.wet
      · simp only [if_pos hkl, Option.some.injEq] at hv
        subst hv
        rw [← abs_le, ← sub_div, ← Finset.sum_sub_distrib, abs_div, Nat.abs_cast, div_le_iff₀ (by exact_mod_cast hm)]
        refine (Finset.abs_sum_le_sum_abs _ _).trans ((Finset.sum_le_card_nsmul _ _ e fun t ht => he l hl hkl t (Finset.mem_range.mp ht)).trans (le_of_eq ?_))
        rw [Finset.card_range, nsmul_eq_mul]
        push_cast
        ring
      · simp only [if_neg hkl] at hv
        cases hv)
    rcases this with h | ⟨r, r', g1, g2, g3, g4⟩
    · exact .inl h
    · exact .inr ⟨r, r', g1, g2, abs_le.mpr ⟨g3, g4⟩⟩

/-! Examples. -/

/-- one wet step of four: below a share of 0.3 -/
theorem kept_demo : Kept (3 / 10) [.fin 0, .fin 1, .nan, .fin 0] := by
  refine ⟨by simp, ?_⟩
  rw [← count_wet]
  have : (List.filter (fun w : Fl ℝ => w ==ᶠ PyFloat.ofInt 1) [.fin 0, .fin 1, .nan, .fin 0]).length = 1 := by
    simp
  rw [this]
  norm_num

/-- two wet steps of four: above -/
example : ¬ Kept (3 / 10) [.fin 0, .fin 1, .nan, .fin 1] := by
  rintro ⟨-, h⟩
  rw [← count_wet] at h
  have : (List.filter (fun w : Fl ℝ => w ==ᶠ PyFloat.ofInt 1) [.fin 0, .fin 1, .nan, .fin 1]).length = 2 := by
    simp
  rw [this] at h
  norm_num at h

/-- two hours of two steps, 1 mm/h in the first step, then 3 mm/h: 2 mm in the first hour and 3 mm in the second -/
example : amount 2 (rateRecord (2 * 2) fun t => some (if t < 1 then 1 else 3)) = .fin 5 := by
  rw [C178_amount (by norm_num)]
  norm_num [Finset.sum_range_succ]

/-- three of four rates of an hour missing, the present one is 8 mm/h: taken for the whole hour; the second hour without rates counts as dry -/
example : ∃ A, amount 4 (rateRecord (4 * 2) fun t => if t = 1 then some 8 else none) = .fin A ∧ |A - 8| ≤ 0 := by
  obtain ⟨A, h1, h2⟩ := C178_missing (m := 4) (by norm_num) 2 (fun t => if t = 1 then some 8 else none) (fun _ => 8) 0 (by
    intro h hh k hk x hx
    simp only [Option.ite_none_right_eq_some, Option.some.injEq] at hx
    rw [← hx.2]
    norm_num)
  refine ⟨A, h1, ?_⟩
  have e : ((Finset.range 2).filter fun h => ∃ k < 4, (if 4 * h + k = 1 then some (8 : ℝ) else none) ≠ none) = {0} := by
    ext h
    simp only [Finset.mem_filter, Finset.mem_range, Finset.mem_singleton, ne_eq, ite_eq_right_iff, reduceCtorEq, imp_false, not_not]
    constructor
    · rintro ⟨-, k, -, hk⟩
      omega
    · rintro rfl
      exact ⟨by norm_num, 1, by norm_num, rfl⟩
  rw [e] at h2
  norm_num at h2
  rw [h2]
  norm_num

/-- a link without rates between two with 5 mm: no rain on the map at its centre -/
example : ∃ z, amountMap bruteKnn ⟨15, 2, true, some (.fin 3)⟩ (.fin (3 / 10)) 60
      ([⟨(1, 0), rateRecord (60 * 5) fun _ => some 1, [.fin 0, .fin 1, .nan, .fin 0]⟩] ++
        ⟨(0, 0), rateRecord (60 * 5) fun _ => none, [.fin 0, .fin 1, .nan, .fin 0]⟩ ::
        [⟨(0, 1), rateRecord (60 * 5) fun _ => some 1, [.fin 0, .fin 1, .nan, .fin 0]⟩]) [[0]] [[0]] = .ok z ∧
      z.flatten[0]? = some (.fin 0) := by
  obtain ⟨z, h1, h2⟩ := C178_hole bruteKnn_isKnn ⟨15, 2, true, some (.fin 3)⟩ rfl (by norm_num) (by norm_num) (3 / 10) (m := 60) (by norm_num) 5
    [⟨(1, 0), rateRecord (60 * 5) fun _ => some 1, [.fin 0, .fin 1, .nan, .fin 0]⟩]
    [⟨(0, 1), rateRecord (60 * 5) fun _ => some 1, [.fin 0, .fin 1, .nan, .fin 0]⟩] (0, 0) [.fin 0, .fin 1, .nan, .fin 0] kept_demo
    (by
      intro l hl _
      simp only [List.cons_append, List.nil_append, List.mem_cons, List.not_mem_nil, or_false] at hl
      rcases hl with rfl | rfl <;> exact ⟨_, C178_amount (m := 60) (by norm_num) 5 fun _ => 1⟩)
    1 one_pos (by
      intro l hl
      simp only [List.cons_append, List.nil_append, List.mem_cons, List.not_mem_nil, or_false] at hl
      rcases hl with rfl | rfl <;> simp [euclid])
    (by simp [within]) [[0]] [[0]] rfl (by simp)
  exact ⟨z, h1, h2 0 rfl rfl⟩

end Verif.Props
