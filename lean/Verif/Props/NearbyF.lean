import Verif.Props.NearbyRainClose

/-!
# C170: the outlier measure and the outlier filter for levels with errors

The measure `F` of a link sums, over `4 · timeperiod` steps, the deviation of its drop per kilometre from the median of its
neighbourhood. Two networks whose levels differ by at most `E` have measures that differ by at most
`4 · timeperiod · 40E · interval / 60`, at the same steps. So the filter `F ≤ threshold` of `nearby_rainfall_retrival` removes
the same rates, as long as the measure is not within this distance of the threshold. Exact arithmetic: bottleneck's `move_sum` is
an online algorithm with other rounding errors than the sum of the model.
-/

namespace Verif.Props

open Verif Verif.Bin Verif.Nearby Verif.Haversine

section

variable {Id : Type} [DecidableEq Id]

/-- sums of lists whose members differ by at most `E` -/
theorem fsum_close {E : ℝ} {xs ys : List (Fl ℝ)}
    (h : List.Forall₂ (fun x y => ∃ a b, id x = Fl.fin a ∧ y = .fin b ∧ |a - b| ≤ E) xs ys) :
    ∃ as bs : List ℝ, xs = as.map Fl.fin ∧ ys = bs.map Fl.fin ∧ |as.sum - bs.sum| ≤ ys.length * E := by
  induction h with
  | nil => exact ⟨[], [], rfl, rfl, by simp⟩
  | cons hxy _ ih =>
    obtain ⟨a, b, h1, h2, h3⟩ := hxy
    obtain ⟨as, bs, rfl, rfl, h4⟩ := ih
    refine ⟨a :: as, b :: bs, by rw [List.map_cons, ← h1]; rfl, by rw [List.map_cons, ← h2], ?_⟩
    simp only [List.sum_cons, List.length_cons, List.length_map, Nat.cast_add, Nat.cast_one] at h4 ⊢
    calc |a + as.sum - (b + bs.sum)| = |(a - b) + (as.sum - bs.sum)| := by ring_nf
      _ ≤ |a - b| + |as.sum - bs.sum| := abs_add_le _ _
      _ ≤ _ := by linarith

/-- rolling sums over full windows -/
theorem rolling_sum_close {E : ℝ} (hE : 0 ≤ E) {xs ys : List (Fl ℝ)} (h : List.Forall₂ (fun x y => UpTo E x y) xs ys) (n t : ℕ) :
    UpTo (n * E) (rd (rolling n n fsum xs) t) (rd (rolling n n fsum ys) t) := by
  by_cases ht : t < xs.length
  · rw [rd_of_getElem? (getElem?_rolling n n fsum xs t ht), rd_of_getElem? (getElem?_rolling n n fsum ys t (by rw [← h.length_eq]; exact ht))]
    have hw := view_exact.valid_forall₂ (forall₂_window h n t)
    rw [hw.length_eq]
    split_ifs with hn
    · exact .nan
    · obtain ⟨as, bs, e1, e2, e3⟩ := fsum_close hw
      have hle : (valid (window ys n t)).length ≤ n := by
        refine (List.length_filter_le _ _).trans ?_
        unfold window slice
        simp only [List.length_drop, List.length_take]
        omega
      rw [e1, e2, fsum_map_fin, fsum_map_fin]
      refine .fin (e3.trans (mul_le_mul_of_nonneg_right (by exact_mod_cast hle) hE))
  · have e : ∀ zs : List (Fl ℝ), zs.length = xs.length → rd (rolling n n fsum zs) t = .nan := by
      intro zs hz
      unfold rd
      rw [List.getD_eq_getElem?_getD, List.getElem?_eq_none (by rw [length_rolling]; omega)]
      rfl
    rw [e xs rfl, e ys h.length_eq.symm]
    exact .nan

theorem scale_close {B k : ℝ} (hk : 0 ≤ k) {u u' : Fl ℝ} (h : UpTo B u u') : UpTo (B * k) (u *ᶠ .fin k) (u' *ᶠ .fin k) := by
  cases h with
  | nan => exact .nan
  | @fin x y hxy =>
    refine .fin ?_
    rw [← sub_mul, abs_mul, abs_of_nonneg hk]
    exact mul_le_mul_of_nonneg_right hxy hk

/-- levels that are close: the other network is as consistent -/
theorem consistent_close {E : ℝ} {N N' : Net (Fl ℝ) Id} {d : Nearby.Dist (Fl ℝ) Id} {p : Params (Fl ℝ)} (h : Consistent N' d p)
    (hN : CloseNets id E N N') (hT : N.T = N'.T) : Consistent N d p := by
  have e := hN.ids
  refine { h with nodup := by rw [e]; exact h.nodup, same := by rw [e]; exact h.same, aa := by rw [e]; exact h.aa
                  ab := by rw [e]; exact h.ab, ba := by rw [e]; exact h.ba, bb := by rw [e]; exact h.bb
                  pmin := by rw [e, hN.levels.length_eq]; exact h.pmin
                  len := by rw [e, ← h.len, hN.length, List.length_map]
                  times := ?_
                  own := by rw [e]; exact h.own
                  period_le := by rw [hT]; exact h.period_le
                  F_le := by rw [hT]; exact h.F_le }
  intro xs hxs
  obtain ⟨k, hk, rfl⟩ := List.getElem_of_mem hxs
  have hk' : k < N'.pmin.length := by rw [← hN.levels.length_eq]; exact hk
  have := (List.forall₂_iff_get.mp hN.levels).2 k hk hk'
  rw [hT, ← h.times _ (List.getElem_mem hk')]
  exact this.length_eq

/-- **C170** The outlier measure `F` of levels known up to `E`: missing at the same steps, and elsewhere off by at most
`4 · timeperiod · 40E · interval / 60`. -/
theorem C170_F {E : ℝ} (hE : 0 ≤ E) (hE1 : E ≤ 40) {N N' : Net (Fl ℝ) Id} {d : Nearby.Dist (Fl ℝ) Id} {p : Params (Fl ℝ)}
    (h : Consistent N' d p) (hN : CloseNets id E N N') (h1 : ∃ x, p.threshP = .fin x) (h2 : ∃ x, p.threshPL = .fin x) :
    ∃ out out', nearby_wetdry N d p = .ok out ∧ nearby_wetdry N' d p = .ok out' ∧ ∀ i < N'.ids.length, ∃ wet Fs wet' Fs',
      out[i]? = some (wet, Fs) ∧ out'[i]? = some (wet', Fs') ∧ Fs.length = N'.T ∧ Fs'.length = N'.T ∧
      ∀ t < N'.T, UpTo (4 * p.timeperiod * (40 * E) * (p.interval / 60)) (rd Fs t) (rd Fs' t) := by
  obtain ⟨hpn, hln, hT, -, -, -, hDL, hM⟩ := close_drops view_exact le_rfl (by norm_num) hE hE1 h hN
    (p := p) ⟨rfl, rfl, h1, h2, rfl, rfl, rfl, rfl⟩
  simp only [id, mul_zero, add_zero] at hDL hM
  have hc := consistent_close h hN hT
  obtain ⟨out, o1, -, o3⟩ := nearby_ok hc
  obtain ⟨out', o1', -, o3'⟩ := nearby_ok h
  refine ⟨out, out', o1, o1', fun i hi => ?_⟩
  have r := o3 i (by rw [hN.ids]; exact hi)
  have r' := o3' i hi
  have enb : nbrs N d p i = nbrs N' d p i := by unfold nbrs; rw [hN.ids]
  rw [enb, hT] at r
  by_cases hml : p.minLinks < (nbrs N' d p i).length
  · rw [if_pos hml] at r r'
    have lens : ∀ (M : Net (Fl ℝ) Id), Consistent M d p → i < M.ids.length → ((dPLs M p).getD i []).length = M.T := by
      intro M hM' hi'
      have a1 : i < M.pmin.length := by rw [hM'.pmin]; exact hi'
      rw [dPLs_getD_gen M p a1 (by rw [hM'.len]; exact hi'), List.length_map, length_deltaP,
        List.getD_eq_getElem?_getD, List.getElem?_eq_getElem a1]
      exact hM'.times _ (List.getElem_mem a1)
    have l1 := lens N hc (by rw [hN.ids]; exact hi)
    have l2 := lens N' h hi
    rw [hT] at l1
    refine ⟨_, _, _, _, r, r', ?_, ?_, fun t ht => ?_⟩
    · unfold rowF
      rw [List.length_map, length_rolling, List.length_zipWith, l1, List.length_map, List.length_range, min_self]
    · unfold rowF
      rw [List.length_map, length_rolling, List.length_zipWith, l2, List.length_map, List.length_range, min_self]
    · unfold rowF
      rw [rd_map_nan _ _ (by simp), rd_map_nan _ _ (by simp)]
      have hz : List.Forall₂ (fun x y => UpTo (40 * E) x y)
          (List.zipWith (· -ᶠ ·) ((dPLs N p).getD i []) ((List.range N'.T).map fun t => medianAt p.minLinks
            ((nbrs N' d p i).map fun j => (dPs N p).getD j []) ((nbrs N' d p i).map fun j => (dPLs N p).getD j []) t))
          (List.zipWith (· -ᶠ ·) ((dPLs N' p).getD i []) ((List.range N'.T).map fun t => medianAt p.minLinks
            ((nbrs N' d p i).map fun j => (dPs N' p).getD j []) ((nbrs N' d p i).map fun j => (dPLs N' p).getD j []) t)) := by
        rw [List.forall₂_iff_get]
        refine ⟨by rw [List.length_zipWith, List.length_zipWith, l1, l2, List.length_map, List.length_map], fun s a b => ?_⟩
        have hs : s < N'.T := by
          rw [List.length_zipWith, List.length_map, List.length_range] at a
          omega
        simp only [List.get_eq_getElem, List.getElem_zipWith, List.getElem_map, List.getElem_range]
        have u1 := (hDL i hi s).1
        rw [rd_of_getElem? (List.getElem?_eq_getElem (by omega)), rd_of_getElem? (List.getElem?_eq_getElem (by omega))] at u1
        exact (u1.sub (hM i s).2).mono (by linarith)
      have hr := rolling_sum_close (by linarith) hz (p.timeperiod * 4) t
      have hk : (0 : ℝ) ≤ p.interval / 60 := by positivity
      rw [Fl.pf_ofInt, Fl.pf_ofInt, Fl.pf_div_fin_ne _ _ (by norm_num)]
      have := scale_close hk hr
      push_cast at this ⊢
      refine this.mono (mul_le_mul_of_nonneg_right ?_ hk)
      linarith
  · rw [if_neg hml] at r r'
    refine ⟨_, _, _, _, r, r', by simp, by simp, fun t ht => ?_⟩
    rw [rd_of_getElem? (x := .nan) (by rw [List.getElem?_replicate, if_pos ht])]
    exact .nan

/-- rates of one link from its levels with the outlier filter, `a` and `b` given -/
def filteredRates {F : Type} [PyFloat F] [PyPow F] (lv : List F × List F × List F) (Fs : List F) (L a b waa alpha thr : F) :
    Except Err (List F) :=
  retrieval (fun _ _ _ => .error .valueError) lv.1 lv.2.1 lv.2.2 Fs L none none (some [a]) (some [b]) "ITU_2005" waa alpha (some thr)

/-- the filter replaces rates by missing values and does nothing else -/
theorem filteredRates_get {lv : List (Fl ℝ) × List (Fl ℝ) × List (Fl ℝ)} {T : ℕ} (l1 : lv.1.length = T) (l2 : lv.2.1.length = T)
    (l3 : lv.2.2.length = T) {Fs : List (Fl ℝ)} (l4 : Fs.length = T) (L a b ω al θ : Fl ℝ) {rates : List (Fl ℝ)}
    (hr : linkRates lv Fs L a b ω al = .ok rates) :
    ∃ out, filteredRates lv Fs L a b ω al θ = .ok out ∧ out.length = T ∧ ∀ t < T,
      out[t]? = if (rd Fs t ≤ᶠ θ) = true then some .nan else rates[t]? := by
  unfold linkRates at hr
  rw [retrieval_scalar _ lv.1 lv.2.1 lv.2.2 Fs L a b "ITU_2005" ω al none (by omega) (by omega) (fun h => absurd rfl h)] at hr
  cases hr
  refine ⟨_, retrieval_scalar _ lv.1 lv.2.1 lv.2.2 Fs L a b "ITU_2005" ω al (some θ) (by omega) (by omega) (fun _ => by omega),
    by simp [l1], fun t ht => ?_⟩
  rw [List.getElem?_map, List.getElem?_map, List.getElem?_range (by omega), Option.map_some, Option.map_some]
  have e : outlierF (some θ) (rd Fs t) = (rd Fs t ≤ᶠ θ) := rfl
  rw [e, if_neg (c := outlierF none (rd Fs t) = true) (by exact Bool.false_ne_true)]
  split_ifs <;> rfl

/-- **C170** Rain rates with the outlier filter for levels known up to `E`, in exact arithmetic: where the measure of the link is
not close to the threshold, either both runs remove the rate, or both keep it, and then the rates are those of C147. -/
theorem C170_rates {E : ℝ} (hE : 0 ≤ E) (hE1 : E ≤ 40) {N N' : Net (Fl ℝ) Id}
    {d : Nearby.Dist (Fl ℝ) Id} {p : Params (Fl ℝ)} (h : Consistent N' d p) (hneed : 0 < p.minHours * 60 / p.interval)
    (hN : CloseNets id E N N') (h1 : ∃ x, p.threshP = .fin x) (h2 : ∃ x, p.threshPL = .fin x)
    (drop : ℕ → ℕ → Fl ℝ) (hd : ∀ j t, DropIs N' p j t (drop j t))
    {pmax pmax' : List (List (Fl ℝ))} (hM : List.Forall₂ (List.Forall₂ fun x y => UpTo E x y) pmax pmax')
    (hMl : pmax'.length = N'.ids.length) (hMT : ∀ xs ∈ pmax', xs.length = N'.T) (hMr : ∀ xs ∈ pmax', ∀ x, .fin x ∈ xs → |x| ≤ 950)
    (n mp : ℕ) (hn : 0 < n) {ω al : ℝ} (h0 : 0 ≤ al) (h1' : al ≤ 1) (θ : ℝ) :
    ∃ out out', nearby_wetdry N d p = .ok out ∧ nearby_wetdry N' d p = .ok out' ∧ ∀ i < N'.ids.length, ∃ wet Fs wet' Fs',
        out[i]? = some (wet, Fs) ∧ out'[i]? = some (wet', Fs') ∧ ∀ (l α β : ℝ), 0 < l → 0 < α → 0 < β →
          ∃ rates rates', filteredRates (linkLevels (N.pmin.getD i []) (pmax.getD i []) wet n mp) Fs (.fin l) (.fin α) (.fin β) (.fin ω)
              (.fin al) (.fin θ) = .ok rates ∧
            filteredRates (linkLevels (N'.pmin.getD i []) (pmax'.getD i []) wet' n mp) Fs' (.fin l) (.fin α) (.fin β) (.fin ω) (.fin al)
              (.fin θ) = .ok rates' ∧ rates.length = N'.T ∧ rates'.length = N'.T ∧
            ∀ t < N'.T, (∀ f, rd Fs' t = .fin f → 4 * p.timeperiod * (40 * E) * (p.interval / 60) < |f - θ|) →
              ((∃ f, rd Fs' t = .fin f ∧ f ≤ θ) → rates[t]? = some .nan ∧ rates'[t]? = some .nan) ∧
              ((∀ f, rd Fs' t = .fin f → θ < f) → (∀ s < N'.T, t ≤ s + n → s ≤ t + 2 → Clear N' d p drop i s E 0) →
                (∀ a b, rd (N'.pmin.getD i []) t = .fin a → rd (pmax'.getD i []) t = .fin b → a ≤ b) →
                (rates[t]? = some .nan ∧ rates'[t]? = some .nan) ∨
                ∃ ρ χ ψ R : ℝ, rd (linkLevels (N'.pmin.getD i []) (pmax'.getD i []) wet' n mp).1 t = .fin ρ ∧
                  rd (linkLevels (N'.pmin.getD i []) (pmax'.getD i []) wet' n mp).2.1 t = .fin χ ∧
                  rd (linkLevels (N'.pmin.getD i []) (pmax'.getD i []) wet' n mp).2.2 t = .fin ψ ∧
                  rates'[t]? = some (.fin (mixLaw α β l al (ρ - χ - ω) (ρ - ψ - ω))) ∧ rates[t]? = some (.fin R) ∧
                  mixLaw α β l al (ρ - χ - ω - 2 * E) (ρ - ψ - ω - 2 * E) ≤ R ∧
                  R ≤ mixLaw α β l al (ρ - χ - ω + 2 * E) (ρ - ψ - ω + 2 * E)) := by
  obtain ⟨out, out', o1, o2, o3⟩ := C147_level_errors hE hE1 h hneed hN h1 h2 drop hd hM hMl hMT hMr n mp hn (ω := ω) h0 h1'
  obtain ⟨out₂, out₂', q1, q2, -, -, q3⟩ := C147_levels view_exact le_rfl (by norm_num) hE hE1 h hneed hN
    (p := p) ⟨rfl, rfl, h1, h2, rfl, rfl, rfl, rfl⟩ (fun _ _ => rfl) drop hd hM hMl hMT hMr n mp hn
  obtain ⟨out₃, out₃', s1, s2, s3⟩ := C170_F hE hE1 h hN h1 h2
  cases o1.symm.trans q1
  cases o1.symm.trans s1
  cases o2.symm.trans q2
  cases o2.symm.trans s2
  refine ⟨out, out', o1, o2, fun i hi => ?_⟩
  obtain ⟨wet, Fs, wet', Fs', a1, a2, a3⟩ := o3 i hi
  obtain ⟨_, _, _, _, b1, b2, l1, l2, l3, l1', l2', l3', -⟩ := q3 i hi
  obtain ⟨_, _, _, _, c1, c2, m1, m2, c3⟩ := s3 i hi
  cases a1.symm.trans b1
  cases a1.symm.trans c1
  cases a2.symm.trans b2
  cases a2.symm.trans c2
  refine ⟨wet, Fs, wet', Fs', a1, a2, fun l α β hl0 hα0 hβ0 => ?_⟩
  obtain ⟨k1, k2, k3, -⟩ := linkLevels_get l1 l2 l3 n mp
  obtain ⟨k1', k2', k3', -⟩ := linkLevels_get l1' l2' l3' n mp
  obtain ⟨rates, rates', r1, r2, -, -, r3⟩ := a3 l α β hl0 hα0 hβ0
  obtain ⟨fr, f1, f2, f3⟩ := filteredRates_get k1 k2 k3 m1 _ _ _ _ _ (.fin θ) r1
  obtain ⟨fr', f1', f2', f3'⟩ := filteredRates_get k1' k2' k3' m2 _ _ _ _ _ (.fin θ) r2
  refine ⟨fr, fr', f1, f1', f2, f2', fun t ht hf => ⟨?_, fun hk hcl hle => ?_⟩⟩
  · rintro ⟨f, hf1, hf2⟩
    have hu := c3 t ht
    rw [f3 t ht, f3' t ht]
    have hm := hf f hf1
    rw [hf1] at hu ⊢
    generalize rd Fs t = g at hu ⊢
    cases hu with
    | @fin x _ hx =>
      rw [abs_of_nonpos (by linarith)] at hm
      have hxθ : x ≤ θ := by linarith [(abs_le.mp hx).2]
      rw [if_pos (by simpa using hxθ), if_pos (by simpa using hf2)]
      exact ⟨rfl, rfl⟩
  · have key : fr[t]? = rates[t]? ∧ fr'[t]? = rates'[t]? := by
      have hu := c3 t ht
      rw [f3 t ht, f3' t ht]
      generalize rd Fs t = g at hu ⊢
      generalize rd Fs' t = g' at hu hf hk ⊢
      cases hu with
      | nan => exact ⟨if_neg (by simp), if_neg (by simp)⟩
      | @fin x y hx =>
        have hm := hf y rfl
        have hy := hk y rfl
        rw [abs_of_pos (by linarith)] at hm
        have hxθ : θ < x := by linarith [(abs_le.mp hx).1]
        exact ⟨if_neg (by simpa using hxθ), if_neg (by simpa using hy)⟩
    rw [key.1, key.2]
    exact r3 t ht hcl hle

end

/-! ### Example -/

/-- two dry hours, a drop by 10 dB and dry hours again, measured with errors of 0.01 dB: all hypotheses hold, and where the measure is
not near the threshold of -32.5 dB h / km, the filter decides alike -/
example : ∃ out out', nearby_wetdry (oneNet soloMeasured) oneDist soloParams = .ok out ∧
    nearby_wetdry (oneNet soloLevels) oneDist soloParams = .ok out' ∧ ∃ wet Fs wet' Fs', out[0]? = some (wet, Fs) ∧
      out'[0]? = some (wet', Fs') ∧ (∀ t < 8, UpTo (16 / 5 : ℝ) (rd Fs t) (rd Fs' t)) := by
  obtain ⟨out, out', o1, o2, o3⟩ := C170_F (E := 1 / 100) (by norm_num) (by norm_num)
    (N := oneNet soloMeasured) solo_consistent
    { ids := rfl
      length := rfl
      levels := .cons solo_measured .nil
      lengths := by
        intro ℓ hℓ
        simp only [oneNet, List.mem_singleton] at hℓ
        exact ⟨2, hℓ, by norm_num⟩
      range := solo_range }
    ⟨_, rfl⟩ ⟨_, rfl⟩
  obtain ⟨wet, Fs, wet', Fs', a1, a2, -, -, a3⟩ := o3 0 (by decide)
  refine ⟨out, out', o1, o2, wet, Fs, wet', Fs', a1, a2, fun t ht => (a3 t ht).mono ?_⟩
  norm_num [soloParams]

/-- the rates of the third hour with the filter: the measure does not exist before the eighth hour, so the rate is kept -/
example : ∃ out out', nearby_wetdry (oneNet soloMeasured) oneDist soloParams = .ok out ∧
    nearby_wetdry (oneNet soloLevels) oneDist soloParams = .ok out' ∧ ∃ wet Fs wet' Fs', out[0]? = some (wet, Fs) ∧
      out'[0]? = some (wet', Fs') ∧ ∃ rates rates',
        filteredRates (linkLevels soloMeasured soloMeasured wet 2 1) Fs
          (.fin 2) (.fin 1) (.fin 1) (.fin 1) (.fin (1 / 3)) (.fin (-65 / 2)) = .ok rates ∧
        filteredRates (linkLevels soloLevels soloLevels wet' 2 1) Fs' (.fin 2) (.fin 1) (.fin 1) (.fin 1) (.fin (1 / 3))
          (.fin (-65 / 2)) = .ok rates' ∧
        ((rates[2]? = some .nan ∧ rates'[2]? = some .nan) ∨ ∃ A₁ A₂ R : ℝ, rates'[2]? = some (.fin (mixLaw 1 1 2 (1 / 3) A₁ A₂)) ∧
          rates[2]? = some (.fin R) ∧ mixLaw 1 1 2 (1 / 3) (A₁ - 2 * (1 / 100)) (A₂ - 2 * (1 / 100)) ≤ R ∧
          R ≤ mixLaw 1 1 2 (1 / 3) (A₁ + 2 * (1 / 100)) (A₂ + 2 * (1 / 100))) := by
  have hlev : List.Forall₂ (List.Forall₂ fun x y => UpTo (1 / 100 : ℝ) x y) [soloMeasured] [soloLevels] :=
    .cons solo_measured .nil
  obtain ⟨out, out', o1, o2, o3⟩ := C170_rates (E := 1 / 100) (by norm_num) (by norm_num)
    (N := oneNet soloMeasured) solo_consistent (by decide)
    { ids := rfl
      length := rfl
      levels := hlev
      lengths := by
        intro ℓ hℓ
        simp only [oneNet, List.mem_singleton] at hℓ
        exact ⟨2, hℓ, by norm_num⟩
      range := solo_range }
    ⟨_, rfl⟩ ⟨_, rfl⟩ _ (dropAt_spec _ _ (by decide)) (pmax := [soloMeasured]) (pmax' := [soloLevels])
    hlev rfl (by simp [oneNet, Net.T]) solo_range 2 1 (by decide) (ω := 1) (al := 1 / 3) (by norm_num) (by norm_num) (-65 / 2)
  obtain ⟨wet, Fs, wet', Fs', a1, a2, a3⟩ := o3 0 (by decide)
  obtain ⟨rates, rates', r1, r2, -, -, r3⟩ := a3 2 1 1 (by norm_num) (by norm_num) (by norm_num)
  refine ⟨out, out', o1, o2, wet, Fs, wet', Fs', a1, a2, rates, rates', r1, r2, ?_⟩
  have hF : ∀ f, rd Fs' 2 = .fin f → f = 0 := by
    obtain ⟨out₂, wet₂, Fv, b1, b2, -, dev, -, b3⟩ := C67_F_score solo_consistent (by
      intro j hj
      have : j = 0 := by simp only [oneNet, List.length_singleton] at hj; omega
      subst this
      exact ⟨2, by norm_num, rfl⟩) (by decide) (by decide) _ (dropAt_spec _ _ (by decide)) 0 (by decide) (by
        have : (0 : ℕ) ∈ nbrs (oneNet soloLevels) oneDist soloParams 0 :=
          List.mem_filter.mpr ⟨by decide, solo_consistent.own 0 (by decide)⟩
        exact List.length_pos_of_mem this)
    cases o2.symm.trans b1
    cases a2.symm.trans b2
    intro f hf
    rw [rd_of_getElem? ((b3 2 (by decide)).1 (Or.inl (by decide)))] at hf
    cases hf
  obtain ⟨-, r4⟩ := r3 2 (by decide) (fun f hf => by rw [hF f hf]; norm_num [soloParams])
  rcases r4 (fun f hf => by rw [hF f hf]; norm_num) (fun s hs _ _ => solo_clear solo_consistent s hs le_rfl (by norm_num)) (by
    intro a b ha hb
    have : Fl.fin a = Fl.fin b := ha.symm.trans hb
    cases this
    exact le_rfl) with h | ⟨ρ, χ, ψ, R, -, -, -, h⟩
  · exact Or.inl h
  · exact Or.inr ⟨_, _, R, h⟩

end Verif.Props
