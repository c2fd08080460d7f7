import Verif.Model.NearbyInt
import Verif.Props.NearbyRel
import Verif.Props.NearbyLocal

/-!
# Property C160: the nearby approach with levels of an integer type
-/

namespace Verif.Props
open Verif Verif.Nearby Verif.NearbyInt

section
variable {K Id : Type} [Field K] [LinearOrder K] [IsStrictOrderedRing K] [FloorRing K] [DecidableEq Id]

theorem castInt_int (c n : Int) : castInt c (.fin (n : K)) = n := by
  show (if (0 : K) ≤ (n : K) then ⌊(n : K)⌋ else ⌈(n : K)⌉) = n
  split_ifs <;> simp

theorem smear_int_get (c : Int) (wet : List Int) (dP : List (Fl K)) (t : Nat) (ht : t < wet.length) :
    let cond := List.zipWith (fun (w : Int) (d : Fl K) => (w == 1) && (d <ᶠ PyFloat.ofInt (-2))) wet dP
    (NearbyInt.smear c wet dP)[t]? = some (if shifted cond 1 t || shifted cond (-1) t || shifted cond (-2) t then 1
      else wet[t]) := by
  intro cond
  unfold NearbyInt.smear
  dsimp only [List.foldl_cons, List.foldl_nil, NearbyInt.smearStep]
  rw [List.getElem?_zipWith, List.getElem?_mapIdx, List.getElem?_mapIdx, List.getElem?_mapIdx,
    List.getElem?_eq_getElem ht]
  simp only [Option.map_some]
  congr 1
  have : ∀ n : Int, PyFloat.isNaN (Fl.fin (n : K)) = false := fun n => rfl
  rw [this]
  simp only [Bool.false_eq_true, if_false, castInt_int]
  show (if shifted cond (-2) t = true then (1 : Int) else if shifted cond (-1) t = true then 1
    else if shifted cond 1 t = true then 1 else _) = _
  cases shifted cond 1 t <;> cases shifted cond (-1) t <;> cases shifted cond (-2) t <;> simp

omit [IsStrictOrderedRing K] in
theorem length_smear_int (c : Int) (wet : List Int) (dP : List (Fl K)) : (NearbyInt.smear c wet dP).length = wet.length := by
  simp [NearbyInt.smear, NearbyInt.smearStep]

/-- what integer levels make of the flags `wet` of float levels -/
def FlagRel (c : Int) (w : Fl K) (w' : Int) : Prop :=
  (∀ n : Int, w = .fin (n : K) → w' = n) ∧ (w = .nan → w' = c ∨ w' = 1) ∧ (w = .nan ∨ w = .fin 0 ∨ w = .fin 1)

/-- smearing of flags that are 0, 1 or NaN -/
theorem smear_rel {c : Int} (hc : c ≠ 1) (rule dP : List (Fl K))
    (hr : ∀ w ∈ rule, w = .nan ∨ w = .fin 0 ∨ w = .fin 1) :
    List.Forall₂ (FlagRel c) (Nearby.smear rule dP) (NearbyInt.smear c (rule.map (castInt c)) dP) := by
  have hz : castInt c (.fin (0 : K)) = 0 := by simpa using castInt_int (K := K) c 0
  have ho : castInt c (.fin (1 : K)) = 1 := by simpa using castInt_int (K := K) c 1
  have hcond : List.zipWith (fun (w : Int) (d : Fl K) => (w == 1) && (d <ᶠ PyFloat.ofInt (-2))) (rule.map (castInt c)) dP =
      List.zipWith (fun w d : Fl K => (w ==ᶠ PyFloat.ofInt 1) && (d <ᶠ PyFloat.ofInt (-2))) rule dP := by
    rw [List.zipWith_map_left]
    clear hz ho
    induction rule generalizing dP with
    | nil => simp
    | cons w rule ih =>
      cases dP with
      | nil => simp
      | cons d dP =>
        rw [List.zipWith_cons_cons, List.zipWith_cons_cons, ih dP fun x hx => hr x (List.mem_cons_of_mem _ hx)]
        congr 2
        rcases hr w (List.mem_cons_self ..) with rfl | rfl | rfl
        · simp [castInt, hc]
        · simp [castInt]
        · simp [castInt]
  have hlen : (Nearby.smear rule dP).length = rule.length := by simp [Nearby.smear, Nearby.smearStep]
  have hlen' : (NearbyInt.smear c (rule.map (castInt c)) dP).length = rule.length := by
    rw [length_smear_int, List.length_map]
  rw [List.forall₂_iff_get]
  refine ⟨by rw [hlen, hlen'], ?_⟩
  intro t h1 h2
  have ht : t < rule.length := by omega
  have e1 := smear_get rule dP t ht
  have e2 := smear_int_get c (rule.map (castInt c)) dP t (by simpa using ht)
  dsimp only at e1 e2
  rw [hcond] at e2
  rw [List.getElem?_eq_getElem h1] at e1
  rw [List.getElem?_eq_getElem h2, List.getElem_map] at e2
  rw [List.get_eq_getElem, List.get_eq_getElem, Option.some.inj e1, Option.some.inj e2]
  have hmem : rule[t] ∈ rule := List.getElem_mem _
  have hrd : rd rule t = rule[t] := rd_of_getElem? (List.getElem?_eq_getElem ht)
  rw [hrd]
  generalize (shifted _ 1 t || shifted _ (-1) t || shifted _ (-2) t) = s
  rcases hr _ hmem with e | e | e
  · rw [e]
    refine ⟨?_, fun _ => ?_, Or.inl rfl⟩
    · intro n hn; cases hn
    · cases s <;> simp [castInt]
  · rw [e, hz]
    cases s
    · refine ⟨fun n hn => ?_, fun hn => ?_, Or.inr (Or.inl rfl)⟩
      · have : (0 : K) = n := by simpa using hn
        have : n = 0 := by exact_mod_cast this.symm
        simp [this]
      · simp at hn
    · refine ⟨fun n hn => ?_, fun hn => ?_, Or.inr (Or.inr rfl)⟩
      · have : (1 : K) = n := by simpa using hn
        have : n = 1 := by exact_mod_cast this.symm
        simp [this]
      · simp at hn
  · rw [e, ho]
    refine ⟨fun n hn => ?_, fun hn => ?_, Or.inr (Or.inr ?_)⟩
    · have : (1 : K) = n := by cases s <;> simpa using hn
      have : n = 1 := by exact_mod_cast this.symm
      simp [this]
    · cases s <;> simp at hn
    · cases s <;> simp

/-- what integer levels make of the rows of one link -/
def RowRel (c : Int) (r : List (Fl K) × List (Fl K)) (r' : List Int × List Int) : Prop :=
  List.Forall₂ (FlagRel c) r.1 r'.1 ∧ r'.2 = r.2.map (castInt c)

omit [IsStrictOrderedRing K] [FloorRing K] [DecidableEq Id] in
theorem rowRule_values (p : Params (Fl K)) (T : Nat) (dP dPL : List (List (Fl K))) :
    ∀ w ∈ rowRule p T dP dPL, w = .nan ∨ w = .fin 0 ∨ w = .fin 1 := by
  intro w hw
  obtain ⟨t, -, rfl⟩ := List.mem_map.mp hw
  unfold classify
  split_ifs
  · exact Or.inl rfl
  · exact Or.inr (Or.inr (by rw [Fl.pf_ofInt, Int.cast_one]))
  · exact Or.inr (Or.inl (by rw [Fl.pf_ofInt, Int.cast_zero]))

/-- two results: both errors, the same one, or both values, related -/
def ResRel {α β : Type} (R : α → β → Prop) : Except Err α → Except Err β → Prop
  | .ok a, .ok b => R a b
  | .error e, .error e' => e = e'
  | _, _ => False

theorem linkRows_rel {c : Int} (hc : c ≠ 1) (N : NearbyInt.Net K Id) (d : Nearby.Dist (Fl K) Id) (p : Params (Fl K)) (i : Nat)
    (id : Id) : ResRel (RowRel c) (Nearby.linkRows N.toFloat d p i id) (NearbyInt.linkRows c N d p i id) := by
  unfold Nearby.linkRows NearbyInt.linkRows
  cases within d p.radius id with
  | error e => exact rfl
  | ok mask =>
    dsimp only [bind, Except.bind]
    have hids : N.toFloat.ids = N.ids := rfl
    rw [hids]
    by_cases h1 : p.minLinks < mask.count true
    · rw [if_pos h1, if_pos h1]
      by_cases h2 : mask.length ≠ N.ids.length
      · rw [if_pos h2, if_pos h2]; exact rfl
      · rw [if_neg h2, if_neg h2]
        by_cases h3 : rdB mask i = false
        · rw [if_pos h3, if_pos h3]; exact rfl
        · rw [if_neg h3, if_neg h3]
          by_cases h4 : (!windowFits (p.timeperiod * 4) (p.timeperiod * 4) N.toFloat.T) = true
          · rw [if_pos h4, if_pos h4]; exact rfl
          · rw [if_neg h4, if_neg h4]
            exact ⟨smear_rel hc _ _ (rowRule_values p _ _ _), rfl⟩
    · rw [if_neg h1, if_neg h1]
      refine ⟨?_, by simp [castInt]⟩
      rw [List.forall₂_iff_get]
      refine ⟨by simp, fun t h1 h2 => ?_⟩
      rw [List.get_eq_getElem, List.get_eq_getElem, List.getElem_replicate, List.getElem_replicate]
      exact ⟨fun n hn => by simp at hn, fun _ => Or.inl rfl, Or.inl rfl⟩

theorem mapM_rel {α β γ : Type} {R : β → γ → Prop} {f : α → Except Err β} {g : α → Except Err γ} (l : List α)
    (h : ∀ x ∈ l, ResRel R (f x) (g x)) : ResRel (List.Forall₂ R) (l.mapM f) (l.mapM g) := by
  induction l with
  | nil => exact List.Forall₂.nil
  | cons x l ih =>
    rw [List.mapM_cons, List.mapM_cons]
    have hx := h x (by simp)
    have hl := ih fun y hy => h y (by simp [hy])
    revert hx hl
    cases f x <;> cases g x <;> cases l.mapM f <;> cases l.mapM g <;>
      simp only [ResRel, bind, Except.bind, pure, Except.pure] <;> intro hx hl <;>
      first | exact List.Forall₂.cons hx hl | exact hx | exact hl | exact hx.elim

/-- **C160** `nearby_wetdry` with integer levels raises exactly when it does with the same levels as floats, with the same
error. Otherwise, row by row: `F` is cut off towards zero and is `c` where it would be NaN or infinite (`c` is what the machine
makes of these); flags 0 and 1 are the same; a flag that would be NaN is `c` or 1. -/
theorem C160_results {c : Int} (hc : c ≠ 1) (N : NearbyInt.Net K Id) (d : Nearby.Dist (Fl K) Id) (p : Params (Fl K)) :
    (∀ e, Nearby.nearby_wetdry N.toFloat d p = .error e ↔ NearbyInt.nearby_wetdry c N d p = .error e) ∧
    ∀ out, Nearby.nearby_wetdry N.toFloat d p = .ok out → ∃ out', NearbyInt.nearby_wetdry c N d p = .ok out' ∧
      out'.length = out.length ∧ ∀ (i : Nat) (wet F : List (Fl K)), out[i]? = some (wet, F) →
        ∃ (wet' F' : List Int), out'[i]? = some (wet', F') ∧
        wet'.length = wet.length ∧ F'.length = F.length ∧
        (∀ (t : Nat) (n : Int), wet[t]? = some (.fin (n : K)) → wet'[t]? = some n) ∧
        (∀ t : Nat, wet[t]? = some .nan → wet'[t]? = some c ∨ wet'[t]? = some 1) ∧
        (∀ (t : Nat) (v : Fl K), F[t]? = some v → (∀ x, v ≠ .fin x) → F'[t]? = some c) ∧
        (∀ (t : Nat) (x : K), F[t]? = some (.fin x) → F'[t]? = some (if 0 ≤ x then ⌊x⌋ else ⌈x⌉)) := by
  have key : ResRel (List.Forall₂ (RowRel c)) (Nearby.nearby_wetdry N.toFloat d p) (NearbyInt.nearby_wetdry c N d p) := by
    unfold Nearby.nearby_wetdry NearbyInt.nearby_wetdry
    by_cases h1 : p.interval = 0
    · rw [if_pos h1, if_pos h1]; exact rfl
    · rw [if_neg h1, if_neg h1]
      by_cases h2 : (!windowFits p.period p.need N.toFloat.T) = true
      · rw [if_pos h2, if_pos h2]; exact rfl
      · rw [if_neg h2, if_neg h2]
        exact mapM_rel _ fun x _ => linkRows_rel hc N d p x.1 x.2
  revert key
  cases Nearby.nearby_wetdry N.toFloat d p <;> cases NearbyInt.nearby_wetdry c N d p <;> intro key
  · exact ⟨fun e => by cases (show _ = _ from key); simp, fun _ h => by cases h⟩
  · exact key.elim
  · exact key.elim
  · rename_i a b
    refine ⟨fun e => by simp, ?_⟩
    rintro out h
    obtain rfl := Except.ok.inj h
    replace key : List.Forall₂ (RowRel c) a b := key
    refine ⟨b, rfl, key.length_eq.symm, ?_⟩
    intro i wet F hi
    obtain ⟨hil, hie⟩ := List.getElem?_eq_some_iff.mp hi
    have hib : i < b.length := by rw [← key.length_eq]; exact hil
    have hrel := (List.forall₂_iff_get.mp key).2 i hil hib
    rw [List.get_eq_getElem, List.get_eq_getElem, hie] at hrel
    obtain ⟨hw, hF⟩ := hrel
    refine ⟨b[i].1, b[i].2, by rw [List.getElem?_eq_getElem hib], hw.length_eq.symm, by rw [hF, List.length_map], ?_, ?_, ?_, ?_⟩
    · intro t n ht
      obtain ⟨htl, hte⟩ := List.getElem?_eq_some_iff.mp ht
      have htb : t < b[i].1.length := by rw [← hw.length_eq]; exact htl
      have := (List.forall₂_iff_get.mp hw).2 t htl htb
      rw [List.get_eq_getElem, List.get_eq_getElem, hte] at this
      rw [List.getElem?_eq_getElem htb, this.1 n rfl]
    · intro t ht
      obtain ⟨htl, hte⟩ := List.getElem?_eq_some_iff.mp ht
      have htb : t < b[i].1.length := by rw [← hw.length_eq]; exact htl
      have := (List.forall₂_iff_get.mp hw).2 t htl htb
      rw [List.get_eq_getElem, List.get_eq_getElem, hte] at this
      rw [List.getElem?_eq_getElem htb]
      rcases this.2.1 rfl with h | h <;> simp [h]
    · intro t v ht hv
      rw [hF, List.getElem?_map, ht]
      rcases v with _ | _ | x | _
      · rfl
      · rfl
      · exact absurd rfl (hv x)
      · rfl
    · intro t x ht
      rw [hF, List.getElem?_map, ht]; rfl

theorem mapM_ex_rel {α β : Type} {P : α → β → Prop} {f : α → Except Err β} (l : List α)
    (h : ∀ x ∈ l, ∃ y, f x = .ok y ∧ P x y) : ∃ ys, l.mapM f = .ok ys ∧ List.Forall₂ P l ys := by
  induction l with
  | nil => exact ⟨[], rfl, List.Forall₂.nil⟩
  | cons x l ih =>
    obtain ⟨y, hy, hp⟩ := h x (by simp)
    obtain ⟨ys, hys, hps⟩ := ih fun z hz => h z (by simp [hz])
    refine ⟨y :: ys, ?_, List.Forall₂.cons hp hps⟩
    rw [List.mapM_cons, hy, hys]
    rfl

/-- the rows of one link -/
theorem linkRows_int (c : Int) {N : NearbyInt.Net K Id} {d : Nearby.Dist (Fl K) Id} {p : Params (Fl K)}
    (h : Consistent N.toFloat d p) {i : Nat} {id : Id} (hid : N.ids[i]? = some id) :
    ∃ r : List Int × List Int, NearbyInt.linkRows c N d p i id = .ok r ∧
      (p.minLinks < (nbrs N.toFloat d p i).length → ∀ t < N.toFloat.T, t = 0 ∨ N.toFloat.T ≤ t + 2 → r.1[t]? = some 1) ∧
      ((nbrs N.toFloat d p i).length ≤ p.minLinks →
        r.1 = List.replicate N.toFloat.T c ∧ r.2 = List.replicate N.toFloat.T c) := by
  obtain ⟨hi, he⟩ := List.getElem?_eq_some_iff.mp hid
  unfold NearbyInt.linkRows
  rw [within_eq h.toShaped (N := N.toFloat) hid]
  have hids : N.toFloat.ids = N.ids := rfl
  have hcount : ((List.range N.toFloat.ids.length).map (near d p.radius i)).count true =
      (nbrs N.toFloat d p i).length := KR.count_map _ _
  have hown : rdB ((List.range N.toFloat.ids.length).map (near d p.radius i)) i = true := by
    unfold rdB
    rw [List.getD_eq_getElem?_getD, List.getElem?_map, List.getElem?_range (by rw [hids]; exact hi)]
    simpa using h.own i hi
  dsimp only [bind, Except.bind]
  rw [hcount, List.length_map, List.length_range, hown, h.fits.2]
  by_cases h1 : p.minLinks < (nbrs N.toFloat d p i).length
  · rw [if_pos h1, if_neg (by simp [hids]), if_neg (by simp), if_neg (by simp)]
    refine ⟨_, rfl, fun _ t ht hends => ?_, fun hle => absurd h1 (by omega)⟩
    have hlen : t < ((rowRule p N.toFloat.T
        (KR.select (dPs N.toFloat p) ((List.range N.toFloat.ids.length).map (near d p.radius i)))
        (KR.select (dPLs N.toFloat p) ((List.range N.toFloat.ids.length).map (near d p.radius i)))).map
        (castInt c)).length := by simpa [rowRule] using ht
    have hdP : ((dPs N.toFloat p).getD i []).length = N.toFloat.T := by
      unfold dPs
      rw [List.getD_eq_getElem?_getD, List.getElem?_map, List.getElem?_eq_getElem (by rw [h.pmin]; exact hi)]
      simp only [Option.map_some, Option.getD_some, length_deltaP]
      exact h.times _ (List.getElem_mem _)
    dsimp only
    rw [smear_int_get c _ _ t hlen, if_pos]
    have hsh : ∀ (cond : List Bool), cond.length = N.toFloat.T →
        (shifted cond 1 t || shifted cond (-1) t || shifted cond (-2) t) = true := by
      intro cond hcl
      unfold shifted
      rw [hcl]
      rcases hends with rfl | hge
      · rw [if_neg (by omega)]; simp
      · have hno : ¬(0 ≤ (t : Int) - -2 ∧ (t : Int) - -2 < (N.toFloat.T : Int)) := by omega
        rw [if_neg hno]; simp
    exact hsh _ (by rw [List.length_zipWith, List.length_map, hdP]; simp [rowRule])
  · rw [if_neg h1]
    exact ⟨_, rfl, fun hlt => absurd hlt h1, fun _ => ⟨rfl, rfl⟩⟩

/-- **C160** Links with enough links within the radius are wet at the first and at the last two steps even if nothing is known
there (float levels: NaN, C33). Links with too few links within the radius have `c` everywhere, as flag and as `F`. -/
theorem C160_unknown (c : Int) {N : NearbyInt.Net K Id} {d : Nearby.Dist (Fl K) Id} {p : Params (Fl K)}
    (h : Consistent N.toFloat d p) (i : Nat) (hi : i < N.ids.length) :
    ∃ out' wet' F', NearbyInt.nearby_wetdry c N d p = .ok out' ∧ out'[i]? = some (wet', F') ∧
      (p.minLinks < (nbrs N.toFloat d p i).length → ∀ t < N.toFloat.T, t = 0 ∨ N.toFloat.T ≤ t + 2 → wet'[t]? = some 1) ∧
      ((nbrs N.toFloat d p i).length ≤ p.minLinks →
        wet' = List.replicate N.toFloat.T c ∧ F' = List.replicate N.toFloat.T c) := by
  have hint := h.interval
  unfold NearbyInt.nearby_wetdry
  rw [if_neg (by omega), h.fits.1, if_neg (by simp)]
  obtain ⟨ys, hys, hP⟩ := mapM_ex_rel (f := fun x : Nat × Id => NearbyInt.linkRows c N d p x.1 x.2)
    (P := fun (x : Nat × Id) (r : List Int × List Int) =>
      (p.minLinks < (nbrs N.toFloat d p x.1).length → ∀ t < N.toFloat.T, t = 0 ∨ N.toFloat.T ≤ t + 2 → r.1[t]? = some 1) ∧
      ((nbrs N.toFloat d p x.1).length ≤ p.minLinks →
        r.1 = List.replicate N.toFloat.T c ∧ r.2 = List.replicate N.toFloat.T c))
    ((List.range N.ids.length).zip N.ids) (by
      rintro ⟨k, id⟩ hm
      obtain ⟨k', hk⟩ := List.mem_iff_getElem?.mp hm
      rw [List.getElem?_zip_eq_some] at hk
      have hik : k' = k := by
        obtain ⟨hl, he⟩ := List.getElem?_eq_some_iff.mp hk.1
        simpa using he
      subst hik
      exact linkRows_int c h hk.2)
  have hlz : i < ((List.range N.ids.length).zip N.ids).length := by simpa using hi
  have hly : i < ys.length := by rw [← hP.length_eq]; exact hlz
  have := (List.forall₂_iff_get.mp hP).2 i hlz hly
  simp only [List.get_eq_getElem, List.getElem_zip, List.getElem_range] at this
  exact ⟨ys, ys[i].1, ys[i].2, hys, by rw [List.getElem?_eq_getElem hly], this.1, this.2⟩

end

/-! ### Rain rates -/

section
variable {Id : Type} [DecidableEq Id]

/-- the numbers of an integer array -/
noncomputable def ints (xs : List Int) : List (Fl ℝ) := xs.map fun (n : Int) => Fl.fin (n : ℝ)

/-- The pipeline of `nearbyChain` with `pmin` of an integer type: classification, then for each link reference level, correction
and retrieval, which turn the integers of `pmin`, `wet` and `F` into floats where needed. -/
noncomputable def intChain (c : Int) (sp : KR.Spline) (N : NearbyInt.Net ℝ Id) (pmax : List (List (Fl ℝ)))
    (d : Nearby.Dist (Fl ℝ) Id) (p : Params (Fl ℝ)) (q : RetrievalParams) : Except Err (List (List (Fl ℝ))) := do
  let rows ← NearbyInt.nearby_wetdry c N d p
  (List.range rows.length).mapM fun i =>
    retrieveLink sp q i (N.toFloat.pmin.getD i []) (pmax.getD i []) (ints (rows.getD i ([], [])).1)
      (ints (rows.getD i ([], [])).2) (N.length.getD i .nan)

theorem dryLevel_congr {x y w w' : Fl ℝ} (h : w = .fin 0 ↔ w' = .fin 0) : dryLevel x y w = dryLevel x y w' := by
  have key : ∀ w : Fl ℝ, dryLevel x y w = if w = .fin 0 then (x +ᶠ y) /ᶠ PyFloat.ofInt 2 else PyFloat.nan := by
    intro w
    unfold dryLevel
    have h1 : (Fl.ninf ==ᶠ Fl.fin (0 : ℝ)) = false := rfl
    have h2 : (Fl.pinf ==ᶠ Fl.fin (0 : ℝ)) = false := rfl
    rcases w with _ | _ | v | _
    · simp
    · simp [h1]
    · by_cases hv : v = 0 <;> simp [hv]
    · simp [h2]
  rw [key, key]
  by_cases h1 : w = .fin 0
  · rw [if_pos h1, if_pos (h.1 h1)]
  · rw [if_neg h1, if_neg fun h2 => h1 (h.2 h2)]

/-- Two sets of flags with the same dry steps: the rates at a step with the same flag differ only by the filter. -/
theorem retrieve_flags (sp : KR.Spline) (q q' : RetrievalParams) {i T : Nat} {a b L : Fl ℝ}
    {pmin pmax wet F wet' F' : List (Fl ℝ)} (hf : q.f_GHz i = none) (hp : q.pol i = none) (ha : q.a i = some [a])
    (hb : q.b i = some [b]) (hq : q' = { q with threshold := none }) (l1 : pmin.length = T) (l2 : pmax.length = T)
    (l3 : wet.length = T) (l3' : wet'.length = T) (l4' : F'.length = T)
    (hdry : ∀ s < T, rd wet s = .fin 0 ↔ rd wet' s = .fin 0) {thr : Fl ℝ} (hthr : q.threshold = some thr) :
    ∃ R R', retrieveLink sp q' i pmin pmax wet F L = .ok R ∧ retrieveLink sp q i pmin pmax wet' F' L = .ok R' ∧
      R.length = T ∧ R'.length = T ∧ ∀ t < T, ((rd F' t ≤ᶠ thr) = true → R'[t]? = some .nan) ∧
        ((rd F' t ≤ᶠ thr) = false → rd wet t = rd wet' t → R'[t]? = R[t]?) := by
  have z : ∀ {T : Nat} {u v w : List (Fl ℝ)} (f : Fl ℝ → Fl ℝ → Fl ℝ → Fl ℝ) (h1 : u.length = T) (h2 : v.length = T)
      (h3 : w.length = T), (zip3 f u v w).length = T ∧
        ∀ s < T, (zip3 f u v w)[s]? = some (f (rd u s) (rd v s) (rd w s)) := by
    intro T u v w f h1 h2 h3
    exact ⟨by rw [length_zip3 _ _ _ _ (by omega) (by omega)]; exact h1, fun s hs =>
      getElem?_zip3 f (getElem?_eq_rd (by omega)) (getElem?_eq_rd (by omega)) (getElem?_eq_rd (by omega))⟩
  obtain ⟨d1, d2⟩ := z dryLevel l1 l2 l3
  obtain ⟨d1', d2'⟩ := z dryLevel l1 l2 l3'
  have hlev : zip3 dryLevel pmin pmax wet = zip3 dryLevel pmin pmax wet' := by
    apply List.ext_getElem?
    intro s
    by_cases hs : s < T
    · rw [d2 s hs, d2' s hs, dryLevel_congr (hdry s hs)]
    · rw [List.getElem?_eq_none (by omega), List.getElem?_eq_none (by omega)]
  have hpref : determine_reference_level pmin pmax wet q.nAverageDry q.minPeriods =
      determine_reference_level pmin pmax wet' q.nAverageDry q.minPeriods := by
    unfold determine_reference_level
    rw [hlev]
  subst hq
  unfold retrieveLink
  dsimp only
  rw [hf, hp, ha, hb, hthr, hpref]
  have r1 : (determine_reference_level pmin pmax wet' q.nAverageDry q.minPeriods).length = T := by
    unfold determine_reference_level; rw [length_rolling]; exact d1'
  set pref := determine_reference_level pmin pmax wet' q.nAverageDry q.minPeriods
  unfold correct_received_signals
  dsimp only
  obtain ⟨m1, m2⟩ := z corrMin l1 l3 r1
  obtain ⟨m1', m2'⟩ := z corrMin l1 l3' r1
  obtain ⟨x1, x2⟩ := z corrMax m1 l2 r1
  obtain ⟨x1', x2'⟩ := z corrMax m1' l2 r1
  refine ⟨_, _, retrival_scalar sp _ _ _ _ _ _ _ _ _ _ _ (by omega) (by omega) (fun h => absurd rfl h),
    retrival_scalar sp _ _ _ _ _ _ _ _ _ _ _ (by omega) (by omega) (fun _ => by omega), by simp [r1], by simp [r1], ?_⟩
  intro t ht
  rw [List.getElem?_map, List.getElem?_map, List.getElem?_range (by omega), Option.map_some, Option.map_some]
  constructor
  · intro h
    dsimp only
    rw [if_pos h]
  · intro h hw
    have em : rd (zip3 corrMin pmin wet' pref) t = rd (zip3 corrMin pmin wet pref) t := by
      rw [rd_of_getElem? (m2 _ ht), rd_of_getElem? (m2' _ ht), hw]
    have ex : rd (zip3 corrMax (zip3 corrMin pmin wet' pref) pmax pref) t =
        rd (zip3 corrMax (zip3 corrMin pmin wet pref) pmax pref) t := by
      rw [rd_of_getElem? (x2 _ ht), rd_of_getElem? (x2' _ ht), em]
    dsimp only
    rw [if_neg (by rw [h]; simp), if_neg (by simp), em, ex]

/-- rounding towards zero against a negative threshold -/
theorem trunc_le_iff {x thr : ℝ} (h : thr < 0) : ((if 0 ≤ x then ⌊x⌋ else ⌈x⌉ : ℤ) : ℝ) ≤ thr ↔ x ≤ ⌊thr⌋ := by
  split_ifs with hx
  · constructor
    · intro h1
      have : (0 : ℝ) ≤ ⌊x⌋ := by exact_mod_cast Int.floor_nonneg.mpr hx
      linarith
    · intro h1
      have := Int.floor_le thr
      linarith
  · rw [← Int.le_floor, Int.ceil_le]

/-- **C160** The rain rates of the whole pipeline for levels of an integer type, on a machine on which NaN becomes a large negative
number (x86: `-2^63`), with a negative threshold of the outlier filter: the rate is NaN wherever `F` is not a number, in
particular at the first `4 * timeperiod - 1` steps, and wherever `F` is at most the threshold rounded down to an integer
(`-33` for the default `-32.5`). Elsewhere it is what the pipeline without outlier filter gives for float levels. -/
theorem C160_rates {c : Int} (sp : KR.Spline) (q : RetrievalParams) (a b : Nat → Fl ℝ) {N : NearbyInt.Net ℝ Id}
    {d : Nearby.Dist (Fl ℝ) Id} {p : Params (Fl ℝ)} {pmax : List (List (Fl ℝ))} (h : Consistent N.toFloat d p)
    (hl : PosLengths N.toFloat) (hneed : 0 < p.minHours * 60 / p.interval) (hper : 0 < p.timeperiod * 60 / p.interval)
    (hq : ∀ j, q.f_GHz j = none ∧ q.pol j = none ∧ q.a j = some [a j] ∧ q.b j = some [b j])
    (hmax : pmax.length = N.ids.length ∧ ∀ xs ∈ pmax, xs.length = N.toFloat.T)
    {thr : ℝ} (hthr : q.threshold = some (.fin thr)) (h0 : thr < 0) (hc : (c : ℝ) ≤ thr) :
    ∃ out Rs Rs', Nearby.nearby_wetdry N.toFloat d p = .ok out ∧
      nearbyChain sp N.toFloat pmax d p { q with threshold := none } = .ok Rs ∧ intChain c sp N pmax d p q = .ok Rs' ∧
      ∀ i < N.ids.length, ∃ wet F R R', out[i]? = some (wet, F) ∧ Rs[i]? = some R ∧ Rs'[i]? = some R' ∧
        R'.length = N.toFloat.T ∧ ∀ t < N.toFloat.T,
          (t + 1 < 4 * p.timeperiod → R'[t]? = some .nan) ∧
          ((∀ f : ℝ, F[t]? ≠ some (.fin f)) → R'[t]? = some .nan) ∧
          ∀ f : ℝ, F[t]? = some (.fin f) →
            (f ≤ ⌊thr⌋ → R'[t]? = some .nan) ∧ ((⌊thr⌋ : ℝ) < f → R'[t]? = R[t]?) := by
  have hc1 : c ≠ 1 := by
    rintro rfl
    norm_num at hc
    linarith
  have hc0 : c ≠ 0 := by
    rintro rfl
    norm_num at hc
    linarith
  obtain ⟨out, ho, hlen, hrow⟩ := nearby_rows_length h
  obtain ⟨out', ho', hlen', hrel⟩ := (C160_results hc1 N d p).2 out ho
  have hids : N.toFloat.ids = N.ids := rfl
  rw [hids] at hlen hrow
  have lmax : ∀ j < N.ids.length, (pmax.getD j []).length = N.toFloat.T := fun j hj => by
    rw [List.getD_eq_getElem?_getD, List.getElem?_eq_getElem (by omega), Option.getD_some]
    exact hmax.2 _ (List.getElem_mem _)
  have lmin : ∀ j < N.ids.length, (N.toFloat.pmin.getD j []).length = N.toFloat.T :=
    fun j hj => getD_len h.times (by rw [h.pmin]; exact hj)
  have htp : 0 < p.timeperiod := by
    rcases Nat.eq_zero_or_pos p.timeperiod with h | h
    · rw [h] at hper; simp at hper
    · exact h
  have hdrop : ∀ j t, DropIs N.toFloat p j t (dropAt N.toFloat p j t) := fun j t => dropAt_spec _ _ hneed j t
  -- one link
  have hlink : ∀ i < N.ids.length, ∃ wet F wet' F', out[i]? = some (wet, F) ∧ out'[i]? = some (wet', F') ∧
      wet.length = N.toFloat.T ∧ F.length = N.toFloat.T ∧ wet'.length = N.toFloat.T ∧ F'.length = N.toFloat.T ∧
      (∀ s < N.toFloat.T, rd wet s = .fin 0 ↔ rd (ints wet') s = .fin 0) ∧
      (∀ (t : Nat) (v : Fl ℝ), F[t]? = some v → (∀ x, v ≠ .fin x) → F'[t]? = some c) ∧
      (∀ (t : Nat) (x : ℝ), F[t]? = some (.fin x) → F'[t]? = some (if 0 ≤ x then ⌊x⌋ else ⌈x⌉)) ∧
      (∀ t < N.toFloat.T, t + 1 < 4 * p.timeperiod → F[t]? = some .nan) ∧
      (∀ t < N.toFloat.T, ∀ x : ℝ, F[t]? = some (.fin x) → rd wet t = rd (ints wet') t) := by
    intro i hi
    obtain ⟨wet, F, hwF, lw, lF⟩ := hrow i hi
    obtain ⟨wet', F', hwF', lw', lF', h1, h2, h3, h4⟩ := hrel i wet F hwF
    obtain ⟨o2, wet2, F2, ho2, hr2, -, hA, hB⟩ := C34_smear h hl hneed hper _ hdrop i hi
    obtain rfl : out = o2 := Except.ok.inj (ho.symm.trans ho2)
    obtain ⟨rfl, rfl⟩ : wet = wet2 ∧ F = F2 := by simpa using hwF.symm.trans hr2
    have hval : ∀ s < N.toFloat.T, wet[s]? = some .nan ∨ wet[s]? = some (.fin 0) ∨ wet[s]? = some (.fin 1) := by
      intro s hs
      by_cases hm : p.minLinks < (nbrs N.toFloat d p i).length
      · obtain ⟨rule, -, hrule⟩ := hB hm
        obtain ⟨r1, r2⟩ := hrule s hs
        by_cases e : rule s = .nan
        · exact Or.inl (r1 e)
        · obtain ⟨r3, r4⟩ := r2 e
          by_cases e2 : (rule s = .fin 1 ∨ (∃ s' < N.toFloat.T, (s' + 1 = s ∨ s' = s + 1 ∨ s' = s + 2) ∧ rule s' = .fin 1 ∧
                (dropAt N.toFloat p i s' <ᶠ .fin (-2)) = true) ∨ s = 0 ∨ N.toFloat.T ≤ s + 2)
          · exact Or.inr (Or.inr (r3 e2))
          · exact Or.inr (Or.inl (r4 e2))
      · exact Or.inl (hA (by omega) s hs)
    have hz : ∀ s : Nat, wet[s]? = some (.fin 0) → wet'[s]? = some 0 := fun s e => h1 s 0 (by simpa using e)
    have hone : ∀ s : Nat, wet[s]? = some (.fin 1) → wet'[s]? = some 1 := fun s e => h1 s 1 (by simpa using e)
    have hint : ∀ (s : Nat) (n : Int), wet'[s]? = some n → rd (ints wet') s = .fin (n : ℝ) := by
      intro s n e
      apply rd_of_getElem?
      unfold ints
      rw [List.getElem?_map, e]
      rfl
    refine ⟨wet, F, wet', F', hwF, hwF', lw, lF, by omega, by omega, ?_, h3, h4, ?_, ?_⟩
    · intro s hs
      rcases hval s hs with e | e | e
      · rw [rd_of_getElem? e]
        rcases h2 s e with e' | e' <;> rw [hint s _ e'] <;> simp [hc0]
      · rw [rd_of_getElem? e, hint s _ (hz s e)]
        simp
      · rw [rd_of_getElem? e, hint s _ (hone s e)]
        simp
    · intro t ht htt
      by_cases hm : p.minLinks < (nbrs N.toFloat d p i).length
      · obtain ⟨o3, wet3, F3, ho3, hr3, -, dev, -, hF⟩ := C67_F_score h hl htp hneed _ hdrop i hi hm
        obtain rfl : out = o3 := Except.ok.inj (ho.symm.trans ho3)
        obtain ⟨rfl, rfl⟩ : wet = wet3 ∧ F = F3 := by simpa using hwF.symm.trans hr3
        exact (hF t ht).1 (Or.inl htt)
      · obtain ⟨o3, ho3, -, hr3⟩ := nearby_ok h
        obtain rfl : out = o3 := Except.ok.inj (ho.symm.trans ho3)
        have := hr3 i hi
        rw [if_neg hm, hwF] at this
        obtain ⟨-, rfl⟩ : _ ∧ F = List.replicate N.toFloat.T .nan := by simpa using this
        simp [ht]
    · intro t ht x hx
      rcases hval t ht with e | e | e
      · exfalso
        obtain ⟨o3, wet3, F3, ho3, hr3, -, hw3⟩ := C33_rule h hl hneed hper _ hdrop i hi
        obtain rfl : out = o3 := Except.ok.inj (ho.symm.trans ho3)
        obtain ⟨rfl, rfl⟩ : wet = wet3 ∧ F = F3 := by simpa using hwF.symm.trans hr3
        obtain ⟨w, hw, hnan, -⟩ := hw3 t ht
        rw [e] at hw
        have hfew := hnan.1 (Option.some.inj hw).symm
        by_cases hm : p.minLinks < (nbrs N.toFloat d p i).length
        · obtain ⟨o4, wet4, F4, ho4, hr4, -, dev, hdev, hF⟩ := C67_F_score h hl htp hneed _ hdrop i hi hm
          obtain rfl : out = o4 := Except.ok.inj (ho.symm.trans ho4)
          obtain ⟨rfl, rfl⟩ : wet = wet4 ∧ F = F4 := by simpa using hwF.symm.trans hr4
          have hd : dev t = .nan := by
            rcases hdev t with ⟨-, e⟩ | ⟨e, -⟩
            · exact e
            · omega
          have := (hF t ht).1 (Or.inr ⟨t, by omega, le_refl _, hd⟩)
          rw [hx] at this
          cases this
        · obtain ⟨o4, ho4, -, hr4⟩ := nearby_ok h
          obtain rfl : out = o4 := Except.ok.inj (ho.symm.trans ho4)
          have := hr4 i hi
          rw [if_neg hm, hwF] at this
          obtain ⟨-, rfl⟩ : _ ∧ F = List.replicate N.toFloat.T .nan := by simpa using this
          simp [ht] at hx
      · rw [rd_of_getElem? e, hint t _ (hz t e)]
        simp
      · rw [rd_of_getElem? e, hint t _ (hone t e)]
        simp
  have hg : ∀ i < N.ids.length, ∀ wet F, out[i]? = some (wet, F) → out.getD i ([], []) = (wet, F) := fun i hi wet F e => by
    rw [List.getD_eq_getElem?_getD, e]; rfl
  have hg' : ∀ i < N.ids.length, ∀ wet F, out'[i]? = some (wet, F) → out'.getD i ([], []) = (wet, F) := fun i hi wet F e => by
    rw [List.getD_eq_getElem?_getD, e]; rfl
  -- rates of one link
  have hrates : ∀ i < N.ids.length, ∃ wet F R R', out[i]? = some (wet, F) ∧
      retrieveLink sp { q with threshold := none } i (N.toFloat.pmin.getD i []) (pmax.getD i []) ((out.getD i ([], [])).1)
        ((out.getD i ([], [])).2) (N.toFloat.length.getD i .nan) = .ok R ∧
      retrieveLink sp q i (N.toFloat.pmin.getD i []) (pmax.getD i []) (ints (out'.getD i ([], [])).1)
        (ints (out'.getD i ([], [])).2) (N.length.getD i .nan) = .ok R' ∧
      R'.length = N.toFloat.T ∧ ∀ t < N.toFloat.T,
        (t + 1 < 4 * p.timeperiod → R'[t]? = some .nan) ∧
        ((∀ f : ℝ, F[t]? ≠ some (.fin f)) → R'[t]? = some .nan) ∧
        ∀ f : ℝ, F[t]? = some (.fin f) →
          (f ≤ ⌊thr⌋ → R'[t]? = some .nan) ∧ ((⌊thr⌋ : ℝ) < f → R'[t]? = R[t]?) := by
    intro i hi
    obtain ⟨wet, F, wet', F', e, e', lw, lF, lw', lF', hdry, hc', hf', hearly, hsame⟩ := hlink i hi
    obtain ⟨q1, q2, q3, q4⟩ := hq i
    rw [hg i hi wet F e, hg' i hi wet' F' e']
    obtain ⟨R, R', hR, hR', -, lR', hrate⟩ := retrieve_flags sp q { q with threshold := none } (F := F) (wet' := ints wet')
      (F' := ints F') (wet := wet) (L := N.length.getD i .nan) q1 q2 q3 q4 rfl (lmin i hi) (lmax i hi) lw (by simpa [ints] using lw')
      (by simpa [ints] using lF') hdry hthr
    refine ⟨wet, F, R, R', e, hR, hR', lR', ?_⟩
    intro t ht
    have hint : ∀ (n : Int), F'[t]? = some n → rd (ints F') t = .fin (n : ℝ) := by
      intro n e
      apply rd_of_getElem?
      unfold ints
      rw [List.getElem?_map, e]
      rfl
    have hno : (∀ f : ℝ, F[t]? ≠ some (.fin f)) → R'[t]? = some .nan := by
      intro hv
      apply (hrate t ht).1
      rw [hint c (hc' t _ (List.getElem?_eq_getElem (by omega)) fun x hx => hv x (by
        rw [List.getElem?_eq_getElem (by omega), hx]))]
      simpa using hc
    refine ⟨fun h1 => hno fun f hf => ?_, hno, fun f hf => ?_⟩
    · rw [hearly t ht h1] at hf
      cases hf
    · have hF := hint _ (hf' t f hf)
      have htr := trunc_le_iff (x := f) h0
      constructor
      · intro hle
        apply (hrate t ht).1
        rw [hF]
        simpa using htr.2 hle
      · intro hlt
        refine (hrate t ht).2 ?_ (hsame t ht f hf)
        rw [hF]
        have : ¬ (((if 0 ≤ f then ⌊f⌋ else ⌈f⌉ : ℤ) : ℝ) ≤ thr) := fun h2 => absurd (htr.1 h2) (not_le.mpr hlt)
        simpa using this
  obtain ⟨Rs, hRs, -, hR⟩ := nearbyChain_ok sp (pmax := pmax) (q := { q with threshold := none }) ho (by
    intro i hi
    obtain ⟨_, _, R, _, _, hR, _⟩ := hrates i (by omega)
    exact ⟨R, hR⟩)
  obtain ⟨Rs', hRs', hR'⟩ : ∃ Rs', intChain c sp N pmax d p q = .ok Rs' ∧ ∀ i < N.ids.length, ∀ R',
      retrieveLink sp q i (N.toFloat.pmin.getD i []) (pmax.getD i []) (ints (out'.getD i ([], [])).1)
        (ints (out'.getD i ([], [])).2) (N.length.getD i .nan) = .ok R' → Rs'[i]? = some R' := by
    unfold intChain
    rw [ho']
    dsimp only [bind, Except.bind]
    obtain ⟨ys, hys, hP⟩ := mapM_ex_rel (P := fun (i : Nat) (R' : List (Fl ℝ)) => retrieveLink sp q i (N.toFloat.pmin.getD i [])
      (pmax.getD i []) (ints (out'.getD i ([], [])).1) (ints (out'.getD i ([], [])).2) (N.length.getD i .nan) = .ok R')
      (f := fun i => retrieveLink sp q i (N.toFloat.pmin.getD i [])
      (pmax.getD i []) (ints (out'.getD i ([], [])).1) (ints (out'.getD i ([], [])).2) (N.length.getD i .nan))
      (List.range out'.length) (by
        intro i hi
        have hi' : i < out'.length := by simpa using hi
        obtain ⟨_, _, _, R', _, _, hR', _⟩ := hrates i (by omega)
        exact ⟨R', hR', hR'⟩)
    refine ⟨ys, hys, fun i hi R' hR' => ?_⟩
    have h1 : i < (List.range out'.length).length := by simp; omega
    have h2 : i < ys.length := by rw [← hP.length_eq]; exact h1
    have := (List.forall₂_iff_get.mp hP).2 i h1 h2
    simp only [List.get_eq_getElem, List.getElem_range] at this
    rw [hR'] at this
    rw [List.getElem?_eq_getElem h2, ← Except.ok.inj this]
  refine ⟨out, Rs, Rs', ho, hRs, hRs', fun i hi => ?_⟩
  obtain ⟨wet, F, R, R', e, h1, h2, h3, h4⟩ := hrates i hi
  exact ⟨wet, F, R, R', e, hR i (by omega) R h1, hR' i hi R' h2, h3, h4⟩

/-- one link of 2 km with integer levels -/
noncomputable def oneIntNet (xs : List Int) : NearbyInt.Net ℝ Nat := ⟨[7], [.fin 2], [xs]⟩

theorem oneInt_consistent (xs : List Int) (hx : 4 ≤ xs.length) : Consistent (oneIntNet xs).toFloat oneDist oneParams :=
  one_consistent (xs.map fun (n : Int) => Fl.fin (n : ℝ)) (by simpa using hx)

/-- the default threshold -32.5 on x86: the filter acts at -33, and the first three rates are NaN -/
example (sp : KR.Spline) (xs : List Int) (ys : List (Fl ℝ)) (hx : xs.length = 8) (hy : ys.length = 8) :
    ∃ Rs' R', intChain (-2 ^ 63) sp (oneIntNet xs) [ys] oneDist oneParams ⟨3, 1, fun _ => none, fun _ => none,
        fun _ => some [.fin 1], fun _ => some [.fin 1], "pchip", .fin 0, .fin (1/3), some (.fin (-65 / 2))⟩ = .ok Rs' ∧
      Rs'[0]? = some R' ∧ R'.length = 8 ∧ ∀ t < 3, R'[t]? = some .nan := by
  have hT : (oneIntNet xs).toFloat.T = 8 := by simpa [oneIntNet, NearbyInt.Net.toFloat, Net.T] using hx
  obtain ⟨out, Rs, Rs', -, -, h, hr⟩ := C160_rates (c := -2 ^ 63) sp ⟨3, 1, fun _ => none, fun _ => none,
    fun _ => some [.fin 1], fun _ => some [.fin 1], "pchip", .fin 0, .fin (1/3), some (.fin (-65 / 2))⟩ (fun _ => .fin 1)
    (fun _ => .fin 1) (N := oneIntNet xs) (pmax := [ys]) (oneInt_consistent xs (by omega)) (by
      intro j hj
      have : j = 0 := by simpa [oneIntNet, NearbyInt.Net.toFloat] using hj
      subst this
      exact ⟨2, by norm_num, rfl⟩) (by decide) (by decide) (fun _ => ⟨rfl, rfl, rfl, rfl⟩) ⟨rfl, by simp [hT, hy]⟩ rfl (by norm_num) (by norm_num)
  obtain ⟨wet, F, R, R', -, -, h1, h2, h3⟩ := hr 0 (by simp [oneIntNet])
  rw [hT] at h2 h3
  exact ⟨Rs', R', h, h1, h2, fun t ht => (h3 t (by omega)).1 (by simp [oneParams]; omega)⟩

/-- the first and the last two steps of the only link are wet whatever the machine makes of NaN -/
example (c : Int) (xs : List Int) (hx : xs.length = 8) : ∃ out' wet' F',
    NearbyInt.nearby_wetdry c (oneIntNet xs) oneDist oneParams = .ok out' ∧ out'[0]? = some (wet', F') ∧
      wet'[0]? = some 1 ∧ wet'[6]? = some 1 ∧ wet'[7]? = some 1 := by
  have hT : (oneIntNet xs).toFloat.T = 8 := by simpa [oneIntNet, NearbyInt.Net.toFloat, Net.T] using hx
  obtain ⟨out', wet', F', h1, h2, h3, -⟩ := C160_unknown c (oneInt_consistent xs (by omega)) 0 (by simp [oneIntNet])
  rw [hT] at h3
  have hn : oneParams.minLinks < (nbrs (oneIntNet xs).toFloat oneDist oneParams 0).length := by
    have : (0 : Nat) ∈ nbrs (oneIntNet xs).toFloat oneDist oneParams 0 := by
      simp [nbrs, oneIntNet, NearbyInt.Net.toFloat, near, oneDist, oneParams, at2, rd]
    exact List.length_pos_of_mem this
  exact ⟨out', wet', F', h1, h2, h3 hn 0 (by omega) (Or.inl rfl), h3 hn 6 (by omega) (Or.inr (by omega)),
    h3 hn 7 (by omega) (Or.inr (by omega))⟩

end

end Verif.Props
