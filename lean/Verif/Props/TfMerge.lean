import Verif.Model.TfMerge
import Verif.Props.TfScale

/-!
# C171: predictions merged into the dataset
-/

namespace Verif.Props
open Verif Verif.Torch Verif.Tf

variable {ι : Type} [DecidableEq ι]

/-- `wet_dry_1d_cnn` looks at nothing but ids, times and the input variables -/
theorem wetDry1dCnn_reads (net : List (List (List ℝ)) → List (Fl ℝ)) (ds r : Ds ι ℝ) (hd : r.dim = ds.dim) (hi : r.ids = ds.ids)
    (hT : r.nTime = ds.nTime) (coords : List String) (idCoord : String) (idValues : List ι) (vars : List String) (L : ℕ)
    (cmlIds : Option (List ι)) (hv : ∀ v ∈ vars, ∀ c, r.col c v = ds.col c v) :
    wetDry1dCnn net r coords idCoord idValues vars L cmlIds = wetDry1dCnn net ds coords idCoord idValues vars L cmlIds := by
  have e1 : ∀ cml, r.pos cml = ds.pos cml := fun cml => by unfold Ds.pos; rw [hd, hi]
  have e2 : ∀ c, vars.mapM (r.col c) = vars.mapM (ds.col c) := by
    intro c
    have : ∀ l : List String, (∀ v ∈ l, ∀ c, r.col c v = ds.col c v) → l.mapM (r.col c) = l.mapM (ds.col c) := by
      intro l
      induction l with
      | nil => intro _; rfl
      | cons a l ih =>
        intro h
        rw [List.mapM_cons, List.mapM_cons, h a (by simp) c, ih fun v hv => h v (by simp [hv])]
    exact this vars hv
  have e3 : ∀ cml, inputsOf r vars cml = inputsOf ds vars cml := by
    intro cml
    unfold inputsOf
    rw [e1]
    cases ds.pos cml with
    | error e => rfl
    | ok c => simp only [e2, hT]
  have e4 : samplesOne r vars L = samplesOne ds vars L := by
    funext cml
    unfold samplesOne
    rw [e3]
  have e5 : ∀ ids, createSamples r ids vars L = createSamples ds ids vars L := fun ids => by unfold createSamples; rw [e4]
  unfold wetDry1dCnn
  rw [e5, hi, hT]

theorem find_map_if {α : Type} (l : List (String × α)) (name : String) (k : α → α) (v : String) :
    (l.map fun e => if e.1 == name then (e.1, k e.2) else e).find? (fun e => e.1 == v) =
      (l.find? fun e => e.1 == v).map fun e => if e.1 == name then (e.1, k e.2) else e := by
  induction l with
  | nil => rfl
  | cons a l ih =>
    rw [List.map_cons, List.find?_cons, List.find?_cons]
    have : (if (a.1 == name) = true then (a.1, k a.2) else a).1 = a.1 := by split_ifs <;> rfl
    rw [this]
    cases a.1 == v with
    | true => rfl
    | false => exact ih

theorem asVar_cell (n T : ℕ) (g : List (List (Fl ℝ))) {c : ℕ} (hc : c < n) :
    (asVar n T g)[c]? = some ((List.range T).map fun t => rd (g.getD t []) c) := by
  unfold asVar
  rw [List.getElem?_map, List.getElem?_range hc, Option.map_some]

/-- **C171** A new name: the returned dataset has the links, times and variables it was given, unchanged, and the predictions. -/
theorem C171_added (net : List (List (List ℝ)) → List (Fl ℝ)) (ds : Ds ι ℝ) (coords : List String) (idCoord : String)
    (idValues : List ι) (vars : List String) (L : ℕ) (cmlIds : Option (List ι)) (name : String) (hco : name ∉ coords)
    (hnew : ∀ e ∈ ds.vars, e.1 ≠ name) {g : List (List (Fl ℝ))}
    (hg : wetDry1dCnn net ds coords idCoord idValues vars L cmlIds = .ok g) :
    ∃ r, wetDry1dCnnDs net ds coords idCoord idValues vars L cmlIds name = .ok r ∧ r.dim = ds.dim ∧ r.ids = ds.ids ∧
      r.nTime = ds.nTime ∧ (∀ v, v ≠ name → ∀ c, r.col c v = ds.col c v) ∧
      ∀ c < ds.ids.length, r.col c name = .ok ((List.range ds.nTime).map fun t => rd (g.getD t []) c) := by
  have hf : ds.vars.find? (fun e => e.1 == name) = none := by
    rw [List.find?_eq_none]
    intro e he
    simpa using hnew e he
  refine ⟨{ ds with vars := ds.vars ++ [(name, asVar ds.ids.length ds.nTime g)] }, ?_, rfl, rfl, rfl, fun v hv c => ?_, fun c hc => ?_⟩
  · unfold wetDry1dCnnDs mergeVar
    rw [hg]
    simp only
    rw [if_neg hco, hf]
  · unfold Ds.col
    simp only
    rw [List.find?_append]
    have : [(name, asVar ds.ids.length ds.nTime g)].find? (fun e => e.1 == v) = none := by
      rw [List.find?_eq_none]
      intro e he
      rw [List.mem_singleton] at he
      subst he
      simpa using Ne.symm hv
    rw [this, Option.or_none]
  · unfold Ds.col
    simp only
    rw [List.find?_append, hf]
    simp only [List.find?_cons, beq_self_eq_true, Option.none_or]
    rw [List.getD_eq_getElem?_getD, asVar_cell _ _ _ hc]
    rfl

/-- two arrays agree cell by cell -/
theorem agree_all {n T : ℕ} {a b : ℕ → ℕ → Fl ℝ} {xs ys : List (List (Fl ℝ))} (hx : xs = (List.range n).map fun c => (List.range T).map (a c))
    (hy : ys = (List.range n).map fun c => (List.range T).map (b c)) :
    (List.zipWith (fun p q => (List.zipWith agree p q).all id) xs ys).all id = true ↔
      ∀ c < n, ∀ t < T, ∀ x y, a c t = x → b c t = y → x ≠ .nan → y ≠ .nan → x = y := by
  subst hx hy
  rw [List.zipWith_map, List.zipWith_self]
  simp only [List.all_map, List.all_eq_true, List.mem_range, Function.comp_apply, id, List.zipWith_map, List.zipWith_self]
  have key : ∀ x y : Fl ℝ, agree x y = true ↔ (x ≠ .nan → y ≠ .nan → x = y) := by
    intro x y
    unfold agree
    cases x <;> cases y <;> simp [PyFloat.isNaN, PyFloat.eq, Fl.isNaN, Fl.eq]
  constructor
  · rintro h c hc t ht x y rfl rfl h1 h2
    exact (key _ _).mp (h c hc t ht) h1 h2
  · intro h c hc t ht
    exact (key _ _).mpr (h c hc t ht _ _ rfl rfl)

/-- **C171** A name that is in use: the call succeeds exactly if the predictions equal the stored values wherever both are numbers, and then
keeps every stored number and fills the missing ones; otherwise it raises `ValueError` (xarray's `MergeError`). -/
theorem C171_in_use (net : List (List (List ℝ)) → List (Fl ℝ)) (ds : Ds ι ℝ) (coords : List String) (idCoord : String)
    (idValues : List ι) (vars : List String) (L : ℕ) (cmlIds : Option (List ι)) (name : String) (hco : name ∉ coords)
    (old : ℕ → ℕ → Fl ℝ) (hold : ∃ e, ds.vars.find? (fun e => e.1 == name) = some e ∧
      e.2 = (List.range ds.ids.length).map fun c => (List.range ds.nTime).map (old c)) {g : List (List (Fl ℝ))}
    (hg : wetDry1dCnn net ds coords idCoord idValues vars L cmlIds = .ok g) :
    ((∃ c < ds.ids.length, ∃ t < ds.nTime, old c t ≠ .nan ∧ rd (g.getD t []) c ≠ .nan ∧ old c t ≠ rd (g.getD t []) c) →
      wetDry1dCnnDs net ds coords idCoord idValues vars L cmlIds name = .error .valueError) ∧
    ((∀ c < ds.ids.length, ∀ t < ds.nTime, old c t ≠ .nan → rd (g.getD t []) c ≠ .nan → old c t = rd (g.getD t []) c) →
      ∃ r, wetDry1dCnnDs net ds coords idCoord idValues vars L cmlIds name = .ok r ∧ r.dim = ds.dim ∧ r.ids = ds.ids ∧
        r.nTime = ds.nTime ∧ (∀ v, v ≠ name → ∀ c, r.col c v = ds.col c v) ∧
        ∀ c < ds.ids.length, ∃ xs, r.col c name = .ok xs ∧ xs.length = ds.nTime ∧ ∀ t < ds.nTime,
          (old c t ≠ .nan → rd xs t = old c t) ∧ (old c t = .nan → rd xs t = rd (g.getD t []) c)) := by
  obtain ⟨e, he, hev⟩ := hold
  have hall := agree_all (n := ds.ids.length) (T := ds.nTime) (a := old) (b := fun c t => rd (g.getD t []) c) hev
    (ys := asVar ds.ids.length ds.nTime g) rfl
  constructor
  · rintro ⟨c, hc, t, ht, h1, h2, h3⟩
    unfold wetDry1dCnnDs mergeVar
    rw [hg]
    simp only
    rw [if_neg hco, he]
    simp only
    rw [if_neg (fun hh => h3 (hall.mp hh c hc t ht _ _ rfl rfl h1 h2))]
  · intro hok
    have hh := hall.mpr fun c hc t ht x y hx hy h1 h2 => by
      subst hx hy
      exact hok c hc t ht h1 h2
    refine ⟨{ ds with vars := ds.vars.map fun e => if e.1 == name then
      (e.1, List.zipWith (List.zipWith fillNaN) e.2 (asVar ds.ids.length ds.nTime g)) else e }, ?_, rfl, rfl, rfl, fun v hv c => ?_, fun c hc => ?_⟩
    · unfold wetDry1dCnnDs mergeVar
      rw [hg]
      simp only
      rw [if_neg hco, he]
      simp only
      rw [if_pos hh]
    · unfold Ds.col
      simp only
      rw [find_map_if ds.vars name (fun z => List.zipWith (List.zipWith fillNaN) z (asVar ds.ids.length ds.nTime g))]
      cases hf : ds.vars.find? (fun e => e.1 == v) with
      | none => rfl
      | some q =>
        have hq : q.1 = v := by simpa using List.find?_some hf
        have : ¬ (q.1 == name) = true := by rw [hq]; simpa using hv
        simp only [Option.map_some]
        rw [if_neg this]
    · refine ⟨(List.range ds.nTime).map fun t => fillNaN (old c t) (rd (g.getD t []) c), ?_, by simp, fun t ht => ?_⟩
      · unfold Ds.col
        simp only
        rw [find_map_if ds.vars name (fun z => List.zipWith (List.zipWith fillNaN) z (asVar ds.ids.length ds.nTime g)), he]
        have hq : (e.1 == name) = true := by simpa using List.find?_some he
        simp only [Option.map_some]
        rw [if_pos hq]
        simp only
        rw [hev]
        unfold asVar
        rw [List.zipWith_map, List.zipWith_self, List.getD_eq_getElem?_getD, List.getElem?_map, List.getElem?_range hc, Option.map_some,
          Option.getD_some, List.zipWith_map, List.zipWith_self]
      · rw [rd_of_getElem? (x := fillNaN (old c t) (rd (g.getD t []) c)) (by rw [List.getElem?_map, List.getElem?_range ht]; rfl)]
        unfold fillNaN
        constructor
        · intro h
          rw [if_neg (fun hh => h ((Fl.isNaN_iff _).mp hh))]
        · intro h
          rw [h]
          exact if_pos rfl

/-- **C171** The dataset returned by a call, given to a call with another network (or with other ids) under the same name: `ValueError` as soon
as one prediction differs, otherwise the old predictions, with those of the second call where the first had none. The same call again
changes nothing. -/
theorem C171_again (net net' : List (List (List ℝ)) → List (Fl ℝ)) (ds : Ds ι ℝ) (coords : List String) (idCoord : String)
    (idValues : List ι) (vars : List String) (L : ℕ) (cmlIds cmlIds' : Option (List ι)) (name : String) (hco : name ∉ coords)
    (hnew : ∀ e ∈ ds.vars, e.1 ≠ name) (hin : name ∉ vars) {g g' : List (List (Fl ℝ))}
    (hg : wetDry1dCnn net ds coords idCoord idValues vars L cmlIds = .ok g)
    (hg' : wetDry1dCnn net' ds coords idCoord idValues vars L cmlIds' = .ok g') :
    ∃ r, wetDry1dCnnDs net ds coords idCoord idValues vars L cmlIds name = .ok r ∧
      ((∃ c < ds.ids.length, ∃ t < ds.nTime, rd (g.getD t []) c ≠ .nan ∧ rd (g'.getD t []) c ≠ .nan ∧
          rd (g.getD t []) c ≠ rd (g'.getD t []) c) →
        wetDry1dCnnDs net' r coords idCoord idValues vars L cmlIds' name = .error .valueError) ∧
      ((∀ c < ds.ids.length, ∀ t < ds.nTime, rd (g.getD t []) c ≠ .nan → rd (g'.getD t []) c ≠ .nan →
          rd (g.getD t []) c = rd (g'.getD t []) c) →
        ∃ r', wetDry1dCnnDs net' r coords idCoord idValues vars L cmlIds' name = .ok r' ∧ r'.ids = ds.ids ∧ r'.nTime = ds.nTime ∧
          (∀ v, v ≠ name → ∀ c, r'.col c v = ds.col c v) ∧
          ∀ c < ds.ids.length, ∃ xs, r'.col c name = .ok xs ∧ xs.length = ds.nTime ∧ ∀ t < ds.nTime,
            (rd (g.getD t []) c ≠ .nan → rd xs t = rd (g.getD t []) c) ∧
            (rd (g.getD t []) c = .nan → rd xs t = rd (g'.getD t []) c)) := by
  have hf : ds.vars.find? (fun e => e.1 == name) = none := by
    rw [List.find?_eq_none]
    intro e he
    simpa using hnew e he
  obtain ⟨r, r1, r2, r3, r4, r5, r6⟩ := C171_added net ds coords idCoord idValues vars L cmlIds name hco hnew hg
  have hr : r = { ds with vars := ds.vars ++ [(name, asVar ds.ids.length ds.nTime g)] } := by
    unfold wetDry1dCnnDs mergeVar at r1
    rw [hg] at r1
    simp only at r1
    rw [if_neg hco, hf] at r1
    simp only at r1
    cases r1
    rfl
  have hold : ∃ e, r.vars.find? (fun e => e.1 == name) = some e ∧
      e.2 = (List.range r.ids.length).map fun c => (List.range r.nTime).map fun t => rd (g.getD t []) c := by
    refine ⟨(name, asVar ds.ids.length ds.nTime g), ?_, ?_⟩
    · rw [hr]
      simp only
      rw [List.find?_append, hf]
      simp
    · rw [r3, r4]
      rfl
  have hg2 := (wetDry1dCnn_reads net' ds r r2 r3 r4 coords idCoord idValues vars L cmlIds' fun v hv c =>
    r5 v (fun h => hin (h ▸ hv)) c).trans hg'
  obtain ⟨a1, a2⟩ := C171_in_use net' r coords idCoord idValues vars L cmlIds' name hco _ hold hg2
  rw [r3, r4] at a1 a2
  refine ⟨r, r1, a1, fun h => ?_⟩
  obtain ⟨r', b1, -, b3, b4, b5, b6⟩ := a2 h
  exact ⟨r', b1, b3, b4, fun v hv c => (b5 v hv c).trans (r5 v hv c), b6⟩

/-! ### Examples -/

/-- a network that gives the same probability for each sample: the array of predictions for two links and three steps -/
theorem exPredictions (q : ℝ) : ∃ g, wetDry1dCnn (F := Fl ℝ) (fun xs => xs.map fun _ => Fl.fin q) exDs ["cml_id"] "cml_id" exDs.ids ["tl1"] 2 none =
    .ok g ∧ rd (g.getD 1 []) 0 = .fin q ∧ rd (g.getD 1 []) 1 = .nan := by
  have hc : Complete ["tl1"] exData 2 0 1 := by
    intro j hj v _
    have : j = 0 ∨ j = 1 := by omega
    rcases this with rfl | rfl
    · exact ⟨1, rfl⟩
    · exact ⟨2, rfl⟩
  obtain ⟨g, m, s, -, h2, h3, h4⟩ := (C53_pipeline (F := Fl ℝ) (fun xs => xs.map fun _ => Fl.fin q) _ (fun _ => rfl) exDs ["tl1"] exData exHolds
    (by simp) 2 (by norm_num) ["cml_id"] (by simp)).1 ⟨0, 1, by decide, by decide, by norm_num, hc⟩
  have hl : 1 < g.length := by rw [h3]; decide
  have e : g.getD 1 [] = g[1] := by rw [List.getD_eq_getElem?_getD, List.getElem?_eq_getElem hl]; rfl
  refine ⟨g, h2, ?_, ?_⟩
  · rw [e]
    exact rd_of_getElem? ((h4 1 0 g[1] (by decide) (List.getElem?_eq_getElem hl)).1 ⟨by norm_num, hc⟩)
  · rw [e]
    refine rd_of_getElem? ((h4 1 1 g[1] (by decide) (List.getElem?_eq_getElem hl)).2 fun h => ?_)
    obtain ⟨x, hx⟩ := h.2 1 (by norm_num) "tl1" (by simp)
    cases hx

/-- another network under the same name is refused -/
example : ∃ r, wetDry1dCnnDs (fun xs => xs.map fun _ => Fl.fin (1 / 2)) exDs ["cml_id"] "cml_id" exDs.ids ["tl1"] 2 none "CNN" = .ok r ∧
    wetDry1dCnnDs (fun xs => xs.map fun _ => Fl.fin (1 / 4)) r ["cml_id"] "cml_id" exDs.ids ["tl1"] 2 none "CNN" = .error .valueError := by
  obtain ⟨g, h1, h2, -⟩ := exPredictions (1 / 2)
  obtain ⟨g', h1', h2', -⟩ := exPredictions (1 / 4)
  obtain ⟨r, a1, a2, -⟩ := C171_again _ _ exDs ["cml_id"] "cml_id" exDs.ids ["tl1"] 2 none none "CNN" (by decide) (by simp [exDs]) (by decide) h1 h1'
  refine ⟨r, a1, a2 ⟨0, by decide, 1, by decide, ?_, ?_, ?_⟩⟩
  · rw [h2]; simp
  · rw [h2']; simp
  · rw [h2, h2']; norm_num

/-- the same network again changes nothing -/
example : ∃ r r', wetDry1dCnnDs (fun xs => xs.map fun _ => Fl.fin (1 / 2)) exDs ["cml_id"] "cml_id" exDs.ids ["tl1"] 2 none "CNN" = .ok r ∧
    wetDry1dCnnDs (fun xs => xs.map fun _ => Fl.fin (1 / 2)) r ["cml_id"] "cml_id" exDs.ids ["tl1"] 2 none "CNN" = .ok r' ∧
    ∃ xs, r'.col 0 "CNN" = .ok xs ∧ rd xs 1 = .fin (1 / 2) := by
  obtain ⟨g, h1, h2, -⟩ := exPredictions (1 / 2)
  obtain ⟨r, a1, -, a2⟩ := C171_again _ _ exDs ["cml_id"] "cml_id" exDs.ids ["tl1"] 2 none none "CNN" (by decide) (by simp [exDs]) (by decide) h1 h1
  obtain ⟨r', b1, -, -, -, b2⟩ := a2 fun _ _ _ _ _ _ => rfl
  obtain ⟨xs, c1, -, c2⟩ := b2 0 (by decide)
  exact ⟨r, r', a1, b1, xs, c1, by rw [(c2 1 (by decide)).1 (by rw [h2]; simp), h2]⟩

/-- an input variable as name of the predictions: refused, unless the network returns the levels -/
example : wetDry1dCnnDs (fun xs => xs.map fun _ => Fl.fin (1 / 2)) exDs ["cml_id"] "cml_id" exDs.ids ["tl1"] 2 none "tl1" = .error .valueError := by
  obtain ⟨g, h1, h2, -⟩ := exPredictions (1 / 2)
  refine (C171_in_use _ exDs ["cml_id"] "cml_id" exDs.ids ["tl1"] 2 none "tl1" (by decide) (exData "tl1") ⟨_, rfl, rfl⟩ h1).1
    ⟨0, by decide, 1, by decide, ?_, ?_, ?_⟩
  · show Fl.fin 2 ≠ .nan
    simp
  · rw [h2]; simp
  · rw [h2]
    show Fl.fin 2 ≠ .fin (1 / 2)
    norm_num

end Verif.Props
