import Verif.Model.Wrapper
import Mathlib.Data.List.Nodup
import Mathlib.Tactic.Push
import Mathlib.Tactic.IntervalCases

/-!
# Properties C28 and C29: the xarray wrapper
-/

namespace Verif.Props
open Verif Verif.Wrapper

/-! ### C28 -/

/-- the entry of one parameter -/
theorem newArgsDictFrom_get {α : Type} (sig : List (Param α)) (args : List α)
    (kw : List (String × α)) (o i : Nat) :
    (newArgsDictFrom o sig args kw)[i]? = sig[i]?.map fun p => (p.name,
      match args[o + i]? with
      | some a => Slot.val a
      | none => match kwGet kw p.name with
        | some a => .val a
        | none => match p.default with
          | some a => .val a
          | none => .empty) := by
  induction sig generalizing o i with
  | nil => simp [newArgsDictFrom]
  | cons p ps ih =>
    cases i with
    | zero => rfl
    | succ i =>
      simp only [newArgsDictFrom, List.getElem?_cons_succ]
      rw [ih, show o + 1 + i = o + (i + 1) by omega]

theorem newArgsDict_get {α : Type} (sig : List (Param α)) (args : List α)
    (kw : List (String × α)) (i : Nat) :
    (newArgsDict sig args kw)[i]? = sig[i]?.map fun p => (p.name,
      match args[i]? with
      | some a => Slot.val a
      | none => match kwGet kw p.name with
        | some a => .val a
        | none => match p.default with
          | some a => .val a
          | none => .empty) := by
  unfold newArgsDict
  rw [newArgsDictFrom_get]
  simp

theorem findIdx_name {names : List String} {k : String} {i : Nat}
    (h : i = names.findIdx (· == k)) (hi : i < names.length) : names[i]? = some k := by
  subst h
  rw [List.getElem?_eq_getElem hi]
  have := List.findIdx_getElem (w := hi)
  simpa using this

theorem pyKeywords_spec {α : Type} (names : List String) (hn : names.Nodup)
    (kw : List (String × α)) (slots slots' : List (Option α)) (hl : slots.length = names.length)
    (h : pyKeywords names kw slots = .ok slots') :
    slots'.length = names.length ∧
    (∀ (i : Nat) (a : α), slots[i]? = some (some a) → slots'[i]? = some (some a)) ∧
    (∀ (i : Nat) (k : String), names[i]? = some k → slots[i]? = some none →
      slots'[i]? = some (kwGet kw k)) ∧
    (∀ p ∈ kw, ∃ i : Nat, names[i]? = some p.1 ∧ slots[i]? = some none) := by
  induction kw generalizing slots with
  | nil =>
    simp only [pyKeywords, Except.ok.injEq] at h
    subst h
    exact ⟨hl, fun i a h => h, fun i k _ h => by simpa [kwGet] using h, by simp⟩
  | cons p kw ih =>
    obtain ⟨k, a⟩ := p
    simp only [pyKeywords] at h
    generalize hidef : names.findIdx (· == k) = i0 at h
    cases hs : slots[i0]? with
    | none => rw [hs] at h; cases h
    | some o =>
      cases o with
      | some b => rw [hs] at h; cases h
      | none =>
        rw [hs] at h
        have hi0 : i0 < names.length := by
          have := (List.getElem?_eq_some_iff.mp hs).1
          omega
        have hk : names[i0]? = some k := findIdx_name hidef.symm hi0
        obtain ⟨h1, h2, h3, h4⟩ := ih _ (by simpa using hl) h
        refine ⟨h1, ?_, ?_, ?_⟩
        · intro i b hb
          apply h2
          rw [List.getElem?_set]
          split_ifs with e e2
          · subst e; rw [hs] at hb; cases hb
          · subst e; rw [hs] at hb; cases hb
          · exact hb
        · intro i k' hk' hnone
          by_cases e : i0 = i
          · subst e
            rw [hk] at hk'
            cases hk'
            rw [h2 i0 a (by rw [List.getElem?_set]; simp; omega)]
            simp [kwGet]
          · have hne : k ≠ k' := by
              rintro rfl
              obtain ⟨b1, c1⟩ := List.getElem?_eq_some_iff.mp hk
              obtain ⟨b2, c2⟩ := List.getElem?_eq_some_iff.mp hk'
              exact e ((hn.getElem_inj_iff).mp (c1.trans c2.symm))
            rw [h3 i k' hk' (by rw [List.getElem?_set, if_neg e]; exact hnone)]
            simp [kwGet, hne]
        · intro q hq
          rcases List.mem_cons.mp hq with rfl | hq
          · exact ⟨i0, hk, hs⟩
          · obtain ⟨i, e1, e2⟩ := h4 q hq
            refine ⟨i, e1, ?_⟩
            rw [List.getElem?_set] at e2
            split_ifs at e2 with e e3
            · simp at e2
            · exact e2

theorem pyDefaults_spec {α : Type} (sig : List (Param α)) (slots : List (Option α))
    (vs : List α) (h : pyDefaults sig slots = .ok vs) :
    vs.length = sig.length ∧ ∀ (i : Nat) (p : Param α), sig[i]? = some p →
      vs[i]? = match slots[i]?.join with
        | some a => some a
        | none => p.default := by
  induction sig generalizing slots vs with
  | nil => simp only [pyDefaults, Except.ok.injEq] at h; subst h; simp
  | cons p ps ih =>
    simp only [pyDefaults] at h
    have hhead : slots.head?.join = slots[0]?.join := by cases slots <;> rfl
    have htail : ∀ i : Nat, slots.tail[i]? = slots[i + 1]? := by
      intro i; cases slots <;> simp
    have key : ∀ (a : α), (pyDefaults ps slots.tail).map (a :: ·) = .ok vs →
        (match slots[0]?.join with | some b => some b | none => p.default) = some a →
        vs.length = (p :: ps).length ∧ ∀ (i : Nat) (q : Param α), (p :: ps)[i]? = some q →
          vs[i]? = match slots[i]?.join with
            | some a => some a
            | none => q.default := by
      intro a ha h0
      cases ht : pyDefaults ps slots.tail with
      | error e => rw [ht] at ha; cases ha
      | ok ws =>
        rw [ht] at ha
        simp only [Except.map, Except.ok.injEq] at ha
        subst ha
        obtain ⟨l1, l2⟩ := ih _ _ ht
        refine ⟨by simp [l1], ?_⟩
        intro i q hq
        cases i with
        | zero => simp only [List.getElem?_cons_zero, Option.some.injEq] at hq ⊢; subst hq; exact h0.symm
        | succ i =>
          simp only [List.getElem?_cons_succ] at hq ⊢
          rw [l2 i q hq, htail]
    cases hs : slots.head?.join with
    | some a =>
      rw [hs] at h
      exact key a h (by rw [← hhead, hs])
    | none =>
      rw [hs] at h
      cases hd : p.default with
      | none => rw [hd] at h; cases h
      | some a =>
        rw [hd] at h
        exact key a h (by rw [← hhead, hs, hd])

/-- **C28** For every call that Python accepts, the argument dictionary is Python's binding in
signature order. -/
theorem C28_agrees_with_python {α : Type} (sig : List (Param α)) (hn : (sig.map (·.name)).Nodup)
    (args : List α) (kw : List (String × α)) (vs : List α) (h : pyBind sig args kw = .ok vs) :
    newArgsDict sig args kw = (sig.map (·.name)).zip (vs.map Slot.val) := by
  unfold pyBind at h
  split_ifs at h with hlen
  cases hk : pyKeywords (sig.map (·.name)) kw
      (args.map some ++ List.replicate (sig.length - args.length) none) with
  | error e => rw [hk] at h; cases h
  | ok slots =>
    rw [hk] at h
    obtain ⟨k1, k2, k3, k4⟩ := pyKeywords_spec _ hn _ _ _ (by simp; omega) hk
    obtain ⟨d1, d2⟩ := pyDefaults_spec _ _ _ h
    apply List.ext_getElem?
    intro i
    rw [newArgsDict_get, List.zip, List.getElem?_zipWith, List.getElem?_map, List.getElem?_map]
    cases hp : sig[i]? with
    | none => simp
    | some p =>
      have hi : i < sig.length := (List.getElem?_eq_some_iff.mp hp).1
      rw [d2 i p hp]
      simp only [Option.map_some]
      cases ha : args[i]? with
      | some a =>
        have : slots[i]? = some (some a) := by
          apply k2
          rw [List.getElem?_append_left (by simp; exact (List.getElem?_eq_some_iff.mp ha).1),
            List.getElem?_map, ha]
          rfl
        rw [this]
        rfl
      | none =>
        have hge : args.length ≤ i := List.getElem?_eq_none_iff.mp ha
        have : slots[i]? = some (kwGet kw p.name) := by
          apply k3 i p.name (by rw [List.getElem?_map, hp]; rfl)
          rw [List.getElem?_append_right (by simpa using hge), List.getElem?_replicate,
            if_pos (by simp; omega)]
        rw [this]
        have hv := d2 i p hp
        rw [this] at hv
        simp only [Option.join_some] at hv ⊢
        cases hkw : kwGet kw p.name with
        | some a => rfl
        | none =>
          rw [hkw] at hv
          cases hdef : p.default with
          | some a => rfl
          | none =>
            rw [hdef] at hv
            have := List.getElem?_eq_none_iff.mp hv
            omega

theorem pyBind_error {α : Type} (sig : List (Param α)) (args : List α)
    (kw : List (String × α)) (e : Err) (h : pyBind sig args kw = .error e) : e = .typeError := by
  have hk : ∀ names (kw : List (String × α)) slots e,
      pyKeywords names kw slots = .error e → e = .typeError := by
    intro names kw
    induction kw with
    | nil => intro s e h; cases h
    | cons p kw ih =>
      intro s e h
      simp only [pyKeywords] at h
      split at h
      · cases h; rfl
      · cases h; rfl
      · exact ih _ _ h
  have hd : ∀ (sig : List (Param α)) slots e, pyDefaults sig slots = .error e →
      e = .typeError := by
    intro sig
    induction sig with
    | nil => intro s e h; cases h
    | cons p ps ih =>
      intro s e h
      simp only [pyDefaults] at h
      have hm : ∀ a : α, (pyDefaults ps s.tail).map (a :: ·) = .error e → e = .typeError := by
        intro a ha
        cases ht : pyDefaults ps s.tail with
        | ok ws => rw [ht] at ha; cases ha
        | error e' => rw [ht] at ha; cases ha; exact ih _ _ ht
      split at h
      · exact hm _ h
      · split at h
        · exact hm _ h
        · cases h; rfl
  unfold pyBind at h
  split_ifs at h with hlen
  · cases h; rfl
  · cases hkk : pyKeywords (sig.map (·.name)) kw
        (args.map some ++ List.replicate (sig.length - args.length) none) with
    | error e' => rw [hkk] at h; cases h; exact hk _ _ _ _ hkk
    | ok slots => rw [hkk] at h; exact hd _ _ _ h

/-- **C28** Three kinds of calls that Python rejects with `TypeError`, but for which the
wrapper's dictionary is the one of the call without the offending argument: a surplus
positional argument, an unknown keyword, and a keyword for a parameter that is already given by
position. -/
theorem C28_silently_accepted {α : Type} (sig : List (Param α))
    (hn : (sig.map (·.name)).Nodup) (args : List α) (kw : List (String × α)) :
    (∀ a, sig.length ≤ args.length → pyBind sig (args ++ [a]) kw = .error .typeError ∧
      newArgsDict sig (args ++ [a]) kw = newArgsDict sig args kw) ∧
    (∀ k a, k ∉ sig.map (·.name) → pyBind sig args ((k, a) :: kw) = .error .typeError ∧
      newArgsDict sig args ((k, a) :: kw) = newArgsDict sig args kw) ∧
    (∀ (i : Nat) (p : Param α) (a : α), sig[i]? = some p → i < args.length →
      pyBind sig args ((p.name, a) :: kw) = .error .typeError ∧
      newArgsDict sig args ((p.name, a) :: kw) = newArgsDict sig args kw) := by
  have hrej : ∀ kw' : List (String × α), (∃ q ∈ kw', ¬ ∃ i : Nat,
      (sig.map (·.name))[i]? = some q.1 ∧ args.length ≤ i) →
      pyBind sig args kw' = .error .typeError := by
    rintro kw' ⟨q, hq, hbad⟩
    cases h : pyBind sig args kw' with
    | error e => rw [pyBind_error sig args kw' e h]
    | ok vs =>
      exfalso
      unfold pyBind at h
      split_ifs at h with hlen
      cases hk : pyKeywords (sig.map (·.name)) kw'
          (args.map some ++ List.replicate (sig.length - args.length) none) with
      | error e => rw [hk] at h; cases h
      | ok slots =>
        obtain ⟨_, _, _, k4⟩ := pyKeywords_spec _ hn _ _ _ (by simp; omega) hk
        obtain ⟨i, e1, e2⟩ := k4 q hq
        refine hbad ⟨i, e1, ?_⟩
        by_contra hc
        rw [List.getElem?_append_left (by simp; omega), List.getElem?_map] at e2
        cases ha : args[i]? <;> rw [ha] at e2 <;> cases e2
  refine ⟨?_, ?_, ?_⟩
  · intro a hlen
    refine ⟨by unfold pyBind; rw [if_pos (by simp; omega)], ?_⟩
    apply List.ext_getElem?
    intro i
    rw [newArgsDict_get, newArgsDict_get]
    cases hp : sig[i]? with
    | none => rfl
    | some p =>
      have hi : i < sig.length := (List.getElem?_eq_some_iff.mp hp).1
      rw [List.getElem?_append_left (by omega)]
  · intro k a hk
    refine ⟨hrej _ ⟨(k, a), by simp, ?_⟩, ?_⟩
    · rintro ⟨i, h1, _⟩
      exact hk (List.mem_of_getElem? h1)
    · apply List.ext_getElem?
      intro i
      rw [newArgsDict_get, newArgsDict_get]
      cases hp : sig[i]? with
      | none => rfl
      | some p =>
        have hne : k ≠ p.name := by
          rintro rfl
          exact hk (List.mem_map_of_mem (List.mem_of_getElem? hp))
        simp [kwGet, hne]
  · intro i p a hp hi
    have hpi : (sig.map (·.name))[i]? = some p.name := by rw [List.getElem?_map, hp]; rfl
    refine ⟨hrej _ ⟨(p.name, a), by simp, ?_⟩, ?_⟩
    · rintro ⟨j, h1, h2⟩
      obtain ⟨b1, c1⟩ := List.getElem?_eq_some_iff.mp h1
      obtain ⟨b2, c2⟩ := List.getElem?_eq_some_iff.mp hpi
      have : j = i := (hn.getElem_inj_iff).mp (c1.trans c2.symm)
      omega
    · apply List.ext_getElem?
      intro j
      rw [newArgsDict_get, newArgsDict_get]
      cases hq : sig[j]? with
      | none => rfl
      | some q =>
        by_cases hj : j < args.length
        · rw [List.getElem?_eq_getElem hj]
        · have hne : p.name ≠ q.name := by
            intro he
            have hqj : (sig.map (·.name))[j]? = some q.name := by rw [List.getElem?_map, hq]; rfl
            obtain ⟨b1, c1⟩ := List.getElem?_eq_some_iff.mp hqj
            obtain ⟨b2, c2⟩ := List.getElem?_eq_some_iff.mp hpi
            have : j = i := (hn.getElem_inj_iff).mp (c1.trans (he.symm.trans c2.symm))
            omega
          simp [kwGet, hne]

/-- **C28** A required argument that is not given enters the dictionary as
`inspect.Parameter.empty`; no other entry does. -/
theorem C28_missing_argument {α : Type} (sig : List (Param α)) (args : List α)
    (kw : List (String × α)) (i : Nat) (p : Param α) (hp : sig[i]? = some p) :
    (newArgsDict sig args kw)[i]? = some (p.name, .empty) ↔
      args.length ≤ i ∧ (∀ a, (p.name, a) ∉ kw) ∧ p.default = none := by
  rw [newArgsDict_get, hp]
  simp only [Option.map_some, Option.some.injEq, Prod.mk.injEq, true_and]
  have hkw : kwGet kw p.name = none ↔ ∀ a, (p.name, a) ∉ kw := by
    simp only [kwGet, Option.map_eq_none_iff, List.find?_eq_none, beq_iff_eq]
    constructor
    · intro h a ha
      exact h _ ha rfl
    · rintro h ⟨k, a⟩ hx rfl
      exact h a hx
  cases ha : args[i]? with
  | some a =>
    have := (List.getElem?_eq_some_iff.mp ha).1
    simp; omega
  | none =>
    have hge := List.getElem?_eq_none_iff.mp ha
    cases hk : kwGet kw p.name with
    | some a =>
      simp only [reduceCtorEq, false_iff]
      rintro ⟨_, h2, _⟩
      rw [hkw.mpr h2] at hk
      cases hk
    | none =>
      cases hd : p.default with
      | some a => simp
      | none => simp [hge, hkw.mp hk]

example : newArgsDict [⟨"rsl", none⟩, ⟨"wet", none⟩, ⟨"n", some 1⟩] [10, 20] [("foo", 3)] =
    [("rsl", Slot.val 10), ("wet", .val 20), ("n", .val 1)] ∧
    pyBind [⟨"rsl", none⟩, ⟨"wet", none⟩, ⟨"n", some 1⟩] [10] [("n", 3), ("wet", 5)] =
      .ok [10, 5, 3] := by decide

/-! ### C29 -/

theorem mem_ndindex (shape idx : List Nat) :
    idx ∈ ndindex shape ↔ List.Forall₂ (· < ·) idx shape := by
  induction shape generalizing idx with
  | nil => simp [ndindex]
  | cons n ns ih =>
    simp only [ndindex, List.mem_flatMap, List.mem_range, List.mem_map]
    constructor
    · rintro ⟨i, hi, j, hj, rfl⟩
      exact .cons hi ((ih j).mp hj)
    · intro h
      cases h with
      | cons h1 h2 => exact ⟨_, h1, _, (ih _).mpr h2, rfl⟩

theorem forall₂_coords (bd : List (String × Nat)) (c : Coords) (hc : ∀ p ∈ bd, c p.1 < p.2) :
    List.Forall₂ (· < ·) (bd.map fun p => c p.1) (bd.map (·.2)) := by
  induction bd with
  | nil => exact .nil
  | cons p bd ih => exact .cons (hc p (by simp)) (ih fun q hq => hc q (by simp [hq]))

theorem vectorizeLoop_spec {V : Type} (call : List Nat → Except Err (List V))
    (idxs : List (List Nat)) (out0 out : List Nat → Option (List V))
    (h : vectorizeLoop call idxs out0 = .ok out) :
    (∀ idx ∈ idxs, ∃ xs, call idx = .ok xs ∧ out idx = some xs) ∧
    (∀ idx, idx ∉ idxs → out idx = out0 idx) := by
  induction idxs generalizing out0 with
  | nil => simp only [vectorizeLoop, Except.ok.injEq] at h; subst h; simp
  | cons i idxs ih =>
    simp only [vectorizeLoop] at h
    cases hc : call i with
    | error e => rw [hc] at h; cases h
    | ok xs =>
      rw [hc] at h
      obtain ⟨h1, h2⟩ := ih _ h
      constructor
      · intro idx hidx
        by_cases hm : idx ∈ idxs
        · exact h1 idx hm
        · rcases List.mem_cons.mp hidx with rfl | hm'
          · refine ⟨xs, hc, ?_⟩
            rw [h2 idx hm]; simp
          · exact absurd hm' hm
      · intro idx hidx
        rw [List.mem_cons, not_or] at hidx
        rw [h2 idx hidx.2]
        simp [hidx.1]

theorem vectorizeLoop_ok {V : Type} (call : List Nat → Except Err (List V))
    (idxs : List (List Nat)) (out0 : List Nat → Option (List V))
    (h : ∀ idx ∈ idxs, ∃ xs, call idx = .ok xs) :
    ∃ out, vectorizeLoop call idxs out0 = .ok out := by
  induction idxs generalizing out0 with
  | nil => exact ⟨_, rfl⟩
  | cons i idxs ih =>
    obtain ⟨xs, hx⟩ := h i (by simp)
    simp only [vectorizeLoop, hx]
    exact ih _ fun j hj => h j (by simp [hj])

theorem unify_spec (acc l sizes : List (String × Nat)) (hn : (acc.map (·.1)).Nodup)
    (h : unify acc l = .ok sizes) :
    (sizes.map (·.1)).Nodup ∧ (∀ p ∈ acc, p ∈ sizes) ∧ (∀ p ∈ l, p ∈ sizes) ∧
      (∀ p ∈ sizes, p ∈ acc ∨ p ∈ l) := by
  induction l generalizing acc with
  | nil => simp only [unify, Except.ok.injEq] at h; subst h; simp [hn]
  | cons p l ih =>
    obtain ⟨d, n⟩ := p
    simp only [unify] at h
    cases hf : acc.find? (·.1 == d) with
    | none =>
      rw [hf] at h
      have hd : ∀ q ∈ acc, q.1 ≠ d := by
        intro q hq
        have := List.find?_eq_none.mp hf q hq
        simpa using this
      obtain ⟨h1, h2, h3, h4⟩ := ih (acc ++ [(d, n)]) (by
        rw [List.map_append, List.nodup_append]
        refine ⟨hn, by simp, ?_⟩
        intro a ha b hb
        obtain ⟨q, hq, rfl⟩ := List.mem_map.mp ha
        simp at hb
        subst hb
        exact hd q hq) h
      refine ⟨h1, fun q hq => h2 q (by simp [hq]), ?_, ?_⟩
      · intro q hq
        rcases List.mem_cons.mp hq with rfl | hq
        · exact h2 _ (by simp)
        · exact h3 q hq
      · intro q hq
        rcases h4 q hq with hq | hq
        · rcases List.mem_append.mp hq with hq | hq
          · exact .inl hq
          · simp at hq; subst hq; exact .inr (by simp)
        · exact .inr (by simp [hq])
    | some r =>
      obtain ⟨d', m⟩ := r
      have hr := List.mem_of_find?_eq_some hf
      have hd' : d' = d := by simpa using List.find?_some hf
      subst hd'
      rw [hf] at h
      simp only at h
      split_ifs at h with e
      subst e
      obtain ⟨h1, h2, h3, h4⟩ := ih acc hn h
      refine ⟨h1, h2, ?_, ?_⟩
      · intro q hq
        rcases List.mem_cons.mp hq with rfl | hq
        · exact h2 _ hr
        · exact h3 q hq
      · intro q hq
        rcases h4 q hq with hq | hq
        · exact .inl hq
        · exact .inr (by simp [hq])

theorem unify_ok (acc l : List (String × Nat))
    (h : ∀ p ∈ acc ++ l, ∀ q ∈ acc ++ l, p.1 = q.1 → p.2 = q.2) :
    ∃ sizes, unify acc l = .ok sizes := by
  induction l generalizing acc with
  | nil => exact ⟨_, rfl⟩
  | cons p l ih =>
    obtain ⟨d, n⟩ := p
    simp only [unify]
    cases hf : acc.find? (·.1 == d) with
    | none =>
      apply ih
      simpa using h
    | some r =>
      obtain ⟨d', m⟩ := r
      have hr := List.mem_of_find?_eq_some hf
      have hd' : d' = d := by simpa using List.find?_some hf
      subst hd'
      have e : m = n := h _ (List.mem_append_left _ hr) (d', n) (by simp) rfl
      simp only [if_pos e]
      apply ih
      intro a ha b hb
      apply h a _ b _
      · simp only [List.mem_append, List.mem_cons] at ha ⊢; tauto
      · simp only [List.mem_append, List.mem_cons] at hb ⊢; tauto

theorem unify_error (acc l : List (String × Nat)) (e : Err) (h : unify acc l = .error e) :
    e = .valueError := by
  induction l generalizing acc with
  | nil => cases h
  | cons p l ih =>
    obtain ⟨d, n⟩ := p
    simp only [unify] at h
    split at h
    · exact ih _ h
    · split_ifs at h
      · exact ih _ h
      · cases h; rfl

theorem coordsOf_map (ds : List String) (c : Coords) (k : String) (hk : k ∈ ds) :
    coordsOf ds (ds.map c) k = c k := by
  induction ds with
  | nil => simp at hk
  | cons d ds ih =>
    simp only [List.map_cons, coordsOf]
    by_cases h : k = d
    · subst h; simp
    · rw [if_neg (by simpa using h)]
      exact ih (by simpa [h] using hk)

/-- the part of an argument at the coordinates `c`, as the caller understands it: the time
series there for an array with a time dimension, the value there for other arrays, the object
itself otherwise -/
def partAt {V : Type} (ntime : Nat) (c : Coords) : Arg V → FArg V
  | .plain v => .scalar v
  | .named x =>
    if "time" ∈ x.dims.map (·.1) then
      .series ((List.range ntime).map fun t =>
        x.val (x.dims.map fun d => if d.1 = "time" then t else c d.1))
    else .scalar (x.val (x.dims.map fun d => c d.1))

theorem argAt_eq_partAt {V : Type} (ntime : Nat) (c c' : Coords) (a : Arg V)
    (h : ∀ p ∈ dimNames a, p.1 ≠ "time" → c p.1 = c' p.1) : argAt ntime a c = partAt ntime c' a := by
  cases a with
  | plain v => rfl
  | named x =>
    have hiff : hasTime (Arg.named x) = true ↔ "time" ∈ x.dims.map (·.1) := by
      simp [hasTime, dimNames]
    simp only [argAt, partAt]
    by_cases ht : "time" ∈ x.dims.map (·.1)
    · rw [if_pos (hiff.mpr ht), if_pos ht]
      congr 1
      apply List.map_congr_left
      intro t _
      congr 1
      apply List.map_congr_left
      intro d hd
      by_cases hdt : d.1 = "time"
      · simp [hdt]
      · rw [if_neg (by simpa using hdt), if_neg hdt]
        exact h d hd hdt
    · rw [if_neg (hiff.not.mpr ht), if_neg ht]
      congr 2
      apply List.map_congr_left
      intro d hd
      refine h d hd ?_
      intro he
      exact ht (he ▸ List.mem_map_of_mem hd)

theorem find_of_mem (sizes : List (String × Nat)) (hn : (sizes.map (·.1)).Nodup) (d : String)
    (n : Nat) (h : (d, n) ∈ sizes) : sizes.find? (·.1 == d) = some (d, n) := by
  induction sizes with
  | nil => simp at h
  | cons p sizes ih =>
    rw [List.map_cons, List.nodup_cons] at hn
    rw [List.find?_cons]
    rcases List.mem_cons.mp h with rfl | h
    · simp
    · have : p.1 ≠ d := by
        rintro rfl
        exact hn.1 (List.mem_map.mpr ⟨_, h, rfl⟩)
      rw [show (p.1 == d) = false by simpa using this]
      exact ih hn.2 h

theorem vectorizeCall_ok {V : Type} (func : List (FArg V) → Except Err (FOut V)) (ntime : Nat)
    (args : List (Arg V)) (c : Coords) (xs : List V) :
    vectorizeCall func ntime args c = .ok xs ↔
      xs.length = ntime ∧ (func (args.map fun a => argAt ntime a c) = .ok (.one xs) ∨
        func (args.map fun a => argAt ntime a c) = .ok (.tuple [xs])) := by
  unfold vectorizeCall
  cases func (args.map fun a => argAt ntime a c) with
  | error e => simp
  | ok r =>
    cases r with
    | one ys =>
      simp only
      split_ifs with h
      · constructor
        · intro e; cases e; exact ⟨h, .inl rfl⟩
        · rintro ⟨h, e | e⟩ <;> cases e; rfl
      · constructor
        · intro e; cases e
        · rintro ⟨h', e | e⟩ <;> cases e; exact absurd h' h
    | tuple yss =>
      cases yss with
      | nil => simp
      | cons ys yss =>
        cases yss with
        | nil =>
          simp only
          split_ifs with h
          · constructor
            · intro e; cases e; exact ⟨h, .inr rfl⟩
            · rintro ⟨h, e | e⟩ <;> cases e; rfl
          · constructor
            · intro e; cases e
            · rintro ⟨h', e | e⟩ <;> cases e; exact absurd h' h
        | cons zs yss => simp

/-- The values that the wrapper hands on are Python's binding, if Python accepts the call. -/
theorem inner_values {V : Type} (sig : List (Param (Arg V))) (hn : (sig.map (·.name)).Nodup)
    (emptyV : V) (args : List (Arg V)) (kw : List (String × Arg V)) (vs : List (Arg V))
    (hb : pyBind sig args kw = .ok vs) :
    ((newArgsDict sig args kw).map fun p => slotArg emptyV p.2) = vs := by
  have hlen : vs.length = sig.length := by
    unfold pyBind at hb
    split_ifs at hb
    cases hk : pyKeywords (sig.map (·.name)) kw
        (args.map some ++ List.replicate (sig.length - args.length) none) with
    | error e => rw [hk] at hb; cases hb
    | ok slots => rw [hk] at hb; exact (pyDefaults_spec _ _ _ hb).1
  rw [C28_agrees_with_python sig hn args kw vs hb]
  apply List.ext_getElem?
  intro i
  rw [List.getElem?_map, List.zip, List.getElem?_zipWith, List.getElem?_map, List.getElem?_map]
  cases hv : vs[i]? with
  | none => cases sig[i]? <;> simp
  | some v =>
    have : i < vs.length := (List.getElem?_eq_some_iff.mp hv).1
    rw [List.getElem?_eq_getElem (by omega)]
    simp [slotArg]

/-- **C29** Slice by slice: if the call returns an array, its dimensions are the non-time
dimensions of the arguments, and at every combination `c` of coordinates the series is what the
undecorated function returns for the parts of the arguments at `c`. -/
theorem C29_slicewise {V : Type} (sig : List (Param (Arg V))) (hn : (sig.map (·.name)).Nodup)
    (func : List (FArg V) → Except Err (FOut V)) (raw : List (Arg V) → Except Err (FOut V))
    (emptyV : V) (args : List (Arg V)) (kw : List (String × Arg V)) (vs : List (Arg V))
    (hb : pyBind sig args kw = .ok vs) (dims : List (String × Nat)) (ntime : Nat)
    (out : List Nat → Option (List V))
    (h : inner sig func raw emptyV args kw = .ok (.array dims ntime out)) :
    (dims.map (·.1)).Nodup ∧ (∀ p ∈ dims, p.1 ≠ "time") ∧
    (∀ p, p ∈ dims ↔ p.1 ≠ "time" ∧ ∃ a ∈ vs, p ∈ dimNames a) ∧
    (∀ a ∈ vs, ∀ n, ("time", n) ∈ dimNames a → n = ntime) ∧
    ∀ c : Coords, (∀ p ∈ dims, c p.1 < p.2) →
      ∃ xs, out (dims.map fun p => c p.1) = some xs ∧ xs.length = ntime ∧
        (func (vs.map (partAt ntime c)) = .ok (.one xs) ∨
         func (vs.map (partAt ntime c)) = .ok (.tuple [xs])) := by
  unfold inner at h
  dsimp only at h
  rw [inner_values sig hn emptyV args kw vs hb] at h
  split_ifs at h with ht
  swap
  · rw [hb] at h
    simp only at h
    cases hr : raw vs <;> rw [hr] at h <;> cases h
  cases hu : applyUfunc func vs with
  | error e => rw [hu] at h; cases h
  | ok r =>
    obtain ⟨d, n, o⟩ := r
    rw [hu] at h
    simp only [Except.map, Except.ok.injEq, Res.array.injEq] at h
    obtain ⟨rfl, rfl, rfl⟩ := h
    unfold applyUfunc at hu
    cases hs : unify [] (vs.flatMap dimNames) with
    | error e => rw [hs] at hu; cases hu
    | ok sizes =>
      rw [hs] at hu
      simp only at hu
      obtain ⟨u1, _, u3, u4⟩ := unify_spec [] _ sizes (by simp) hs
      split_ifs at hu with hemp
      set nt := ((sizes.find? (·.1 == "time")).map (·.2)).getD 0 with hnt
      set bd := sizes.filter fun p => p.1 != "time" with hbd
      cases hv : vectorizeLoop (fun idx => vectorizeCall func nt vs (coordsOf (bd.map (·.1)) idx))
          (ndindex (bd.map (·.2))) (fun _ => none) with
      | error e => rw [hv] at hu; cases hu
      | ok o' =>
        rw [hv] at hu
        simp only [Except.map, Except.ok.injEq, Prod.mk.injEq] at hu
        obtain ⟨rfl, rfl, rfl⟩ := hu
        obtain ⟨v1, _⟩ := vectorizeLoop_spec _ _ _ _ hv
        have hmem : ∀ p, p ∈ bd ↔ p.1 ≠ "time" ∧ ∃ a ∈ vs, p ∈ dimNames a := by
          intro p
          simp only [hbd, List.mem_filter, bne_iff_ne, ne_eq]
          constructor
          · rintro ⟨h1, h2⟩
            rcases u4 p h1 with h | h
            · simp at h
            · exact ⟨h2, List.mem_flatMap.mp h⟩
          · rintro ⟨h1, h2⟩
            exact ⟨u3 p (List.mem_flatMap.mpr h2), h1⟩
        refine ⟨?_, fun p hp => ((hmem p).mp hp).1, hmem, ?_, ?_⟩
        · exact u1.sublist (List.Sublist.map _ List.filter_sublist)
        · intro a ha n hn'
          have := u3 _ (List.mem_flatMap.mpr ⟨a, ha, hn'⟩)
          rw [hnt, find_of_mem sizes u1 "time" n this]
          rfl
        · intro c hc
          have hidx : (bd.map fun p => c p.1) ∈ ndindex (bd.map (·.2)) := by
            rw [mem_ndindex]
            exact forall₂_coords bd c hc
          obtain ⟨xs, h1, h2⟩ := v1 _ hidx
          rw [vectorizeCall_ok] at h1
          have harg : (vs.map fun a => argAt nt a (coordsOf (bd.map (·.1)) (bd.map fun p => c p.1)))
              = vs.map (partAt nt c) := by
            apply List.map_congr_left
            intro a ha
            apply argAt_eq_partAt
            intro p hp hpt
            have hin : p.1 ∈ bd.map (·.1) :=
              List.mem_map_of_mem ((hmem p).mpr ⟨hpt, a, ha, hp⟩)
            have := coordsOf_map (bd.map (·.1)) c p.1 hin
            rwa [List.map_map] at this
          rw [harg] at h1
          exact ⟨xs, h2, h1.1, h1.2⟩

/-- **C29** Independence: results at one coordinate combination only depend on the parts of the
arguments there. Two calls whose arguments have equal parts at `c` have equal results at
`c`, whatever the arguments are elsewhere. -/
theorem C29_independent {V : Type} (sig : List (Param (Arg V))) (hn : (sig.map (·.name)).Nodup)
    (func : List (FArg V) → Except Err (FOut V)) (raw : List (Arg V) → Except Err (FOut V))
    (emptyV : V) (args args' : List (Arg V)) (kw kw' : List (String × Arg V))
    (vs vs' : List (Arg V)) (hb : pyBind sig args kw = .ok vs)
    (hb' : pyBind sig args' kw' = .ok vs') (dims dims' : List (String × Nat)) (nt nt' : Nat)
    (out out' : List Nat → Option (List V))
    (h : inner sig func raw emptyV args kw = .ok (.array dims nt out))
    (h' : inner sig func raw emptyV args' kw' = .ok (.array dims' nt' out'))
    (c : Coords) (hc : ∀ p ∈ dims, c p.1 < p.2) (hc' : ∀ p ∈ dims', c p.1 < p.2)
    (heq : vs.map (partAt nt c) = vs'.map (partAt nt' c)) :
    out (dims.map fun p => c p.1) = out' (dims'.map fun p => c p.1) := by
  obtain ⟨_, _, _, _, k⟩ := C29_slicewise sig hn func raw emptyV args kw vs hb dims nt out h
  obtain ⟨_, _, _, _, k'⟩ := C29_slicewise sig hn func raw emptyV args' kw' vs' hb' dims' nt' out' h'
  obtain ⟨xs, e1, _, e2⟩ := k c hc
  obtain ⟨xs', e1', _, e2'⟩ := k' c hc'
  rw [e1, e1']
  rw [heq] at e2
  rcases e2 with e2 | e2 <;> rcases e2' with e2' | e2' <;> rw [e2] at e2' <;> cases e2' <;> rfl

/-- **C29** The call succeeds whenever the arguments agree about dimension sizes, no non-time
dimension is empty, and the function returns one series of the length of the time dimension for
the parts at every coordinate combination. -/
theorem C29_succeeds {V : Type} (sig : List (Param (Arg V))) (hn : (sig.map (·.name)).Nodup)
    (func : List (FArg V) → Except Err (FOut V)) (raw : List (Arg V) → Except Err (FOut V))
    (emptyV : V) (args : List (Arg V)) (kw : List (String × Arg V)) (vs : List (Arg V))
    (hb : pyBind sig args kw = .ok vs) (nt : Nat)
    (hsize : ∀ a ∈ vs, ∀ b ∈ vs, ∀ p ∈ dimNames a, ∀ q ∈ dimNames b, p.1 = q.1 → p.2 = q.2)
    (htime : ∃ a ∈ vs, ("time", nt) ∈ dimNames a)
    (hpos : ∀ a ∈ vs, ∀ p ∈ dimNames a, p.1 ≠ "time" → 0 < p.2)
    (hf : ∀ c : Coords, (∀ a ∈ vs, ∀ p ∈ dimNames a, p.1 ≠ "time" → c p.1 < p.2) →
      ∃ xs, func (vs.map (partAt nt c)) = .ok (.one xs) ∧ xs.length = nt) :
    ∃ dims out, inner sig func raw emptyV args kw = .ok (.array dims nt out) := by
  obtain ⟨sizes, hs⟩ := unify_ok [] (vs.flatMap dimNames) (by
    intro p hp q hq he
    simp only [List.nil_append, List.mem_flatMap] at hp hq
    obtain ⟨a, ha, hp⟩ := hp
    obtain ⟨b, hb, hq⟩ := hq
    exact hsize a ha b hb p hp q hq he)
  obtain ⟨u1, _, u3, u4⟩ := unify_spec [] _ sizes (by simp) hs
  obtain ⟨a0, ha0, hta⟩ := htime
  have hnt : ((sizes.find? (·.1 == "time")).map (·.2)).getD 0 = nt := by
    rw [find_of_mem sizes u1 "time" nt (u3 _ (List.mem_flatMap.mpr ⟨a0, ha0, hta⟩))]
    rfl
  unfold inner
  dsimp only
  rw [inner_values sig hn emptyV args kw vs hb]
  rw [if_pos (by
    rw [List.any_eq_true]
    refine ⟨a0, ha0, ?_⟩
    rw [hasTime, List.any_eq_true]
    exact ⟨_, hta, by simp⟩)]
  unfold applyUfunc
  rw [hs]
  simp only [hnt]
  set bd := sizes.filter fun p => p.1 != "time" with hbd
  have hmem : ∀ p ∈ bd, p.1 ≠ "time" ∧ ∃ a ∈ vs, p ∈ dimNames a := by
    intro p hp
    simp only [hbd, List.mem_filter, bne_iff_ne, ne_eq] at hp
    rcases u4 p hp.1 with h | h
    · simp at h
    · exact ⟨hp.2, List.mem_flatMap.mp h⟩
  have hne : (ndindex (bd.map (·.2))).isEmpty = false := by
    rw [List.isEmpty_eq_false_iff_exists_mem]
    refine ⟨bd.map fun _ => 0, ?_⟩
    rw [mem_ndindex]
    have hp0 : ∀ p ∈ bd, 0 < p.2 := fun p hp => by
      obtain ⟨h1, a, ha, h2⟩ := hmem p hp
      exact hpos a ha p h2 h1
    clear_value bd
    clear hmem hbd
    induction bd with
    | nil => exact .nil
    | cons p bd ih => exact .cons (hp0 p (by simp)) (ih fun q hq => hp0 q (by simp [hq]))
  rw [hne]
  simp only [Bool.false_eq_true, if_false]
  obtain ⟨out, ho⟩ := vectorizeLoop_ok
    (fun idx => vectorizeCall func nt vs (coordsOf (bd.map (·.1)) idx))
    (ndindex (bd.map (·.2))) (fun _ => none) (by
      intro idx hidx
      rw [mem_ndindex] at hidx
      have hval : ∀ p ∈ bd, coordsOf (bd.map (·.1)) idx p.1 < p.2 := by
        have hnd : (bd.map (·.1)).Nodup := u1.sublist (List.Sublist.map _ List.filter_sublist)
        clear_value bd
        clear hmem hbd hne
        induction bd generalizing idx with
        | nil => simp
        | cons p bd ih =>
          cases hidx with
          | cons h1 h2 =>
            rw [List.map_cons, List.nodup_cons] at hnd
            intro q hq
            simp only [List.map_cons, coordsOf]
            rcases List.mem_cons.mp hq with rfl | hq
            · simpa using h1
            · have : q.1 ≠ p.1 := by
                intro he
                exact hnd.1 (he ▸ List.mem_map_of_mem hq)
              rw [if_neg (by simpa using this)]
              exact ih _ h2 hnd.2 q hq
      obtain ⟨xs, e1, e2⟩ := hf (coordsOf (bd.map (·.1)) idx) (by
        intro a ha p hp hpt
        apply hval
        simp only [hbd, List.mem_filter, bne_iff_ne, ne_eq]
        exact ⟨u3 p (List.mem_flatMap.mpr ⟨a, ha, hp⟩), hpt⟩)
      refine ⟨xs, ?_⟩
      rw [vectorizeCall_ok]
      refine ⟨e2, .inl ?_⟩
      rw [← e1]
      congr 1
      apply List.map_congr_left
      intro a _
      exact argAt_eq_partAt _ _ _ _ fun _ _ _ => rfl)
  rw [ho]
  exact ⟨_, _, rfl⟩

/-- **C29** Without a time dimension in any argument the function is called unchanged. -/
theorem C29_no_time {V : Type} (sig : List (Param (Arg V))) (hn : (sig.map (·.name)).Nodup)
    (func : List (FArg V) → Except Err (FOut V)) (raw : List (Arg V) → Except Err (FOut V))
    (emptyV : V) (args : List (Arg V)) (kw : List (String × Arg V)) (vs : List (Arg V))
    (hb : pyBind sig args kw = .ok vs) (h : ∀ a ∈ vs, ∀ n, ("time", n) ∉ dimNames a) :
    inner sig func raw emptyV args kw = (raw vs).map .plain := by
  unfold inner
  dsimp only
  rw [inner_values sig hn emptyV args kw vs hb]
  rw [if_neg, hb]
  rw [List.any_eq_true]
  rintro ⟨a, ha, ht⟩
  rw [hasTime, List.any_eq_true] at ht
  obtain ⟨⟨d, n⟩, hp, he⟩ := ht
  simp only [beq_iff_eq] at he
  subst he
  exact h a ha n hp

/-- **C29** A function that returns a tuple of two series (`get_blackout_start_and_end`)
raises `ValueError` for every input with a time dimension. -/
theorem C29_two_outputs {V : Type} (sig : List (Param (Arg V)))
    (hn : (sig.map (·.name)).Nodup)
    (func : List (FArg V) → Except Err (FOut V)) (raw : List (Arg V) → Except Err (FOut V))
    (emptyV : V) (args : List (Arg V)) (kw : List (String × Arg V)) (vs : List (Arg V))
    (hb : pyBind sig args kw = .ok vs) (ht : ∃ a ∈ vs, ∃ n, ("time", n) ∈ dimNames a)
    (h2 : ∀ fargs, ∃ xs ys, func fargs = .ok (.tuple [xs, ys])) :
    inner sig func raw emptyV args kw = .error .valueError := by
  unfold inner
  dsimp only
  rw [inner_values sig hn emptyV args kw vs hb]
  obtain ⟨a0, ha0, n, hta⟩ := ht
  rw [if_pos (by
    rw [List.any_eq_true]
    refine ⟨a0, ha0, ?_⟩
    rw [hasTime, List.any_eq_true]
    exact ⟨_, hta, by simp⟩)]
  unfold applyUfunc
  cases hs : unify [] (vs.flatMap dimNames) with
  | error e => rw [unify_error _ _ _ hs]; rfl
  | ok sizes =>
    simp only
    generalize ndindex _ = idxs
    cases idxs with
    | nil => rfl
    | cons idx rest =>
      simp only [List.isEmpty_cons, Bool.false_eq_true, if_false, vectorizeLoop, vectorizeCall]
      generalize List.map _ vs = fargs
      obtain ⟨xs, ys, e⟩ := h2 fargs
      rw [e]
      rfl

/-- Two links, three time steps, and a scalar parameter: the hypotheses of the theorems can be
met and the result is slicewise. -/
example :
    let rsl : NArr Nat := ⟨[("cml", 2), ("time", 3)], fun idx => 10 * idx[0]! + idx[1]!⟩
    let f : List (FArg Nat) → Except Err (FOut Nat)
      | [.series xs, .scalar k] => .ok (.one (xs.map (· + k)))
      | _ => .error .typeError
    ∃ out, inner [⟨"rsl", none⟩, ⟨"k", some (.plain 7)⟩] f (fun _ => .error .typeError) 0
      [.named rsl] [] = .ok (.array [("cml", 2)] 3 out) ∧ out [1] = some [17, 18, 19] := by
  exact ⟨_, rfl, by decide⟩

end Verif.Props
