import Verif.Model.Labels
import Verif.Props.ApiRain

/-!
# Property C146: coordinate labels
-/

namespace Verif.Props
open Verif Verif.Wrapper Verif.Labels
open Verif.Api (Val callNd xrSub subVal xrClip)

variable {L : Type} [DecidableEq L]

/-! ### Labels of arguments -/

/-- the argument has the dimension `d`, with the labels `x` -/
def HasLabels (a : LArg L) (d : String) (x : List L) : Prop :=
  match a with
  | .plain _ => False
  | .named A => (∃ n, (d, n) ∈ A.arr.dims) ∧ A.label d = some x

/-- wherever two of the arguments have labels for the same dimension, these are the same, in the
same order -/
def SameLabels (vs : List (LArg L)) : Prop :=
  ∀ a ∈ vs, ∀ b ∈ vs, ∀ d x y, HasLabels a d x → HasLabels b d y → x = y

theorem any_dim {dims : List (String × Nat)} {d : String} :
    (dims.any (·.1 == d)) = true ↔ ∃ n, (d, n) ∈ dims := by
  rw [List.any_eq_true]
  constructor
  · rintro ⟨⟨e, n⟩, h, he⟩
    simp only [beq_iff_eq] at he
    subst he
    exact ⟨n, h⟩
  · rintro ⟨n, h⟩
    exact ⟨_, h, by simp⟩

theorem index_some {A : LArr L} {d : String} {x : List L} :
    A.index d = some x ↔ HasLabels (.named A) d x := by
  unfold LArr.index HasLabels
  split_ifs with h
  · rw [any_dim] at h
    simp [h]
  · rw [any_dim] at h
    simp [h]

theorem mem_indexes {a : LArg L} {d : String} {x : List L} :
    (d, x) ∈ indexes a ↔ HasLabels a d x := by
  cases a with
  | plain v => simp [indexes, HasLabels]
  | named A =>
    simp only [indexes, HasLabels, List.mem_filterMap, Option.map_eq_some_iff, Prod.mk.injEq,
      Prod.exists]
    constructor
    · rintro ⟨e, n, h1, ls, h2, rfl, rfl⟩
      exact ⟨⟨n, h1⟩, h2⟩
    · rintro ⟨⟨n, h1⟩, h2⟩
      exact ⟨d, n, h1, x, h2, rfl, rfl⟩

theorem joinExact_cases (vs : List (LArg L)) :
    (SameLabels vs ∧ ∃ idx, joinExact vs = .ok idx ∧
      ∀ d x, idx d = some x ↔ ∃ a ∈ vs, HasLabels a d x) ∨
    (¬ SameLabels vs ∧ joinExact vs = .error .valueError) := by
  have hall : ∀ d x, (d, x) ∈ vs.flatMap indexes ↔ ∃ a ∈ vs, HasLabels a d x := by
    intro d x
    simp only [List.mem_flatMap, mem_indexes]
  unfold joinExact
  dsimp only
  split_ifs with h
  · left
    rw [List.all_eq_true] at h
    have hs : ∀ d x y, (d, x) ∈ vs.flatMap indexes → (d, y) ∈ vs.flatMap indexes → x = y := by
      intro d x y hx hy
      have h1 := h _ hx
      rw [List.all_eq_true] at h1
      simpa using h1 _ hy
    refine ⟨fun a ha b hb d x y hx hy =>
      hs d x y ((hall d x).mpr ⟨a, ha, hx⟩) ((hall d y).mpr ⟨b, hb, hy⟩), _, rfl, ?_⟩
    intro d x
    rw [← hall]
    constructor
    · intro hf
      rw [Option.map_eq_some_iff] at hf
      obtain ⟨⟨e, y⟩, h1, rfl⟩ := hf
      have h2 := List.find?_some h1
      simp only [beq_iff_eq] at h2
      subst h2
      exact List.mem_of_find?_eq_some h1
    · intro hx
      cases hf : (vs.flatMap indexes).find? (·.1 == d) with
      | none =>
        rw [List.find?_eq_none] at hf
        exact absurd (hf _ hx) (by simp)
      | some p =>
        obtain ⟨e, y⟩ := p
        have h2 := List.find?_some hf
        simp only [beq_iff_eq] at h2
        subst h2
        rw [hs e x y hx (List.mem_of_find?_eq_some hf)]
        rfl
  · right
    refine ⟨fun hs => h ?_, rfl⟩
    rw [List.all_eq_true]
    rintro ⟨d, x⟩ hx
    rw [List.all_eq_true]
    rintro ⟨e, y⟩ hy
    simp only [Bool.or_eq_true, bne_iff_ne, ne_eq, beq_iff_eq]
    by_cases hde : d = e
    · subst hde
      obtain ⟨a, ha, h1⟩ := (hall d x).mp hx
      obtain ⟨b, hb, h2⟩ := (hall d y).mp hy
      exact .inr (hs a ha b hb d x y h1 h2)
    · exact .inl hde

/-! ### Binding of arguments and labels -/

theorem strip_named (A : LArr L) : strip (.named A) = .named A.arr := rfl

theorem strip_lift (a : Arg Val) : strip (lift a : LArg L) = a := by cases a <;> rfl

theorem pyKeywords_map {α β : Type} (f : α → β) (names : List String) (kw : List (String × α))
    (slots : List (Option α)) :
    pyKeywords names (kw.map fun p => (p.1, f p.2)) (slots.map (Option.map f)) =
      (pyKeywords names kw slots).map (List.map (Option.map f)) := by
  induction kw generalizing slots with
  | nil => rfl
  | cons p kw ih =>
    obtain ⟨k, a⟩ := p
    simp only [List.map_cons, pyKeywords, List.getElem?_map]
    cases h : slots[names.findIdx (· == k)]? with
    | none => rfl
    | some o =>
      cases o with
      | some b => rfl
      | none =>
        simp only [Option.map_some, Option.map_none]
        rw [← ih, List.map_set]
        rfl

theorem pyDefaults_map {α β : Type} (f : α → β) (sig : List (Param α)) (slots : List (Option α)) :
    pyDefaults (sig.map fun p => ⟨p.name, p.default.map f⟩) (slots.map (Option.map f)) =
      (pyDefaults sig slots).map (List.map f) := by
  induction sig generalizing slots with
  | nil => rfl
  | cons p ps ih =>
    have hh : (slots.map (Option.map f)).head?.join = slots.head?.join.map f := by
      cases slots with
      | nil => rfl
      | cons o os => cases o <;> rfl
    have ht : (slots.map (Option.map f)).tail = slots.tail.map (Option.map f) := by
      cases slots <;> rfl
    simp only [List.map_cons, pyDefaults, hh, ht, ih]
    cases slots.head?.join with
    | some a => cases pyDefaults ps slots.tail <;> rfl
    | none =>
      cases p.default with
      | some a => cases pyDefaults ps slots.tail <;> rfl
      | none => rfl

theorem pyBind_map {α β : Type} (f : α → β) (sig : List (Param α)) (args : List α)
    (kw : List (String × α)) :
    pyBind (sig.map fun p => ⟨p.name, p.default.map f⟩) (args.map f)
        (kw.map fun p => (p.1, f p.2)) = (pyBind sig args kw).map (List.map f) := by
  unfold pyBind
  simp only [List.length_map]
  split_ifs with h
  · rfl
  · have h1 : (args.map f).map some ++ List.replicate (sig.length - args.length) none =
        (args.map some ++ List.replicate (sig.length - args.length) none).map (Option.map f) := by
      simp
    have h2 : (sig.map fun p => (⟨p.name, p.default.map f⟩ : Param β)).map (·.name) =
        sig.map (·.name) := by simp
    rw [h1, h2, pyKeywords_map]
    cases pyKeywords (sig.map (·.name)) kw
      (args.map some ++ List.replicate (sig.length - args.length) none) with
    | error e => rfl
    | ok slots => exact pyDefaults_map f sig slots

theorem sigL_strip (sig : List (Param (Arg Val))) :
    (sigL sig : List (Param (LArg L))).map (fun p => ⟨p.name, p.default.map strip⟩) = sig := by
  unfold sigL
  rw [List.map_map]
  conv_rhs => rw [← List.map_id sig]
  apply List.map_congr_left
  rintro ⟨n, d⟩ _
  cases d with
  | none => rfl
  | some a => simp [strip_lift]

theorem sigL_names (sig : List (Param (Arg Val))) :
    (sigL sig : List (Param (LArg L))).map (·.name) = sig.map (·.name) := by
  simp [sigL]

/-- binding of the arguments without their labels -/
theorem bind_strip {sig : List (Param (Arg Val))} {args : List (LArg L)}
    {kw : List (String × LArg L)} {vs : List (LArg L)} (hb : pyBind (sigL sig) args kw = .ok vs) :
    pyBind sig (args.map strip) (kw.map fun p => (p.1, strip p.2)) = .ok (vs.map strip) := by
  have := pyBind_map strip (sigL sig) args kw
  rw [sigL_strip, hb] at this
  exact this

theorem valuesL {sig : List (Param (Arg Val))} (hn : (sig.map (·.name)).Nodup)
    {args : List (LArg L)} {kw : List (String × LArg L)} {vs : List (LArg L)}
    (hb : pyBind (sigL sig) args kw = .ok vs) :
    ((newArgsDict (sigL sig) args kw).map fun p => slotL p.2) = vs := by
  have hlen : vs.length = sig.length := by
    have := bind_strip hb
    unfold pyBind at this
    split_ifs at this
    cases hk : pyKeywords (sig.map (·.name)) (kw.map fun p => (p.1, strip p.2))
        ((args.map strip).map some ++ List.replicate (sig.length - (args.map strip).length) none) with
    | error e => rw [hk] at this; cases this
    | ok slots =>
      rw [hk] at this
      have := (pyDefaults_spec _ _ _ this).1
      simpa using this
  rw [C28_agrees_with_python (sigL sig) (by rw [sigL_names]; exact hn) args kw vs hb, sigL_names]
  apply List.ext_getElem?
  intro i
  rw [List.getElem?_map, List.zip, List.getElem?_zipWith, List.getElem?_map, List.getElem?_map]
  cases hv : vs[i]? with
  | none => cases sig[i]? <;> simp
  | some v =>
    have : i < vs.length := (List.getElem?_eq_some_iff.mp hv).1
    rw [List.getElem?_eq_getElem (by omega)]
    simp [slotL]

/-- the argument has a time dimension -/
def HasTime (a : LArg L) : Prop := ∃ n, ("time", n) ∈ dimNames (strip a)

theorem any_time {vs : List (LArg L)} :
    (vs.any fun a => hasTime (strip a)) = true ↔ ∃ a ∈ vs, HasTime a := by
  rw [List.any_eq_true]
  simp only [hasTime, any_dim, HasTime]

/-- a call that returns an array has an argument with a time dimension -/
theorem callNd_time {sig : List (Param (Arg Val))} (hn : (sig.map (·.name)).Nodup)
    {func : List (FArg Val) → Except Err (FOut Val)} {args : List (LArg L)}
    {kw : List (String × LArg L)} {vs : List (LArg L)} (hb : pyBind (sigL sig) args kw = .ok vs)
    {r : NArr Val}
    (h : callNd sig func (args.map strip) (kw.map fun p => (p.1, strip p.2)) = .ok r) :
    ∃ a ∈ vs, HasTime a := by
  obtain ⟨nt, d1, _, d3, _⟩ := callNd_spec hn (bind_strip hb) h
  obtain ⟨a, ha, hm⟩ := (d3 _).mp d1
  obtain ⟨b, hb', rfl⟩ := List.mem_map.mp ha
  exact ⟨b, hb', nt, hm⟩

/-- **C146** A decorated function raises `ValueError` if one argument has a time dimension and two
arguments have different labels for the same dimension - whatever the function, and also if the
labels are only in a different order. -/
theorem C146_mismatch {sig : List (Param (Arg Val))} (hn : (sig.map (·.name)).Nodup)
    (func : List (FArg Val) → Except Err (FOut Val)) {args : List (LArg L)}
    {kw : List (String × LArg L)} {vs : List (LArg L)} (hb : pyBind (sigL sig) args kw = .ok vs)
    (ht : ∃ a ∈ vs, HasTime a) {a b : LArg L} (ha : a ∈ vs) (hb' : b ∈ vs) {d : String}
    {x y : List L} (hx : HasLabels a d x) (hy : HasLabels b d y) (hne : x ≠ y) :
    callL sig func args kw = .error .valueError := by
  unfold callL
  dsimp only
  rw [valuesL hn hb, if_pos (any_time.mpr ht)]
  rcases joinExact_cases vs with ⟨hs, -⟩ | ⟨-, he⟩
  · exact absurd (hs a ha b hb' d x y hx hy) hne
  · rw [he]

/-- **C146** If a decorated function returns an array, then the labels of the arguments agree, the
values are those of the call without labels, and the result has the labels of every argument, and
no others. -/
theorem C146_call {sig : List (Param (Arg Val))} (hn : (sig.map (·.name)).Nodup)
    {func : List (FArg Val) → Except Err (FOut Val)} {args : List (LArg L)}
    {kw : List (String × LArg L)} {vs : List (LArg L)} (hb : pyBind (sigL sig) args kw = .ok vs)
    {r : LArr L} (h : callL sig func args kw = .ok r) :
    callNd sig func (args.map strip) (kw.map fun p => (p.1, strip p.2)) = .ok r.arr ∧
      SameLabels vs ∧ ∀ d x, HasLabels (.named r) d x ↔ ∃ a ∈ vs, HasLabels a d x := by
  unfold callL at h
  dsimp only at h
  rw [valuesL hn hb] at h
  cases hc : callNd sig func (args.map strip) (kw.map fun p => (p.1, strip p.2)) with
  | error e =>
    rw [hc] at h
    split_ifs at h
    · cases hj : joinExact vs <;> rw [hj] at h <;> cases h
    · cases h
  | ok r0 =>
    rw [hc, if_pos (any_time.mpr (callNd_time hn hb hc))] at h
    rcases joinExact_cases vs with ⟨hs, idx, hi, hl⟩ | ⟨-, he⟩
    · rw [hi] at h
      cases h
      refine ⟨rfl, hs, ?_⟩
      intro d x
      show (_ ∧ idx d = some x) ↔ _
      rw [hl]
      constructor
      · exact fun h => h.2
      · rintro ⟨a, ha, hx⟩
        refine ⟨?_, a, ha, hx⟩
        obtain ⟨_, _, _, d3, _⟩ := callNd_spec hn (bind_strip hb) hc
        cases a with
        | plain v => exact hx.elim
        | named A =>
          obtain ⟨n, hn'⟩ := hx.1
          exact ⟨n, (d3 _).mpr ⟨_, List.mem_map_of_mem ha, hn'⟩⟩
    · rw [he] at h
      cases h

/-- **C146** If the labels agree, a decorated function returns what it returns without labels. -/
theorem C146_call_succeeds {sig : List (Param (Arg Val))} (hn : (sig.map (·.name)).Nodup)
    {func : List (FArg Val) → Except Err (FOut Val)} {args : List (LArg L)}
    {kw : List (String × LArg L)} {vs : List (LArg L)} (hb : pyBind (sigL sig) args kw = .ok vs)
    (hs : SameLabels vs) {r0 : NArr Val}
    (hc : callNd sig func (args.map strip) (kw.map fun p => (p.1, strip p.2)) = .ok r0) :
    ∃ r, callL sig func args kw = .ok r ∧ r.arr = r0 := by
  unfold callL
  dsimp only
  rw [valuesL hn hb, if_pos (any_time.mpr (callNd_time hn hb hc)), hc]
  rcases joinExact_cases vs with ⟨-, idx, hi, -⟩ | ⟨hs', -⟩
  · rw [hi]
    exact ⟨_, rfl, rfl⟩
  · exact absurd hs hs'

/-! ### Differences -/

theorem zipWith_map_self {α β γ : Type} (f : α → β → γ) (g : α → β) (l : List α) :
    List.zipWith f l (l.map g) = l.map fun a => f a (g a) := by
  induction l with
  | nil => rfl
  | cons a l ih => simp [ih]

/-- arrays whose entries agree at all indices have the same difference -/
theorem xrSub_take {a b : LArr L} (h : SameLabels [.named a, .named b]) :
    xrSubL a b = (xrSub a.arr b.arr).map fun r => ⟨r, joinInner a b⟩ := by
  have hamb : ∀ d, ambiguous a b d = false := by
    intro d
    unfold ambiguous
    split
    next x y hx hy =>
      rw [h _ (by simp) _ (by simp) d x y (index_some.mp hx) (index_some.mp hy)]
      simp
    next => rfl
  have ja : ∀ d x j, a.index d = some x → joinInner a b d = some j → x = j := by
    intro d x j hx hj
    unfold joinInner at hj
    rw [hx] at hj
    cases hy : b.index d with
    | none => rw [hy] at hj; cases hj; rfl
    | some y =>
      rw [hy] at hj
      rw [h _ (by simp) _ (by simp) d x y (index_some.mp hx) (index_some.mp hy)] at hj ⊢
      simp only [if_true] at hj
      cases hj
      rfl
  have jb : ∀ d x j, b.index d = some x → joinInner a b d = some j → x = j := by
    intro d x j hx hj
    unfold joinInner at hj
    rw [hx] at hj
    cases hy : a.index d with
    | none => rw [hy] at hj; cases hj; rfl
    | some y =>
      rw [hy] at hj
      rw [h _ (by simp) _ (by simp) d y x (index_some.mp hy) (index_some.mp hx)] at hj
      simp only [if_true] at hj
      cases hj
      rfl
  have key : ∀ c : LArr L, (∀ d x j, c.index d = some x → joinInner a b d = some j → x = j) →
      (take c (joinInner a b)).dims = c.arr.dims ∧
      ∀ f : String × Nat → Nat, (take c (joinInner a b)).val (c.arr.dims.map f) =
        c.arr.val (c.arr.dims.map f) := by
    intro c hc
    constructor
    · unfold take
      dsimp only
      conv_rhs => rw [← List.map_id c.arr.dims]
      apply List.map_congr_left
      rintro ⟨d, n⟩ _
      dsimp only
      split
      next x j hx hj => rw [if_pos (hc d x j hx hj)]; rfl
      next => rfl
    · intro f
      unfold take
      dsimp only
      rw [zipWith_map_self]
      congr 1
      apply List.map_congr_left
      rintro ⟨d, n⟩ _
      dsimp only
      split
      next x j hx hj => rw [if_pos (hc d x j hx hj)]
      next => rfl
  obtain ⟨a1, a2⟩ := key a ja
  obtain ⟨b1, b2⟩ := key b jb
  unfold xrSubL
  rw [if_neg (by simp [hamb])]
  congr 1
  unfold xrSub
  rw [a1, b1]
  cases unify [] (a.arr.dims ++ b.arr.dims) with
  | error e => rfl
  | ok sizes => simp only [a2, b2]

theorem joinInner_same {a b : LArr L} (h : SameLabels [.named a, .named b]) (d : String)
    (x : List L) :
    joinInner a b d = some x ↔ HasLabels (.named a) d x ∨ HasLabels (.named b) d x := by
  rw [← index_some, ← index_some]
  have h' := fun x y hx hy =>
    h _ (by simp) _ (by simp) d x y (index_some.mp hx : HasLabels (.named a) d x)
      (index_some.mp hy : HasLabels (.named b) d y)
  unfold joinInner
  cases hx : a.index d with
  | none => cases hy : b.index d <;> simp
  | some u =>
    cases hy : b.index d with
    | none => simp
    | some v =>
      have := h' u v hx hy
      subst this
      simp

theorem xrSubL_same {a b r : LArr L} (h : SameLabels [.named a, .named b])
    (hr : xrSubL a b = .ok r) :
    xrSub a.arr b.arr = .ok r.arr ∧
      ∀ d x, HasLabels (.named r) d x ↔ HasLabels (.named a) d x ∨ HasLabels (.named b) d x := by
  rw [xrSub_take h] at hr
  cases hx : xrSub a.arr b.arr with
  | error e => rw [hx] at hr; cases hr
  | ok r0 =>
    rw [hx] at hr
    cases hr
    refine ⟨rfl, ?_⟩
    intro d x
    show (_ ∧ joinInner a b d = some x) ↔ _
    rw [joinInner_same h]
    constructor
    · exact fun h => h.2
    · intro h'
      refine ⟨?_, h'⟩
      obtain ⟨_, p3, _⟩ := xrSub_spec hx
      rcases h' with h' | h'
      · obtain ⟨n, hn⟩ := h'.1
        exact ⟨n, (p3 _).mpr (.inl hn)⟩
      · obtain ⟨n, hn⟩ := h'.1
        exact ⟨n, (p3 _).mpr (.inr hn)⟩

theorem HasLabels.unique {A : LArr L} {d : String} {x y : List L} (h : HasLabels (.named A) d x)
    (k : HasLabels (.named A) d y) : x = y := by
  have := h.2.symm.trans k.2
  simpa using this

theorem sameLabels_of {vs : List (LArg L)} {r : LArr L}
    (h : ∀ a ∈ vs, ∀ d x, HasLabels a d x → HasLabels (.named r) d x) : SameLabels vs :=
  fun a ha b hb d x y hx hy => (h a ha d x hx).unique (h b hb d y hy)

theorem SameLabels.sub {vs ws : List (LArg L)} (h : SameLabels vs)
    (hw : ∀ a ∈ ws, ∀ d x, HasLabels a d x → ∃ b ∈ vs, HasLabels b d x) : SameLabels ws := by
  intro a ha b hb d x y hx hy
  obtain ⟨a', ha', hx'⟩ := hw a ha d x hx
  obtain ⟨b', hb', hy'⟩ := hw b hb d y hy
  exact h a' ha' b' hb' d x y hx' hy'

/-! ### The processing of a dataset -/

/-- **C146** If the processing of a dataset with labels returns an array, then the labels of all
inputs agree, the values are those of the processing without labels, and the result has the labels
of all inputs, and no others. -/
theorem C146_process (sp : KR.Spline) {trsl wet : LArr L}
    {n waa_max delta_t tau L_km f_GHz pol : LArg L} {r : LArr L}
    (h : processDatasetL sp trsl wet n waa_max delta_t tau L_km f_GHz pol = .ok r) :
    Api.processDataset sp trsl.arr wet.arr (strip n) (strip waa_max) (strip delta_t) (strip tau)
        (strip L_km) (strip f_GHz) (strip pol) = .ok r.arr ∧
      SameLabels [.named trsl, .named wet, n, waa_max, delta_t, tau, L_km, f_GHz, pol] ∧
      ∀ d x, HasLabels (.named r) d x ↔
        ∃ a ∈ [.named trsl, .named wet, n, waa_max, delta_t, tau, L_km, f_GHz, pol],
          HasLabels a d x := by
  unfold processDatasetL at h
  simp only [bind, Except.bind] at h
  split at h
  · cases h
  next bl hbl =>
  split at h
  · cases h
  next wa hwa =>
  split at h
  · cases h
  next A0 hA0 =>
  split at h
  · cases h
  next A hA =>
  obtain ⟨b1, b2, b3⟩ := C146_call baselineSig_nodup (vs := [.named trsl, .named wet, n]) rfl hbl
  obtain ⟨w1, w2, w3⟩ := C146_call schleissSig_nodup
    (vs := [.named trsl, .named bl, .named wet, waa_max, delta_t, tau]) rfl hwa
  obtain ⟨r1, r2, r3⟩ := C146_call calcRSig_nodup
    (vs := [.named (xrClipL A), L_km, f_GHz, pol, .plain .none, .plain .none,
        .plain (.str "ITU_2005"), .plain (.num (.fin (1 / 10)))]) rfl h
  have hclip : ∀ d x, HasLabels (.named (xrClipL A)) d x ↔ HasLabels (.named A) d x := fun _ _ => Iff.rfl
  have hplain : ∀ (v : Val) d x, ¬ HasLabels (.plain v : LArg L) d x := fun _ _ _ h => h
  simp only [List.mem_cons, List.not_mem_nil, or_false, exists_eq_or_imp, exists_eq_left, hclip,
    hplain] at b3 w3 r3
  obtain ⟨s1, s2⟩ := xrSubL_same (w2.sub (by
    intro a ha d x hx
    refine ⟨a, ?_, hx⟩
    simp only [List.mem_cons, List.not_mem_nil, or_false] at ha ⊢
    tauto)) hA0
  obtain ⟨t1, t2⟩ := xrSubL_same (sameLabels_of (r := wa) (by
    intro a ha d x hx
    simp only [List.mem_cons, List.not_mem_nil, or_false] at ha
    rcases ha with rfl | rfl
    · rw [s2] at hx
      rw [w3]
      tauto
    · exact hx)) hA
  have hall : ∀ d x, HasLabels (.named r) d x ↔
        ∃ a ∈ [.named trsl, .named wet, n, waa_max, delta_t, tau, L_km, f_GHz, pol],
          HasLabels a d x := by
    intro d x
    simp only [List.mem_cons, List.not_mem_nil, or_false, exists_eq_or_imp, exists_eq_left]
    rw [r3, t2, s2, w3, b3]
    tauto
  refine ⟨?_, sameLabels_of (r := r) fun a ha d x hx => (hall d x).mpr ⟨a, ha, hx⟩, hall⟩
  unfold Api.processDataset
  simp only [List.map_cons, List.map_nil, strip_named] at b1 w1 r1
  unfold Api.baseline_constant Api.waa_schleiss_2013 Api.calc_R_from_A
  simp only [bind, Except.bind, b1, w1, s1, t1]
  exact r1

/-- **C146** If the labels of all inputs agree, the processing of a dataset with labels returns what
it returns without labels. -/
theorem C146_process_succeeds (sp : KR.Spline) {trsl wet : LArr L}
    {n waa_max delta_t tau L_km f_GHz pol : LArg L} {r0 : NArr Val}
    (hs : SameLabels [.named trsl, .named wet, n, waa_max, delta_t, tau, L_km, f_GHz, pol])
    (h : Api.processDataset sp trsl.arr wet.arr (strip n) (strip waa_max) (strip delta_t) (strip tau)
        (strip L_km) (strip f_GHz) (strip pol) = .ok r0) :
    ∃ r, processDatasetL sp trsl wet n waa_max delta_t tau L_km f_GHz pol = .ok r ∧ r.arr = r0 := by
  unfold Api.processDataset at h
  simp only [bind, Except.bind] at h
  split at h
  · cases h
  next bl0 hbl0 =>
  split at h
  · cases h
  next wa0 hwa0 =>
  split at h
  · cases h
  next A00 hA00 =>
  split at h
  · cases h
  next A1 hA1 =>
  obtain ⟨bl, hbl, rfl⟩ := C146_call_succeeds (args := [])
    (kw := [("trsl", .named trsl), ("wet", .named wet), ("n_average_last_dry", n)])
    baselineSig_nodup (vs := [.named trsl, .named wet, n]) rfl (hs.sub (by
      intro a ha d x hx
      refine ⟨a, ?_, hx⟩
      simp only [List.mem_cons, List.not_mem_nil, or_false] at ha ⊢
      tauto)) hbl0
  obtain ⟨b1, b2, b3⟩ := C146_call baselineSig_nodup (vs := [.named trsl, .named wet, n]) rfl hbl
  have hsB : SameLabels [.named trsl, .named wet, n, waa_max, delta_t, tau, L_km, f_GHz, pol,
      .named bl] := hs.sub (by
    intro a ha d x hx
    by_cases hab : a = .named bl
    · subst hab
      obtain ⟨b, hb, hbx⟩ := (b3 d x).mp hx
      refine ⟨b, ?_, hbx⟩
      simp only [List.mem_cons, List.not_mem_nil, or_false] at hb ⊢
      tauto
    · refine ⟨a, ?_, hx⟩
      simp only [List.mem_cons, List.not_mem_nil, or_false] at ha ⊢
      tauto)
  obtain ⟨wa, hwa, rfl⟩ := C146_call_succeeds (args := [])
    (kw := [("rsl", .named trsl), ("baseline", .named bl), ("wet", .named wet),
     ("waa_max", waa_max), ("delta_t", delta_t), ("tau", tau)])
    schleissSig_nodup (vs := [.named trsl, .named bl, .named wet, waa_max, delta_t, tau]) rfl
    (hsB.sub (by
      intro a ha d x hx
      refine ⟨a, ?_, hx⟩
      simp only [List.mem_cons, List.not_mem_nil, or_false] at ha ⊢
      tauto)) hwa0
  obtain ⟨w1, w2, w3⟩ := C146_call schleissSig_nodup
    (vs := [.named trsl, .named bl, .named wet, waa_max, delta_t, tau]) rfl hwa
  have s0 : SameLabels [.named trsl, .named bl] := w2.sub (by
    intro a ha d x hx
    refine ⟨a, ?_, hx⟩
    simp only [List.mem_cons, List.not_mem_nil, or_false] at ha ⊢
    tauto)
  obtain ⟨A0, hA0, rfl⟩ : ∃ A0, xrSubL trsl bl = .ok A0 ∧ A0.arr = A00 := by
    rw [xrSub_take s0, hA00]
    exact ⟨_, rfl, rfl⟩
  obtain ⟨s1, s2⟩ := xrSubL_same s0 hA0
  simp only [List.mem_cons, List.not_mem_nil, or_false, exists_eq_or_imp, exists_eq_left] at b3 w3
  have s0' : SameLabels [.named A0, .named wa] := sameLabels_of (r := wa) (by
    intro a ha d x hx
    simp only [List.mem_cons, List.not_mem_nil, or_false] at ha
    rcases ha with rfl | rfl
    · rw [s2] at hx
      rw [w3]
      tauto
    · exact hx)
  obtain ⟨A, hA, rfl⟩ : ∃ A, xrSubL A0 wa = .ok A ∧ A.arr = A1 := by
    rw [xrSub_take s0', hA1]
    exact ⟨_, rfl, rfl⟩
  obtain ⟨t1, t2⟩ := xrSubL_same s0' hA
  obtain ⟨r, hr, rfl⟩ := C146_call_succeeds (args := [])
    (kw := [("A", .named (xrClipL A)), ("L_km", L_km), ("f_GHz", f_GHz), ("pol", pol)])
    calcRSig_nodup (vs := [.named (xrClipL A), L_km, f_GHz, pol, .plain .none, .plain .none,
        .plain (.str "ITU_2005"), .plain (.num (.fin (1 / 10)))]) rfl
    (hs.sub (by
      intro a ha d x hx
      simp only [List.mem_cons, List.not_mem_nil, or_false] at ha
      rcases ha with rfl | rfl | rfl | rfl | rfl | rfl | rfl | rfl
      · have hx' : HasLabels (.named A) d x := hx
        rw [t2, s2, w3, b3] at hx'
        simp only [List.mem_cons, List.not_mem_nil, or_false, exists_eq_or_imp, exists_eq_left]
        tauto
      · exact ⟨_, by simp, hx⟩
      · exact ⟨_, by simp, hx⟩
      · exact ⟨_, by simp, hx⟩
      · exact hx.elim
      · exact hx.elim
      · exact hx.elim
      · exact hx.elim)) h
  refine ⟨r, ?_, rfl⟩
  unfold processDatasetL
  simp only [bind, Except.bind, hbl, hwa, hA0, hA]
  exact hr

/-! ### Entries by label -/

/-- `c` are the positions of the labels `lab` in the array, for all dimensions but time -/
def AtLabels (a : LArr L) (lab : String → L) (c : Coords) : Prop :=
  ∀ p ∈ a.arr.dims, p.1 ≠ "time" → ∃ ls, a.label p.1 = some ls ∧ ls[c p.1]? = some (lab p.1)

/-- the time series of the array at the labels `lab` is `x` -/
def LSeriesAt (a : LArr L) (lab : String → L) (x : List (Fl ℝ)) : Prop :=
  ∃ c, AtLabels a lab c ∧ SeriesAt a.arr c x

/-- the wet/dry flags of the array at the labels `lab` are `w` -/
def LFlagsAt (a : LArr L) (lab : String → L) (w : List Bool) : Prop :=
  ∃ c, AtLabels a lab c ∧ FlagsAt a.arr c w

/-- the parameter is the object `v` at the labels `lab` -/
def LValueAt (a : LArg L) (lab : String → L) (v : Val) : Prop :=
  match a with
  | .plain u => u = v
  | .named A => ∃ c, AtLabels A lab c ∧ ValueAt (.named A.arr) c v

/-- the labels of each dimension are distinct -/
def DistinctLabels (a : LArg L) : Prop := ∀ d x, HasLabels a d x → x.Nodup

/-- as many labels as entries -/
def LabelSizes (a : LArg L) : Prop :=
  ∀ d n, (d, n) ∈ dimNames (strip a) → ∀ x, HasLabels a d x → x.length = n

theorem EntriesAt.congr {a : NArr Val} {c c' : Coords} {vs : List Val} (h : EntriesAt a c vs)
    (hc : ∀ p ∈ a.dims, p.1 ≠ "time" → c p.1 = c' p.1) : EntriesAt a c' vs := by
  refine ⟨h.1, fun t ht => ?_⟩
  rw [← h.2 t ht]
  congr 1
  apply List.map_congr_left
  intro d hd
  by_cases hdt : d.1 = "time"
  · rw [if_pos hdt, if_pos hdt]
  · rw [if_neg hdt, if_neg hdt, hc d hd hdt]

theorem AtLabels.eq {a r : LArr L} {lab : String → L} {c c' : Coords} (h : AtLabels a lab c)
    (hr : ∀ p ∈ a.arr.dims, p.1 ≠ "time" → ∀ ls, a.label p.1 = some ls →
      ls[c' p.1]? = some (lab p.1)) (hd : DistinctLabels (.named a)) :
    ∀ p ∈ a.arr.dims, p.1 ≠ "time" → c p.1 = c' p.1 := by
  rintro ⟨d, n⟩ hp hne
  obtain ⟨ls, h1, h2⟩ := h _ hp hne
  have h3 := hr _ hp hne ls h1
  have hn := hd d ls ⟨⟨n, hp⟩, h1⟩
  have hlt := (List.getElem?_eq_some_iff.mp h2).1
  exact (List.getElem?_inj hlt hn).mp (h2.trans h3.symm)

/-- **C146** The processed dataset, by labels: at every combination of labels the rain rates are
those of the levels, flags and parameters with these labels - in whatever order the dimensions
are. -/
theorem C146_dataset (sp : KR.Spline) {trsl wet : LArr L}
    {n waa_max delta_t tau L_km f_GHz pol : LArg L} {r : LArr L}
    (h : processDatasetL sp trsl wet n waa_max delta_t tau L_km f_GHz pol = .ok r)
    (hd : ∀ a ∈ [.named trsl, .named wet, n, waa_max, delta_t, tau, L_km, f_GHz, pol],
      DistinctLabels a ∧ LabelSizes a)
    {lab : String → L} {x : List (Fl ℝ)} {w : List Bool} {k : Nat} {m d t Lk f : Fl ℝ} {p : String}
    (hx : LSeriesAt trsl lab x) (hw : LFlagsAt wet lab w) (hk : LValueAt n lab (.int k))
    (hm : LValueAt waa_max lab (.num m)) (hdt : LValueAt delta_t lab (.num d))
    (ht : LValueAt tau lab (.num t)) (hL : LValueAt L_km lab (.num Lk))
    (hf : LValueAt f_GHz lab (.num f)) (hp : LValueAt pol lab (.str p)) :
    ∃ y, LSeriesAt r lab y ∧ channelRain sp x w k m d t Lk f p = .ok y := by
  obtain ⟨h1, h2, h3⟩ := C146_process sp h
  obtain ⟨q1, q2⟩ := C142_channels sp h1
  set All : List (LArg L) := [.named trsl, .named wet, n, waa_max, delta_t, tau, L_km, f_GHz, pol]
    with hAll
  -- positions in the result
  let c : Coords := fun d => ((r.label d).getD []).idxOf (lab d)
  have pos : ∀ {A : LArr L}, .named A ∈ All → ∀ {cA : Coords}, AtLabels A lab cA →
      ∀ p ∈ A.arr.dims, p.1 ≠ "time" →
        cA p.1 = c p.1 ∧ r.label p.1 = A.label p.1 ∧ (∃ ls, r.label p.1 = some ls ∧
          ls[c p.1]? = some (lab p.1) ∧ c p.1 < p.2) := by
    intro A hA cA hcA ⟨d, nd⟩ hp hne
    obtain ⟨ls, g1, g2⟩ := hcA _ hp hne
    dsimp only at g1 g2 ⊢
    have hl : HasLabels (.named A) d ls := ⟨⟨nd, hp⟩, g1⟩
    have hr := ((h3 d ls).mpr ⟨_, hA, hl⟩).2
    have hlt := (List.getElem?_eq_some_iff.mp g2).1
    have hnd := (hd _ hA).1 d ls hl
    have hc : c d = cA d := by
      show ((r.label d).getD []).idxOf (lab d) = _
      rw [hr, Option.getD_some]
      have : lab d = ls[cA d] := by
        rw [List.getElem?_eq_getElem hlt] at g2
        exact (Option.some.inj g2).symm
      rw [this]
      exact hnd.idxOf_getElem _ hlt
    refine ⟨hc.symm, hr.trans g1.symm, ls, hr, by rw [hc]; exact g2, ?_⟩
    rw [hc, ← (hd _ hA).2 d nd hp ls hl]
    exact hlt
  have val : ∀ {a : LArg L}, a ∈ All → ∀ {v : Val}, LValueAt a lab v → ValueAt (strip a) c v := by
    intro a ha v hv
    cases a with
    | plain u => exact hv
    | named A =>
      obtain ⟨cA, g1, g2, g3⟩ := hv
      refine ⟨g2, ?_⟩
      rw [← g3]
      congr 1
      apply List.map_congr_left
      intro q hq
      exact ((pos ha g1 q hq (g2 q hq)).1).symm
  obtain ⟨cT, x1, x2⟩ := hx
  obtain ⟨cW, w1, w2⟩ := hw
  have hxT : SeriesAt trsl.arr c x :=
    x2.congr fun q hq hne => (pos (by simp [hAll]) x1 q hq hne).1
  have hwW : FlagsAt wet.arr c w :=
    w2.congr fun q hq hne => (pos (by simp [hAll]) w1 q hq hne).1
  have lab_of : ∀ {a : LArg L}, a ∈ All → (∃ v, LValueAt a lab v) ∨ a = .named trsl ∨ a = .named wet →
      ∀ q ∈ dimNames (strip a), q.1 ≠ "time" →
        ∃ ls, r.label q.1 = some ls ∧ ls[c q.1]? = some (lab q.1) ∧ c q.1 < q.2 := by
    intro a ha hv q hq hne
    rcases hv with ⟨v, hv⟩ | rfl | rfl
    · cases a with
      | plain u => simp [strip, dimNames] at hq
      | named A =>
        obtain ⟨cA, g1, -, -⟩ := hv
        exact (pos ha g1 q hq hne).2.2
    · exact (pos ha x1 q hq hne).2.2
    · exact (pos ha w1 q hq hne).2.2
  have hdims : ∀ q ∈ r.arr.dims, q.1 ≠ "time" →
      ∃ ls, r.label q.1 = some ls ∧ ls[c q.1]? = some (lab q.1) ∧ c q.1 < q.2 := by
    intro q hq hne
    obtain ⟨a, ha, hqa⟩ := (q1 q).mp hq
    simp only [List.mem_cons, List.not_mem_nil, or_false] at ha
    rcases ha with rfl | rfl | rfl | rfl | rfl | rfl | rfl | rfl | rfl
    · exact lab_of (a := .named trsl) (by simp [hAll]) (by simp) q hqa hne
    · exact lab_of (a := .named wet) (by simp [hAll]) (by simp) q hqa hne
    · exact lab_of (by simp [hAll]) (.inl ⟨_, hk⟩) q hqa hne
    · exact lab_of (by simp [hAll]) (.inl ⟨_, hm⟩) q hqa hne
    · exact lab_of (by simp [hAll]) (.inl ⟨_, hdt⟩) q hqa hne
    · exact lab_of (by simp [hAll]) (.inl ⟨_, ht⟩) q hqa hne
    · exact lab_of (by simp [hAll]) (.inl ⟨_, hL⟩) q hqa hne
    · exact lab_of (by simp [hAll]) (.inl ⟨_, hf⟩) q hqa hne
    · exact lab_of (by simp [hAll]) (.inl ⟨_, hp⟩) q hqa hne
  obtain ⟨y, y1, y2⟩ := q2 (c := c) (fun q hq hne => (hdims q hq hne).choose_spec.2.2) hxT hwW
    (val (by simp [hAll]) hk) (val (by simp [hAll]) hm) (val (by simp [hAll]) hdt)
    (val (by simp [hAll]) ht) (val (by simp [hAll]) hL) (val (by simp [hAll]) hf)
    (val (by simp [hAll]) hp)
  exact ⟨y, ⟨c, fun q hq hne => by
    obtain ⟨ls, g1, g2, -⟩ := hdims q hq hne
    exact ⟨ls, g1, g2⟩, y1⟩, y2⟩

/-- **C146** Different labels are never processed; levels and flags with different labels for the
same dimension (time stamps or CMLs) raise `ValueError`. -/
theorem C146_process_mismatch (sp : KR.Spline) {trsl wet : LArr L}
    {n waa_max delta_t tau L_km f_GHz pol : LArg L} :
    (∀ d x y, HasLabels (.named trsl) d x → HasLabels (.named wet) d y → x ≠ y →
      (HasTime (.named trsl : LArg L) ∨ HasTime (.named wet : LArg L)) →
      processDatasetL sp trsl wet n waa_max delta_t tau L_km f_GHz pol = .error .valueError) ∧
    (¬ SameLabels [.named trsl, .named wet, n, waa_max, delta_t, tau, L_km, f_GHz, pol] →
      ∀ r, processDatasetL sp trsl wet n waa_max delta_t tau L_km f_GHz pol ≠ .ok r) := by
  constructor
  · intro d x y hx hy hne ht
    have := C146_mismatch (args := [])
      (kw := [("trsl", .named trsl), ("wet", .named wet), ("n_average_last_dry", n)])
      baselineSig_nodup Api.baselineConstantFn (vs := [.named trsl, .named wet, n]) rfl
      (by rcases ht with ht | ht
          · exact ⟨_, by simp, ht⟩
          · exact ⟨.named wet, by simp, ht⟩)
      (a := .named trsl) (b := .named wet) (by simp) (by simp) hx hy hne
    unfold processDatasetL
    simp only [bind, Except.bind, this]
  · intro hs r h
    exact hs (C146_process sp h).2.1

/-! ### Differences of arrays with different labels -/

/-- the entry of the array at the labels `lab` is `v` -/
def EntryAtLabels (a : LArr L) (lab : String → L) (v : Val) : Prop :=
  ∃ c : Coords, (∀ p ∈ a.arr.dims, ∃ ls, a.label p.1 = some ls ∧ ls[c p.1]? = some (lab p.1)) ∧
    a.arr.val (a.arr.dims.map fun d => c d.1) = v

/-- an array with distinct labels for all its dimensions, as many as entries -/
structure FullyLabelled (a : LArr L) : Prop where
  labels : ∀ p ∈ a.arr.dims, ∃ x, a.label p.1 = some x ∧ x.Nodup ∧ x.length = p.2

theorem FullyLabelled.index {a : LArr L} (h : FullyLabelled a) {p : String × Nat}
    (hp : p ∈ a.arr.dims) : ∃ x, a.index p.1 = some x ∧ x.Nodup ∧ x.length = p.2 := by
  obtain ⟨x, h1, h2⟩ := h.labels p hp
  exact ⟨x, index_some.mpr ⟨⟨p.2, hp⟩, h1⟩, h2⟩

theorem FullyLabelled.not_ambiguous {a b : LArr L} (ha : FullyLabelled a) (hb : FullyLabelled b)
    (d : String) : ambiguous a b d = false := by
  unfold ambiguous
  split
  next x y hx hy =>
    obtain ⟨⟨n, hn⟩, hx'⟩ := index_some.mp hx
    obtain ⟨⟨m, hm⟩, hy'⟩ := index_some.mp hy
    obtain ⟨x', g1, g2, -⟩ := ha.labels _ hn
    obtain ⟨y', k1, k2, -⟩ := hb.labels _ hm
    rw [hx'] at g1
    rw [hy'] at k1
    cases g1
    cases k1
    simp [g2, k2]
  next => rfl

/-- joined labels: the labels of the arrays that have the dimension, in the order of the first -/
theorem joinInner_cases (a b : LArr L) (d : String) :
    (∀ x y, HasLabels (.named a) d x → HasLabels (.named b) d y →
      joinInner a b d = some (x.filter (· ∈ y))) ∧
    (∀ x, HasLabels (.named a) d x → (∀ y, ¬ HasLabels (.named b) d y) → joinInner a b d = some x) ∧
    (∀ y, HasLabels (.named b) d y → (∀ x, ¬ HasLabels (.named a) d x) → joinInner a b d = some y) := by
  simp only [← index_some]
  unfold joinInner
  cases hx : a.index d with
  | none => cases hy : b.index d <;> simp
  | some x =>
    cases hy : b.index d with
    | none => simp
    | some y =>
      by_cases hxy : x = y
      · subst hxy
        have : x.filter (· ∈ x) = x := List.filter_eq_self.mpr (by simp)
        simp [this]
      · simp [hxy]

/-- where the joined labels are in the array -/
theorem take_spec {a : LArr L} (h : FullyLabelled a) {j : String → Option (List L)} {lab : String → L}
    {c cA : Coords}
    (hj : ∀ p ∈ a.arr.dims, ∃ ls, j p.1 = some ls ∧ ls[c p.1]? = some (lab p.1))
    (hA : ∀ p ∈ a.arr.dims, ∃ ls, a.label p.1 = some ls ∧ ls[cA p.1]? = some (lab p.1)) :
    (take a j).val (a.arr.dims.map fun d => c d.1) = a.arr.val (a.arr.dims.map fun d => cA d.1) := by
  unfold take
  dsimp only
  rw [zipWith_map_self]
  congr 1
  apply List.map_congr_left
  rintro p hp
  obtain ⟨x, x1, x2, x3⟩ := h.index hp
  obtain ⟨ls, l1, l2⟩ := hj p hp
  obtain ⟨x', g1, g2⟩ := hA p hp
  have : x' = x := by
    have := (index_some.mp x1).2
    rw [this] at g1
    exact (Option.some.inj g1).symm
  subst this
  have hlt := (List.getElem?_eq_some_iff.mp g2).1
  simp only [x1, l1]
  split_ifs with he
  · subst he
    have hlt' := (List.getElem?_eq_some_iff.mp l2).1
    exact (List.getElem?_inj hlt' x2).mp (l2.trans g2.symm)
  · rw [l2]
    simp only [Option.map_some, Option.getD_some]
    have : lab p.1 = x'[cA p.1] := by
      rw [List.getElem?_eq_getElem hlt] at g2
      exact (Option.some.inj g2).symm
    rw [this]
    exact x2.idxOf_getElem _ hlt

theorem take_dims (a : LArr L) (j : String → Option (List L)) :
    (take a j).dims.map (·.1) = a.arr.dims.map (·.1) := by
  simp [take]

theorem take_mem {a : LArr L} {j : String → Option (List L)} {d : String} :
    (∃ n, (d, n) ∈ (take a j).dims) ↔ ∃ n, (d, n) ∈ a.arr.dims := by
  have : ∀ l : List (String × Nat), (∃ n, (d, n) ∈ l) ↔ d ∈ l.map (·.1) := by
    intro l
    simp
  rw [this, this, take_dims]

theorem take_map (a : LArr L) (j : String → Option (List L)) (c : Coords) :
    ((take a j).dims.map fun d => c d.1) = a.arr.dims.map fun d => c d.1 := by
  have := congrArg (List.map c) (take_dims a j)
  rw [List.map_map, List.map_map] at this
  exact this

/-- **C146** `a - b` with different labels: a dimension of both arrays keeps the labels that both
have, in the order of `a`; a dimension of one of them keeps its labels. -/
theorem C146_sub_labels {a b r : LArr L} (h : xrSubL a b = .ok r) (d : String) :
    (∀ x y, HasLabels (.named a) d x → HasLabels (.named b) d y →
      HasLabels (.named r) d (x.filter (· ∈ y))) ∧
    (∀ x, HasLabels (.named a) d x → (∀ y, ¬ HasLabels (.named b) d y) → HasLabels (.named r) d x) ∧
    (∀ y, HasLabels (.named b) d y → (∀ x, ¬ HasLabels (.named a) d x) →
      HasLabels (.named r) d y) := by
  unfold xrSubL at h
  split_ifs at h
  cases hx : xrSub (take a (joinInner a b)) (take b (joinInner a b)) with
  | error e => rw [hx] at h; cases h
  | ok r0 =>
    rw [hx] at h
    cases h
    obtain ⟨_, p3, _⟩ := xrSub_spec hx
    have da : (∃ n, (d, n) ∈ a.arr.dims) → ∃ n, (d, n) ∈ r0.dims := by
      intro hn
      obtain ⟨n, hn⟩ := (take_mem (j := joinInner a b)).mpr hn
      exact ⟨n, (p3 _).mpr (.inl hn)⟩
    have db : (∃ n, (d, n) ∈ b.arr.dims) → ∃ n, (d, n) ∈ r0.dims := by
      intro hn
      obtain ⟨n, hn⟩ := (take_mem (j := joinInner a b)).mpr hn
      exact ⟨n, (p3 _).mpr (.inr hn)⟩
    obtain ⟨j1, j2, j3⟩ := joinInner_cases a b d
    exact ⟨fun x y hx hy => ⟨da hx.1, j1 x y hx hy⟩, fun x hx hy => ⟨da hx.1, j2 x hx hy⟩,
      fun y hy hx => ⟨db hy.1, j3 y hy hx⟩⟩

/-- **C146** `a - b` by labels: the entry at the labels `lab` is the difference of the entries of `a`
and `b` at these labels, wherever they are in the two arrays. -/
theorem C146_sub {a b r : LArr L} (ha : FullyLabelled a) (hb : FullyLabelled b)
    (h : xrSubL a b = .ok r) {lab : String → L} {x y : Fl ℝ} (hx : EntryAtLabels a lab (.num x))
    (hy : EntryAtLabels b lab (.num y)) : EntryAtLabels r lab (.num (x -ᶠ y)) := by
  have hlab := C146_sub_labels h
  obtain ⟨cA, a1, a2⟩ := hx
  obtain ⟨cB, b1, b2⟩ := hy
  unfold xrSubL at h
  split_ifs at h
  cases hs : xrSub (take a (joinInner a b)) (take b (joinInner a b)) with
  | error e => rw [hs] at h; cases h
  | ok r0 =>
    rw [hs] at h
    cases h
    obtain ⟨_, p3, _⟩ := xrSub_spec hs
    let c : Coords := fun d => ((joinInner a b d).getD []).idxOf (lab d)
    have mem_lab : ∀ d x, HasLabels (.named a) d x → lab d ∈ x := by
      rintro d x ⟨⟨n, hn⟩, hx⟩
      obtain ⟨ls, g1, g2⟩ := a1 _ hn
      rw [hx] at g1
      cases g1
      exact List.mem_of_getElem? g2
    have mem_lab' : ∀ d x, HasLabels (.named b) d x → lab d ∈ x := by
      rintro d x ⟨⟨n, hn⟩, hx⟩
      obtain ⟨ls, g1, g2⟩ := b1 _ hn
      rw [hx] at g1
      cases g1
      exact List.mem_of_getElem? g2
    have hj : ∀ d, ((∃ n, (d, n) ∈ a.arr.dims) ∨ ∃ n, (d, n) ∈ b.arr.dims) →
        ∃ ls, joinInner a b d = some ls ∧ ls[c d]? = some (lab d) := by
      intro d hd
      obtain ⟨j1, j2, j3⟩ := joinInner_cases a b d
      have fin : ∀ ls, joinInner a b d = some ls → lab d ∈ ls →
          ∃ ls, joinInner a b d = some ls ∧ ls[c d]? = some (lab d) := by
        intro ls hl hm
        refine ⟨ls, hl, ?_⟩
        show ls[((joinInner a b d).getD []).idxOf (lab d)]? = _
        rw [hl, Option.getD_some, List.getElem?_eq_getElem (List.idxOf_lt_length_of_mem hm)]
        rw [List.getElem_idxOf]
      by_cases h1 : ∃ n, (d, n) ∈ a.arr.dims
      · obtain ⟨n, hn⟩ := h1
        obtain ⟨x, x1, -⟩ := ha.labels _ hn
        have hx : HasLabels (.named a) d x := ⟨⟨n, hn⟩, x1⟩
        by_cases h2 : ∃ y, HasLabels (.named b) d y
        · obtain ⟨y, hy⟩ := h2
          exact fin _ (j1 x y hx hy) (by
            rw [List.mem_filter]
            exact ⟨mem_lab d x hx, by simpa using mem_lab' d y hy⟩)
        · push Not at h2
          exact fin _ (j2 x hx h2) (mem_lab d x hx)
      · obtain ⟨n, hn⟩ := hd.resolve_left h1
        obtain ⟨y, y1, -⟩ := hb.labels _ hn
        have hy : HasLabels (.named b) d y := ⟨⟨n, hn⟩, y1⟩
        exact fin _ (j3 y hy fun x hx => h1 hx.1) (mem_lab' d y hy)
    refine ⟨c, ?_, ?_⟩
    · rintro ⟨d, n⟩ hp
      apply hj d
      rcases (p3 _).mp hp with hp | hp
      · exact .inl (take_mem.mp ⟨n, hp⟩)
      · exact .inr (take_mem.mp ⟨n, hp⟩)
    · unfold xrSub at hs
      cases hu : unify [] ((take a (joinInner a b)).dims ++ (take b (joinInner a b)).dims) with
      | error e => rw [hu] at hs; cases hs
      | ok sizes =>
        rw [hu] at hs
        cases hs
        have hcoord : ∀ q : List (String × Nat), (∀ p ∈ q, p ∈ sizes) →
            (q.map fun d => coordsOf (sizes.map (·.1)) (sizes.map fun d => c d.1) d.1) =
            q.map fun d => c d.1 := by
          intro q hq
          apply List.map_congr_left
          intro d hd
          have := coordsOf_map (sizes.map (·.1)) c d.1 (List.mem_map_of_mem (hq d hd))
          rw [List.map_map] at this
          exact this
        dsimp only
        rw [hcoord _ fun p hp => (p3 p).mpr (.inl hp), hcoord _ fun p hp => (p3 p).mpr (.inr hp),
          take_map, take_map,
          take_spec ha (fun p hp => hj p.1 (.inl ⟨p.2, hp⟩)) a1,
          take_spec hb (fun p hp => hj p.1 (.inr ⟨p.2, hp⟩)) b1, a2, b2]
        rfl

/-- **C146** Unlike the decorated functions, `a - b` never fails for different labels. -/
theorem C146_sub_succeeds {a b : LArr L} (ha : FullyLabelled a) (hb : FullyLabelled b) :
    ∃ r, xrSubL a b = .ok r := by
  have size : ∀ c : LArr L, FullyLabelled c → (c = a ∨ c = b) →
      ∀ p ∈ (take c (joinInner a b)).dims, ∃ ls, joinInner a b p.1 = some ls ∧ p.2 = ls.length := by
    intro c hc hcab p hp
    simp only [take, List.mem_map] at hp
    obtain ⟨q, hq, rfl⟩ := hp
    obtain ⟨x, x1, -, x3⟩ := hc.index hq
    have hj : ∃ ls, joinInner a b q.1 = some ls := by
      unfold joinInner
      rcases hcab with rfl | rfl
      · rw [x1]
        cases b.index q.1 with
        | none => exact ⟨_, rfl⟩
        | some y => dsimp only; split_ifs <;> exact ⟨_, rfl⟩
      · rw [x1]
        cases a.index q.1 with
        | none => exact ⟨_, rfl⟩
        | some y => dsimp only; split_ifs <;> exact ⟨_, rfl⟩
    obtain ⟨ls, hl⟩ := hj
    refine ⟨ls, hl, ?_⟩
    dsimp only
    rw [x1, hl]
    dsimp only
    split_ifs with he
    · rw [← he, x3]
    · rfl
  unfold xrSubL
  rw [if_neg (by simp [ha.not_ambiguous hb])]
  unfold xrSub
  obtain ⟨sizes, hs⟩ := unify_ok [] ((take a (joinInner a b)).dims ++ (take b (joinInner a b)).dims)
    (by
      intro p hp q hq he
      simp only [List.nil_append, List.mem_append] at hp hq
      have key : ∀ p, (p ∈ (take a (joinInner a b)).dims ∨ p ∈ (take b (joinInner a b)).dims) →
          ∃ ls, joinInner a b p.1 = some ls ∧ p.2 = ls.length := by
        rintro p (hp | hp)
        · exact size a ha (.inl rfl) p hp
        · exact size b hb (.inr rfl) p hp
      obtain ⟨x, x1, x2⟩ := key p hp
      obtain ⟨y, y1, y2⟩ := key q hq
      rw [he, y1] at x1
      cases x1
      rw [x2, y2])
  rw [hs]
  exact ⟨_, rfl⟩

/-! ### Examples -/

/-- labels of two CMLs with two channels each -/
def exampleLabels (cml ch : List String) (d : String) : Option (List String) :=
  if d = "cml_id" then some cml else if d = "channel_id" then some ch else none

/-- The dataset of `exampleProcessed` with labels: it is processed, and the result has the labels. -/
example (lvl : Nat → Nat → Nat → ℝ) (fl : Nat → Nat → Nat → Bool) :
    ∃ r, processDatasetL KR.cubicSpline
      ⟨⟨[("time", 5), ("cml_id", 2), ("channel_id", 2)],
        fun i => .num (.fin (lvl i[0]! i[1]! i[2]!))⟩, exampleLabels ["a", "b"] ["1", "2"]⟩
      ⟨⟨[("cml_id", 2), ("time", 5), ("channel_id", 2)], fun i => .bool (fl i[1]! i[0]! i[2]!)⟩,
        exampleLabels ["a", "b"] ["1", "2"]⟩
      (.plain (.int 5)) (.plain (.num (.fin 2.2))) (.plain (.num (.fin 1))) (.plain (.num (.fin 15)))
      (.named ⟨⟨[("cml_id", 2)], fun i => .num (.fin (i[0]! + 3))⟩,
        exampleLabels ["a", "b"] ["1", "2"]⟩)
      (.named ⟨⟨[("cml_id", 2), ("channel_id", 2)], fun i => .num (.fin (20 + i[0]! + i[1]!))⟩,
        exampleLabels ["a", "b"] ["1", "2"]⟩)
      (.named ⟨⟨[("channel_id", 2), ("cml_id", 2)],
        fun i => .str (if i[0]! = 0 then "H" else "V")⟩, exampleLabels ["a", "b"] ["1", "2"]⟩) =
      .ok r ∧ HasLabels (.named r) "cml_id" ["a", "b"] := by
  obtain ⟨r0, h0⟩ := exampleProcessed lvl fl
  obtain ⟨r, h, -⟩ := C146_process_succeeds (L := String) KR.cubicSpline (r0 := r0)
    (trsl := ⟨⟨[("time", 5), ("cml_id", 2), ("channel_id", 2)],
        fun i => .num (.fin (lvl i[0]! i[1]! i[2]!))⟩, exampleLabels ["a", "b"] ["1", "2"]⟩)
    (wet := ⟨⟨[("cml_id", 2), ("time", 5), ("channel_id", 2)],
        fun i => .bool (fl i[1]! i[0]! i[2]!)⟩, exampleLabels ["a", "b"] ["1", "2"]⟩)
    (n := .plain (.int 5)) (waa_max := .plain (.num (.fin 2.2))) (delta_t := .plain (.num (.fin 1)))
    (tau := .plain (.num (.fin 15)))
    (L_km := .named ⟨⟨[("cml_id", 2)], fun i => .num (.fin (i[0]! + 3))⟩,
        exampleLabels ["a", "b"] ["1", "2"]⟩)
    (f_GHz := .named ⟨⟨[("cml_id", 2), ("channel_id", 2)],
        fun i => .num (.fin (20 + i[0]! + i[1]!))⟩, exampleLabels ["a", "b"] ["1", "2"]⟩)
    (pol := .named ⟨⟨[("channel_id", 2), ("cml_id", 2)],
        fun i => .str (if i[0]! = 0 then "H" else "V")⟩, exampleLabels ["a", "b"] ["1", "2"]⟩) (by
    have key : ∀ a ∈ ([
        .named ⟨⟨[("time", 5), ("cml_id", 2), ("channel_id", 2)],
          fun i => .num (.fin (lvl i[0]! i[1]! i[2]!))⟩, exampleLabels ["a", "b"] ["1", "2"]⟩,
        .named ⟨⟨[("cml_id", 2), ("time", 5), ("channel_id", 2)],
          fun i => .bool (fl i[1]! i[0]! i[2]!)⟩, exampleLabels ["a", "b"] ["1", "2"]⟩,
        .plain (.int 5), .plain (.num (.fin 2.2)), .plain (.num (.fin 1)), .plain (.num (.fin 15)),
        .named ⟨⟨[("cml_id", 2)], fun i => .num (.fin (i[0]! + 3))⟩,
          exampleLabels ["a", "b"] ["1", "2"]⟩,
        .named ⟨⟨[("cml_id", 2), ("channel_id", 2)], fun i => .num (.fin (20 + i[0]! + i[1]!))⟩,
          exampleLabels ["a", "b"] ["1", "2"]⟩,
        .named ⟨⟨[("channel_id", 2), ("cml_id", 2)],
          fun i => .str (if i[0]! = 0 then "H" else "V")⟩, exampleLabels ["a", "b"] ["1", "2"]⟩] :
          List (LArg String)), ∀ d x, HasLabels a d x → exampleLabels ["a", "b"] ["1", "2"] d = some x := by
      intro a ha d x hx
      simp only [List.mem_cons, List.not_mem_nil, or_false] at ha
      rcases ha with rfl | rfl | rfl | rfl | rfl | rfl | rfl | rfl | rfl
      · exact hx.2
      · exact hx.2
      · exact hx.elim
      · exact hx.elim
      · exact hx.elim
      · exact hx.elim
      · exact hx.2
      · exact hx.2
      · exact hx.2
    intro a ha b hb d x y hx hy
    have := (key a ha d x hx).symm.trans (key b hb d y hy)
    exact Option.some.inj this) h0
  have hl := (C146_process _ h).2.2 "cml_id" ["a", "b"]
  refine ⟨r, h, hl.mpr ⟨_, List.mem_cons_self, ?_⟩⟩
  exact ⟨⟨2, by simp⟩, rfl⟩

/-- the same CMLs in a different order in the flags: `ValueError` -/
example (lvl : Nat → Nat → ℝ) (fl : Nat → Nat → Bool) (n m d t Lk f p : LArg String) :
    processDatasetL KR.cubicSpline
      ⟨⟨[("cml_id", 2), ("time", 5)], fun i => .num (.fin (lvl i[0]! i[1]!))⟩,
        exampleLabels ["a", "b"] []⟩
      ⟨⟨[("cml_id", 2), ("time", 5)], fun i => .bool (fl i[0]! i[1]!)⟩,
        exampleLabels ["b", "a"] []⟩ n m d t Lk f p = .error .valueError :=
  (C146_process_mismatch _).1 "cml_id" ["a", "b"] ["b", "a"] ⟨⟨2, by simp⟩, rfl⟩ ⟨⟨2, by simp⟩, rfl⟩
    (by decide) (.inl ⟨5, by simp [strip, dimNames]⟩)

/-- levels at times 1, 2, 3 minus levels at times 3, 2, 4: times 2 and 3 are left, and at time 3 the
third level is combined with the first -/
example (u v : Nat → ℝ) :
    ∃ r, xrSubL ⟨⟨[("time", 3)], fun i => .num (.fin (u i[0]!))⟩, fun _ => some [1, 2, 3]⟩
      ⟨⟨[("time", 3)], fun i => .num (.fin (v i[0]!))⟩, fun _ => some [3, 2, 4]⟩ = .ok r ∧
      HasLabels (.named r) "time" [2, 3] ∧
      EntryAtLabels r (fun _ => 3) (.num (.fin (u 2) -ᶠ .fin (v 0))) := by
  have ha : FullyLabelled (⟨⟨[("time", 3)], fun i => .num (.fin (u i[0]!))⟩,
      fun _ => some [1, 2, 3]⟩ : LArr Nat) := ⟨by
    intro p hp
    simp only [List.mem_singleton] at hp
    subst hp
    exact ⟨_, rfl, by decide, rfl⟩⟩
  have hb : FullyLabelled (⟨⟨[("time", 3)], fun i => .num (.fin (v i[0]!))⟩,
      fun _ => some [3, 2, 4]⟩ : LArr Nat) := ⟨by
    intro p hp
    simp only [List.mem_singleton] at hp
    subst hp
    exact ⟨_, rfl, by decide, rfl⟩⟩
  obtain ⟨r, hr⟩ := C146_sub_succeeds ha hb
  refine ⟨r, hr, ?_, ?_⟩
  · exact (C146_sub_labels hr "time").1 [1, 2, 3] [3, 2, 4] ⟨⟨3, by simp⟩, rfl⟩ ⟨⟨3, by simp⟩, rfl⟩
  · refine C146_sub ha hb hr ⟨fun _ => 2, ?_, by simp⟩ ⟨fun _ => 0, ?_, by simp⟩
    · intro p _
      exact ⟨_, rfl, rfl⟩
    · intro p _
      exact ⟨_, rfl, rfl⟩

end Verif.Props
