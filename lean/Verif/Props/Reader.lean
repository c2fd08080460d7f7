import Verif.Model.Reader

/-!
# Property C64: cmlh5 reader
-/

namespace Verif.Reader

variable {X V A T : Type}

theorem mapM_ok_iff {α β : Type} (f : α → Except Err β) : ∀ (l : List α) (ys : List β),
    l.mapM f = .ok ys ↔ l.length = ys.length ∧ ∀ (i : Nat) x, l[i]? = some x → ∃ y, ys[i]? = some y ∧ f x = .ok y
  | [], ys => by
    constructor
    · intro h
      have h' : ([] : List β) = ys := by
        have : (Except.ok [] : Except Err (List β)) = .ok ys := h
        injection this
      subst h'
      exact ⟨rfl, by simp⟩
    · rintro ⟨h, _⟩
      have : ys = [] := by
        cases ys with
        | nil => rfl
        | cons _ _ => simp at h
      subst this
      rfl
  | x :: l, ys => by
    rw [List.mapM_cons]
    constructor
    · intro h
      cases hx : f x with
      | error e => rw [hx] at h; cases h
      | ok y =>
        rw [hx] at h
        have h' : (List.mapM f l >>= fun ys => Except.ok (y :: ys)) = .ok ys := h
        cases hl : List.mapM f l with
        | error e => rw [hl] at h'; cases h'
        | ok zs =>
          rw [hl] at h'
          have h'' : y :: zs = ys := by
            have : (Except.ok (y :: zs) : Except Err (List β)) = .ok ys := h'
            injection this
          subst h''
          obtain ⟨h1, h2⟩ := (mapM_ok_iff f l zs).mp hl
          refine ⟨by simp [h1], ?_⟩
          intro i x' hi
          cases i with
          | zero =>
            simp only [List.getElem?_cons_zero, Option.some.injEq] at hi
            subst hi
            exact ⟨y, by simp, hx⟩
          | succ i =>
            rw [List.getElem?_cons_succ] at hi
            rw [List.getElem?_cons_succ]
            exact h2 i x' hi
    · rintro ⟨h1, h2⟩
      cases ys with
      | nil => simp at h1
      | cons y ys =>
        obtain ⟨y', hy', hx⟩ := h2 0 x (by simp)
        simp only [List.getElem?_cons_zero, Option.some.injEq] at hy'
        subst hy'
        have hl : List.mapM f l = .ok ys := by
          rw [mapM_ok_iff f l ys]
          refine ⟨by simpa using h1, ?_⟩
          intro i x' hi
          have := h2 (i + 1) x' (by rw [List.getElem?_cons_succ]; exact hi)
          rwa [List.getElem?_cons_succ] at this
        rw [hx, hl]
        rfl

theorem mapM_exists {α β : Type} (f : α → Except Err β) (P : β → Prop) (l : List α)
    (h : ∀ x ∈ l, ∃ y, f x = .ok y ∧ P y) : ∃ ys, l.mapM f = .ok ys ∧ ∀ y ∈ ys, P y := by
  induction l with
  | nil => exact ⟨[], rfl, by simp⟩
  | cons x l ih =>
    obtain ⟨y, hy, hP⟩ := h x (List.mem_cons_self ..)
    obtain ⟨ys, hys, hPs⟩ := ih fun x hx => h x (List.mem_cons_of_mem _ hx)
    refine ⟨y :: ys, ?_, ?_⟩
    · rw [List.mapM_cons, hy, hys]
      rfl
    · intro z hz
      rcases List.mem_cons.mp hz with rfl | hz
      · exact hP
      · exact hPs z hz

theorem member_ok {α : Type} (o : Option α) (a : α) : member o = .ok a ↔ o = some a := by
  cases o with
  | none => simp [member]
  | some b => simp [member]

theorem channelDs_ok (hav : X → X → X → X → X) (ghz : X → X) (toNs : T → Int) (g : Cml X V A T) (name : String)
    (ch : Channel X V A T) (d : ChannelDs X V A) (h : channelDs hav ghz toNs g name ch = .ok d) :
    ∃ time freq, ch.tx = some d.tsl ∧ ch.rx = some d.rsl ∧ ch.time = some time ∧ d.time = time.map toNs ∧
      d.tsl.length = time.length ∧ d.rsl.length = time.length ∧ d.channelId = name ∧
      g.cmlId = some d.cmlId ∧ g.siteALatitude = some d.siteALatitude ∧ g.siteBLatitude = some d.siteBLatitude ∧
      g.siteALongitude = some d.siteALongitude ∧ g.siteBLongitude = some d.siteBLongitude ∧
      ch.frequency = some freq ∧ d.frequency = ghz freq ∧ ch.polarization = some d.polarization ∧
      d.length = hav d.siteALongitude d.siteALatitude d.siteBLongitude d.siteBLatitude := by
  unfold channelDs at h
  cases htx : ch.tx with
  | none => rw [htx] at h; cases h
  | some tx =>
  cases hrx : ch.rx with
  | none => rw [htx, hrx] at h; cases h
  | some rx =>
  cases ht : ch.time with
  | none => rw [htx, hrx, ht] at h; cases h
  | some time =>
  cases h1 : g.cmlId with
  | none => rw [htx, hrx, ht, h1] at h; cases h
  | some cid =>
  cases h2 : g.siteALatitude with
  | none => rw [htx, hrx, ht, h1, h2] at h; cases h
  | some alat =>
  cases h3 : g.siteBLatitude with
  | none => rw [htx, hrx, ht, h1, h2, h3] at h; cases h
  | some blat =>
  cases h4 : g.siteALongitude with
  | none => rw [htx, hrx, ht, h1, h2, h3, h4] at h; cases h
  | some alon =>
  cases h5 : g.siteBLongitude with
  | none => rw [htx, hrx, ht, h1, h2, h3, h4, h5] at h; cases h
  | some blon =>
  cases h6 : ch.frequency with
  | none => rw [htx, hrx, ht, h1, h2, h3, h4, h5, h6] at h; cases h
  | some freq =>
  cases h7 : ch.polarization with
  | none => rw [htx, hrx, ht, h1, h2, h3, h4, h5, h6, h7] at h; cases h
  | some pol =>
  rw [htx, hrx, ht, h1, h2, h3, h4, h5, h6, h7] at h
  have h' : (if tx.length = time.length ∧ rx.length = time.length then
      (Except.ok (⟨tx, rx, time.map toNs, name, cid, alat, blat, alon, blon, ghz freq, pol, hav alon alat blon blat⟩ :
        ChannelDs X V A) : Except Err (ChannelDs X V A))
      else .error .valueError) = .ok d := h
  split_ifs at h' with hl
  injection h' with h'
  subst h'
  exact ⟨time, freq, rfl, rfl, rfl, rfl, hl.1, hl.2, rfl, rfl, rfl, rfl, rfl, rfl, rfl, rfl, rfl, rfl⟩

theorem concatCoord_at {α : Type} [DecidableEq α] (as : List α) (j : Nat) (a : α) (h : as[j]? = some a) :
    (concatCoord as).at j = some a := by
  unfold concatCoord
  cases as with
  | nil => simp at h
  | cons b rest =>
    dsimp only
    split_ifs with hall
    · show some b = some a
      cases j with
      | zero => simpa using h
      | succ j =>
        rw [List.getElem?_cons_succ] at h
        rw [List.all_eq_true] at hall
        have := hall a (List.mem_of_getElem? h)
        simp only [decide_eq_true_eq] at this
        rw [this]
    · exact h

theorem concatCoord_const {α : Type} [DecidableEq α] (as : List α) (a : α) (hne : as ≠ []) (h : ∀ b ∈ as, b = a) :
    concatCoord as = .scalar a := by
  cases as with
  | nil => exact absurd rfl hne
  | cons b rest =>
    unfold concatCoord
    dsimp only
    rw [if_pos, h b (List.mem_cons_self ..)]
    rw [List.all_eq_true]
    intro c hc
    simp only [decide_eq_true_eq]
    rw [h b (List.mem_cons_self ..), h c (List.mem_cons_of_mem _ hc)]

theorem sortedUnion_spec (l : List Int) :
    ((l.insertionSort (· ≤ ·)).dedup).Pairwise (· < ·) ∧ ∀ t, t ∈ (l.insertionSort (· ≤ ·)).dedup ↔ t ∈ l := by
  constructor
  · have h2 := (List.pairwise_insertionSort (· ≤ · : Int → Int → Prop) l).sublist (List.dedup_sublist _)
    have h3 : ((l.insertionSort (· ≤ ·)).dedup).Pairwise (· ≠ ·) := List.nodup_dedup _
    exact (h2.and h3).imp fun h => lt_of_le_of_ne h.1 h.2
  · intro t
    rw [List.mem_dedup, List.mem_insertionSort]

theorem joinTimes_ok (axes : List (List Int)) (axis : List Int) (h : joinTimes axes = .ok axis) :
    (∀ a ∈ axes, a = axis) ∨
    ((∀ a ∈ axes, a.Pairwise (· < ·)) ∧ axis.Pairwise (· < ·) ∧ ∀ t, t ∈ axis ↔ ∃ a ∈ axes, t ∈ a) := by
  cases axes with
  | nil => cases h
  | cons ax rest =>
    unfold joinTimes at h
    dsimp only at h
    split_ifs at h with h1 h2
    · left
      injection h with h
      subst h
      rw [List.all_eq_true] at h1
      intro a ha
      rcases List.mem_cons.mp ha with rfl | ha
      · rfl
      · simpa using h1 a ha
    · right
      injection h with h
      subst h
      rw [List.all_eq_true] at h2
      obtain ⟨s1, s2⟩ := sortedUnion_spec (ax :: rest).flatten
      refine ⟨fun a ha => by simpa using h2 a ha, s1, ?_⟩
      intro t
      rw [s2, List.mem_flatten]

theorem onAxis_spec (nan : V) (axis time : List Int) (values : List V) (hlen : values.length = time.length)
    (h : time = axis ∨ time.Pairwise (· < ·)) :
    (onAxis nan axis time values).length = axis.length ∧ (time = axis → onAxis nan axis time values = values) ∧
    (∀ (m k : Nat) t, axis[m]? = some t → time[k]? = some t → time.Pairwise (· < ·) →
      (onAxis nan axis time values)[m]? = values[k]?) ∧
    (∀ (m : Nat) t, axis[m]? = some t → t ∉ time → (onAxis nan axis time values)[m]? = some nan) := by
  have hpw_inj : ∀ l : List Int, l.Pairwise (· < ·) → ∀ (i j : Nat) t, l[i]? = some t → l[j]? = some t → i = j := by
    intro l hl i j t hi hj
    have hnd : l.Nodup := hl.imp fun h => ne_of_lt h
    obtain ⟨hi1, hi2⟩ := List.getElem?_eq_some_iff.mp hi
    obtain ⟨hj1, hj2⟩ := List.getElem?_eq_some_iff.mp hj
    exact (List.Nodup.getElem_inj_iff hnd).mp (hi2.trans hj2.symm)
  unfold onAxis
  by_cases he : time = axis
  · rw [if_pos he]
    subst he
    refine ⟨hlen, fun _ => rfl, ?_, ?_⟩
    · intro m k t hm hk hp
      rw [hpw_inj time hp m k t hm hk]
    · intro m t hm hn
      exact absurd (List.mem_of_getElem? hm) hn
  · rw [if_neg he]
    have hp := h.resolve_left he
    refine ⟨by simp, fun h => absurd h he, ?_, ?_⟩
    · intro m k t hm hk _
      rw [List.getElem?_map, hm, Option.map_some]
      obtain ⟨hk1, hk2⟩ := List.getElem?_eq_some_iff.mp hk
      have hk' : k < values.length := by omega
      rw [List.getElem?_eq_getElem hk']
      congr 1
      have hmem : (t, values[k]) ∈ time.zip values := by
        rw [List.mem_iff_getElem?]
        refine ⟨k, ?_⟩
        rw [List.getElem?_zip_eq_some]
        exact ⟨hk, List.getElem?_eq_getElem hk'⟩
      cases hf : (time.zip values).find? (fun p => decide (p.1 = t)) with
      | none =>
        rw [List.find?_eq_none] at hf
        exact absurd (decide_eq_true rfl) (hf _ hmem)
      | some p =>
        have hp1 : p.1 = t := by simpa using List.find?_some hf
        obtain ⟨i, hi⟩ := List.mem_iff_getElem?.mp (List.mem_of_find?_eq_some hf)
        obtain ⟨p1, p2⟩ := p
        rw [List.getElem?_zip_eq_some] at hi
        dsimp only at hp1 hi
        rw [hp1] at hi
        have := hpw_inj time hp i k t hi.1 hk
        subst this
        show p2 = values[i]
        have := hi.2
        rw [List.getElem?_eq_getElem hk'] at this
        injection this with this
        exact this.symm
    · intro m t hm hn
      rw [List.getElem?_map, hm, Option.map_some]
      congr 1
      have : (time.zip values).find? (fun p => decide (p.1 = t)) = none := by
        rw [List.find?_eq_none]
        intro p hpm
        simp only [decide_eq_true_eq]
        intro hpt
        exact hn (hpt ▸ (List.of_mem_zip hpm).1)
      rw [this]
      rfl

end Verif.Reader

namespace Verif.Props
open Verif Verif.Reader

variable {X V A T : Type}

/-- `ds` holds the data of the channel group `ch`, called `name`, as its channel number `j`. -/
def HoldsChannel (ghz : X → X) (toNs : T → Int) (nan : V) (ds : Ds X V A) (j : Nat) (name : String)
    (ch : Channel X V A T) : Prop :=
  ∃ tx rx time freq pol tslRow rslRow,
    ch.tx = some tx ∧ ch.rx = some rx ∧ ch.time = some time ∧ ch.frequency = some freq ∧
    ch.polarization = some pol ∧
    ds.channelId[j]? = some name ∧ ds.frequency.at j = some (ghz freq) ∧ ds.polarization.at j = some pol ∧
    ds.tsl[j]? = some tslRow ∧ ds.rsl[j]? = some rslRow ∧
    tslRow.length = ds.time.length ∧ rslRow.length = ds.time.length ∧
    -- same time axis: samples as in the file
    (time.map toNs = ds.time → tslRow = tx ∧ rslRow = rx) ∧
    -- otherwise each sample of the channel is at its own time, and there is NaN at the other times
    (time.map toNs ≠ ds.time → (time.map toNs).Pairwise (· < ·)) ∧
    ((time.map toNs).Pairwise (· < ·) → ∀ (k : Nat) t, time[k]? = some t →
      ∃ m : Nat, ds.time[m]? = some (toNs t) ∧ tslRow[m]? = tx[k]? ∧ rslRow[m]? = rx[k]?) ∧
    (∀ (m : Nat) t, ds.time[m]? = some t → t ∉ time.map toNs → tslRow[m]? = some nan ∧ rslRow[m]? = some nan)

theorem cmlDs_holds [DecidableEq X] [DecidableEq A] (hav : X → X → X → X → X) (ghz : X → X) (toNs : T → Int) (nan : V)
    (g : Cml X V A T) (ds : Ds X V A) (h : cmlDs hav ghz toNs nan g = .ok ds) :
    (∃ aLat bLat aLon bLon cid,
      g.siteALatitude = some aLat ∧ g.siteBLatitude = some bLat ∧ g.siteALongitude = some aLon ∧
      g.siteBLongitude = some bLon ∧ g.cmlId = some cid ∧
      ds.siteALatitude = .scalar aLat ∧ ds.siteBLatitude = .scalar bLat ∧ ds.siteALongitude = .scalar aLon ∧
      ds.siteBLongitude = .scalar bLon ∧ ds.cmlId = .scalar cid ∧ ds.length = .scalar (hav aLon aLat bLon bLat)) ∧
    g.channels ≠ [] ∧ ds.channelId = g.channels.map Prod.fst ∧
    ds.tsl.length = g.channels.length ∧ ds.rsl.length = g.channels.length ∧
    (∀ t, t ∈ ds.time ↔ ∃ p ∈ g.channels, ∃ time, p.2.time = some time ∧ t ∈ time.map toNs) ∧
    (∀ (j : Nat) name ch, g.channels[j]? = some (name, ch) → HoldsChannel ghz toNs nan ds j name ch) := by
  unfold cmlDs at h
  cases hm : g.channels.mapM (fun p => channelDs hav ghz toNs g p.1 p.2) with
  | error e => rw [hm] at h; cases h
  | ok dss =>
  rw [hm] at h
  have h' : Reader.concat nan dss = .ok ds := h
  clear h
  unfold Reader.concat at h'
  cases hj : joinTimes (dss.map (·.time)) with
  | error e => rw [hj] at h'; cases h'
  | ok axis =>
  rw [hj] at h'
  injection h' with h'
  obtain ⟨hlen, hget⟩ := (mapM_ok_iff _ _ _).mp hm
  have hne : dss ≠ [] := by
    rintro rfl
    cases hj
  have hch : g.channels ≠ [] := by
    intro hnil
    rw [hnil] at hlen
    exact hne (List.length_eq_zero_iff.mp hlen.symm)
  -- each dataset comes from a channel
  have hback : ∀ d ∈ dss, ∃ p ∈ g.channels, channelDs hav ghz toNs g p.1 p.2 = .ok d := by
    intro d hd
    obtain ⟨i, hi⟩ := List.mem_iff_getElem?.mp hd
    obtain ⟨hi1, _⟩ := List.getElem?_eq_some_iff.mp hi
    have hi2 : i < g.channels.length := by omega
    obtain ⟨y, hy, hok⟩ := hget i _ (List.getElem?_eq_getElem hi2)
    rw [hi] at hy
    injection hy with hy
    subst hy
    exact ⟨_, List.getElem_mem hi2, hok⟩
  obtain ⟨d0, hd0⟩ := List.exists_mem_of_ne_nil _ hne
  obtain ⟨p0, _, hok0⟩ := hback d0 hd0
  obtain ⟨_, _, _, _, _, _, _, _, _, c1, c2, c3, c4, c5, _, _, _, c6⟩ := channelDs_ok _ _ _ _ _ _ _ hok0
  have hconst : ∀ d ∈ dss, d.cmlId = d0.cmlId ∧ d.siteALatitude = d0.siteALatitude ∧
      d.siteBLatitude = d0.siteBLatitude ∧ d.siteALongitude = d0.siteALongitude ∧
      d.siteBLongitude = d0.siteBLongitude ∧ d.length = d0.length := by
    intro d hd
    obtain ⟨p, _, hok⟩ := hback d hd
    obtain ⟨_, _, _, _, _, _, _, _, _, e1, e2, e3, e4, e5, _, _, _, e6⟩ := channelDs_ok _ _ _ _ _ _ _ hok
    have f1 := Option.some.inj (e1.symm.trans c1)
    have f2 := Option.some.inj (e2.symm.trans c2)
    have f3 := Option.some.inj (e3.symm.trans c3)
    have f4 := Option.some.inj (e4.symm.trans c4)
    have f5 := Option.some.inj (e5.symm.trans c5)
    exact ⟨f1, f2, f3, f4, f5, by rw [e6, c6, f2, f3, f4, f5]⟩
  have hcc : ∀ {α : Type} [DecidableEq α] (f : ChannelDs X V A → α), (∀ d ∈ dss, f d = f d0) →
      concatCoord (dss.map f) = .scalar (f d0) := by
    intro α _ f hf
    apply concatCoord_const
    · simpa using hne
    · intro b hb
      obtain ⟨d, hd, rfl⟩ := List.mem_map.mp hb
      exact hf d hd
  have hcid : dss.map (·.channelId) = g.channels.map Prod.fst := by
    apply List.ext_getElem?
    intro i
    rw [List.getElem?_map, List.getElem?_map]
    cases hi : g.channels[i]? with
    | none =>
      have : dss[i]? = none := by
        rw [List.getElem?_eq_none_iff] at hi ⊢
        omega
      rw [this]
      rfl
    | some p =>
      obtain ⟨y, hy, hok⟩ := hget i p hi
      rw [hy]
      obtain ⟨_, _, _, _, _, _, _, _, e, _⟩ := channelDs_ok _ _ _ _ _ _ _ hok
      show some y.channelId = some p.1
      rw [e]
  have hjt := joinTimes_ok _ _ hj
  subst h'
  refine ⟨⟨_, _, _, _, _, c2, c3, c4, c5, c1, hcc _ fun d hd => (hconst d hd).2.1,
    hcc _ fun d hd => (hconst d hd).2.2.1, hcc _ fun d hd => (hconst d hd).2.2.2.1,
    hcc _ fun d hd => (hconst d hd).2.2.2.2.1, hcc _ fun d hd => (hconst d hd).1, ?_⟩, hch, hcid,
    by simp [hlen], by simp [hlen], ?_, ?_⟩
  · rw [← c6]
    exact hcc _ fun d hd => (hconst d hd).2.2.2.2.2
  · intro t
    show t ∈ axis ↔ _
    have hmemAx : t ∈ axis ↔ ∃ d ∈ dss, t ∈ d.time := by
      rcases hjt with h | ⟨_, _, h⟩
      · constructor
        · intro ht
          exact ⟨d0, hd0, by rw [h d0.time (List.mem_map_of_mem hd0)]; exact ht⟩
        · rintro ⟨d, hd, ht⟩
          rwa [← h d.time (List.mem_map_of_mem hd)]
      · rw [h]
        simp only [List.mem_map, exists_exists_and_eq_and]
    rw [hmemAx]
    constructor
    · rintro ⟨d, hd, ht⟩
      obtain ⟨p, hp, hok⟩ := hback d hd
      obtain ⟨time, _, _, _, e3, e4, _⟩ := channelDs_ok _ _ _ _ _ _ _ hok
      exact ⟨p, hp, time, e3, e4 ▸ ht⟩
    · rintro ⟨p, hp, time, e3, ht⟩
      obtain ⟨i, hi⟩ := List.mem_iff_getElem?.mp hp
      obtain ⟨y, hy, hok⟩ := hget i p hi
      obtain ⟨time', _, _, _, e3', e4, _⟩ := channelDs_ok _ _ _ _ _ _ _ hok
      have : time' = time := Option.some.inj (e3'.symm.trans e3)
      subst this
      exact ⟨y, List.mem_of_getElem? hy, e4 ▸ ht⟩
  · intro j name ch hjc
    obtain ⟨d, hd, hok⟩ := hget j (name, ch) hjc
    obtain ⟨time, freq, e1, e2, e3, e4, e5, e6, e7, _, _, _, _, _, e8, e9, e10, _⟩ :=
      channelDs_ok _ _ _ _ _ _ _ hok
    have hdm := List.mem_of_getElem? hd
    have hax : d.time = axis ∨ d.time.Pairwise (· < ·) := by
      rcases hjt with h | ⟨h, _, _⟩
      · exact Or.inl (h _ (List.mem_map_of_mem hdm))
      · exact Or.inr (h _ (List.mem_map_of_mem hdm))
    have hsub : ∀ t ∈ d.time, t ∈ axis := by
      intro t ht
      rcases hjt with h | ⟨_, _, h⟩
      · rwa [← h _ (List.mem_map_of_mem (f := ChannelDs.time) hdm)]
      · exact (h t).mpr ⟨_, List.mem_map_of_mem hdm, ht⟩
    have hl1 : d.tsl.length = d.time.length := by rw [e5, e4, List.length_map]
    have hl2 : d.rsl.length = d.time.length := by rw [e6, e4, List.length_map]
    obtain ⟨a1, a2, a3, a4⟩ := onAxis_spec nan axis d.time d.tsl hl1 hax
    obtain ⟨b1, b2, b3, b4⟩ := onAxis_spec nan axis d.time d.rsl hl2 hax
    have hgetd : ∀ {α : Type} (f : ChannelDs X V A → α), (dss.map f)[j]? = some (f d) := by
      intro α f
      rw [List.getElem?_map, hd]
      rfl
    refine ⟨d.tsl, d.rsl, time, freq, d.polarization, onAxis nan axis d.time d.tsl, onAxis nan axis d.time d.rsl,
      e1, e2, e3, e8, e10, ?_, ?_, ?_, hgetd _, hgetd _, a1, b1, ?_, ?_, ?_, ?_⟩
    · exact (hgetd _).trans (congrArg some e7)
    · rw [← e9]
      exact concatCoord_at _ j _ (hgetd _)
    · exact concatCoord_at _ j _ (hgetd _)
    · intro ht
      have : d.time = axis := e4.trans ht
      exact ⟨a2 this, b2 this⟩
    · intro ht
      have : d.time ≠ axis := by rw [e4]; exact ht
      rw [← e4]
      exact hax.resolve_left this
    · intro hp k t hk
      have hk' : d.time[k]? = some (toNs t) := by rw [e4, List.getElem?_map, hk]; rfl
      obtain ⟨m, hm⟩ := List.mem_iff_getElem?.mp (hsub _ (List.mem_of_getElem? hk'))
      exact ⟨m, hm, a3 m k _ hm hk' (by rw [e4]; exact hp), b3 m k _ hm hk' (by rw [e4]; exact hp)⟩
    · intro m t hm hn
      exact ⟨a4 m t hm (by rw [e4]; exact hn), b4 m t hm (by rw [e4]; exact hn)⟩

/-- **C64** A file that is read successfully gives one dataset per CML group, in file order. Each dataset has the id, site
coordinates and length (haversine distance of the sites) of its group as scalars, its channels in file order with
frequency in GHz, the union of the channels' times as time axis, and every sample of every channel at its
time, NaN elsewhere. -/
theorem C64_structure (toNs : T → Int) (nan : V) (file : List (String × Cml ℝ V A T)) (dss : List (Ds ℝ V A))
    (h : readFile toNs nan file = .ok dss) :
    file ≠ [] ∧ dss.length = file.length ∧
    ∀ (i : Nat) key g ds, file[i]? = some (key, g) → dss[i]? = some ds →
      (∃ aLat bLat aLon bLon cid,
        g.siteALatitude = some aLat ∧ g.siteBLatitude = some bLat ∧ g.siteALongitude = some aLon ∧
        g.siteBLongitude = some bLon ∧ g.cmlId = some cid ∧
        ds.siteALatitude = .scalar aLat ∧ ds.siteBLatitude = .scalar bLat ∧ ds.siteALongitude = .scalar aLon ∧
        ds.siteBLongitude = .scalar bLon ∧ ds.cmlId = .scalar cid ∧
        ds.length = .scalar (Haversine.haversine aLon aLat bLon bLat)) ∧
      g.channels ≠ [] ∧ ds.channelId = g.channels.map Prod.fst ∧
      ds.tsl.length = g.channels.length ∧ ds.rsl.length = g.channels.length ∧
      (∀ t, t ∈ ds.time ↔ ∃ p ∈ g.channels, ∃ time, p.2.time = some time ∧ t ∈ time.map toNs) ∧
      ∀ (j : Nat) name ch, g.channels[j]? = some (name, ch) →
        HoldsChannel (fun f => f / 1000000000) toNs nan ds j name ch := by
  classical
  unfold readFile readWith at h
  cases file with
  | nil => cases h
  | cons p file =>
    dsimp only at h
    obtain ⟨hlen, hget⟩ := (mapM_ok_iff _ _ _).mp h
    refine ⟨by simp, hlen.symm, ?_⟩
    intro i key g ds hi hds
    obtain ⟨y, hy, hok⟩ := hget i (key, g) hi
    rw [hds] at hy
    injection hy with hy
    subst hy
    exact cmlDs_holds _ _ toNs nan g ds hok

/-- **C64** An empty file raises `IndexError`, whatever the conversions. A file in which a CML group has no channels, or a
channel misses a member, is not read. -/
theorem C64_errors (toNs : T → Int) (nan : V) (file : List (String × Cml ℝ V A T)) :
    (file = [] → readFile toNs nan file = .error .indexError) ∧
    ((∃ p ∈ file, p.2.channels = []) → ∀ dss, readFile toNs nan file ≠ .ok dss) ∧
    ((∃ p ∈ file, ∃ c ∈ p.2.channels, c.2.tx = none ∨ c.2.rx = none ∨ c.2.time = none ∨ c.2.frequency = none ∨
      c.2.polarization = none) → ∀ dss, readFile toNs nan file ≠ .ok dss) := by
  refine ⟨?_, ?_, ?_⟩
  · rintro rfl
    rfl
  · rintro ⟨p, hp, hnil⟩ dss h
    obtain ⟨_, hlen, hall⟩ := C64_structure toNs nan file dss h
    obtain ⟨i, hi⟩ := List.mem_iff_getElem?.mp hp
    obtain ⟨hi1, _⟩ := List.getElem?_eq_some_iff.mp hi
    exact (hall i p.1 p.2 _ hi (List.getElem?_eq_getElem (by omega))).2.1 hnil
  · rintro ⟨p, hp, c, hc, hn⟩ dss h
    obtain ⟨_, hlen, hall⟩ := C64_structure toNs nan file dss h
    obtain ⟨i, hi⟩ := List.mem_iff_getElem?.mp hp
    obtain ⟨hi1, _⟩ := List.getElem?_eq_some_iff.mp hi
    obtain ⟨j, hj⟩ := List.mem_iff_getElem?.mp hc
    obtain ⟨_, _, _, _, _, _, _, h1, h2, h3, h4, h5, _⟩ :=
      (hall i p.1 p.2 _ hi (List.getElem?_eq_getElem (by omega))).2.2.2.2.2.2 j c.1 c.2 hj
    rcases hn with hn | hn | hn | hn | hn
    · rw [hn] at h1; cases h1
    · rw [hn] at h2; cases h2
    · rw [hn] at h3; cases h3
    · rw [hn] at h4; cases h4
    · rw [hn] at h5; cases h5

/-- **C64** What a defective first channel raises: `KeyError` if a dataset, or an attribute of the channel or its CML, is missing;
`ValueError` if all are there but the levels are not as long as the times. -/
theorem C64_first_channel (toNs : T → Int) (nan : V) (file : List (String × Cml ℝ V A T)) (key name : String) (g : Cml ℝ V A T)
    (ch : Channel ℝ V A T) (chs : List (String × Channel ℝ V A T)) (hch : g.channels = (name, ch) :: chs) :
    ((ch.tx = none ∨ ch.rx = none ∨ ch.time = none ∨ ch.frequency = none ∨ ch.polarization = none ∨ g.cmlId = none ∨
      g.siteALatitude = none ∨ g.siteBLatitude = none ∨ g.siteALongitude = none ∨ g.siteBLongitude = none) →
      readFile toNs nan ((key, g) :: file) = .error .keyError) ∧
    (∀ tx rx time, ch.tx = some tx → ch.rx = some rx → ch.time = some time → ch.frequency ≠ none → ch.polarization ≠ none →
      g.cmlId ≠ none → g.siteALatitude ≠ none → g.siteBLatitude ≠ none → g.siteALongitude ≠ none → g.siteBLongitude ≠ none →
      (tx.length ≠ time.length ∨ rx.length ≠ time.length) → readFile toNs nan ((key, g) :: file) = .error .valueError) := by
  classical
  have key' : ∀ e, channelDs Haversine.haversine (fun f => f / 1000000000) toNs g name ch = .error e →
      readFile toNs nan ((key, g) :: file) = .error e := by
    intro e he
    unfold readFile readWith
    dsimp only
    rw [List.mapM_cons]
    unfold cmlDs
    dsimp only
    rw [hch, List.mapM_cons, he]
    rfl
  refine ⟨?_, ?_⟩
  · intro h
    refine key' _ ?_
    obtain ⟨tx, rx, time, fr, po⟩ := ch
    obtain ⟨c1, c2, c3, c4, c5, c6⟩ := g
    dsimp only at h
    unfold channelDs
    cases tx <;> [rfl; skip]
    cases rx <;> [rfl; skip]
    cases time <;> [rfl; skip]
    cases c1 <;> [rfl; skip]
    cases c2 <;> [rfl; skip]
    cases c3 <;> [rfl; skip]
    cases c4 <;> [rfl; skip]
    cases c5 <;> [rfl; skip]
    cases fr <;> [rfl; skip]
    cases po <;> [rfl; skip]
    simp at h
  · intro tx rx time h1 h2 h3 h4 h5 h6 h7 h8 h9 h10 hlen
    refine key' _ ?_
    obtain ⟨fr, h4⟩ := Option.ne_none_iff_exists'.mp h4
    obtain ⟨po, h5⟩ := Option.ne_none_iff_exists'.mp h5
    obtain ⟨x6, h6⟩ := Option.ne_none_iff_exists'.mp h6
    obtain ⟨x7, h7⟩ := Option.ne_none_iff_exists'.mp h7
    obtain ⟨x8, h8⟩ := Option.ne_none_iff_exists'.mp h8
    obtain ⟨x9, h9⟩ := Option.ne_none_iff_exists'.mp h9
    obtain ⟨x10, h10⟩ := Option.ne_none_iff_exists'.mp h10
    unfold channelDs
    rw [h1, h2, h3, h4, h5, h6, h7, h8, h9, h10]
    show (if _ then _ else _) = _
    rw [if_neg (by rintro ⟨a, b⟩; rcases hlen with h | h <;> exact h (by assumption))]

/-- a channel without time stamps -/
example : readFile (V := ℝ) (A := String) (T := ℝ) (fun _ => 0) 0
    [("cml_0", ⟨some "id", some 48, some 49, some 11, some 11,
      [("channel_1", ⟨some [1], some [-40], none, some 23000000000, some "V"⟩)]⟩)] = .error .keyError :=
  (C64_first_channel _ _ [] "cml_0" "channel_1" _ _ [] rfl).1 (by simp)

/-- **C64** Complete files are read: all attributes and members present, arrays of equal length, at least one channel per CML, and
within each CML either one common time axis or increasing ones. -/
theorem C64_reads (toNs : T → Int) (nan : V) (file : List (String × Cml ℝ V A T)) (hne : file ≠ [])
    (h : ∀ p ∈ file, p.2.channels ≠ [] ∧ p.2.cmlId ≠ none ∧ p.2.siteALatitude ≠ none ∧ p.2.siteBLatitude ≠ none ∧
      p.2.siteALongitude ≠ none ∧ p.2.siteBLongitude ≠ none ∧
      (∀ c ∈ p.2.channels, ∃ tx rx time freq pol, c.2 = ⟨some tx, some rx, some time, some freq, some pol⟩ ∧
        tx.length = time.length ∧ rx.length = time.length ∧ (time.map toNs).Pairwise (· < ·))) :
    ∃ dss, readFile toNs nan file = .ok dss := by
  classical
  have hcml : ∀ p ∈ file, ∃ ds, cmlDs Haversine.haversine (fun f => f / 1000000000) toNs nan p.2 = .ok ds := by
    intro p hp
    obtain ⟨h1, h2, h3, h4, h5, h6, h7⟩ := h p hp
    obtain ⟨cid, h2⟩ := Option.ne_none_iff_exists'.mp h2
    obtain ⟨alat, h3⟩ := Option.ne_none_iff_exists'.mp h3
    obtain ⟨blat, h4⟩ := Option.ne_none_iff_exists'.mp h4
    obtain ⟨alon, h5⟩ := Option.ne_none_iff_exists'.mp h5
    obtain ⟨blon, h6⟩ := Option.ne_none_iff_exists'.mp h6
    have hone : ∀ c ∈ p.2.channels, ∃ d, channelDs Haversine.haversine (fun f => f / 1000000000) toNs p.2 c.1 c.2 = .ok d ∧
        d.time.Pairwise (· < ·) := by
      intro c hc
      obtain ⟨tx, rx, time, freq, pol, he, hl1, hl2, hpw⟩ := h7 c hc
      refine ⟨⟨tx, rx, time.map toNs, c.1, cid, alat, blat, alon, blon, freq / 1000000000, pol,
        Haversine.haversine alon alat blon blat⟩, ?_, hpw⟩
      · unfold channelDs
        rw [he, h2, h3, h4, h5, h6]
        show (if tx.length = time.length ∧ rx.length = time.length then _ else _) = _
        rw [if_pos ⟨hl1, hl2⟩]
    obtain ⟨dss, hm, hpw⟩ := mapM_exists _ (fun d : ChannelDs ℝ V A => d.time.Pairwise (· < ·)) _ hone
    have hjoin : ∃ axis, joinTimes (dss.map (·.time)) = .ok axis := by
      cases hc : dss.map (·.time) with
      | nil =>
        rw [List.map_eq_nil_iff] at hc
        rw [hc] at hm
        exact absurd (List.length_eq_zero_iff.mp ((mapM_ok_iff _ _ _).mp hm).1) h1
      | cons ax rest =>
        unfold joinTimes
        dsimp only
        split_ifs with g1 g2
        · exact ⟨_, rfl⟩
        · exact ⟨_, rfl⟩
        · exfalso
          apply g2
          rw [List.all_eq_true]
          intro a ha
          rw [← hc] at ha
          obtain ⟨d, hd, rfl⟩ := List.mem_map.mp ha
          simpa using hpw d hd
    obtain ⟨axis, hax⟩ := hjoin
    unfold cmlDs
    rw [hm]
    show ∃ ds, Reader.concat nan dss = .ok ds
    unfold Reader.concat
    rw [hax]
    exact ⟨_, rfl⟩
  obtain ⟨dss, hm, _⟩ := mapM_exists (fun p : String × Cml ℝ V A T =>
    cmlDs Haversine.haversine (fun f => f / 1000000000) toNs nan p.2) (fun _ => True) file (by
      intro p hp
      obtain ⟨ds, hds⟩ := hcml p hp
      exact ⟨ds, hds, trivial⟩)
  refine ⟨dss, ?_⟩
  unfold readFile readWith
  cases file with
  | nil => exact absurd rfl hne
  | cons p file =>
    dsimp only
    convert hm

/-! ## Examples -/

section examples

/-- two channels with different time axes -/
def exCml : Cml Int Int String Int where
  cmlId := some "cml"
  siteALatitude := some 1
  siteBLatitude := some 2
  siteALongitude := some 3
  siteBLongitude := some 4
  channels := [("channel_1", ⟨some [10, 11], some [20, 21], some [0, 60], some 18, some "v"⟩),
               ("channel_2", ⟨some [12, 13], some [22, 23], some [60, 120], some 19, some "v"⟩)]

example : ((readWith (fun a b c d => a + b + c + d) id (· * 1000) (-99) [("a", exCml)]).map fun dss =>
    dss.map fun ds => (ds.time, ds.tsl, ds.frequency)) =
    .ok [([0, 60000, 120000], [[10, 11, -99], [-99, 12, 13]], .perChannel [18, 19])] := by decide +kernel

example : ((readWith (fun a b c d => a + b + c + d) id (· * 1000) (-99) [("a", exCml)]).map fun dss =>
    dss.map fun ds => (ds.length, ds.polarization, ds.channelId)) =
    .ok [(.scalar 10, .scalar "v", ["channel_1", "channel_2"])] := by decide +kernel

end examples

end Verif.Props
