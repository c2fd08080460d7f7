import Verif.Props.ModelCache

/-!
# Properties C59, C60: tensorflow cache and source dispatch
-/

namespace Verif.ModelCache

variable {C : Type}

theorem startsWith_iff (s p : String) : startsWith s p = true ↔ ∃ t, s = p ++ t := by
  unfold startsWith
  rw [List.isPrefixOf_iff_prefix]
  constructor
  · rintro ⟨l, hl⟩
    refine ⟨String.ofList l, ?_⟩
    apply String.toList_inj.mp
    rw [String.toList_append, String.toList_ofList, hl]
  · rintro ⟨t, rfl⟩
    exact ⟨t.toList, by rw [String.toList_append]⟩

theorem endsWith_iff (s p : String) : endsWith s p = true ↔ ∃ t, s = t ++ p := by
  unfold endsWith
  rw [List.isSuffixOf_iff_suffix]
  constructor
  · rintro ⟨l, hl⟩
    refine ⟨String.ofList l, ?_⟩
    apply String.toList_inj.mp
    rw [String.toList_append, String.toList_ofList, hl]
  · rintro ⟨t, rfl⟩
    exact ⟨t.toList, by rw [String.toList_append]⟩

theorem lastComponent_append (pre name : String) (h : '/' ∉ name.toList) :
    lastComponent (pre ++ "/" ++ name) = name := by
  unfold lastComponent
  apply String.toList_inj.mp
  rw [String.toList_ofList, String.toList_append, String.toList_append, List.reverse_append,
    List.reverse_append]
  have hs : "/".toList.reverse = ['/'] := rfl
  rw [hs, List.takeWhile_append_of_pos]
  · simp
  · intro c hc
    rw [List.mem_reverse] at hc
    simp only [ne_eq, decide_not, Bool.not_eq_true', decide_eq_false_iff_not]
    rintro rfl
    exact h hc

theorem lastComponent_noslash (name : String) (h : '/' ∉ name.toList) : lastComponent name = name := by
  unfold lastComponent
  apply String.toList_inj.mp
  have hall : ∀ c ∈ name.toList.reverse, decide (c ≠ '/') = true := by
    intro c hc
    rw [List.mem_reverse] at hc
    simp only [ne_eq, decide_not, Bool.not_eq_true', decide_eq_false_iff_not]
    rintro rfl
    exact h hc
  have := List.takeWhile_append_of_pos (l₂ := []) hall
  rw [List.append_nil, List.takeWhile_nil, List.append_nil] at this
  rw [String.toList_ofList, this, List.reverse_reverse]

theorem slash_notMem_takeWhile (l : List Char) : '/' ∉ l.takeWhile (fun c => decide (c ≠ '/')) := by
  induction l with
  | nil => simp
  | cons a l ih =>
    by_cases ha : a = '/'
    · simp [ha]
    · rw [List.takeWhile_cons_of_pos (by simpa using ha)]
      intro h
      rcases List.mem_cons.mp h with h | h
      · exact ha h.symm
      · exact ih h

theorem tf_cached (st : Store C) (url : String) (net : String → Fetch C)
    (h : isDirName (lastComponent url) = true ∨ content st (lastComponent url) ≠ none) :
    downloadAndCache st url false net = ⟨some (mkdir st), .ok (lastComponent url), []⟩ := by
  unfold downloadAndCache
  dsimp only
  rw [if_neg]
  rw [content_mkdir]
  rcases h with h | h
  · simp [h]
  · obtain ⟨c, hc⟩ := Option.ne_none_iff_exists'.mp h
    simp [hc]

theorem tf_fetch (st : Store C) (url : String) (force : Bool) (net : String → Fetch C)
    (hd : isDirName (lastComponent url) = false)
    (hf : content st (lastComponent url) = none ∨ force = true) :
    downloadAndCache st url force net =
      match net url with
      | .refused => ⟨some (mkdir st), .error .osError, [url]⟩
      | .broken c => ⟨some (write (mkdir st) (lastComponent url) c), .error .osError, [url]⟩
      | .complete c => ⟨some (write (mkdir st) (lastComponent url) c), .ok (lastComponent url), [url]⟩ := by
  unfold downloadAndCache
  dsimp only
  rw [if_pos, hd]
  · cases net url <;> rfl
  · rw [content_mkdir, hd]
    rcases hf with h | h <;> simp [h]

/-- a call changes only the file named by the last component of its URL -/
theorem tf_content (st : Store C) (url : String) (force : Bool) (net : String → Fetch C) (name : String)
    (h : lastComponent url ≠ name ∨ (downloadAndCache st url force net).retrieved = []) :
    content (downloadAndCache st url force net).store name = content st name := by
  by_cases hd : isDirName (lastComponent url) = true
  · unfold downloadAndCache
    dsimp only
    split_ifs <;> exact content_mkdir st name
  · rw [Bool.not_eq_true] at hd
    by_cases hf : content st (lastComponent url) = none ∨ force = true
    · rw [tf_fetch st url force net hd hf] at h ⊢
      cases hn : net url with
      | refused => exact content_mkdir st name
      | broken c =>
        rw [hn] at h
        have h' := h.resolve_right (by simp)
        exact (write_ne _ _ (Ne.symm h')).trans (content_mkdir st name)
      | complete c =>
        rw [hn] at h
        have h' := h.resolve_right (by simp)
        exact (write_ne _ _ (Ne.symm h')).trans (content_mkdir st name)
    · push Not at hf
      have hf2 : force = false := by simpa using hf.2
      subst hf2
      rw [tf_cached st url net (Or.inr hf.1)]
      exact content_mkdir st name

end Verif.ModelCache

namespace Verif.Props
open Verif Verif.ModelCache

variable {C : Type}

/-- **C59** The cache is keyed by what follows the last slash of the URL, however the URLs differ before it:
after `url` was downloaded, an unforced call for any `url'` with the same last part returns the same file, with
the content served for `url`, and does not contact the server. -/
theorem C59_shared_entry (st : Store C) (pre pre' name : String) (hname : '/' ∉ name.toList)
    (hreg : name ≠ "" ∧ name ≠ "." ∧ name ≠ "..") (force : Bool) (net net' : String → Fetch C) (c : C)
    (hcontact : (downloadAndCache st (pre ++ "/" ++ name) force net).retrieved ≠ [])
    (hserved : net (pre ++ "/" ++ name) = .complete c) :
    ∃ files : Files C,
      downloadAndCache st (pre ++ "/" ++ name) force net =
        ⟨some files, .ok name, [pre ++ "/" ++ name]⟩ ∧
      downloadAndCache (some files) (pre' ++ "/" ++ name) false net' = ⟨some files, .ok name, []⟩ ∧
      files name = some c := by
  have hl := lastComponent_append pre name hname
  have hl' := lastComponent_append pre' name hname
  have hd : isDirName name = false := by
    unfold isDirName
    simp [hreg.1, hreg.2.1, hreg.2.2]
  have hf : content st (lastComponent (pre ++ "/" ++ name)) = none ∨ force = true := by
    by_contra hf
    push Not at hf
    have hf2 : force = false := by simpa using hf.2
    subst hf2
    rw [tf_cached st _ net (Or.inr hf.1)] at hcontact
    exact hcontact rfl
  refine ⟨write (mkdir st) name c, ?_, ?_, write_self _ _ _⟩
  · rw [tf_fetch st _ force net (by rw [hl]; exact hd) hf, hserved, hl]
  · rw [tf_cached _ _ net', hl']
    · rfl
    · right
      rw [hl']
      show write _ _ _ _ ≠ none
      rw [write_self]
      simp

/-- **C59** URLs with different last parts do not interfere: over any sequence of calls for other names, and of
calls that do not contact the server, the file `name` keeps its content. -/
theorem C59_independent (st : Store C) (calls : List (String × Bool × (String → Fetch C))) (name : String)
    (h : ∀ a ∈ (runTf st calls).2, ∀ url ∈ a.retrieved, lastComponent url ≠ name) :
    ((runTf st calls).1.bind fun files => files name) = st.bind fun files => files name := by
  induction calls generalizing st with
  | nil => rfl
  | cons call calls ih =>
    obtain ⟨url, force, net⟩ := call
    unfold runTf at h ⊢
    dsimp only at h ⊢
    rw [ih _ fun a ha => h a (List.mem_cons_of_mem _ ha)]
    apply tf_content
    by_cases hr : (downloadAndCache st url force net).retrieved = []
    · exact Or.inr hr
    · left
      have hmem : url ∈ (downloadAndCache st url force net).retrieved := by
        unfold downloadAndCache at hr ⊢
        dsimp only at hr ⊢
        split_ifs at hr ⊢
        · exact List.mem_singleton.mpr rfl
        · cases net url <;> exact List.mem_singleton.mpr rfl
        · exact absurd rfl hr
      exact h _ (List.mem_cons_self ..) url hmem

/-- **C59** The last part of a URL: the part after its last slash. -/
theorem C59_key (url name : String) :
    lastComponent url = name ↔
      '/' ∉ name.toList ∧ (url = name ∨ ∃ pre, url = pre ++ "/" ++ name) := by
  constructor
  · rintro rfl
    constructor
    · unfold lastComponent
      rw [String.toList_ofList, List.mem_reverse]
      exact slash_notMem_takeWhile _
    · by_cases hs : '/' ∈ url.toList
      · right
        have hrev : '/' ∈ url.toList.reverse := List.mem_reverse.mpr hs
        have hsplit : url.toList.reverse =
            url.toList.reverse.takeWhile (fun c => decide (c ≠ '/')) ++
              url.toList.reverse.dropWhile (fun c => decide (c ≠ '/')) :=
          (List.takeWhile_append_dropWhile).symm
        cases hd : url.toList.reverse.dropWhile (fun c => decide (c ≠ '/')) with
        | nil =>
          rw [hd, List.append_nil] at hsplit
          rw [hsplit] at hrev
          exact absurd hrev (slash_notMem_takeWhile _)
        | cons x rest =>
          have hx : x = '/' := by
            have := List.head_dropWhile_not (l := url.toList.reverse) (fun c : Char => decide (c ≠ '/'))
              (by rw [hd]; simp)
            simp only [hd, List.head_cons] at this
            simpa using this
          subst hx
          refine ⟨String.ofList rest.reverse, ?_⟩
          apply String.toList_inj.mp
          rw [String.toList_append, String.toList_append]
          unfold lastComponent
          simp only [String.toList_ofList]
          rw [hd] at hsplit
          have := congrArg List.reverse hsplit
          rw [List.reverse_reverse, List.reverse_append, List.reverse_cons] at this
          exact this
      · left
        exact (lastComponent_noslash url hs).symm
  · rintro ⟨h1, rfl | ⟨pre, rfl⟩⟩
    · exact lastComponent_noslash _ h1
    · exact lastComponent_append pre name h1

/-- **C59** If architecture and weights are given by URLs with equal last parts, both resolve to the same
file, which holds the architecture (unforced; no file of that name before). -/
theorem C59_same_name_collision (st : Store C) (pre pre' name : String) (hname : '/' ∉ name.toList)
    (hreg : name ≠ "" ∧ name ≠ "." ∧ name ≠ "..") (net : String → Fetch C) (c : C)
    (hst : (st.bind fun files => files name) = none)
    (hurl : ∃ t, pre ++ "/" ++ name = "http://" ++ t ∨ pre ++ "/" ++ name = "https://" ++ t)
    (hurl' : ∃ t, pre' ++ "/" ++ name = "http://" ++ t ∨ pre' ++ "/" ++ name = "https://" ++ t)
    (hserved : net (pre ++ "/" ++ name) = .complete c) :
    ∃ files : Files C,
      resolveModelPaths st (pre ++ "/" ++ name) (pre' ++ "/" ++ name) false net =
        (some files, .ok (.cache name, .cache name), [pre ++ "/" ++ name]) ∧
      files name = some c := by
  have isurl : ∀ s : String, (∃ t, s = "http://" ++ t ∨ s = "https://" ++ t) → isUrl s = true := by
    rintro s ⟨t, rfl | rfl⟩ <;> simp [isUrl, startsWith, String.toList_append]
  have hu := isurl _ hurl
  have hu' := isurl _ hurl'
  have hl := lastComponent_append pre name hname
  have hd : isDirName name = false := by
    unfold isDirName
    simp [hreg.1, hreg.2.1, hreg.2.2]
  have hcs : content (some (mkdir st)) name = none := (content_mkdir st name).trans hst
  have hcontact : (downloadAndCache (some (mkdir st)) (pre ++ "/" ++ name) false net).retrieved ≠ [] := by
    rw [tf_fetch _ _ false net (by rw [hl]; exact hd) (Or.inl (by rw [hl]; exact hcs)), hserved]
    simp
  obtain ⟨files, h1, h2, h3⟩ := C59_shared_entry (some (mkdir st)) pre pre' name hname hreg false net net c
    hcontact hserved
  refine ⟨files, ?_, h3⟩
  have e1 : resolveOne (some (mkdir st)) (pre ++ "/" ++ name) false net =
      (some files, .ok (.cache name), [pre ++ "/" ++ name]) := by
    unfold resolveOne
    rw [if_pos hu]
    dsimp only
    rw [h1]
    rfl
  have e2 : resolveOne (some files) (pre' ++ "/" ++ name) false net = (some files, .ok (.cache name), []) := by
    unfold resolveOne
    rw [if_pos hu']
    dsimp only
    rw [h2]
    rfl
  unfold resolveModelPaths
  dsimp only
  rw [e1]
  dsimp only
  rw [e2]
  rfl

/-- **C59** For a URL that ends in a slash the cache directory itself is returned, nothing is downloaded. -/
theorem C59_trailing_slash (st : Store C) (pre : String) (net : String → Fetch C) :
    (downloadAndCache st (pre ++ "/") false net).result = .ok "" ∧
    (downloadAndCache st (pre ++ "/") false net).retrieved = [] := by
  have hl : lastComponent (pre ++ "/") = "" := by
    have := lastComponent_append pre "" (by simp)
    rwa [String.append_empty] at this
  rw [tf_cached st _ net (Or.inl (by rw [hl]; rfl)), hl]
  exact ⟨rfl, rfl⟩

/-- **C59** Likewise for URLs whose last part is one or two dots, which denote directories; if the download is forced, retrieving to
a directory raises `OSError` after the server was contacted. -/
theorem C59_directory (st : Store C) (pre name : String) (hname : name = "" ∨ name = "." ∨ name = "..") (net : String → Fetch C) :
    (downloadAndCache st (pre ++ "/" ++ name) false net).result = .ok name ∧
    (downloadAndCache st (pre ++ "/" ++ name) false net).retrieved = [] ∧
    (downloadAndCache st (pre ++ "/" ++ name) true net).result = .error .osError ∧
    (downloadAndCache st (pre ++ "/" ++ name) true net).retrieved = [pre ++ "/" ++ name] := by
  have hs : '/' ∉ name.toList := by rcases hname with rfl | rfl | rfl <;> simp
  have hd : isDirName name = true := by rcases hname with rfl | rfl | rfl <;> rfl
  have hl := lastComponent_append pre name hs
  refine ⟨?_, ?_, ?_, ?_⟩ <;> simp only [downloadAndCache, hl, hd] <;> simp

/-- the model directory of a site -/
example (st : Store C) (net : String → Fetch C) :
    (downloadAndCache st ("https://h/models" ++ "/" ++ "..") true net).result = .error .osError :=
  (C59_directory st "https://h/models" ".." (by simp) net).2.2.1

/-- **C60** `get_model`: strings starting with `http://` or `https://` are URLs (the local disk does not matter
and only this URL may be contacted); of the others, those that end in `.pt` or contain a slash are local paths
(nothing is contacted, the cache is untouched); all others raise. -/
theorem C60_get_model {M : Type} (md5 : String → String) (jitLoad : C → Option M) (disk : Files C)
    (st : Store C) (src : String) (force : Bool) (net : String → Fetch C) :
    ((∃ t, src = "http://" ++ t ∨ src = "https://" ++ t) →
      (∀ disk', getModel md5 jitLoad disk st src force net = getModel md5 jitLoad disk' st src force net) ∧
      (∀ u ∈ (getModel md5 jitLoad disk st src force net).2.2, u = src) ∧
      (∀ c m, net src = .complete c → jitLoad c = some m → (st = none ∨ force = true) →
        (getModel md5 jitLoad disk st src force net).2 = (.ok m, [src]))) ∧
    ((¬ ∃ t, src = "http://" ++ t ∨ src = "https://" ++ t) →
      ((∃ t, src = t ++ ".pt") ∨ '/' ∈ src.toList) →
      (getModel md5 jitLoad disk st src force net).1 = st ∧
      (getModel md5 jitLoad disk st src force net).2.2 = [] ∧
      (∀ c m, disk src = some c → jitLoad c = some m →
        (getModel md5 jitLoad disk st src force net).2.1 = .ok m) ∧
      ((disk src = none ∨ ∃ c, disk src = some c ∧ jitLoad c = none) →
        (getModel md5 jitLoad disk st src force net).2.1 = .error .runtimeError)) ∧
    ((¬ ∃ t, src = t ++ ".pt") → '/' ∉ src.toList →
      getModel md5 jitLoad disk st src force net = (st, .error .exception, [])) := by
  have hurl : (startsWith src "http://" || startsWith src "https://") = true ↔
      ∃ t, src = "http://" ++ t ∨ src = "https://" ++ t := by
    rw [Bool.or_eq_true, startsWith_iff, startsWith_iff]
    constructor
    · rintro (⟨t, h⟩ | ⟨t, h⟩)
      · exact ⟨t, Or.inl h⟩
      · exact ⟨t, Or.inr h⟩
    · rintro ⟨t, h | h⟩
      · exact Or.inl ⟨t, h⟩
      · exact Or.inr ⟨t, h⟩
  have hpath : (endsWith src ".pt" || src.toList.contains '/') = true ↔
      (∃ t, src = t ++ ".pt") ∨ '/' ∈ src.toList := by
    rw [Bool.or_eq_true, endsWith_iff, List.contains_iff_mem]
  refine ⟨?_, ?_, ?_⟩
  · intro h
    rw [← hurl] at h
    refine ⟨?_, ?_, ?_⟩
    · intro disk'
      unfold getModel
      rw [if_pos h, if_pos h]
    · intro u hu
      unfold getModel at hu
      rw [if_pos h] at hu
      dsimp only at hu
      have hret : ∀ u ∈ (downloadAndCacheModel md5 st src force net).retrieved, u = src := by
        intro u hu
        unfold downloadAndCacheModel at hu
        dsimp only at hu
        split_ifs at hu
        · split at hu <;> exact List.mem_singleton.mp hu
        · cases hu
      split at hu <;> exact hret u hu
    · intro c m hc hm hneed
      unfold getModel
      rw [if_pos h]
      dsimp only
      have hf : content st (fileName md5 src) = none ∨ force = true := by
        rcases hneed with rfl | h
        · exact Or.inl rfl
        · exact Or.inr h
      rw [dl_complete md5 st src force net c hf hc]
      dsimp only
      unfold loadModel
      rw [Option.bind_some, write_self, Option.bind_some, hm]
  · intro h1 h2
    rw [← hurl] at h1
    rw [← hpath] at h2
    unfold getModel
    rw [if_neg h1, if_pos h2]
    refine ⟨rfl, rfl, ?_, ?_⟩
    · intro c m hc hm
      dsimp only
      unfold loadModel
      rw [hc, Option.bind_some, hm]
    · intro h
      dsimp only
      unfold loadModel
      rcases h with h | ⟨c, h, hl⟩
      · rw [h]
        rfl
      · rw [h, Option.bind_some, hl]
  · intro h1 h2
    have hnp : ¬ (endsWith src ".pt" || src.toList.contains '/') = true := by
      rw [hpath]
      push Not
      exact ⟨by simpa using h1, h2⟩
    have hnu : ¬ (startsWith src "http://" || startsWith src "https://") = true := by
      rw [hurl]
      rintro ⟨t, rfl | rfl⟩
      · exact h2 (by rw [String.toList_append]; simp)
      · exact h2 (by rw [String.toList_append]; simp)
    unfold getModel
    rw [if_neg hnu, if_neg hnp]
    split_ifs <;> rfl

/-- **C60** `resolve_model_paths` contacts servers only for sources that start with `http://` or `https://`;
other sources are returned as given. -/
theorem C60_resolve (st : Store C) (json weights : String) (force : Bool) (net : String → Fetch C) :
    (∀ u ∈ (resolveModelPaths st json weights force net).2.2,
      (u = json ∨ u = weights) ∧ ∃ t, u = "http://" ++ t ∨ u = "https://" ++ t) ∧
    ((¬ ∃ t, json = "http://" ++ t ∨ json = "https://" ++ t) →
      (¬ ∃ t, weights = "http://" ++ t ∨ weights = "https://" ++ t) →
      (resolveModelPaths st json weights force net).2 = (.ok (.given json, .given weights), [])) ∧
    (∀ j w, (resolveModelPaths st json weights force net).2.1 = .ok (j, w) →
      ((∃ n, j = .cache n) ↔ ∃ t, json = "http://" ++ t ∨ json = "https://" ++ t) ∧
      ((∃ n, w = .cache n) ↔ ∃ t, weights = "http://" ++ t ∨ weights = "https://" ++ t)) := by
  have hurl : ∀ src, isUrl src = true ↔ ∃ t, src = "http://" ++ t ∨ src = "https://" ++ t := by
    intro src
    unfold isUrl
    rw [Bool.or_eq_true, startsWith_iff, startsWith_iff]
    constructor
    · rintro (⟨t, h⟩ | ⟨t, h⟩)
      · exact ⟨t, Or.inl h⟩
      · exact ⟨t, Or.inr h⟩
    · rintro ⟨t, h | h⟩
      · exact Or.inl ⟨t, h⟩
      · exact Or.inr ⟨t, h⟩
  have hret : ∀ (st : Store C) (src : String), ∀ u ∈ (resolveOne st src force net).2.2,
      u = src ∧ isUrl src = true := by
    intro st src u hu
    unfold resolveOne at hu
    split_ifs at hu with h
    · refine ⟨?_, h⟩
      dsimp only at hu
      unfold downloadAndCache at hu
      dsimp only at hu
      split_ifs at hu
      · exact List.mem_singleton.mp hu
      · split at hu <;> exact List.mem_singleton.mp hu
      · cases hu
    · cases hu
  have hres : ∀ (st : Store C) (src : String) (r : Resolved), (resolveOne st src force net).2.1 = .ok r →
      ((∃ n, r = .cache n) ↔ isUrl src = true) := by
    intro st src r hr
    unfold resolveOne at hr
    split_ifs at hr with h
    · dsimp only at hr
      cases hres : (downloadAndCache st src force net).result with
      | error e => rw [hres] at hr; cases hr
      | ok n =>
        rw [hres] at hr
        injection hr with hr
        exact ⟨fun _ => h, fun _ => ⟨n, hr.symm⟩⟩
    · injection hr with hr
      constructor
      · rintro ⟨n, hn⟩
        rw [hn] at hr
        cases hr
      · intro h'
        exact absurd h' h
  refine ⟨?_, ?_, ?_⟩
  · intro u hu
    unfold resolveModelPaths at hu
    dsimp only at hu
    split at hu
    · rename_i st1 e l h1
      have := hret (some (mkdir st)) json u (by rw [h1]; exact hu)
      rw [this.1]
      exact ⟨Or.inl rfl, (hurl _).mp this.2⟩
    · rename_i st1 j l1 h1
      split at hu
      · rename_i st2 e l2 h2
        rcases List.mem_append.mp hu with hu | hu
        · have := hret (some (mkdir st)) json u (by rw [h1]; exact hu)
          rw [this.1]
          exact ⟨Or.inl rfl, (hurl _).mp this.2⟩
        · have := hret st1 weights u (by rw [h2]; exact hu)
          rw [this.1]
          exact ⟨Or.inr rfl, (hurl _).mp this.2⟩
      · rename_i st2 w l2 h2
        rcases List.mem_append.mp hu with hu | hu
        · have := hret (some (mkdir st)) json u (by rw [h1]; exact hu)
          rw [this.1]
          exact ⟨Or.inl rfl, (hurl _).mp this.2⟩
        · have := hret st1 weights u (by rw [h2]; exact hu)
          rw [this.1]
          exact ⟨Or.inr rfl, (hurl _).mp this.2⟩
  · intro h1 h2
    rw [← hurl] at h1 h2
    have e : ∀ (st : Store C) (src : String), ¬ isUrl src = true →
        resolveOne st src force net = (st, .ok (.given src), []) := by
      intro st src h
      unfold resolveOne
      rw [if_neg h]
    unfold resolveModelPaths
    dsimp only
    rw [e _ _ h1]
    dsimp only
    rw [e _ _ h2]
    rfl
  · intro j w h
    unfold resolveModelPaths at h
    dsimp only at h
    split at h
    · cases h
    · rename_i st1 j' l1 h1
      split at h
      · cases h
      · rename_i st2 w' l2 h2
        injection h with h
        injection h with hj hw
        subst hj hw
        exact ⟨(hres (some (mkdir st)) json j' (by rw [h1])).trans (hurl _),
          (hres st1 weights w' (by rw [h2])).trans (hurl _)⟩

/-! ## Examples -/

section examples

/-- the server delivers the length of the URL -/
def exNet : String → Fetch Nat := fun u => .complete u.length

example : (getModel (fun u => u) (fun c => some (c + 1)) (fun _ => none) none "https://x.y/m.pt" false
    exNet).2 = (.ok 17, ["https://x.y/m.pt"]) := by decide +kernel

example : (getModel (fun u => u) (fun c => some (c + 1)) (fun n => if n = "a/m" then some 3 else none) none
    "a/m" false exNet).2 = (.ok 4, []) := by decide +kernel

example : (getModel (fun u => u) (fun c => some (c + 1)) (fun _ => none) none "m.pth" false exNet).2 =
    (.error .exception, []) := by decide +kernel

-- a truncated download is reused
example : (downloadAndCacheModel (fun u => u)
    (downloadAndCacheModel (fun u => u) none "u" false (fun _ => Fetch.broken 7)).store "u" false exNet
    |>.retrieved) = [] := by decide +kernel

-- weights and architecture with the same file name
example : (resolveModelPaths none "https://x/a/model" "https://x/b/model" false exNet).2 =
    (.ok (.cache "model", .cache "model"), ["https://x/a/model"]) := by decide +kernel

example : lastComponent "https://x/a/model.h5" = "model.h5" := by decide +kernel

example : (run (fun u => u) (none : Store Nat)
    [.get "u" false exNet, .list, .get "u" false exNet, .clear, .get "u" false exNet]).2.map Out.urls =
    [["u"], [], [], [], ["u"]] := by decide +kernel

end examples

end Verif.Props
