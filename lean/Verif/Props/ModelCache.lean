import Verif.Model.ModelCache
import Mathlib.Data.List.Basic
import Mathlib.Tactic.Common

/-!
# Properties C58, C59, C60: model file caches and source dispatch
-/

namespace Verif.ModelCache

variable {C : Type}

/-- content of a file in a directory that may not exist -/
def content (st : Store C) (name : String) : Option C := st.bind fun files => files name

theorem write_self (files : Files C) (name : String) (c : C) : write files name c name = some c := by
  simp [write]

theorem write_ne (files : Files C) {n name : String} (c : C) (h : n ≠ name) :
    write files name c n = files n := by
  simp [write, h]

theorem content_mkdir (st : Store C) (name : String) : (mkdir st) name = content st name := by
  cases st <;> rfl

theorem fileName_inj {md5 : String → String} {u v : String} (h : fileName md5 u = fileName md5 v) :
    md5 u = md5 v := by
  have := congrArg String.toList h
  unfold fileName at this
  simp only [String.toList_append] at this
  have h1 := List.append_cancel_right this
  have h2 := List.append_cancel_left h1
  exact String.toList_inj.mp h2

/-- a download that succeeds -/
theorem dl_complete (md5 : String → String) (st : Store C) (url : String) (force : Bool)
    (net : String → Fetch C) (c : C) (hf : content st (fileName md5 url) = none ∨ force = true)
    (hn : net url = .complete c) :
    downloadAndCacheModel md5 st url force net =
      ⟨some (write (mkdir st) (fileName md5 url) c), .ok (fileName md5 url), [url]⟩ := by
  unfold downloadAndCacheModel
  dsimp only
  rw [if_pos, hn]
  · rfl
  · rw [content_mkdir]
    rcases hf with h | h <;> simp [h]

theorem dl_broken (md5 : String → String) (st : Store C) (url : String) (force : Bool)
    (net : String → Fetch C) (c : C) (hf : content st (fileName md5 url) = none ∨ force = true)
    (hn : net url = .broken c) :
    downloadAndCacheModel md5 st url force net =
      ⟨some (write (mkdir st) (fileName md5 url) c), .error .osError, [url]⟩ := by
  unfold downloadAndCacheModel
  dsimp only
  rw [if_pos, hn]
  · rfl
  · rw [content_mkdir]
    rcases hf with h | h <;> simp [h]

theorem dl_refused (md5 : String → String) (st : Store C) (url : String) (force : Bool)
    (net : String → Fetch C) (hf : content st (fileName md5 url) = none ∨ force = true)
    (hn : net url = .refused) :
    downloadAndCacheModel md5 st url force net =
      ⟨some (mkdir st), .error .osError, [url]⟩ := by
  unfold downloadAndCacheModel
  dsimp only
  rw [if_pos, hn]
  · rfl
  · rw [content_mkdir]
    rcases hf with h | h <;> simp [h]

theorem dl_cached (md5 : String → String) (st : Store C) (url : String)
    (net : String → Fetch C) (c : C) (hf : content st (fileName md5 url) = some c) :
    downloadAndCacheModel md5 st url false net =
      ⟨some (mkdir st), .ok (fileName md5 url), []⟩ := by
  unfold downloadAndCacheModel
  dsimp only
  rw [if_neg]
  rw [content_mkdir, hf]
  simp

theorem run_cons (md5 : String → String) (st : Store C) (op : Op C) (ops : List (Op C)) :
    run md5 st (op :: ops) = ((run md5 (step md5 st op).1 ops).1,
      (step md5 st op).2 :: (run md5 (step md5 st op).1 ops).2) := rfl

theorem run_append (md5 : String → String) (st : Store C) (h1 h2 : List (Op C)) :
    run md5 st (h1 ++ h2) =
      ((run md5 (run md5 st h1).1 h2).1, (run md5 st h1).2 ++ (run md5 (run md5 st h1).1 h2).2) := by
  induction h1 generalizing st with
  | nil => rfl
  | cons op ops ih =>
    rw [List.cons_append, run_cons, run_cons, ih]
    rfl

/-- the server is contacted if the file is missing or the download is forced -/
theorem need_of_retrieved (md5 : String → String) (st : Store C) (url : String) (force : Bool)
    (net : String → Fetch C) (h : (downloadAndCacheModel md5 st url force net).retrieved = [url]) :
    content st (fileName md5 url) = none ∨ force = true := by
  by_contra hf
  push Not at hf
  obtain ⟨c', hc'⟩ := Option.ne_none_iff_exists'.mp hf.1
  have hf3 : force = false := by simpa using hf.2
  subst hf3
  rw [dl_cached md5 st url net c' hc'] at h
  cases h

/-- the URLs retrieved by a call -/
def Out.urls : Out → List String
  | .path _ l => l
  | _ => []

/-- a call changes the file of `u` only if it retrieves a URL with the same hash, or clears -/
theorem step_content (md5 : String → String) (st : Store C) (op : Op C) (name : String)
    (hclear : op ≠ .clear) (hr : ∀ v ∈ (step md5 st op).2.urls, fileName md5 v ≠ name) :
    content (step md5 st op).1 name = content st name := by
  cases op with
  | clear => exact absurd rfl hclear
  | list => rfl
  | get url force net =>
    unfold step at hr ⊢
    dsimp only [Out.urls] at hr ⊢
    by_cases hf : content st (fileName md5 url) = none ∨ force = true
    · cases hn : net url with
      | refused =>
        rw [dl_refused md5 st url force net hf hn]
        exact content_mkdir st name
      | broken c =>
        rw [dl_broken md5 st url force net c hf hn] at hr ⊢
        have := hr url (by simp)
        show write (mkdir st) (fileName md5 url) c name = _
        rw [write_ne _ _ (Ne.symm this)]
        exact content_mkdir st name
      | complete c =>
        rw [dl_complete md5 st url force net c hf hn] at hr ⊢
        have := hr url (by simp)
        show write (mkdir st) (fileName md5 url) c name = _
        rw [write_ne _ _ (Ne.symm this)]
        exact content_mkdir st name
    · push Not at hf
      obtain ⟨c, hc⟩ := Option.ne_none_iff_exists'.mp hf.1
      have hf2 : force = false := by simpa using hf.2
      subst hf2
      rw [dl_cached md5 st url net c hc]
      exact content_mkdir st name

theorem run_content (md5 : String → String) (st : Store C) (h : List (Op C)) (name : String)
    (hclear : ∀ op ∈ h, op ≠ .clear)
    (hr : ∀ o ∈ (run md5 st h).2, ∀ v ∈ o.urls, fileName md5 v ≠ name) :
    content (run md5 st h).1 name = content st name := by
  induction h generalizing st with
  | nil => rfl
  | cons op ops ih =>
    unfold run at hr ⊢
    dsimp only at hr ⊢
    rw [ih _ (fun o ho => hclear o (List.mem_cons_of_mem _ ho))
      (fun o ho => hr o (List.mem_cons_of_mem _ ho)),
      step_content md5 st op name (hclear op (List.mem_cons_self ..)) (hr _ (List.mem_cons_self ..))]

end Verif.ModelCache

namespace Verif.Props
open Verif Verif.ModelCache

variable {C : Type}

/-- **C58** A cached model is what was served at the last download. Suppose that after any calls `h1` a call
for `url` contacted the server and got all of `c`, and that the calls `h2` after it contain no
`clear_model_cache` and did not contact the server for `url` (nor for another URL of the same hash). Then the
next unforced call returns, without contacting the server, a file with content `c`. -/
theorem C58_last_download (md5 : String → String) (st : Store C) (h1 h2 : List (Op C)) (url : String)
    (force : Bool) (net net' : String → Fetch C) (c : C) (hserved : net url = .complete c)
    (hcontact : ∀ o, (run md5 (run md5 st h1).1 [.get url force net]).2 = [o] → o.urls = [url])
    (hclear : ∀ op ∈ h2, op ≠ .clear)
    (hlater : ∀ o ∈ (run md5 (run md5 st (h1 ++ [.get url force net])).1 h2).2,
      ∀ v ∈ o.urls, md5 v ≠ md5 url) :
    ∃ name, ∃ files : Files C,
      downloadAndCacheModel md5 (run md5 st (h1 ++ [.get url force net] ++ h2)).1 url false net' =
        ⟨some files, .ok name, []⟩ ∧ files name = some c := by
  have hc1 : content (run md5 st (h1 ++ [.get url force net])).1 (fileName md5 url) = some c := by
    rw [run_append]
    dsimp only
    have hcon := hcontact _ rfl
    generalize (run md5 st h1).1 = st1 at hcon
    unfold step at hcon
    dsimp only [Out.urls] at hcon
    show content (downloadAndCacheModel md5 st1 url force net).store (fileName md5 url) = some c
    by_cases hf : content st1 (fileName md5 url) = none ∨ force = true
    · rw [dl_complete md5 st1 url force net c hf hserved]
      exact write_self _ _ _
    · push Not at hf
      obtain ⟨c', hc'⟩ := Option.ne_none_iff_exists'.mp hf.1
      have hf2 : force = false := by simpa using hf.2
      subst hf2
      rw [dl_cached md5 st1 url net c' hc'] at hcon
      cases hcon
  have hc2 : content (run md5 st (h1 ++ [.get url force net] ++ h2)).1 (fileName md5 url) = some c := by
    rw [run_append]
    dsimp only
    rw [run_content md5 _ h2 _ hclear, hc1]
    intro o ho v hv h
    exact hlater o ho v hv (fileName_inj h)
  refine ⟨_, _, dl_cached md5 _ url net' c hc2, ?_⟩
  rw [content_mkdir, hc2]

/-- **C58** The first or a forced call contacts the server once; if it gets everything the returned file holds
it. -/
theorem C58_download (md5 : String → String) (st : Store C) (url : String) (force : Bool)
    (net : String → Fetch C) (c : C)
    (hneed : st = none ∨ force = true) (hserved : net url = .complete c) :
    ∃ name, ∃ files : Files C,
      downloadAndCacheModel md5 st url force net = ⟨some files, .ok name, [url]⟩ ∧
      files name = some c := by
  refine ⟨_, _, dl_complete md5 st url force net c ?_ hserved, write_self _ _ _⟩
  rcases hneed with rfl | h
  · exact Or.inl rfl
  · exact Or.inr h

/-- **C58** Without `clear_model_cache`, forced calls for `url` and refused connections, the server is
contacted at most once for `url`, in any sequence of calls and from any state. -/
theorem C58_once (md5 : String → String) (st : Store C) (h : List (Op C)) (url : String)
    (hclear : ∀ op ∈ h, op ≠ .clear)
    (hforce : ∀ force net, Op.get url force net ∈ h → force = false ∧ net url ≠ .refused) :
    ((run md5 st h).2.flatMap Out.urls).count url ≤ 1 := by
  -- once the file exists the server is not contacted for the URL any more
  have key : ∀ (h : List (Op C)) (st : Store C), (∀ op ∈ h, op ≠ .clear) →
      (∀ force net, Op.get url force net ∈ h → force = false) →
      content st (fileName md5 url) ≠ none →
      ((run md5 st h).2.flatMap Out.urls).count url = 0 := by
    intro h
    induction h with
    | nil => intro st _ _ _; rfl
    | cons op ops ih =>
      intro st hcl hfo hex
      have hkeep : content (step md5 st op).1 (fileName md5 url) ≠ none := by
        cases op with
        | clear => exact absurd rfl (hcl _ (List.mem_cons_self ..))
        | list => exact hex
        | get v force net =>
          show content (downloadAndCacheModel md5 st v force net).store (fileName md5 url) ≠ none
          by_cases hf : content st (fileName md5 v) = none ∨ force = true
          · have hw : ∀ c, write (mkdir st) (fileName md5 v) c (fileName md5 url) ≠ none := by
              intro c
              unfold write
              split_ifs
              · simp
              · rwa [content_mkdir]
            cases hn : net v with
            | refused =>
              rw [dl_refused md5 st v force net hf hn]
              show (mkdir st) _ ≠ none
              rwa [content_mkdir]
            | broken c => rw [dl_broken md5 st v force net c hf hn]; exact hw c
            | complete c => rw [dl_complete md5 st v force net c hf hn]; exact hw c
          · push Not at hf
            obtain ⟨c', hc'⟩ := Option.ne_none_iff_exists'.mp hf.1
            have hf2 : force = false := by simpa using hf.2
            subst hf2
            rw [dl_cached md5 st v net c' hc']
            show (mkdir st) _ ≠ none
            rwa [content_mkdir]
      have h0 : (step md5 st op).2.urls.count url = 0 := by
        cases op with
        | clear => rfl
        | list => rfl
        | get v force net =>
          rw [List.count_eq_zero]
          show url ∉ (downloadAndCacheModel md5 st v force net).retrieved
          intro hmem
          have hv : v = url := by
            unfold downloadAndCacheModel at hmem
            dsimp only at hmem
            split_ifs at hmem with hif
            · split at hmem <;> simpa using (List.mem_singleton.mp hmem).symm
            · cases hmem
          subst hv
          have hf2 := hfo force net (List.mem_cons_self ..)
          subst hf2
          obtain ⟨c', hc'⟩ := Option.ne_none_iff_exists'.mp hex
          rw [dl_cached md5 st v net c' hc'] at hmem
          cases hmem
      unfold run
      dsimp only
      rw [List.flatMap_cons, List.count_append, h0,
        ih _ (fun o ho => hcl o (List.mem_cons_of_mem _ ho))
          (fun f n hm => hfo f n (List.mem_cons_of_mem _ hm)) hkeep]
  induction h generalizing st with
  | nil => simp [run]
  | cons op ops ih =>
    have ihs := ih (step md5 st op).1 (fun o ho => hclear o (List.mem_cons_of_mem _ ho))
      (fun f n hm => hforce f n (List.mem_cons_of_mem _ hm))
    unfold run
    dsimp only
    rw [List.flatMap_cons, List.count_append]
    by_cases hmem : url ∈ (step md5 st op).2.urls
    · -- the server is contacted now: the file exists afterwards
      cases op with
      | clear => cases hmem
      | list => cases hmem
      | get v force net =>
        have hmem' : url ∈ (downloadAndCacheModel md5 st v force net).retrieved := hmem
        have hv : v = url ∧ (downloadAndCacheModel md5 st v force net).retrieved = [v] := by
          unfold downloadAndCacheModel at hmem' ⊢
          dsimp only at hmem' ⊢
          split_ifs at hmem' ⊢ with hif
          · split at hmem' <;> exact ⟨(List.mem_singleton.mp hmem').symm, rfl⟩
          · cases hmem'
        obtain ⟨rfl, hone⟩ := hv
        have hf2 := hforce force net (List.mem_cons_self ..)
        have hc1 : (step md5 st (Op.get v force net)).2.urls.count v = 1 := by
          show (downloadAndCacheModel md5 st v force net).retrieved.count v = 1
          rw [hone]
          simp
        have hex : content (step md5 st (Op.get v force net)).1 (fileName md5 v) ≠ none := by
          show content (downloadAndCacheModel md5 st v force net).store (fileName md5 v) ≠ none
          by_cases hf : content st (fileName md5 v) = none ∨ force = true
          · cases hn : net v with
            | refused => exact absurd hn hf2.2
            | broken c =>
              rw [dl_broken md5 st v force net c hf hn]
              show write _ _ _ _ ≠ none
              rw [write_self]; simp
            | complete c =>
              rw [dl_complete md5 st v force net c hf hn]
              show write _ _ _ _ ≠ none
              rw [write_self]; simp
          · push Not at hf
            obtain ⟨c', hc'⟩ := Option.ne_none_iff_exists'.mp hf.1
            have hf3 : force = false := by simpa using hf.2
            subst hf3
            rw [dl_cached md5 st v net c' hc'] at hone
            cases hone
        rw [hc1, key ops _ (fun o ho => hclear o (List.mem_cons_of_mem _ ho))
          (fun f n hm => (hforce f n (List.mem_cons_of_mem _ hm)).1) hex]
    · rw [List.count_eq_zero.mpr hmem]
      omega

/-- **C58** Calls for URLs with different hashes never return the same file, and a call for one of them does
not change the file of the other. -/
theorem C58_separate (md5 : String → String) (st st' : Store C) (u v : String) (f f' : Bool)
    (net net' : String → Fetch C) (h : md5 u ≠ md5 v) (n n' : String)
    (hu : (downloadAndCacheModel md5 st u f net).result = .ok n)
    (hv : (downloadAndCacheModel md5 st' v f' net').result = .ok n') :
    n ≠ n' ∧ ∀ st : Store C, ((downloadAndCacheModel md5 st v f' net').store.bind fun files => files n) =
      st.bind fun files => files n := by
  have hname : ∀ (st : Store C) (u : String) (f : Bool) (net : String → Fetch C) (n : String),
      (downloadAndCacheModel md5 st u f net).result = .ok n → n = fileName md5 u := by
    intro st u f net n hn
    unfold downloadAndCacheModel at hn
    dsimp only at hn
    split_ifs at hn with hif
    · split at hn
      · cases hn
      · injection hn with hn; exact hn.symm
    · injection hn with hn; exact hn.symm
  have e1 := hname _ _ _ _ _ hu
  have e2 := hname _ _ _ _ _ hv
  constructor
  · rw [e1, e2]
    exact fun h' => h (fileName_inj h')
  · intro st
    have := step_content md5 st (.get v f' net') n (by simp) (by
      intro w hw
      have hw' : w ∈ (downloadAndCacheModel md5 st v f' net').retrieved := hw
      have : w = v := by
        unfold downloadAndCacheModel at hw'
        dsimp only at hw'
        split_ifs at hw' with hif
        · split at hw' <;> exact List.mem_singleton.mp hw'
        · cases hw'
      rw [this, e1]
      exact fun h' => h (fileName_inj h').symm)
    exact this

/-- **C58** After an interrupted download (forced or first) the next unforced call returns the truncated
file without contacting the server. Forcing destroys a complete file that was there before. -/
theorem C58_truncated (md5 : String → String) (st : Store C) (url : String) (force : Bool)
    (net net' : String → Fetch C) (c : C)
    (hcontact : (downloadAndCacheModel md5 st url force net).retrieved = [url])
    (hbroken : net url = .broken c) :
    ∃ e files name, downloadAndCacheModel md5 st url force net = ⟨some files, .error e, [url]⟩ ∧
      (downloadAndCacheModel md5 (some files) url false net').result = .ok name ∧
      (downloadAndCacheModel md5 (some files) url false net').retrieved = [] ∧
      files name = some c := by
  have hf := need_of_retrieved md5 st url force net hcontact
  have hw : content (some (write (mkdir st) (fileName md5 url) c)) (fileName md5 url) = some c :=
    write_self _ _ _
  refine ⟨_, _, fileName md5 url, dl_broken md5 st url force net c hf hbroken, ?_, ?_, write_self _ _ _⟩
  · rw [dl_cached md5 _ url net' c hw]
  · rw [dl_cached md5 _ url net' c hw]

/-- **C58** … and `get_model` then raises on every later unforced call, whatever the server would deliver, as long
as the truncated file cannot be loaded. -/
theorem C58_truncated_get_model {M : Type} (md5 : String → String) (jitLoad : C → Option M)
    (disk : Files C) (st : Store C) (url : String)
    (hurl : ∃ t, url = "http://" ++ t ∨ url = "https://" ++ t) (force : Bool)
    (net : String → Fetch C) (c : C)
    (hcontact : (getModel md5 jitLoad disk st url force net).2.2 = [url])
    (hbroken : net url = .broken c) (hload : jitLoad c = none) (later : List (String → Fetch C)) :
    ∀ r ∈ (later.scanl (fun s net' => getModel md5 jitLoad disk s.1 url false net')
      (getModel md5 jitLoad disk st url force net)), ∃ e, r.2.1 = .error e := by
  have hu : (startsWith url "http://" || startsWith url "https://") = true := by
    obtain ⟨t, rfl | rfl⟩ := hurl <;> simp [startsWith, String.toList_append]
  have hf : content st (fileName md5 url) = none ∨ force = true := by
    apply need_of_retrieved md5 st url force net
    unfold getModel at hcontact
    rw [if_pos hu] at hcontact
    dsimp only at hcontact
    split at hcontact <;> exact hcontact
  have h0 : content (getModel md5 jitLoad disk st url force net).1 (fileName md5 url) = some c ∧
      ∃ e, (getModel md5 jitLoad disk st url force net).2.1 = .error e := by
    unfold getModel
    rw [if_pos hu]
    dsimp only
    rw [dl_broken md5 st url force net c hf hbroken]
    exact ⟨write_self _ _ _, _, rfl⟩
  have hstep : ∀ (s : Store C) (net' : String → Fetch C), content s (fileName md5 url) = some c →
      content (getModel md5 jitLoad disk s url false net').1 (fileName md5 url) = some c ∧
      ∃ e, (getModel md5 jitLoad disk s url false net').2.1 = .error e := by
    intro s net' hs
    unfold getModel
    rw [if_pos hu]
    dsimp only
    rw [dl_cached md5 s url net' c hs]
    dsimp only
    have : (mkdir s) (fileName md5 url) = some c := by rw [content_mkdir, hs]
    refine ⟨this, .runtimeError, ?_⟩
    unfold loadModel
    rw [Option.bind_some, this, Option.bind_some, hload]
  clear hcontact
  generalize getModel md5 jitLoad disk st url force net = r0 at h0
  induction later generalizing r0 with
  | nil =>
    intro r hr
    rw [List.scanl_nil, List.mem_singleton] at hr
    rw [hr]
    exact h0.2
  | cons net' later ih =>
    intro r hr
    rw [List.scanl_cons] at hr
    rcases List.mem_cons.mp hr with rfl | hr
    · exact h0.2
    · exact ih _ (hstep r0.1 net' h0.1) r hr

/-- **C58** `list_cached_models()` never lists anything that was downloaded: in every sequence of calls that
starts without a cache directory it returns the empty list. -/
theorem C58_list_empty (md5 : String → String) (h : List (Op C)) (names : List String)
    (hl : Out.listed names ∈ (run md5 (none : Store C) h).2) : names = [] := by
  have hpt : ∀ u, fileName md5 u ≠ ".pt" := by
    intro u hu
    have := congrArg (fun s => s.toList.head?) hu
    unfold fileName at this
    simp [String.toList_append] at this
  have key : ∀ (h : List (Op C)) (st : Store C), content st ".pt" = none →
      ∀ names, Out.listed names ∈ (run md5 st h).2 → names = [] := by
    intro h
    induction h with
    | nil => intro st _ names hm; cases hm
    | cons op ops ih =>
      intro st hst names hm
      have hnext : content (step md5 st op).1 ".pt" = none := by
        by_cases hc : op = .clear
        · subst hc
          show content (clearModelCache st) ".pt" = none
          cases st <;> rfl
        · rw [step_content md5 st op ".pt" hc (fun v _ => hpt v), hst]
      unfold run at hm
      dsimp only at hm
      rcases List.mem_cons.mp hm with h | h
      · cases op with
        | get u f n => cases h
        | clear => cases h
        | list =>
          injection h with h
          rw [h]
          unfold listCachedModels
          cases st with
          | none => rfl
          | some files =>
            dsimp only
            have : files ".pt" = none := hst
            rw [this]
            rfl
      · exact ih _ hnext names h
  exact key h none rfl names hl

end Verif.Props
