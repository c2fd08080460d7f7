import Verif.Model.LazyTf

/-!
# Properties C90, C91: TensorFlow on demand, the `deprecated` decorator
-/

namespace Verif.Props
open Verif

section
open Verif.LazyTf
variable {M : Type}

theorem getTfRun_cached (m : M) (calls : List (Env M × Bool)) :
    getTfRun (some m) calls = calls.map fun _ => (.ok m, []) := by
  induction calls with
  | nil => rfl
  | cons c calls ih =>
    show _ :: getTfRun (some m) calls = _
    rw [ih]
    rfl

/-- **C90** In a sequence of `get_tf` calls in arbitrary environments pip runs in a call only if the import fails
there with `ImportError`, and the call or the environment variable allows it; it runs once, for the package that
`nvidia-smi` decides. -/
theorem C90_pip (calls : List (Env M × Bool)) (tf : Option M) (k : Nat) (e : Env M) (auto : Bool)
    (hk : calls[k]? = some (e, auto)) (res : Except Err M) (log : List String)
    (hr : (getTfRun tf calls)[k]? = some (res, log)) (hlog : log ≠ []) :
    e.imp = .error .importError ∧ (auto = true ∨ e.allow = some "1") ∧
      (e.nvidiaSmi = true → log = ["tensorflow[and-cuda]"]) ∧ (e.nvidiaSmi = false → log = ["tensorflow"]) := by
  have one : ∀ (tf : Option M) (e : Env M) (auto : Bool), (getTf tf e auto).2.2 ≠ [] →
      e.imp = .error .importError ∧ (auto = true ∨ e.allow = some "1") ∧
      (e.nvidiaSmi = true → (getTf tf e auto).2.2 = ["tensorflow[and-cuda]"]) ∧
      (e.nvidiaSmi = false → (getTf tf e auto).2.2 = ["tensorflow"]) := by
    intro tf e auto h
    cases tf with
    | some m => exact absurd rfl h
    | none =>
      have hlogs : (getTf none e auto).2.2 = (ensureInstalled e auto).2 := by
        unfold getTf
        dsimp only
        cases h1 : (ensureInstalled e auto) with
        | mk r log =>
          cases r with
          | error err => rfl
          | ok m =>
            dsimp only
            cases e.devices m <;> rfl
      rw [hlogs] at h ⊢
      unfold ensureInstalled at h ⊢
      cases himp : e.imp with
      | ok m => rw [himp] at h; exact absurd rfl h
      | error err =>
        rw [himp] at h
        cases err <;> first | exact absurd rfl h | skip
        dsimp only at h ⊢
        by_cases ha : (auto || e.allow == some "1") = true
        · rw [if_pos ha] at h ⊢
          refine ⟨rfl, by simpa using ha, ?_, ?_⟩ <;>
          · intro hs
            rw [hs]
            cases e.pip _ <;> rfl
        · rw [if_neg ha] at h
          exact absurd rfl h
  induction calls generalizing tf k with
  | nil => simp at hk
  | cons c calls ih =>
    cases k with
    | zero =>
      obtain rfl : c = (e, auto) := by simpa using hk
      have : (getTf tf e auto).1 = res ∧ (getTf tf e auto).2.2 = log := by
        simpa [getTfRun] using hr
      obtain ⟨_, rfl⟩ := this
      exact one tf e auto hlog
    | succ k =>
      exact ih (getTf tf c.1 c.2).2.1 k (by simpa using hk) (by simpa [getTfRun] using hr)

/-- **C90** Without permission a failed import gives `ImportError` and leaves everything as it was: later calls behave as
if this one had not been made. -/
theorem C90_refused (e : Env M) (himp : e.imp = .error .importError) (hallow : e.allow ≠ some "1")
    (calls : List (Env M × Bool)) :
    getTfRun none ((e, false) :: calls) = (.error .importError, []) :: getTfRun none calls := by
  have h : getTf none e false = (.error .importError, none, []) := by
    unfold getTf ensureInstalled
    rw [himp]
    dsimp only
    have : (e.allow == some "1") = false := by simpa using hallow
    rw [this]
    rfl
  show _ :: _ = _
  rw [h]

/-- **C90** Once TensorFlow was returned, all later calls return the same object and do nothing else, in whatever
environment. -/
theorem C90_cached (pre : List (Env M × Bool)) (e : Env M) (auto : Bool) (tf : Option M) (m : M) (log : List String)
    (h : (getTfRun tf (pre ++ [(e, auto)]))[pre.length]? = some (.ok m, log)) (post : List (Env M × Bool)) :
    getTfRun tf (pre ++ (e, auto) :: post) =
      getTfRun tf (pre ++ [(e, auto)]) ++ post.map fun _ => (.ok m, []) := by
  induction pre generalizing tf with
  | nil =>
    have h1 : (getTf tf e auto).1 = .ok m := by
      have : (getTf tf e auto).1 = .ok m ∧ (getTf tf e auto).2.2 = log := by simpa [getTfRun] using h
      exact this.1
    have h2 : (getTf tf e auto).2.1 = some m := by
      unfold getTf at h1 ⊢
      cases tf with
      | some m' =>
        dsimp only at h1 ⊢
        rw [Except.ok.inj h1]
      | none =>
        dsimp only at h1 ⊢
        generalize ensureInstalled e auto = r at h1 ⊢
        obtain ⟨r, l⟩ := r
        cases r with
        | error err => cases h1
        | ok m' =>
          dsimp only at h1 ⊢
          generalize e.devices m' = d at h1 ⊢
          cases d with
          | error err => cases h1
          | ok u => dsimp only at h1 ⊢; rw [Except.ok.inj h1]
    show _ :: getTfRun (getTf tf e auto).2.1 post = _
    rw [h2, getTfRun_cached]
    rfl
  | cons c pre ih =>
    show _ :: getTfRun _ (pre ++ (e, auto) :: post) = _
    rw [ih (getTf tf c.1 c.2).2.1 (by simpa [getTfRun] using h)]
    rfl

/-- **C90** If the device query fails after a successful import, the call raises, but all later calls return the
imported object without asking for devices. -/
theorem C90_device_failure (e : Env M) (auto : Bool) (m : M) (err : Err) (himp : e.imp = .ok m)
    (hdev : e.devices m = .error err) (calls : List (Env M × Bool)) :
    getTfRun none ((e, auto) :: calls) = (.error err, []) :: calls.map fun _ => (.ok m, []) := by
  have h : getTf none e auto = (.error err, some m, []) := by
    unfold getTf ensureInstalled
    rw [himp]
    dsimp only
    rw [hdev]
  show ((getTf none e auto).1, (getTf none e auto).2.2) :: getTfRun (getTf none e auto).2.1 calls = _
  rw [h, getTfRun_cached]

/-- **C90** The first call, when TensorFlow can be imported or may be installed: an importable TensorFlow is returned
and pip does not run; after an `ImportError` with permission (by the argument or by the environment variable) pip runs for
the package that `nvidia-smi` decides, and the object that the following import gives is returned; a failure of pip, of
that import, or of the first import for another reason is raised. -/
theorem C90_install (e : Env M) (auto : Bool) :
    (∀ m, e.imp = .ok m → e.devices m = .ok () → getTfRun none [(e, auto)] = [(.ok m, [])]) ∧
    (∀ err, e.imp = .error err → err ≠ .importError → getTfRun none [(e, auto)] = [(.error err, [])]) ∧
    (e.imp = .error .importError → auto = true ∨ e.allow = some "1" →
      let pkg := if e.nvidiaSmi then "tensorflow[and-cuda]" else "tensorflow"
      (e.pip pkg = none → getTfRun none [(e, auto)] = [(.error .exception, [pkg])]) ∧
      (∀ err, e.pip pkg = some (.error err) → getTfRun none [(e, auto)] = [(.error err, [pkg])]) ∧
      (∀ m, e.pip pkg = some (.ok m) → e.devices m = .ok () →
        getTfRun none [(e, auto)] = [(.ok m, [pkg])])) := by
  refine ⟨fun m hi hd => ?_, fun err hi hne => ?_, fun hi ha => ?_⟩
  · simp only [getTfRun, getTf, ensureInstalled, hi, hd]
  · cases err <;> first | exact absurd rfl hne | simp only [getTfRun, getTf, ensureInstalled, hi]
  · have hb : (auto || e.allow == some "1") = true := by simpa using ha
    refine ⟨fun h => ?_, fun err h => ?_, fun m h hd => ?_⟩
    · simp only [getTfRun, getTf, ensureInstalled, hi, hb, if_true, h]
    · simp only [getTfRun, getTf, ensureInstalled, hi, hb, if_true, h]
    · simp only [getTfRun, getTf, ensureInstalled, hi, hb, if_true, h, hd]

/-- refused first, allowed by the environment variable later, then cached -/
example : getTfRun (M := Nat) none
    [(⟨.error .importError, true, some "yes", fun _ => none, fun _ => .ok ()⟩, false),
     (⟨.error .importError, true, some "1", fun _ => some (.ok 7), fun _ => .ok ()⟩, false),
     (⟨.error .importError, true, none, fun _ => none, fun _ => .error .exception⟩, true)] =
    [(.error .importError, []), (.ok 7, ["tensorflow[and-cuda]"]), (.ok 7, [])] := by decide

end

section
open Verif.Maintenance
variable {A R σ : Type}

/-- **C91** Unless the warning is turned into an exception the wrapped function behaves as the function: same results,
same effects, in every state of the program and whatever warnings were given before. -/
theorem C91_transparent (name instructions : String) (func : A → σ → Except Err R × σ) (act : String → Action)
    (hact : ∀ t, act t ≠ .error) (a : A) (w : Warnings) (s : σ) :
    (wrapper name instructions func act a w s).1 = (func a s).1 ∧
    (wrapper name instructions func act a w s).2.2 = (func a s).2 := by
  unfold wrapper warnExplicit
  have h := hact (message name instructions)
  cases hc : act (message name instructions) with
  | error => exact absurd hc h
  | once =>
    dsimp only
    by_cases hm : message name instructions ∈ w.onceSeen
    · rw [if_pos hm]; exact ⟨rfl, rfl⟩
    · rw [if_neg hm]; exact ⟨rfl, rfl⟩
  | _ => exact ⟨rfl, rfl⟩

/-- **C91** If the filters turn the warning into an exception, it is raised and the function is not run: the state
stays and nothing is shown. -/
theorem C91_error (name instructions : String) (func : A → σ → Except Err R × σ) (act : String → Action)
    (hact : ∀ t, act t = .error) (as : List A) (w : Warnings) (s : σ) :
    wrapperRun name instructions func act as w s = (as.map fun _ => .error .exception, w, s) := by
  have one : ∀ a, wrapper name instructions func act a w s = (.error .exception, w, s) := by
    intro a
    unfold wrapper warnExplicit
    rw [hact]
  induction as with
  | nil => rfl
  | cons a as ih =>
    unfold wrapperRun
    simp only [one, ih]
    rfl

/-- **C91** Under the actions `default`, `module` and `always` each call shows one warning that names the function, also if the
same line of the program is executed again; under `ignore` none; under `once` one for all calls together. -/
theorem C91_count (name instructions : String) (func : A → σ → Except Err R × σ) (act : String → Action)
    (a : Action) (hact : ∀ t, act t = a) (as : List A) (s : σ) :
    let text := "Call to deprecated function " ++ name ++ ". " ++ instructions
    let shown := (wrapperRun name instructions func act as {} s).2.1.shown
    ((a = .default ∨ a = .module ∨ a = .always) → shown = List.replicate as.length text) ∧
    (a = .ignore → shown = []) ∧
    (a = .once → as ≠ [] → shown = [text]) := by
  intro text shown
  refine ⟨?_, ?_, ?_⟩
  · intro ha
    have gen : ∀ (as : List A) (w : Warnings) (s : σ),
        (wrapperRun name instructions func act as w s).2.1.shown = w.shown ++ List.replicate as.length text := by
      intro as
      induction as with
      | nil => intro w s; simp [wrapperRun]
      | cons b as ih =>
        intro w s
        have h1 : (wrapper name instructions func act b w s).2.1.shown = w.shown ++ [text] := by
          unfold wrapper warnExplicit
          rw [hact]
          rcases ha with rfl | rfl | rfl <;> rfl
        show (wrapperRun name instructions func act as _ _).2.1.shown = _
        rw [ih, h1, List.length_cons, List.replicate_succ, List.append_assoc]
        rfl
    have := gen as {} s
    simpa using this
  · intro ha
    have gen : ∀ (as : List A) (w : Warnings) (s : σ),
        (wrapperRun name instructions func act as w s).2.1.shown = w.shown := by
      intro as
      induction as with
      | nil => intro w s; rfl
      | cons b as ih =>
        intro w s
        have h1 : (wrapper name instructions func act b w s).2.1.shown = w.shown := by
          unfold wrapper warnExplicit
          rw [hact, ha]
        show (wrapperRun name instructions func act as _ _).2.1.shown = _
        rw [ih, h1]
    exact gen as {} s
  · intro ha hne
    have gen : ∀ (as : List A) (w : Warnings) (s : σ), text ∈ w.onceSeen →
        (wrapperRun name instructions func act as w s).2.1.shown = w.shown := by
      intro as
      induction as with
      | nil => intro w s _; rfl
      | cons b as ih =>
        intro w s hw
        have h1 : (wrapper name instructions func act b w s).2.1 = w := by
          unfold wrapper warnExplicit
          rw [hact, ha]
          dsimp only
          rw [if_pos (show message name instructions ∈ w.onceSeen from hw)]
        show (wrapperRun name instructions func act as _ _).2.1.shown = _
        rw [ih _ _ (by rw [h1]; exact hw), h1]
    cases as with
    | nil => exact absurd rfl hne
    | cons b as =>
      have h1 : (wrapper name instructions func act b {} s).2.1 = ⟨[text], [text]⟩ := by
        unfold wrapper warnExplicit
        rw [hact, ha]
        rfl
      show (wrapperRun name instructions func act as _ _).2.1.shown = _
      rw [gen as _ _ (by rw [h1]; simp), h1]

/-- two calls of a function that counts its calls -/
example : wrapperRun "f" "Use g." (fun (a : Nat) (n : Nat) => (.ok (a + n), n + 1)) (fun _ => .default) [5, 5] {} 0 =
    ([.ok 5, .ok 6], ⟨[], ["Call to deprecated function f. Use g.", "Call to deprecated function f. Use g."]⟩, 2) := by
  decide

end

end Verif.Props
