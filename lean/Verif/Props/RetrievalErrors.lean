import Verif.Props.NearbyRain

/-!
# Property C38, when the F values do not fit
-/

namespace Verif.Props
open Verif Verif.Nearby

/-- **C38** With an F threshold, `nearby_rainfall_retrival` fails where it fails without; otherwise it gives as many rates as without if
there is one F value for each, and raises `IndexError` if not. -/
theorem C38_F_length {F : Type} [PyFloat F] [PyPow F] (ab : List F → List String → String → Except Err (List F × List F))
    (pref p_c_min p_c_max Fs : List F) (length : F) (f_GHz : Option (List F)) (pol : Option (List String))
    (a b : Option (List F)) (approx : String) (waa_max alpha thr : F) :
    (∀ err, retrieval ab pref p_c_min p_c_max Fs length f_GHz pol a b approx waa_max alpha none = .error err →
      retrieval ab pref p_c_min p_c_max Fs length f_GHz pol a b approx waa_max alpha (some thr) = .error err) ∧
    ∀ R, retrieval ab pref p_c_min p_c_max Fs length f_GHz pol a b approx waa_max alpha none = .ok R →
      (Fs.length ≠ R.length →
        retrieval ab pref p_c_min p_c_max Fs length f_GHz pol a b approx waa_max alpha (some thr) = .error .indexError) ∧
      (Fs.length = R.length → ∃ R', retrieval ab pref p_c_min p_c_max Fs length f_GHz pol a b approx waa_max alpha (some thr) = .ok R' ∧
        R'.length = R.length) := by
  have key : retrieval ab pref p_c_min p_c_max Fs length f_GHz pol a b approx waa_max alpha (some thr) =
      retrieval ab pref p_c_min p_c_max Fs length f_GHz pol a b approx waa_max alpha none >>= fun R =>
        if Fs.length = R.length then KR.assignMask R (Fs.map (· ≤ᶠ thr)) [PyFloat.nan] else .error .indexError := by
    unfold retrieval
    cases f_GHz <;> cases pol <;> cases a <;> cases b <;> simp only [bind_assoc] <;> rfl
  rw [key]
  refine ⟨fun err h => by rw [h]; rfl, fun R h => ?_⟩
  rw [h]
  refine ⟨fun hne => by show (if _ then _ else _) = _; rw [if_neg hne], fun he => ?_⟩
  have e : (Except.ok R >>= fun R => if Fs.length = R.length then KR.assignMask R (Fs.map (· ≤ᶠ thr)) [PyFloat.nan] else .error .indexError) =
      KR.assignMask R (Fs.map (· ≤ᶠ thr)) [PyFloat.nan] := by
    show (if _ then _ else _) = _
    rw [if_pos he]
  rw [e]
  unfold KR.assignMask
  split_ifs
  · exact ⟨_, rfl, KR.place_length _ _ _⟩
  · exact ⟨_, rfl, KR.place_length _ _ _⟩

/-- two levels but three F values -/
example : letI : PyPow (Fl ℚ) := ⟨fun x _ => x⟩
    retrieval (F := Fl ℚ) (fun _ _ _ => .error .valueError) [.fin (-50), .fin (-50)] [.fin (-60), .fin (-60)] [.fin (-55), .fin (-55)]
      [.fin 0, .fin 0, .fin 0] (.fin 10) none none (some [.fin 1]) (some [.fin 1]) "ITU_2005" (.fin 2) (.fin (1/3)) (some (.fin (-32))) =
      .error .indexError := by
  let _ : PyPow (Fl ℚ) := ⟨fun x _ => x⟩
  exact ((C38_F_length (F := Fl ℚ) _ _ _ _ _ _ _ _ _ _ _ _ _ _).2 [_, _] rfl).1 (by simp)

end Verif.Props
