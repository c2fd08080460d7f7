import Verif.Model.Idw

/-!
# `clim_var_param` for a calendar date (pycomlink/spatial/interpolator.py L211-L260)

`pd.to_datetime(date_str)` gives a date of the proleptic Gregorian calendar (parsing of the text is external);
`strftime('%j')` is its day of the year.
-/

namespace Verif.Idw
open Verif

/-- leap years of the Gregorian calendar (Python's `calendar.isleap`) -/
def isLeap (y : Nat) : Bool := y % 4 == 0 && (!(y % 100 == 0) || y % 400 == 0)

/-- number of days of a month (Python's `calendar.monthrange`); 0 for a month that does not exist -/
def daysInMonth (y m : Nat) : Nat :=
  match m with
  | 1 | 3 | 5 | 7 | 8 | 10 | 12 => 31
  | 4 | 6 | 9 | 11 => 30
  | 2 => if isLeap y then 29 else 28
  | _ => 0

/-- `strftime('%j')` (interpolator.py L243): days of the months before plus the day of the month -/
def dayOfYear (y m d : Nat) : Nat := ((List.range m).map (daysInMonth y)).sum + d

/-- interpolator.py L211-L260 for a date; `ValueError` of `pd.to_datetime` for a date that does not exist -/
noncomputable def climVarParamDate (y m d : Nat) (time_scale_hours : ℝ) : Except Err (ℝ × ℝ × ℝ) :=
  if 1 ≤ d ∧ d ≤ daysInMonth y m then .ok (climVarParam (dayOfYear y m d : ℝ) time_scale_hours)
  else .error .valueError

end Verif.Idw
