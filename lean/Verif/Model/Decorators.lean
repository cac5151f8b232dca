import Verif.Py.Basic
import Mathlib.Data.Int.Basic

/-!
# Model of `src/pyftle/decorators.py`

A naive `datetime` is its number of microseconds; `dt2 - dt1` is normalised as `timedelta`
does: `days` may be negative, `0 <= seconds < 86400`, `0 <= microseconds < 10^6`.
-/

namespace Verif

/-- A normalised `timedelta`. -/
structure TimeDelta where
  days : ℤ
  seconds : ℤ
  microseconds : ℤ

/-- `dt2 - dt1`. -/
def timeDelta (dt2 dt1 : ℤ) : TimeDelta :=
  let us := dt2 - dt1
  ⟨us.fdiv 86400000000, (us.fmod 86400000000).fdiv 1000000, us.fmod 1000000⟩

/-- `date_diff_in_seconds` (decorators.py:8-33). -/
def dateDiffInSeconds (dt2 dt1 : ℤ) : ℤ :=
  let td := timeDelta dt2 dt1
  td.days * 24 * 3600 + td.seconds

/-- `divmod(a, b)` for integers, `b ≠ 0`. -/
def pyDivmod (a b : ℤ) : ℤ × ℤ := (a.fdiv b, a.fmod b)

/-- `dhms_from_seconds` (decorators.py:36-58): days, hours, minutes, seconds. -/
def dhmsFromSeconds (seconds : ℤ) : ℤ × ℤ × ℤ × ℤ :=
  let (minutes, seconds) := pyDivmod seconds 60
  let (hours, minutes) := pyDivmod minutes 60
  let (days, hours) := pyDivmod hours 24
  (days, hours, minutes, seconds)

/-- The wrapper of `time_it` (decorators.py:82-98), given the two readings of the clock and the
outcome of the wrapped call: the outcome of the wrapper and the lines printed by the wrapper
itself.  An exception leaves the wrapper before anything is printed. -/
def timeIt {α : Type} (start stop : ℤ) (call : Py α) : Py α × List String :=
  match call with
  | .error e => (.error e, [])
  | .ok result =>
    let (d, h, m, s) := dhmsFromSeconds (dateDiffInSeconds stop start)
    (.ok result, ["Execution complete in " ++ toString d ++ " days, " ++ toString h ++ " hours, " ++
      toString m ++ " minutes, " ++ toString s ++ " seconds"])

end Verif
