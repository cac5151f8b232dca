import Verif.Model.Api
import Verif.Model.Command

/-!
# Model of an API call with its disk (`src/pyftle/api.py`)

`AnalyticalSolver(...)` with the folder of its writer, and the files of `run()`.
-/

namespace Verif

variable {K F α : Type}

/-- `datetime.now()` to the second (api.py:121): what a calendar and a clock on the wall say. -/
structure WallClock where
  year : ℕ
  month : ℕ
  day : ℕ
  hour : ℕ
  minute : ℕ
  second : ℕ
deriving DecidableEq

/-- `%m`, `%d`, `%H`, `%M`, `%S` of `strftime`: two decimal digits. -/
def twoDigits (n : ℕ) : List Char := [Nat.digitChar (n / 10 % 10), Nat.digitChar (n % 10)]

/-- `now.strftime("run-%Y-%m-%d-%Hh-%Mm-%Ss")` (api.py:122).  `%Y` is the decimal numeral of the year
(for years before 1000 the C library decides about leading zeros; not modelled). -/
def WallClock.runName (now : WallClock) : PathStr :=
  "run-".toList ++ Nat.toDigits 10 now.year ++ '-' :: twoDigits now.month ++ '-' ::
    twoDigits now.day ++ '-' :: twoDigits now.hour ++ 'h' :: '-' :: twoDigits now.minute ++
    'm' :: '-' :: twoDigits now.second ++ ['s']

/-- The directory handed to `create_writer` (api.py:119-123). -/
def apiFolder (name : Option PathStr) (now : WallClock) : PathStr :=
  match name with
  | none => now.runName
  | some p => p

/-- `AnalyticalSolver(...)` (api.py:87-123) on a disk: the disk afterwards, the messages about the
output folder, and the solver with its writer and folder, if it has one.  `create_writer` is the last
call that can fail; it rejects an unknown format before the folder is made. -/
def startApi [Zero K] [Inhabited F] (lower : String → String) (fn : VelocityFn K)
    (particles : Particles K) (timestep : K) (snapshots : Py ℤ) (numFtles : ℤ)
    (integratorName : String) (processes : ℤ) (saveOutput : Bool) (outputFormat : String)
    (name : Option PathStr) (now : WallClock) (d : Disk α) :
    Disk α × List String × Py (ApiSolver K F × Option (Writer × PathStr)) :=
  match ApiSolver.create lower fn particles timestep snapshots numFtles integratorName processes
      saveOutput outputFormat with
  | .error e => (d, [], .error e)
  | .ok S =>
    if saveOutput then
      match createWriter outputFormat with
      | .error e => (d, [], .error e)
      | .ok w =>
        ((d.openFolder (apiFolder name now)).1, (d.openFolder (apiFolder name now)).2,
          .ok (S, some (Writer.fresh w none, apiFolder name now)))
    else (d, [], .ok (S, none))

/-- The files of `run()`, in the order `order` in which the tasks get to saving theirs (as for
`Started.files`). -/
def apiFiles [Zero K] [Inhabited F] (w : Writer) (file : Saved K F → α)
    (rs : List (Option (Option (List F) × List (Event K F)))) (order : List ℕ) :
    List (List Char × α) :=
  order.flatMap fun i => (savedBy ((rs[i]?).getD none)).flatMap (w.savedFile file)

end Verif
