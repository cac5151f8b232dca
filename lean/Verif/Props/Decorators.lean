import Verif.Model.Decorators
import Mathlib.Tactic.Linarith

/-!
# C63: elapsed time
-/

namespace Verif

/-- **C63**.  The hours, minutes and seconds are in range and, with the days, add up to the number
of whole seconds elapsed; for a non-negative duration the days are not negative either. -/
theorem C63_split (dt1 dt2 : ℤ) :
    let r := dhmsFromSeconds (dateDiffInSeconds dt2 dt1)
    let total := r.1 * 86400 + r.2.1 * 3600 + r.2.2.1 * 60 + r.2.2.2
    (0 ≤ r.2.1 ∧ r.2.1 < 24) ∧ (0 ≤ r.2.2.1 ∧ r.2.2.1 < 60) ∧ (0 ≤ r.2.2.2 ∧ r.2.2.2 < 60) ∧
    (total * 1000000 ≤ dt2 - dt1 ∧ dt2 - dt1 < (total + 1) * 1000000) ∧
    (dt1 ≤ dt2 → 0 ≤ r.1) := by
  simp only [dhmsFromSeconds, pyDivmod, dateDiffInSeconds, timeDelta,
    Int.fdiv_eq_ediv_of_nonneg _ (show (0 : ℤ) ≤ 86400000000 by decide),
    Int.fmod_eq_emod_of_nonneg _ (show (0 : ℤ) ≤ 86400000000 by decide),
    Int.fdiv_eq_ediv_of_nonneg _ (show (0 : ℤ) ≤ 1000000 by decide),
    Int.fdiv_eq_ediv_of_nonneg _ (show (0 : ℤ) ≤ 60 by decide),
    Int.fmod_eq_emod_of_nonneg _ (show (0 : ℤ) ≤ 60 by decide),
    Int.fdiv_eq_ediv_of_nonneg _ (show (0 : ℤ) ≤ 24 by decide),
    Int.fmod_eq_emod_of_nonneg _ (show (0 : ℤ) ≤ 24 by decide)]
  omega

/-- The four numbers are determined by `C63_split`: any admissible split of the same whole seconds
is the one returned. -/
theorem C63_unique (t d h m s : ℤ) (hh : 0 ≤ h ∧ h < 24) (hm : 0 ≤ m ∧ m < 60)
    (hs : 0 ≤ s ∧ s < 60) (ht : t = d * 86400 + h * 3600 + m * 60 + s) :
    dhmsFromSeconds t = (d, h, m, s) := by
  simp only [dhmsFromSeconds, pyDivmod,
    Int.fdiv_eq_ediv_of_nonneg _ (show (0 : ℤ) ≤ 60 by decide),
    Int.fmod_eq_emod_of_nonneg _ (show (0 : ℤ) ≤ 60 by decide),
    Int.fdiv_eq_ediv_of_nonneg _ (show (0 : ℤ) ≤ 24 by decide),
    Int.fmod_eq_emod_of_nonneg _ (show (0 : ℤ) ≤ 24 by decide), Prod.mk.injEq]
  omega

/-- **C63** (decorator).  The wrapped call's outcome is passed on unchanged; a line is printed
exactly when the call returned. -/
theorem C63_transparent {α : Type} (start stop : ℤ) (call : Py α) :
    (timeIt start stop call).1 = call ∧
    ((timeIt start stop call).2.length = 1 ↔ ∃ r, call = .ok r) ∧
    ((timeIt start stop call).2 = [] ↔ ∃ e, call = .error e) := by
  cases call <;> simp [timeIt]

/-- 1 day, 1 hour, 1 minute, 1.5 seconds. -/
example : dhmsFromSeconds (dateDiffInSeconds 90061500000 0) = (1, 1, 1, 1) := by decide

example : dhmsFromSeconds 90061 = (1, 1, 1, 1) :=
  C63_unique 90061 1 1 1 1 (by decide) (by decide) (by decide) (by decide)

end Verif
