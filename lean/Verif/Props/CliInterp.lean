import Verif.Props.Cli
import Verif.Props.Interpolate

/-!
# C60: the interpolator which the command line selects
-/

namespace Verif

/-- **C60**, the interpolator: a set-up that succeeds uses the class which the documented table
(`interpTable`) gives for the name and the flow grid shape; no name of the command line gives an
analytical interpolator.

Partial: the documented default does not exist, see `C60_defaults_fails`. -/
theorem C60_interpolator_partial {K : Type} [Zero K] (lower : String → String)
    (o : CliOptions) (g : Option (List ℕ)) (i : AnyInterp K) (k : Kind) (w : WriterKind)
    (h : setup lower o g = .ok (i, k, w)) :
    ∃ name, o.interpolator = some name ∧ interpTable (lower name) g false = some i.cls ∧
      i.cls ≠ .analytical := by
  unfold setup at h
  obtain ⟨integ, _ | name, fmt⟩ := o
  · simp [cliInterpolator] at h
  have ht := C34_interpolators (K := K) lower name g none
  simp only [cliInterpolator] at h
  obtain ⟨r, hr⟩ : ∃ r, createInterpolator (K := K) lower name g none = r := ⟨_, rfl⟩
  simp only [hr] at h ht
  rcases r with e | i'
  · simp at h
  · have hi : i' = i := by
      dsimp only at h
      split at h
      · cases h
      · split at h
        · cases h
        · cases h; rfl
    subst hi
    refine ⟨name, rfl, ht, ?_⟩
    intro hc
    dsimp only at ht
    rw [hc] at ht
    unfold interpTable at ht
    split_ifs at ht <;> first | contradiction | (cases g <;> simp_all)

/-- `linear` with and without a flow grid shape. -/
example : ∃ (i j : AnyInterp ℚ),
    setup id ⟨some "rk4", some "linear", some "vtk"⟩ (some [4, 5]) = .ok (i, .rk4, .vtk) ∧
    setup id ⟨some "rk4", some "linear", some "vtk"⟩ none = .ok (j, .rk4, .vtk) ∧
    i.cls = .structured .linear [4, 5] ∧ j.cls = .scatter .linear :=
  ⟨_, _, rfl, rfl, rfl, rfl⟩

end Verif
