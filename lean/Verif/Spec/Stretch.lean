import Mathlib.Data.Matrix.Mul
import Mathlib.Analysis.Real.Sqrt
import Mathlib.Order.Bounds.Basic

/-!
# Specification: eigenvalues and maximal stretching

Written without reference to the model.
-/

namespace Verif

open Matrix

/-- `μ` is an eigenvalue of `C`. -/
def IsEigenvalue {d : ℕ} (C : Matrix (Fin d) (Fin d) ℝ) (μ : ℝ) : Prop :=
  ∃ v : Fin d → ℝ, v ≠ 0 ∧ C *ᵥ v = μ • v

/-- Euclidean length. -/
noncomputable def len {d : ℕ} (v : Fin d → ℝ) : ℝ := Real.sqrt (v ⬝ᵥ v)

/-- `s` is the maximal factor by which `F` stretches a unit vector: `s = max |F u|`. -/
def IsMaxStretch {d : ℕ} (F : Matrix (Fin d) (Fin d) ℝ) (s : ℝ) : Prop :=
  IsGreatest {x | ∃ u : Fin d → ℝ, len u = 1 ∧ x = len (F *ᵥ u)} s

/-- `Q` is orthogonal (a rotation or reflection). -/
def IsOrthogonal {d : ℕ} (Q : Matrix (Fin d) (Fin d) ℝ) : Prop := Qᵀ * Q = 1

end Verif
