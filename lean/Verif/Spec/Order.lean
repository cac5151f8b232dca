import Verif.Model.Integrate
import Mathlib.Analysis.Calculus.ContDiff.Defs
import Mathlib.Analysis.Normed.Group.Constructions

/-!
# Specification vocabulary: order of accuracy
-/

namespace Verif

/-- The order of accuracy documented for the integrators (integrate.py:163 "First-order", :206
"Second-order", :267 "Fourth-order"). -/
def documentedOrder : Kind → ℕ
  | .euler => 1
  | .ab2 => 2
  | .rk4 => 4

/-- Flows on which the documented order is attained: smooth, and for RK4 steady. -/
def SmoothEnough {d : ℕ} (k : Kind) (v : ℝ → (Fin d → ℝ) → Fin d → ℝ) : Prop :=
  match k with
  | .euler => ContDiff ℝ 1 fun q : ℝ × (Fin d → ℝ) => v q.1 q.2
  | .ab2 => ContDiff ℝ 2 fun q : ℝ × (Fin d → ℝ) => v q.1 q.2
  | .rk4 => ∃ w, ContDiff ℝ 4 w ∧ v = fun _ => w

/-- The method `k` attains the order `ord` on the flow `v`: the documented order if the flow is smooth
enough for it, and order one on every continuously differentiable flow.  (For RK4 on unsteady flows
one is the best possible, `C102_unsteady_rk4_fails`.) -/
def Attains {d : ℕ} (k : Kind) (ord : ℕ) (v : ℝ → (Fin d → ℝ) → Fin d → ℝ) : Prop :=
  ord = documentedOrder k ∧ SmoothEnough k v ∨
    ord = 1 ∧ ContDiff ℝ 1 fun q : ℝ × (Fin d → ℝ) => v q.1 q.2

/-- Flows for which the order is attained in the differences between neighbouring particles too: one
more derivative is needed, and at least three. -/
def SmoothForGroups {d : ℕ} (k : Kind) (v : ℝ → (Fin d → ℝ) → Fin d → ℝ) : Prop :=
  match k with
  | .euler => ContDiff ℝ 3 fun q : ℝ × (Fin d → ℝ) => v q.1 q.2
  | .ab2 => ContDiff ℝ 3 fun q : ℝ × (Fin d → ℝ) => v q.1 q.2
  | .rk4 => ∃ w, ContDiff ℝ 5 w ∧ v = fun _ => w

/-- As `Attains`, in the differences between neighbouring particles. -/
def AttainsForGroups {d : ℕ} (k : Kind) (ord : ℕ) (v : ℝ → (Fin d → ℝ) → Fin d → ℝ) : Prop :=
  ord = documentedOrder k ∧ SmoothForGroups k v ∨
    ord = 1 ∧ ContDiff ℝ 3 fun q : ℝ × (Fin d → ℝ) => v q.1 q.2

end Verif
