import Verif.Model.Integrate

/-!
# Specification vocabulary for advection

Only particle rows and velocity sources; nothing about how an integrator works.
-/

namespace Verif

variable {K : Type*}

/-- Row `r` of a two-dimensional array with `d` columns. -/
def rowOf (a : NDArray K) (d r : ℕ) : Fin d → K := fun c => a.get [r, c.1]

/-- `vel` evaluates the velocity function `g` at every row of an `R × d` array. -/
def Pointwise (R d : ℕ) (vel : Velocity K) (g : (Fin d → K) → Fin d → K) : Prop :=
  ∀ pos : NDArray K, pos.shape = [R, d] →
    ∃ A, vel pos = .ok A ∧ A.shape = [R, d] ∧ ∀ r < R, rowOf A d r = g (rowOf pos d r)

/-- The velocity source that evaluates `g` at every row (used for examples). -/
def sourceOf (d : ℕ) (g : (Fin d → K) → Fin d → K) : Velocity K := fun pos =>
  .ok ⟨pos.shape, fun idx =>
    match idx with
    | [r, c] => if h : c < d then g (rowOf pos d r) ⟨c, h⟩ else pos.get idx
    | _ => pos.get idx⟩

theorem sourceOf_pointwise (R d : ℕ) (g : (Fin d → K) → Fin d → K) :
    Pointwise R d (sourceOf d g) g := by
  intro pos hp
  refine ⟨_, rfl, hp, fun r _ => ?_⟩
  funext c
  simp [rowOf]

end Verif
