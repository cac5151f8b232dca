import Mathlib.Logic.Equiv.Basic
import Mathlib.Data.Fin.VecNotation
import Mathlib.LinearAlgebra.Matrix.Defs
import Mathlib.Data.Nat.Cast.Defs

/-!
# Specification vocabulary for turned experiments

Whoever turns the sheet on which an experiment is drawn gives new names to the axes and may reverse
their directions.
-/

namespace Verif

variable {K : Type} {d : ℕ}

/-- New axis `q` is the old axis `perm q`, in the opposite direction if `flip q`. -/
structure Turn (d : ℕ) where
  perm : Equiv.Perm (Fin d)
  flip : Fin d → Bool

/-- A coordinate, on a reversed axis or not. -/
def signed [Neg K] (b : Bool) (x : K) : K := if b then -x else x

/-- The new coordinates of a point, or of a velocity. -/
def Turn.point [Neg K] (t : Turn d) (x : Fin d → K) : Fin d → K :=
  fun q => signed (t.flip q) (x (t.perm q))

/-- The same linear map in the new coordinates. -/
def Turn.matrix [Neg K] (t : Turn d) (J : Matrix (Fin d) (Fin d) K) : Matrix (Fin d) (Fin d) K :=
  fun r q => signed (t.flip r) (signed (t.flip q) (J (t.perm r) (t.perm q)))

/-- The neighbour at the lower or upper end of an axis: left, right; bottom, top. -/
def end2 (q : Fin 2) (upper : Bool) : Fin 4 :=
  match q, upper with
  | 0, false => 0
  | 0, true => 1
  | 1, true => 2
  | 1, false => 3

/-- The same for groups of six: left, right; bottom, top; back, front. -/
def end3 (q : Fin 3) (upper : Bool) : Fin 6 :=
  match q, upper with
  | 0, false => 0
  | 0, true => 1
  | 1, true => 2
  | 1, false => 3
  | 2, true => 4
  | 2, false => 5

/-- `G'` is the group `G` after the turn: its right neighbour is the one at the upper end of the new
first axis, and so on. -/
def Turn.Group2 [Neg K] (t : Turn 2) (G G' : Fin 4 → Fin 2 → K) : Prop :=
  ∀ q s, G' (end2 q s) = t.point (G (end2 (t.perm q) (xor s (t.flip q))))

/-- The same for groups of six. -/
def Turn.Group3 [Neg K] (t : Turn 3) (G G' : Fin 6 → Fin 3 → K) : Prop :=
  ∀ q s, G' (end3 q s) = t.point (G (end3 (t.perm q) (xor s (t.flip q))))

/-- Numbers of nodes, or spacings, along the new axes. -/
def Turn.along {α : Type} (t : Turn d) (a : Fin d → α) : Fin d → α := fun q => a (t.perm q)

/-- The first node of the turned grid: on a reversed axis what was the last one. -/
def Turn.origin [Neg K] [Add K] [Mul K] [NatCast K] (t : Turn d) (n : Fin d → ℕ) (δ o : Fin d → K) :
    Fin d → K := fun q =>
  if t.flip q then -(o (t.perm q) + ((n (t.perm q) - 1 : ℕ) : K) * δ (t.perm q)) else o (t.perm q)

/-- The old numbers of the node with the new numbers `A`. -/
def Turn.node (t : Turn d) (n : Fin d → ℕ) (A : Fin d → ℕ) : Fin d → ℕ := fun p =>
  if t.flip (t.perm.symm p) then n p - 1 - A (t.perm.symm p) else A (t.perm.symm p)

/-- The velocities listed at the nodes of the turned grid. -/
def Turn.data [Neg K] (t : Turn d) (n : Fin d → ℕ) (f : Fin d → (Fin d → ℕ) → K) :
    Fin d → (Fin d → ℕ) → K := fun c A => signed (t.flip c) (f (t.perm c) (t.node n A))

/-- Arithmetic in which reversing an axis is exact: rounding treats positive and negative numbers
alike. -/
class MirrorLaws (K : Type) [Zero K] [Add K] [Sub K] [Mul K] [Div K] [Neg K] : Prop where
  neg_neg : ∀ a : K, - -a = a
  neg_add : ∀ a b : K, -a + -b = -(a + b)
  neg_sub : ∀ a b : K, -a - -b = -(a - b)
  rev_sub : ∀ a b : K, -(a - b) = b - a
  mul_neg : ∀ a b : K, a * -b = -(a * b)
  neg_div : ∀ a b : K, -a / b = -(a / b)
  div_neg : ∀ a b : K, a / -b = -(a / b)
  neg_zero : ∀ a : K, -a = 0 ↔ a = 0

end Verif
