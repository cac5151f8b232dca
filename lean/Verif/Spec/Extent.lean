import Verif.Model.Solver
import Mathlib.Order.Defs.LinearOrder

/-!
# Specification: the extent of a list of coordinates
-/

namespace Verif

variable {K : Type}

/-- Two coordinate arrays of the same shape whose rows have the same lower and the same upper
bounds, i.e. reach from the same minimum to the same maximum. -/
structure SameExtent [LE K] (p p' : NDArray K) : Prop where
  shape : p'.shape = p.shape
  lower : ∀ c x, (∀ i, ValidIdx p.shape [c, i] → x ≤ p'.get [c, i]) ↔
    ∀ i, ValidIdx p.shape [c, i] → x ≤ p.get [c, i]
  upper : ∀ c x, (∀ i, ValidIdx p.shape [c, i] → p'.get [c, i] ≤ x) ↔
    ∀ i, ValidIdx p.shape [c, i] → p.get [c, i] ≤ x

/-- Row `c` of an array with `N` columns reaches from `lo` to `hi`. -/
def Reaches [LE K] (p : NDArray K) (N c : ℕ) (lo hi : K) : Prop :=
  (∀ k < N, lo ≤ p.get [c, k] ∧ p.get [c, k] ≤ hi) ∧ (∃ k < N, p.get [c, k] = lo) ∧
    ∃ k < N, p.get [c, k] = hi

/-- The position of data point `k`, as an array with one row. -/
def pointOf (p : NDArray K) (d k : ℕ) : NDArray K := ⟨[1, d], fun idx => p.get [idx.getD 1 0, k]⟩

/-- The interpolators that take a grid shape. -/
def GridBased : AnyInterp K → Prop
  | .highPerf _ => True
  | .grid _ => True
  | _ => False

end Verif
