import Mathlib.Algebra.Order.Floor.Ring
import Verif.Py.NDArray

/-!
# Specification of bilinear and trilinear interpolation on a uniform grid

Written without reference to the kernels: `X`, `Y`, `Z` are index coordinates (distance to the
first grid line in units of the spacing), `f` gives the nodal values.
-/

namespace Verif

variable {K : Type} [Field K] [LinearOrder K] [FloorRing K]

/-- Index coordinate `q` lies in the half-open range `[0, n - 1)` covered by the cells of an
axis with `n` nodes. -/
def InCells (n : ℕ) (q : K) : Prop := 0 ≤ q ∧ q + 1 < n

instance (n : ℕ) (q : K) : Decidable (InCells n q) := inferInstanceAs (Decidable (_ ∧ _))

/-- Number of the cell that contains `q` (for `q ≥ 0`). -/
def cellOf (q : K) : ℕ := ⌊q⌋.toNat

/-- One-dimensional linear interpolation. -/
def lerp (a b t : K) : K := (1 - t) * a + t * b

/-- Bilinear interpolation inside the cells, 0 elsewhere. -/
def cellValue2 (nx ny : ℕ) (f : ℕ → ℕ → K) (X Y : K) : K :=
  if InCells nx X ∧ InCells ny Y then
    let i := cellOf X
    let j := cellOf Y
    lerp (lerp (f i j) (f (i + 1) j) (X - i)) (lerp (f i (j + 1)) (f (i + 1) (j + 1)) (X - i))
      (Y - j)
  else 0

/-- Trilinear interpolation inside the cells, 0 elsewhere. -/
def cellValue3 (nx ny nz : ℕ) (f : ℕ → ℕ → ℕ → K) (X Y Z : K) : K :=
  if InCells nx X ∧ InCells ny Y ∧ InCells nz Z then
    let i := cellOf X
    let j := cellOf Y
    let k := cellOf Z
    lerp
      (lerp (lerp (f i j k) (f (i + 1) j k) (X - i))
        (lerp (f i (j + 1) k) (f (i + 1) (j + 1) k) (X - i)) (Y - j))
      (lerp (lerp (f i j (k + 1)) (f (i + 1) j (k + 1)) (X - i))
        (lerp (f i (j + 1) (k + 1)) (f (i + 1) (j + 1) (k + 1)) (X - i)) (Y - j)) (Z - k)
  else 0

/-- The points of one coordinate axis, as listed in the coordinate array (row `c` of a
`(d, N)` array), take exactly the values `x0, x0 + dx, ..., x0 + (n - 1) dx`, in any order
and with any multiplicity. -/
def AxisValues (p : NDArray K) (N c n : ℕ) (x0 dx : K) : Prop :=
  (∀ k < N, ∃ i < n, p.get [c, k] = x0 + i * dx) ∧ (∀ i < n, ∃ k < N, p.get [c, k] = x0 + i * dx)

end Verif
