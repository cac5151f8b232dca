import Verif.Spec.Flow
import Mathlib.LinearAlgebra.Matrix.Notation

/-!
# Specification vocabulary: groups of particles, finite differences, rows of two particle sets
-/

namespace Verif

variable {K : Type*}

/-- Group `i` of an array of `m` blocks of `N` rows: one point of every block. -/
def groupOf (a : NDArray K) (m N d i : ℕ) : Fin m → Fin d → K := fun b => rowOf a d (b * N + i)

/-- Central differences of a map at a group of four points, `X` the images of `x`: column `0`
is `(X₁ - X₀) / (x₁ - x₀)₀`, column `1` is `(X₂ - X₃) / (x₂ - x₃)₁`. -/
def centralDiff2 [Sub K] [Div K] [Zero K] [DecidableEq K] (X x : Fin 4 → Fin 2 → K) :
    Py (Matrix (Fin 2) (Fin 2) K) :=
  if x 1 0 - x 0 0 = 0 ∨ x 2 1 - x 3 1 = 0 then .error .zeroDivisionError
  else .ok !![(X 1 0 - X 0 0) / (x 1 0 - x 0 0), (X 2 0 - X 3 0) / (x 2 1 - x 3 1);
              (X 1 1 - X 0 1) / (x 1 0 - x 0 0), (X 2 1 - X 3 1) / (x 2 1 - x 3 1)]

/-- The same for a group of six points. -/
def centralDiff3 [Sub K] [Div K] [Zero K] [DecidableEq K] (X x : Fin 6 → Fin 3 → K) :
    Py (Matrix (Fin 3) (Fin 3) K) :=
  if x 1 0 - x 0 0 = 0 ∨ x 2 1 - x 3 1 = 0 ∨ x 4 2 - x 5 2 = 0 then .error .zeroDivisionError
  else .ok (Matrix.of fun r c =>
    match c with
    | 0 => (X 1 r - X 0 r) / (x 1 0 - x 0 0)
    | 1 => (X 2 r - X 3 r) / (x 2 1 - x 3 1)
    | 2 => (X 4 r - X 5 r) / (x 4 2 - x 5 2))

/-- Row `r` of the `R × d` array `q` is row `σ r` of the `R' × d` array `q'`. -/
structure RowsMatch (R R' d : ℕ) (σ : ℕ → ℕ) (q q' : NDArray K) : Prop where
  left : q.shape = [R, d]
  right : q'.shape = [R', d]
  rows : ∀ r < R, rowOf q d r = rowOf q' d (σ r)

/-- A velocity source for which rows are independent: whenever it answers the query `q'`, it
answers every query `q` made of rows of `q'`, with the same velocities. -/
def RowLocal (R R' d : ℕ) (σ : ℕ → ℕ) (vel : Velocity K) : Prop :=
  ∀ q q' A' : NDArray K, RowsMatch R R' d σ q q' → vel q' = .ok A' →
    ∃ A, vel q = .ok A ∧ RowsMatch R R' d σ A A'

theorem Pointwise.rowLocal {R R' d : ℕ} {vel : Velocity K} {g : (Fin d → K) → Fin d → K}
    (h : Pointwise R d vel g) (h' : Pointwise R' d vel g) {σ : ℕ → ℕ} (hσ : ∀ r < R, σ r < R') :
    RowLocal R R' d σ vel := by
  intro q q' A' hm hA
  obtain ⟨A, a1, a2, a3⟩ := h q hm.left
  obtain ⟨B, b1, b2, b3⟩ := h' q' hm.right
  rw [hA] at b1
  cases b1
  exact ⟨A, a1, a2, b2, fun r hr => by rw [a3 r hr, b3 (σ r) (hσ r hr), hm.rows r hr]⟩

end Verif
