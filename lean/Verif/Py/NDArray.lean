import Verif.Py.Basic
import Mathlib.Algebra.BigOperators.Group.List.Basic
import Mathlib.Data.List.Forall2
import Mathlib.Tactic.Ring

/-!
# NumPy arrays as a shape plus an index function

`NDArray α` is the denotation of an `ndarray`: a shape and the value at every
multi-index.  Values at multi-indices outside the shape carry no information.
C order (last index fastest) and Fortran order (first index fastest) are the two
mixed-radix numberings `encC`/`encF` with inverses `decC`/`decF`.
-/

namespace Verif

/-- An array: its shape and the value at each multi-index. -/
structure NDArray (α : Type*) where
  shape : List ℕ
  get : List ℕ → α

/-- `idx` is a legal multi-index for `shape`. -/
def ValidIdx (shape idx : List ℕ) : Prop := List.Forall₂ (· < ·) idx shape

instance (shape idx : List ℕ) : Decidable (ValidIdx shape idx) :=
  inferInstanceAs (Decidable (List.Forall₂ (· < ·) idx shape))

/-- Position of a multi-index in C (row-major) order. -/
def encC : List ℕ → List ℕ → ℕ
  | _ :: ns, i :: is => i * ns.prod + encC ns is
  | _, _ => 0

/-- Multi-index at a position in C order. -/
def decC : List ℕ → ℕ → List ℕ
  | [], _ => []
  | _ :: ns, k => (k / ns.prod) :: decC ns (k % ns.prod)

/-- Position of a multi-index in Fortran (column-major) order. -/
def encF : List ℕ → List ℕ → ℕ
  | n :: ns, i :: is => i + n * encF ns is
  | _, _ => 0

/-- Multi-index at a position in Fortran order. -/
def decF : List ℕ → ℕ → List ℕ
  | [], _ => []
  | n :: ns, k => (k % n) :: decF ns (k / n)

namespace NDArray

variable {α β γ : Type*}

/-- `a.size`. -/
def size (a : NDArray α) : ℕ := a.shape.prod

/-- Element access in compiled code without bounds checks: outside the array the
behaviour is undefined. -/
def read (a : NDArray α) (idx : List ℕ) : Py α :=
  if ValidIdx a.shape idx then .ok (a.get idx) else .error .undefinedBehaviour

/-- The 1-D array of a list-like family. -/
def ofFn1 (n : ℕ) (f : ℕ → α) : NDArray α :=
  ⟨[n], fun idx => f (idx.headD 0)⟩

/-- `a.reshape(sh)` / `a.reshape(sh, order="C")`; raises `ValueError` when the
sizes differ. -/
def reshapeC (a : NDArray α) (sh : List ℕ) : Py (NDArray α) :=
  if a.shape.prod = sh.prod then
    .ok ⟨sh, fun idx => a.get (decC a.shape (encC sh idx))⟩
  else .error .valueError

/-- `a.reshape(sh, order="F")`: the elements are both read and placed in Fortran
order. -/
def reshapeF (a : NDArray α) (sh : List ℕ) : Py (NDArray α) :=
  if a.shape.prod = sh.prod then
    .ok ⟨sh, fun idx => a.get (decF a.shape (encF sh idx))⟩
  else .error .valueError

/-- `a.ravel()` (C order). -/
def ravelC (a : NDArray α) : NDArray α :=
  ofFn1 a.size fun k => a.get (decC a.shape k)

/-- `a.ravel(order="F")`. -/
def ravelF (a : NDArray α) : NDArray α :=
  ofFn1 a.size fun k => a.get (decF a.shape k)

/-- `np.transpose(a, axes=perm)`: axis `k` of the result is axis `perm[k]` of `a`. -/
def transpose (a : NDArray α) (perm : List ℕ) : NDArray α :=
  ⟨perm.map fun p => a.shape.getD p 0,
   fun idx => a.get ((List.range a.shape.length).map fun ax => idx.getD (perm.idxOf ax) 0)⟩

/-- `a[c]` for an in-range integer `c`. -/
def row (a : NDArray α) (c : ℕ) : NDArray α :=
  ⟨a.shape.tail, fun idx => a.get (c :: idx)⟩

/-- `a[..., c]` for an in-range integer `c`. -/
def lastAxis (a : NDArray α) (c : ℕ) : NDArray α :=
  ⟨a.shape.dropLast, fun idx => a.get (idx ++ [c])⟩

/-- Elementwise binary operation on equally shaped arrays; shapes that differ
raise `ValueError`.  (NumPy broadcasting of axes of length one is not modelled; no
caller relies on it.) -/
def zipWith (f : α → β → γ) (a : NDArray α) (b : NDArray β) : Py (NDArray γ) :=
  if a.shape = b.shape then .ok ⟨a.shape, fun idx => f (a.get idx) (b.get idx)⟩
  else .error .valueError

/-- Elementwise map. -/
def map (f : α → β) (a : NDArray α) : NDArray β := ⟨a.shape, fun idx => f (a.get idx)⟩

/-- `np.split(a, k, axis=0)`: `k` equal blocks of rows.  Raises `ValueError` when the
row count is not a multiple of `k`, `ZeroDivisionError` for `k = 0` and
`IndexError` for a 0-dimensional array. -/
def split (a : NDArray α) (k : ℕ) : Py (List (NDArray α)) :=
  match a.shape with
  | [] => .error .indexError
  | n :: rest =>
    if k = 0 then .error .zeroDivisionError
    else if n % k ≠ 0 then .error .valueError
    else .ok ((List.range k).map fun b =>
      ⟨n / k :: rest, fun idx =>
        match idx with
        | r :: is => a.get ((b * (n / k) + r) :: is)
        | [] => a.get []⟩)

/-- `np.concatenate([a, b], axis=0)`; raises `ValueError` when the trailing shapes
differ or an operand is 0-dimensional. -/
def append0 (a b : NDArray α) : Py (NDArray α) :=
  match a.shape, b.shape with
  | n :: ra, m :: rb =>
    if ra = rb then
      .ok ⟨(n + m) :: ra, fun idx =>
        match idx with
        | r :: is => if r < n then a.get (r :: is) else b.get ((r - n) :: is)
        | [] => a.get []⟩
    else .error .valueError
  | _, _ => .error .valueError

/-- `np.concatenate(arrays, axis=0)`; an empty list raises `ValueError`. -/
def concat0 : List (NDArray α) → Py (NDArray α)
  | [] => .error .valueError
  | [a] =>
    match a.shape with
    | [] => .error .valueError
    | _ => .ok a
  | a :: b :: rest =>
    match concat0 (b :: rest) with
    | .ok t => append0 a t
    | .error e => .error e

/-- `np.stack([a, b, ...])` (new leading axis) of equally shaped arrays; raises
`ValueError` for an empty list or different shapes.  The first array is passed
separately so that the result is never read from nothing. -/
def stack (a : NDArray α) (rest : List (NDArray α)) : Py (NDArray α) :=
  if ∀ b ∈ rest, b.shape = a.shape then
    .ok ⟨(rest.length + 1) :: a.shape, fun idx =>
      match idx with
      | c :: is => ((a :: rest).getD c a).get is
      | [] => a.get []⟩
  else .error .valueError

end NDArray

end Verif
