import Mathlib.Data.List.Basic
import Mathlib.Data.Int.Basic

/-!
# Fragment of the Python runtime

Exceptions as values, sequence indexing and slicing with Python's rules,
`range`, and `itertools.islice(itertools.cycle(xs), k)`.
-/

namespace Verif

/-- The exception classes that the modelled code can raise (directly or through
NumPy, numba, pandas or pybind11).  Messages are not modelled.
`undefinedBehaviour` is not a Python exception: it marks an out-of-bounds access in
compiled code without bounds checks (numba, C++) or a signed overflow in C++. -/
inductive PyErr where
  | valueError
  | indexError
  | keyError
  | typeError
  | attributeError
  | assertionError
  | zeroDivisionError
  | runtimeError
  | fileNotFoundError
  | argumentTypeError
  | executableNotFoundError
  | emptyDataError
  | parserError
  | osError
  | overflowError
  | linAlgError
  | undefinedBehaviour
  deriving DecidableEq, Repr

/-- A Python computation that returns a value or raises. -/
abbrev Py (α : Type*) := Except PyErr α

/-- `raise e`. -/
abbrev Py.raise {α : Type*} (e : PyErr) : Py α := Except.error e

/-- `[f(x) for x in l]` (or a `for` loop filling an array) where `f` may raise: the
first exception stops the loop. -/
def pyMap {α β : Type*} (f : α → Py β) : List α → Py (List β)
  | [] => .ok []
  | a :: l =>
    match f a with
    | .error e => .error e
    | .ok b =>
      match pyMap f l with
      | .error e => .error e
      | .ok bs => .ok (b :: bs)

/-- Python's normalisation of a slice bound for a sequence of length `n`
(negative bounds count from the end, then clamp to `[0, n]`). -/
def sliceBound (n : ℕ) (i : ℤ) : ℕ :=
  if i < 0 then (i + n).toNat else min i.toNat n

/-- Python `l[i:j]`. -/
def pySlice {α : Type*} (l : List α) (i j : ℤ) : List α :=
  (l.drop (sliceBound l.length i)).take (sliceBound l.length j - sliceBound l.length i)

/-- Python `l[i]`: negative indices count from the end, everything else out of
range raises `IndexError`. -/
def pyIndex {α : Type*} (l : List α) (i : ℤ) : Py α :=
  let k : ℤ := if i < 0 then i + l.length else i
  if k < 0 then .error .indexError
  else match l[k.toNat]? with
    | some a => .ok a
    | none => .error .indexError

/-- Python `range(n)` for an integer `n` (empty when `n ≤ 0`). -/
def pyRange (n : ℤ) : List ℕ := List.range n.toNat

/-- The first `k` elements produced by `itertools.cycle(l)` when the current pass
still has to yield `cur`.  `cycle` of an empty iterable yields nothing. -/
def cycleFrom {α : Type*} (l : List α) : List α → ℕ → List α
  | _, 0 => []
  | a :: t, k + 1 => a :: cycleFrom l t k
  | [], k + 1 =>
    match l with
    | [] => []
    | a :: t => a :: cycleFrom (a :: t) t k

/-- `list(itertools.islice(itertools.cycle(l), k))`; a negative `k` raises
`ValueError`. -/
def isliceCycle {α : Type*} (l : List α) (k : ℤ) : Py (List α) :=
  if k < 0 then .error .valueError else .ok (cycleFrom l l k.toNat)

end Verif
