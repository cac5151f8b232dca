import Verif.Model.Pool

/-! # What an execution of the pool does, read off its actions alone -/

namespace Verif

variable {R : Type}

/-- Tasks started, in order. -/
def starts : List (Action R) → List ℕ
  | [] => []
  | .start i :: as => i :: starts as
  | _ :: as => starts as

/-- Tasks finished by a worker, in order. -/
def finishes : List (Action R) → List ℕ
  | [] => []
  | .finish i :: as => i :: finishes as
  | _ :: as => finishes as

/-- Futures handed to the caller, with their results, in order. -/
def observations : List (Action R) → List (ℕ × Py R)
  | [] => []
  | .observe i r :: as => (i, r) :: observations as
  | _ :: as => observations as

/-- Tasks started and not yet finished. -/
def inProgress (as : List (Action R)) : List ℕ :=
  (starts as).filter fun i => i ∉ finishes as

end Verif
