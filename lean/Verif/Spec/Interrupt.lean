import Verif.Model.Interrupt
import Verif.Spec.Schedule

/-! # What an execution with an interruption does, read off its actions alone -/

namespace Verif

variable {R : Type}

/-- The actions other than the interruption. -/
def poolActions : List (SigAction R) → List (Action R)
  | [] => []
  | .act a :: as => a :: poolActions as
  | .interrupt _ :: as => poolActions as

/-- Tasks submitted, in order. -/
def submissions : List (Action R) → List ℕ
  | [] => []
  | .submit i :: as => i :: submissions as
  | _ :: as => submissions as

/-- No worker process dies. -/
def NoDeath (as : List (SigAction R)) : Prop := .act .crash ∉ as

/-- Nothing more happens, unless a worker process dies. -/
def Settled (J : Job R) (s : SigPool R) : Prop := ∀ a s', SigPool.Step J s a s' → a = .act .crash

end Verif
