import Verif.Model.Monitor

/-! # What arrives on the progress queue -/

namespace Verif

/-- The messages of one successful task (C36): steps in order, then `"done"`. -/
def taskMessages (id : String) (steps : ℕ) : List ProgressMsg :=
  (List.range steps).map (fun k => (id, some k)) ++ [(id, none)]

/-- The messages of a worker that runs the given tasks (identifier, number of steps) one after
another. -/
def workerMessages (tasks : List (String × ℕ)) : List ProgressMsg :=
  tasks.flatMap fun t => taskMessages t.1 t.2

/-- `Emits ss l ss'`: the sources `ss` have sent the messages `l`, in some interleaving that
respects the order of each source; `ss'` is what they have still to send. -/
inductive Emits {α : Type} (ss : List (List α)) : List α → List (List α) → Prop
  | nil : Emits ss [] ss
  | snoc {l : List α} {pre post : List (List α)} {x : α} {r : List α} :
      Emits ss l (pre ++ (x :: r) :: post) → Emits ss (l ++ [x]) (pre ++ r :: post)

/-- Number of `"done"` messages. -/
def doneCount (l : List ProgressMsg) : ℕ := (l.filter fun m => m.2 = none).length

/-- The last status of a task: `some k` if its last message was step `k`; `none` if it was
`"done"` or if there was none. -/
def lastStep (l : List ProgressMsg) (id : String) : Option ℕ :=
  match (l.filter fun m => m.1 = id).getLast? with
  | some (_, some k) => some k
  | _ => none

/-- Display rows of the active bars. -/
def Monitor.rows (m : Monitor) : List ℕ := m.bars.map fun x => x.2.pos.natAbs

/-- Display rows that are free. -/
def Monitor.freeRows (m : Monitor) : List ℕ := m.slots.map Int.natAbs

end Verif
