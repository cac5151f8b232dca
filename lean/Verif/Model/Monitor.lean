import Verif.Py.Basic

/-!
# Model of `ParallelExecutor._monitor_progress` (`src/pyftle/parallel.py`)

A message is a pair of a task identifier and `some step` or `none` (the string `"done"`).

Contract for `tqdm` (terminal and notebook class): a bar created with `position=p` has
`bar.pos == -p` (the sign marks a fixed position; the display row is the absolute value), and
closing other bars does not change it.  tqdm 4.x moves a bar with positive `pos` when its row
is below the bottom of the screen (20 rows by default); this is not modelled.  What is drawn
is not modelled.
-/

namespace Verif

/-- A message on the progress queue. -/
abbrev ProgressMsg := String × Option ℕ

/-- A progress bar. -/
structure Bar where
  pos : ℤ
  n : ℕ

/-- Local variables of `_monitor_progress`. -/
structure Monitor where
  bars : List (String × Bar)
  slots : List ℤ
  finished : ℕ
  /-- the count shown by the global bar -/
  globalBar : ℕ

/-- Initial values (parallel.py:133-138). -/
def Monitor.init (workers : ℤ) : Monitor where
  bars := []
  slots := (pyRange workers).map fun k : ℕ => (k : ℤ) + 1
  finished := 0
  globalBar := 0

/-- `active_bars[id] = bar` for a new or an existing key. -/
def setBar (bars : List (String × Bar)) (id : String) (b : Bar) : List (String × Bar) :=
  if id ∈ bars.map Prod.fst then bars.map fun x => if x.1 = id then (id, b) else x
  else bars ++ [(id, b)]

/-- Processing of one message (parallel.py:142-164). -/
def Monitor.handle (m : Monitor) (msg : ProgressMsg) : Py Monitor :=
  match msg.2 with
  | none =>
    match m.bars.lookup msg.1 with
    | some b =>
      .ok { bars := m.bars.filter fun x => x.1 ≠ msg.1
            slots := m.slots ++ [b.pos]
            finished := m.finished + 1
            globalBar := m.globalBar + 1 }
    | none =>
      .ok { m with
            finished := m.finished + 1
            globalBar := m.globalBar + 1 }
  | some k =>
    let m' : Monitor :=
      match m.bars.lookup msg.1, m.slots with
      | none, pos :: rest =>
        { m with
          slots := rest
          bars := setBar m.bars msg.1 ⟨-pos, 0⟩ }
      | _, _ => m
    match m'.bars.lookup msg.1 with
    | none => .error .keyError
    | some b => .ok { m' with bars := setBar m'.bars msg.1 { b with n := k } }

/-- The inner loop: process messages until the queue is empty. -/
def Monitor.drain (m : Monitor) : List ProgressMsg → Py Monitor
  | [] => .ok m
  | msg :: msgs =>
    match m.handle msg with
    | .error e => .error e
    | .ok m' => m'.drain msgs

/-- The outer loop (parallel.py:140-165).  Each pass is given by what `_stop_event.is_set()`
answers and by the messages read before the queue is found empty.  The flag in the result
says whether the loop has been left. -/
def Monitor.loop (total : ℕ) (m : Monitor) : List (Bool × List ProgressMsg) → Py (Monitor × Bool)
  | [] => .ok (m, false)
  | (stop, msgs) :: passes =>
    if ¬ stop ∧ m.finished < total then
      match m.drain msgs with
      | .error e => .error e
      | .ok m' => m'.loop total passes
    else .ok (m, true)

end Verif
