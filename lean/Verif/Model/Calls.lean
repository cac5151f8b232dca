import Verif.Model.Disk

/-!
# The output folder, one system call at a time

`os.makedirs` and the saving of the files as sequences of system calls, so that calls of other processes
can come in between.  Simplifications: as in `Model/Disk.lean`, except that there is more than one process;
opening, writing and closing a file is one call (no other process opens the same file in the theorems).
-/

namespace Verif

/-- A process that makes system calls, looks at their outcome, and ends with a result. -/
inductive Calls (α R : Type) where
  | done (r : R)
  /-- `os.stat(p)` -/
  | stat (p : PathStr) (k : Except Errno (Node α) → Calls α R)
  /-- `os.mkdir(p)`: the exception, if any -/
  | mkdir (p : PathStr) (k : Option Errno → Calls α R)
  /-- a file is opened, written and closed: the exception, if any -/
  | save (p : PathStr) (content : α) (k : Option Errno → Calls α R)

variable {α R S : Type}

/-- One process after the other. -/
def Calls.bind : Calls α R → (R → Calls α S) → Calls α S
  | .done r, f => f r
  | .stat p k, f => .stat p fun x => (k x).bind f
  | .mkdir p k, f => .mkdir p fun x => (k x).bind f
  | .save p c k, f => .save p c fun x => (k x).bind f

/-- The next system call: the file system afterwards and the rest of the process. -/
def Calls.next (d : Disk α) : Calls α R → Option (Disk α × Calls α R)
  | .done _ => none
  | .stat p k => some (d, k (d.stat p))
  | .mkdir p k =>
    match d.mkdir p with
    | .ok d' => some (d', k none)
    | .error e => some (d, k (some e))
  | .save p c k =>
    match d.save p c with
    | .ok d' => some (d', k none)
    | .error e => some (d, k (some e))

/-- The process alone on the machine. -/
def Calls.alone : Calls α R → Disk α → Disk α × R
  | .done r, d => (d, r)
  | .stat p k, d => (k (d.stat p)).alone d
  | .mkdir p k, d =>
    match d.mkdir p with
    | .ok d' => (k none).alone d'
    | .error e => (k (some e)).alone d
  | .save p c k, d =>
    match d.save p c with
    | .ok d' => (k none).alone d'
    | .error e => (k (some e)).alone d

/-- The end of `os.makedirs(p, exist_ok=True)` (os.py:224-230): after any `OSError` of `mkdir`,
`path.isdir(name)` decides. -/
def mkdirOkCalls (p : PathStr) : Calls α (Option Errno) :=
  .mkdir p fun
    | none => .done none
    | some e => .stat p fun
      | .ok .dir => .done none
      | _ => .done (some e)

/-- `os.makedirs(p, exist_ok=True)` (os.py:200-230). -/
def makedirsCalls (p : PathStr) : Calls α (Option Errno) :=
  if _h : (pathParts p).1 ≠ [] ∧ (pathParts p).2 ≠ [] then
    .stat (pathParts p).1 fun
      | .ok _ => mkdirOkCalls p
      | .error _ =>
        (makedirsCalls (pathParts p).1).bind fun
          | some e =>
            if e = .exists then
              if (pathParts p).2 = ['.'] then .done none else mkdirOkCalls p
            else .done (some e)
          | none => if (pathParts p).2 = ['.'] then .done none else mkdirOkCalls p
  else mkdirOkCalls p
termination_by p.length
decreasing_by exact pathParts_length p _h.2

/-- The files of the calls of `write`, one after the other (file_writers.py:121, 219); an exception ends
it. -/
def saveCalls (path : PathStr) : List (List Char × α) → Calls α (Option Errno)
  | [] => .done none
  | (name, content) :: rest =>
    .save (pathJoin path name) content fun
      | none => saveCalls path rest
      | some e => .done (some e)

/-- What a call of the program does on the disk: the constructor of the writer (file_writers.py:36-41),
then the files.  The result is what the constructor prints and the exception of the saving, if any. -/
def outputCalls (path : PathStr) (files : List (List Char × α)) :
    Calls α (List String × Option Errno) :=
  (makedirsCalls path).bind fun e =>
    (saveCalls path files).bind fun r =>
      .done (match e with
        | none => []
        | some _ => ["Error creating output folder: "], r)

/-- Processes that share a file system: at each moment one of them makes its next system call. -/
inductive Interleaved {ι : Type} [DecidableEq ι] :
    Disk α → (ι → Calls α R) → Disk α → (ι → Calls α R) → Prop where
  | here (d : Disk α) (P : ι → Calls α R) : Interleaved d P d P
  | step {d d₁ d₂ : Disk α} {P Q : ι → Calls α R} {C : Calls α R} (i : ι)
      (h : (P i).next d = some (d₁, C)) (hr : Interleaved d₁ (Function.update P i C) d₂ Q) :
      Interleaved d P d₂ Q

end Verif
