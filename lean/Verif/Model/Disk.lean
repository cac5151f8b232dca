import Verif.Model.Names
import Verif.Model.Solver

/-!
# Model of the output folder

`os.path.join`, `os.path.split`, `os.makedirs` of Python 3.11 (`posixpath.py`, `os.py`) on a POSIX
file system, as used by `FTLEWriter.__init__` (file_writers.py:32-44), by `write`
(file_writers.py:121, 219) and by `MultipleFTLEProcessManager.__init__` (__main__.py:83-86).

Simplifications: one process at a time; no symbolic links, mount points, limits on the length of
names, null characters or full disks.  Permissions are one arbitrary predicate `locked`: nothing
can be created in a locked directory, and a locked file cannot be overwritten; reading and
searching are always allowed.
-/

namespace Verif

/-- A string. -/
abbrev PathStr := List Char

/-- An entry of the file system: the names on the way from the root to it. -/
abbrev Loc := List (List Char)

/-- The subclasses of `OSError` that occur here. -/
inductive Errno where
  /-- `FileNotFoundError` -/
  | noEntry
  /-- `NotADirectoryError` -/
  | notDir
  /-- `FileExistsError` -/
  | exists
  /-- `IsADirectoryError` -/
  | isDir
  /-- `PermissionError` -/
  | denied
deriving DecidableEq

/-- A directory, or a file with its content. -/
inductive Node (α : Type) where
  | dir
  | file (content : α)
deriving DecidableEq

/-- A file system and the working directory of the process. -/
structure Disk (α : Type) where
  cwd : Loc
  node : Loc → Option (Node α)
  locked : Loc → Bool

variable {α : Type}

/-- `a[loc] = n`. -/
def Disk.set (d : Disk α) (loc : Loc) (n : Node α) : Disk α :=
  { d with
    node := fun x => if x = loc then some n else d.node x }

/-! ### Path names -/

/-- The names between the slashes. -/
def pathNames (p : PathStr) : List (List Char) := (splitSlash p).filter (· ≠ [])

/-- `p.startswith("/")`. -/
def isAbs (p : PathStr) : Bool := p.head? = some '/'

/-- `p.endswith("/")`. -/
def endsSlash (p : PathStr) : Bool := p.getLast? = some '/'

/-- `os.path.join(a, b)` (posixpath.py:71-92). -/
def pathJoin (a b : PathStr) : PathStr :=
  if isAbs b then b
  else if a = [] ∨ endsSlash a then a ++ b
  else a ++ '/' :: b

/-- `os.path.split(p)` (posixpath.py:100-109): the part after the last slash and the part up to
it, the latter without its trailing slashes unless it has nothing else. -/
def pathSplit (p : PathStr) : PathStr × PathStr :=
  let head := (p.reverse.dropWhile (· ≠ '/')).reverse
  let tail := (p.reverse.takeWhile (· ≠ '/')).reverse
  if head.all (· = '/') then (head, tail)
  else ((head.reverse.dropWhile (· = '/')).reverse, tail)

/-- Head and tail in `os.makedirs` (os.py:210-212). -/
def pathParts (p : PathStr) : PathStr × PathStr :=
  if (pathSplit p).2 = [] then pathSplit (pathSplit p).1 else pathSplit p

/-! ### System calls -/

/-- Where path resolution starts. -/
def Disk.start (d : Disk α) (p : PathStr) : Loc := if isAbs p then [] else d.cwd

/-- Looking up a name in the entry `loc`, which must be a directory. -/
def Disk.enter (d : Disk α) (loc : Loc) (name : List Char) : Except Errno Loc :=
  match d.node loc with
  | none => .error .noEntry
  | some (.file _) => .error .notDir
  | some .dir =>
    if name = ['.'] then .ok loc
    else if name = ['.', '.'] then .ok loc.dropLast
    else .ok (loc ++ [name])

/-- Path resolution (POSIX.1-2017, 4.13) without symbolic links. -/
def Disk.walk (d : Disk α) (loc : Loc) : List (List Char) → Except Errno Loc
  | [] => .ok loc
  | name :: names =>
    match d.enter loc name with
    | .error e => .error e
    | .ok loc' => d.walk loc' names

/-- `os.stat(p)`: the entry; a path that ends in a slash must name a directory. -/
def Disk.stat (d : Disk α) (p : PathStr) : Except Errno (Node α) :=
  if p = [] then .error .noEntry
  else
    match d.walk (d.start p) (pathNames p) with
    | .error e => .error e
    | .ok loc =>
      match d.node loc with
      | none => .error .noEntry
      | some .dir => .ok .dir
      | some (.file c) => if endsSlash p then .error .notDir else .ok (.file c)

/-- `os.path.exists(p)`. -/
def Disk.exists (d : Disk α) (p : PathStr) : Bool :=
  match d.stat p with
  | .ok _ => true
  | .error _ => false

/-- `os.path.isdir(p)`. -/
def Disk.isDir (d : Disk α) (p : PathStr) : Bool :=
  match d.stat p with
  | .ok .dir => true
  | _ => false

/-- The directory in which the last name of a path is to be created. -/
def Disk.parent (d : Disk α) (p : PathStr) : Except Errno Loc :=
  match d.walk (d.start p) (pathNames p).dropLast with
  | .error e => .error e
  | .ok loc =>
    match d.node loc with
    | none => .error .noEntry
    | some (.file _) => .error .notDir
    | some .dir => .ok loc

/-- `os.mkdir(p)`; trailing slashes are allowed. -/
def Disk.mkdir (d : Disk α) (p : PathStr) : Except Errno (Disk α) :=
  if p = [] then .error .noEntry
  else
    match (pathNames p).getLast? with
    | none => .error .exists
    | some name =>
      match d.parent p with
      | .error e => .error e
      | .ok loc =>
        if name = ['.'] ∨ name = ['.', '.'] then .error .exists
        else if (d.node (loc ++ [name])).isSome then .error .exists
        else if d.locked loc then .error .denied
        else .ok (d.set (loc ++ [name]) .dir)

/-- `open(p, "wb")`, the content written and the file closed. -/
def Disk.save (d : Disk α) (p : PathStr) (content : α) : Except Errno (Disk α) :=
  if p = [] then .error .noEntry
  else
    match (pathNames p).getLast? with
    | none => .error .isDir
    | some name =>
      match d.parent p with
      | .error e => .error e
      | .ok loc =>
        if endsSlash p ∨ name = ['.'] ∨ name = ['.', '.'] then .error .isDir
        else
          match d.node (loc ++ [name]) with
          | some .dir => .error .isDir
          | some (.file _) =>
            if d.locked (loc ++ [name]) then .error .denied
            else .ok (d.set (loc ++ [name]) (.file content))
          | none =>
            if d.locked loc then .error .denied
            else .ok (d.set (loc ++ [name]) (.file content))

/-! ### `os.makedirs` and the writer -/

theorem pathSplit_length (p : PathStr) : (pathSplit p).1.length + (pathSplit p).2.length ≤ p.length := by
  have h : (p.reverse.takeWhile (· ≠ '/')).length + (p.reverse.dropWhile (· ≠ '/')).length =
      p.length := by
    rw [← List.length_append, List.takeWhile_append_dropWhile, List.length_reverse]
  unfold pathSplit
  simp only
  split
  · simp only [List.length_reverse]
    omega
  · simp only [List.reverse_reverse, List.length_reverse]
    have := (List.dropWhile_sublist (fun c => decide (c = '/'))
      (l := p.reverse.dropWhile (· ≠ '/'))).length_le
    omega

theorem pathParts_length (p : PathStr) (h : (pathParts p).2 ≠ []) :
    (pathParts p).1.length < p.length := by
  have h1 := pathSplit_length p
  have h2 := pathSplit_length (pathSplit p).1
  have h3 := List.length_pos_iff.2 h
  unfold pathParts at h3 ⊢
  split at h3 <;> rename_i hc
  · rw [if_pos hc]
    omega
  · rw [if_neg hc]
    omega

/-- The end of `os.makedirs(p, exist_ok=True)` (os.py:224-230). -/
def Disk.mkdirOk (d : Disk α) (p : PathStr) : Disk α × Option Errno :=
  match d.mkdir p with
  | .ok d' => (d', none)
  | .error e => (d, if d.isDir p then none else some e)

/-- `os.makedirs(p, exist_ok=True)` (os.py:200-230): the file system afterwards and the exception,
if any. -/
def Disk.makedirs (d : Disk α) (p : PathStr) : Disk α × Option Errno :=
  if _h : (pathParts p).1 ≠ [] ∧ (pathParts p).2 ≠ [] ∧ d.exists (pathParts p).1 = false then
    match d.makedirs (pathParts p).1 with
    | (d', some e) =>
      if e = .exists then
        if (pathParts p).2 = ['.'] then (d', none) else d'.mkdirOk p
      else (d', some e)
    | (d', none) => if (pathParts p).2 = ['.'] then (d', none) else d'.mkdirOk p
  else d.mkdirOk p
termination_by p.length
decreasing_by exact pathParts_length p _h.2.1

/-- `FTLEWriter.__init__` (file_writers.py:36-41): an `OSError` of `os.makedirs` is printed and
dropped; the constructor always returns. -/
def Disk.openFolder (d : Disk α) (path : PathStr) : Disk α × List String :=
  match d.makedirs path with
  | (d', none) => (d', [])
  | (d', some _) => (d', ["Error creating output folder: "])

/-- The file of one call of `write`: `os.path.join(self.path, name)` with the extension
(file_writers.py:121, 219). -/
def Disk.writeFile (d : Disk α) (path : PathStr) (name : List Char) (content : α) :
    Except Errno (Disk α) :=
  d.save (pathJoin path name) content

/-- Several files one after the other; an exception ends it. -/
def Disk.writeFiles (d : Disk α) (path : PathStr) : List (List Char × α) → Disk α × Option Errno
  | [] => (d, none)
  | (name, content) :: rest =>
    match d.writeFile path name content with
    | .error e => (d, some e)
    | .ok d' => d'.writeFiles path rest

/-- `write` of a writer whose folder is `path` (file_writers.py:117-163, 215-277): `prepare` are the
errors of preparing the data, then the file is saved.  The extension is added by the writer
(`.mat`, `.vts`, `.vtp`).  Contract for PyVista and VTK: a file that cannot be opened is an error, as
for `savemat` (VTK itself only prints a message). -/
def Disk.writeIn {K F : Type} (d : Disk α) (path : PathStr) (ext : String)
    (content : List F → NDArray K → α) (prepare : WriteFn K F) : WriteFn K F :=
  fun name values centroids =>
    match prepare name values centroids with
    | some e => some e
    | none =>
      match d.writeFile path (name ++ ext).toList (content values centroids) with
      | .error _ => some .osError
      | .ok _ => none

/-- `os.path.join("outputs", args.experiment_name)` (__main__.py:83). -/
def experimentFolder (name : PathStr) : PathStr := pathJoin "outputs".toList name

end Verif
