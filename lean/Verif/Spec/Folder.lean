import Verif.Py.Basic
import Verif.Model.Disk

/-!
# What a path means

Specification for C99, on the locations of the file system only: where a path leads, which
directories it passes, and when a folder can be made available.
-/

namespace Verif

variable {α : Type}

/-- The names in a path. -/
def namesIn (p : PathStr) : List (List Char) := (p.splitOn '/').filter (· ≠ [])

/-- One name: `.` stays, `..` goes up, any other name goes down. -/
def move (loc : Loc) (name : List Char) : Loc :=
  if name = ['.'] then loc else if name = ['.', '.'] then loc.dropLast else loc ++ [name]

/-- All locations on the way, with the first and the last. -/
def stations (loc : Loc) : List (List Char) → List Loc
  | [] => [loc]
  | name :: names => loc :: stations (move loc name) names

/-- Where the way ends. -/
def destination (loc : Loc) (names : List (List Char)) : Loc := names.foldl move loc

/-- The locations a path passes. -/
def Disk.way (d : Disk α) (p : PathStr) : List Loc :=
  stations (if p.head? = some '/' then [] else d.cwd) (namesIn p)

/-- The location a path names. -/
def Disk.target (d : Disk α) (p : PathStr) : Loc :=
  destination (if p.head? = some '/' then [] else d.cwd) (namesIn p)

/-- The file system is a tree, and the working directory is in it. -/
structure Disk.Tree (d : Disk α) : Prop where
  root : d.node [] = some .dir
  cwd : d.node d.cwd = some .dir
  parent : ∀ loc name, (d.node (loc ++ [name])).isSome → d.node loc = some .dir

/-- The location is a directory, or nothing is there and its directory can take new entries. -/
def Disk.Available (d : Disk α) (loc : Loc) : Prop :=
  d.node loc = some .dir ∨ d.node loc = none ∧ d.locked loc.dropLast = false

/-- The path is free of `..`, or free of `.`. -/
def Straight (p : PathStr) : Prop := ['.', '.'] ∉ namesIn p ∨ ['.'] ∉ namesIn p

/-- The name of a file in a directory. -/
structure FileName (name : List Char) : Prop where
  nonempty : name ≠ []
  noSlash : '/' ∉ name
  noDot : name ≠ ['.']
  noDots : name ≠ ['.', '.']

end Verif
