import Verif.Spec.Folder

/-!
# What a call that ended early leaves on the disk

Specification for C134, in terms of the entries of the file system only.
-/

namespace Verif

variable {α : Type}

/-- `d'` is `d` after a call, with the folder `p` and files of these names, that was stopped at any
moment: some of the missing directories on the way have been made, and some of the files have been
written, completely or not. -/
structure Disk.LeftBehind (d : Disk α) (p : PathStr) (names : List (List Char)) (d' : Disk α) :
    Prop where
  cwd : d'.cwd = d.cwd
  locked : d'.locked = d.locked
  tree : d'.Tree
  node : ∀ x, d'.node x = d.node x ∨
    (d.node x = none ∧ x ∈ d.way p ∧ d'.node x = some .dir) ∨
    ∃ n ∈ names, x = d.target p ++ [n] ∧ ∃ c, d'.node x = some (.file c)

end Verif
