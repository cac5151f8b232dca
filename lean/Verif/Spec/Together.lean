import Verif.Spec.Experiment

/-!
# Specification: experiments at the same time

Several experiments with their output folders and files on one file system.
-/

namespace Verif

variable {α : Type}

/-- Folder and files of an experiment. -/
structure Output (α : Type) where
  path : PathStr
  files : List (List Char × α)

/-- The disk has room for the output: the folder is there or can be made, the files can be saved in it,
and their names are different. -/
structure Output.Fits (o : Output α) (d : Disk α) : Prop where
  takes : d.Takes o.path (o.files.map Prod.fst)
  named : namesIn o.path ≠ []
  plain : ∀ c ∈ namesIn o.path, c ≠ ['.'] ∧ c ≠ ['.', '.']
  fileNames : ∀ f ∈ o.files, FileName f.1
  distinct : (o.files.map Prod.fst).Nodup

/-- The location is one of the files. -/
def Output.Owns (o : Output α) (d : Disk α) (x : Loc) : Prop :=
  ∃ f ∈ o.files, x = d.target o.path ++ [f.1]

/-- No file of one is in the way of the other, or a file of the other. -/
def Output.Apart (d : Disk α) (o o' : Output α) : Prop :=
  ∀ x, o.Owns d x → x ∉ d.way o'.path ∧ ¬ o'.Owns d x

/-- The output is there: the folder with the way to it, and each file with its content. -/
def Output.There (o : Output α) (d₀ d : Disk α) : Prop :=
  (∀ x ∈ d₀.way o.path, d.node x = some .dir) ∧
    ∀ f ∈ o.files, d.node (d₀.target o.path ++ [f.1]) = some (.file f.2)

end Verif
