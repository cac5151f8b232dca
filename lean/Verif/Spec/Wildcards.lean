import Mathlib.Data.List.Basic

/-!
# Wildcards of the shell
-/

namespace Verif

/-- `Matches p s`: `*` stands for any text, `?` for any one character, every other character for
itself. -/
inductive Matches : List Char → List Char → Prop
  | nil : Matches [] []
  | star (u : List Char) {p s : List Char} : Matches p s → Matches ('*' :: p) (u ++ s)
  | any (c : Char) {p s : List Char} : Matches p s → Matches ('?' :: p) (c :: s)
  | same {c : Char} {p s : List Char} : c ≠ '*' → c ≠ '?' → Matches p s → Matches (c :: p) (c :: s)

end Verif
