import Verif.Spec.ConfigFile

/-!
# Specification of entries without a value

How a line of a configuration file is taken that names an option and gives no value for it.
-/

namespace Verif

/-- The text of a comment: it starts with `;` or `#`, has no blank at its end, and contains no
further comment. -/
structure RemarkText (isSpace : Char → Bool) (w : Str) : Prop where
  first : w.head? = some ';' ∨ w.head? = some '#'
  last : ∀ c ∈ w.getLast?, isSpace c = false
  comment : ∀ a s c b, w = a ++ s :: c :: b → isSpace s = true → c ≠ ';' ∧ c ≠ '#'

/-- The line names `key` and gives no value; it is taken as the value `v`. -/
inductive Valueless (isSpace : Char → Bool) : Str → Str → Str → Prop
  /-- `KEY`: the value is the word `true`. -/
  | alone {a key t} : Blank isSpace a → Key isSpace key → Blank isSpace t →
      Valueless isSpace (a ++ key ++ t) key "true".toList
  /-- `KEY:` or `KEY =`: the value is the empty string. -/
  | sign {a key b c t} : Blank isSpace a → Key isSpace key → Blank isSpace b → c = ':' ∨ c = '=' →
      Blank isSpace t → Valueless isSpace (a ++ key ++ (b ++ [c]) ++ t) key []
  /-- `KEY: ""` or `KEY = ''`, possibly with a comment: the empty string. -/
  | quotes {a key b c d q r} : Blank isSpace a → Key isSpace key → Blank isSpace b →
      c = ':' ∨ c = '=' → Blank isSpace d → q = '\'' ∨ q = '"' → q ∉ r → Remark isSpace r →
      Valueless isSpace (a ++ key ++ (b ++ c :: d) ++ q :: q :: r) key []
  /-- `KEY ""`: the word `true`. -/
  | quotesTrue {a key b q r} : Blank isSpace a → Key isSpace key → Blank isSpace b →
      q = '\'' ∨ q = '"' → q ∉ r → Remark isSpace r → isSpace ' ' = true →
      Valueless isSpace (a ++ key ++ (b ++ [' ']) ++ q :: q :: r) key "true".toList
  /-- `KEY: # COMMENT`, `KEY # COMMENT`: the value is the comment. -/
  | remark {a key b w r} : Blank isSpace a → Key isSpace key → Between isSpace b →
      RemarkText isSpace w → Remark isSpace r → Valueless isSpace (a ++ key ++ b ++ (w ++ r)) key w

/-- The lines are read as these entries, in this order. -/
inductive LinesRead (isSpace : Char → Bool) : List Str → List (Str × Str) → Prop
  | nil : LinesRead isSpace [] []
  | silent {line lines es} : Silent isSpace line → LinesRead isSpace lines es →
      LinesRead isSpace (line :: lines) es
  | entry {line lines key v es} : Entry isSpace line key v → LinesRead isSpace lines es →
      LinesRead isSpace (line :: lines) ((key, v) :: es)
  | valueless {line lines key v es} : Valueless isSpace line key v → LinesRead isSpace lines es →
      LinesRead isSpace (line :: lines) ((key, v) :: es)

end Verif
