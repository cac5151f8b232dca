import Verif.Model.Cli

/-!
# Specification of integer literals and of comma separated lists

The grammar of `int()` in the Python reference: optional blanks, an optional sign, digits with
single underscores allowed between digits, optional blanks.
-/

namespace Verif

/-- Facts about the character tables the statements rely on. -/
structure CharData.Lawful (cd : CharData) : Prop where
  space_not_digit : ∀ c, cd.isSpace c = true → cd.digit c = none
  plus : cd.digit '+' = none ∧ cd.isSpace '+' = false
  minus : cd.digit '-' = none ∧ cd.isSpace '-' = false
  underscore : cd.digit '_' = none ∧ cd.isSpace '_' = false

/-- Digits with single underscores between them, and the digit values. -/
inductive DigitBody (cd : CharData) : List Char → List ℕ → Prop
  | one {c v} : cd.digit c = some v → DigitBody cd [c] [v]
  | cons {c v s ds} : cd.digit c = some v → DigitBody cd s ds → DigitBody cd (c :: s) (v :: ds)
  | underscore {c v s ds} : cd.digit c = some v → DigitBody cd s ds →
      DigitBody cd (c :: '_' :: s) (v :: ds)

/-- Sign of a literal. -/
inductive SignOf : List Char → ℤ → Prop
  | none : SignOf [] 1
  | plus : SignOf ['+'] 1
  | minus : SignOf ['-'] (-1)

/-- The number written by a list of digits, most significant first. -/
def decimal (ds : List ℕ) : ℕ :=
  ((List.range ds.length).map fun i => ds.getD i 0 * 10 ^ (ds.length - 1 - i)).sum

/-- `s` is an integer literal of value `v`. -/
def IntLiteral (cd : CharData) (s : List Char) (v : ℤ) : Prop :=
  ∃ pre sign body post σ ds, s = pre ++ sign ++ body ++ post ∧
    (∀ c ∈ pre, cd.isSpace c = true) ∧ (∀ c ∈ post, cd.isSpace c = true) ∧
    SignOf sign σ ∧ DigitBody cd body ds ∧ ds.length ≤ cd.maxDigits ∧ v = σ * decimal ds

/-- `parts` are the pieces of `s` between commas. -/
def CommaParts (s : List Char) (parts : List (List Char)) : Prop :=
  parts ≠ [] ∧ (∀ p ∈ parts, ',' ∉ p) ∧ (parts.intersperse [',']).flatten = s

/-- ASCII characters, with the default digit limit. -/
def asciiData : CharData where
  digit c := if '0' ≤ c ∧ c ≤ '9' then some (c.toNat - '0'.toNat) else none
  isSpace c := c = ' ' ∨ c = '\t' ∨ c = '\n' ∨ c = '\r' ∨ c = Char.ofNat 11 ∨ c = Char.ofNat 12
  maxDigits := 4300

end Verif
