import Verif.Model.FloatText
import Verif.Spec.IntLiteral

/-!
# Specification of floating-point literals

The grammar of `float()` in the Python reference:

    sign        ::= "+" | "-"
    infinity    ::= "Infinity" | "inf"
    nan         ::= "nan"
    digitpart   ::= digit (["_"] digit)*
    number      ::= [digitpart] "." digitpart | digitpart ["."]
    exponent    ::= ("e" | "E") [sign] digitpart
    floatnumber ::= number [exponent]
    floatvalue  ::= [sign] (floatnumber | infinity | nan)

with blanks at both ends, case not being significant.
-/

namespace Verif

/-- Facts about the character tables the statements rely on. -/
def CharData.PlainLetters (cd : CharData) : Prop :=
  ∀ c ∈ ".eEinftyaINFTYA".toList, cd.digit c = none ∧ cd.isSpace c = false

/-- Digits before and after the point. -/
inductive NumberPart (cd : CharData) : List Char → List ℕ → List ℕ → Prop
  | whole {a ds} : DigitBody cd a ds → NumberPart cd a ds []
  | point {a ds} : DigitBody cd a ds → NumberPart cd (a ++ ['.']) ds []
  | fraction {b fs} : DigitBody cd b fs → NumberPart cd ('.' :: b) [] fs
  | both {a b ds fs} : DigitBody cd a ds → DigitBody cd b fs →
      NumberPart cd (a ++ '.' :: b) ds fs

/-- An exponent or nothing. -/
inductive ExponentPart (cd : CharData) : List Char → ℤ → Prop
  | none : ExponentPart cd [] 0
  | some {c sign body σ ds} : c = 'e' ∨ c = 'E' → SignOf sign σ → DigitBody cd body ds →
      ExponentPart cd (c :: (sign ++ body)) (σ * decimal ds)

/-- `s` is the word `w`, in small or capital letters. -/
def AnyCase (s w : List Char) : Prop := List.Forall₂ (fun c d => c = d ∨ c = d.toUpper) s w

/-- `x` is the float next to the number `q`. -/
def Nearest64 (q : ℚ) : PyFloat → Prop
  | .num y => y.val = rne q ∧ |rne q| < 2 ^ 1024
  | .inf negative => 2 ^ 1024 ≤ |rne q| ∧ (negative = true ↔ q < 0)
  | .nan => False

/-- What stands between the sign and the blanks at the end: the value `x` for the sign `σ`. -/
def UnsignedLiteral (cd : CharData) (body : List Char) (σ : ℤ) (x : PyFloat) : Prop :=
  (∃ m ex ds fs e, body = m ++ ex ∧ NumberPart cd m ds fs ∧ ExponentPart cd ex e ∧
    Nearest64 (σ * ((decimal ds + decimal fs / 10 ^ fs.length) * (10 : ℚ) ^ e)) x) ∨
  ((AnyCase body "inf".toList ∨ AnyCase body "infinity".toList) ∧ x = .inf (decide (σ = -1))) ∨
  (AnyCase body "nan".toList ∧ x = .nan)

/-- `s` is a floating-point literal of value `x`. -/
def FloatLiteral (cd : CharData) (s : List Char) (x : PyFloat) : Prop :=
  ∃ pre sign body post σ, s = pre ++ sign ++ body ++ post ∧
    (∀ c ∈ pre, cd.isSpace c = true) ∧ (∀ c ∈ post, cd.isSpace c = true) ∧ SignOf sign σ ∧
    UnsignedLiteral cd body σ x

/-- `s` is a literal of the decimal number `q`: no words, no rounding. -/
def DecimalLiteral (cd : CharData) (s : List Char) (q : ℚ) : Prop :=
  ∃ pre sign m ex post σ ds fs e, s = pre ++ sign ++ (m ++ ex) ++ post ∧
    (∀ c ∈ pre, cd.isSpace c = true) ∧ (∀ c ∈ post, cd.isSpace c = true) ∧ SignOf sign σ ∧
    NumberPart cd m ds fs ∧ ExponentPart cd ex e ∧
    q = σ * ((decimal ds + decimal fs / 10 ^ fs.length) * (10 : ℚ) ^ e)

end Verif
