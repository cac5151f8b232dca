import Verif.Model.Cli
import Verif.Model.Batches

/-!
# Model of `float(str)` and of the number of snapshots for any two floats

`--snapshot_timestep` and `--flow_map_period` have `type=float` (hyperparameters.py:192-205), so
`argparse` calls `float` on the text.  The model follows CPython's `float_from_string`: blanks at both
ends, an optional sign, decimal digits with single underscores between digits, a fraction, an
exponent, or one of the words `inf`, `infinity`, `nan` in any case.  The result is the nearest
binary64 number, an infinity if that is beyond the range.  Zeros have no sign.
-/

namespace Verif

/-- A Python float. -/
inductive PyFloat where
  | num (x : Fl)
  | inf (negative : Bool)
  | nan
  deriving DecidableEq

/-- The float next to a rational number. -/
def PyFloat.ofRat (q : ℚ) : PyFloat :=
  match b64 q with
  | some x => .num ⟨x⟩
  | none => .inf (decide (q < 0))

/-- Digits that may be missing. -/
def scanPart (cd : CharData) (s : List Char) : Option (List ℕ × List Char) :=
  match s with
  | [] => some ([], [])
  | c :: _ => if (cd.digit c).isSome then scanDigits cd true s else some ([], s)

/-- The fraction, if there is one. -/
def scanFraction (cd : CharData) (s : List Char) : Option (List ℕ × List Char) :=
  match s with
  | '.' :: r => scanPart cd r
  | _ => some ([], s)

/-- The exponent, if there is one. -/
def scanExponent (cd : CharData) (s : List Char) : Option (ℤ × List Char) :=
  match s with
  | [] => some (0, [])
  | c :: r =>
    if c = 'e' ∨ c = 'E' then
      match scanDigits cd true (takeSign r).2 with
      | none => none
      | some (ds, rest) =>
        some (if (takeSign r).1 then -(digitsValue ds : ℤ) else digitsValue ds, rest)
    else some (0, s)

/-- An unsigned number, and what follows it. -/
def scanNumber (cd : CharData) (s : List Char) : Option (ℚ × List Char) :=
  match scanPart cd s with
  | none => none
  | some (ds, r₁) =>
    match scanFraction cd r₁ with
    | none => none
    | some (fs, r₂) =>
      if ds = [] ∧ fs = [] then none
      else
        match scanExponent cd r₂ with
        | none => none
        | some (e, r₃) => some (digitsValue (ds ++ fs) * (10 : ℚ) ^ (e - fs.length), r₃)

/-- Small letters for the capital letters of ASCII. -/
def lowerAscii (c : Char) : Char :=
  if 'A' ≤ c ∧ c ≤ 'Z' then Char.ofNat (c.toNat + 32) else c

/-- `s.rstrip()`. -/
def rstrip (cd : CharData) (s : List Char) : List Char := (s.reverse.dropWhile cd.isSpace).reverse

/-- `float(s)`; `none` is `ValueError`. -/
def readFloat (cd : CharData) (s : List Char) : Option PyFloat :=
  let t := s.dropWhile cd.isSpace
  let neg := (takeSign t).1
  let body := (takeSign t).2
  let word := (rstrip cd body).map lowerAscii
  if word = "inf".toList ∨ word = "infinity".toList then some (.inf neg)
  else if word = "nan".toList then some .nan
  else
    match scanNumber cd body with
    | none => none
    | some (q, rest) =>
      if rest.all cd.isSpace then some (.ofRat (if neg then -q else q)) else none

/-- The finite floats among them, for the parts of the model that compute with `Fl`. -/
def float64 (cd : CharData) (s : List Char) : Option Fl :=
  match readFloat cd s with
  | some (.num x) => some x
  | _ => none

/-- `int(flow_map_period / abs(timestep)) + 1` (__main__.py:134-136) for any two floats: a zero
divisor raises whatever the dividend is, NaN makes `int` raise `ValueError`, an infinity
`OverflowError`. -/
def snapshotsOf (period timestep : PyFloat) : Py ℤ :=
  match timestep, period with
  | .num h, .num T => snapshotsPerPeriod T.val h.val
  | .num h, .inf _ => if h.val = 0 then .error .zeroDivisionError else .error .overflowError
  | .num h, .nan => if h.val = 0 then .error .zeroDivisionError else .error .valueError
  | .inf _, .num _ => .ok 1
  | .inf _, .inf _ => .error .valueError
  | .inf _, .nan => .error .valueError
  | .nan, _ => .error .valueError

end Verif
