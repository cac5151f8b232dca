import Mathlib.Data.Rat.Floor
import Verif.Spec.Binary64

/-!
# Model of the names of tasks and output files

`Path(p).stem` of `pathlib` (POSIX, Python 3.10–3.13) and `f"{t:06f}"`, used by
`data_source.py`, and the output name of `ftle_solver.py`.
-/

namespace Verif

/-- `s.split("/")`. -/
def splitSlash : List Char → List (List Char)
  | [] => [[]]
  | c :: cs =>
    if c = '/' then [] :: splitSlash cs
    else
      match splitSlash cs with
      | [] => [[c]]
      | p :: ps => (c :: p) :: ps

/-- `PurePosixPath(s).name`: the last component, empty components and `"."` not counted. -/
def pathName (s : List Char) : List Char :=
  (((splitSlash s).filter fun p => p ≠ [] ∧ p ≠ ['.']).getLast?).getD []

/-- `stem` of a name: with `i = name.rfind(".")`, `name[:i]` if `0 < i < len(name) - 1`, else
`name`. -/
def stemOfName (name : List Char) : List Char :=
  match name.reverse.dropWhile (· ≠ '.') with
  | _ :: b => if b ≠ [] ∧ name.reverse.takeWhile (· ≠ '.') ≠ [] then b.reverse else name
  | [] => name

/-- `Path(p).stem` (data_source.py:138). -/
def pathStem (p : String) : String := String.ofList (stemOfName (pathName p.toList))

/-- The six decimals. -/
def sixDigits (r : ℕ) : List Char :=
  [100000, 10000, 1000, 100, 10, 1].map fun p => Nat.digitChar (r / p % 10)

/-- `f"{t:06f}"` (data_source.py:251) for a finite number of magnitude `mag` and sign bit
`neg` (which is also set for `-0.0`): six decimals, correctly rounded with ties to even.  The
result always has at least eight characters, so the minimal width 6 has no effect. -/
def formatTime (neg : Bool) (mag : ℚ) : String :=
  let n := (roundEven (mag * 1000000)).toNat
  String.ofList ((if neg then ['-'] else []) ++ Nat.toDigits 10 (n / 1000000) ++ '.' ::
    sixDigits (n % 1000000))

/-- `formatTime` of a rational number (no signed zero). -/
def timeName (t : ℚ) : String := formatTime (decide (t < 0)) |t|

end Verif
