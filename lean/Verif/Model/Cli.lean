import Verif.Model.Interpolate
import Verif.Model.Factories

/-!
# Model of `src/pyftle/hyperparameters.py` and of the set-up in `__main__.py`

`int(s)` is modelled from CPython's `PyLong_FromUnicodeObject`: blanks at both ends, an optional
sign, decimal digits with single underscores between digits.  What counts as a decimal digit or
a blank outside ASCII, and the digit limit of `int` (`sys.set_int_max_str_digits`), are
parameters.
-/

namespace Verif

/-- What `int(str)` needs to know about characters. -/
structure CharData where
  /-- value of a Unicode decimal digit -/
  digit : Char → Option ℕ
  /-- Unicode white space -/
  isSpace : Char → Bool
  /-- largest accepted number of digits (4300 by default since Python 3.11) -/
  maxDigits : ℕ

/-- The digit scanner: `prev` says that no digit has been read since the start or since the last
underscore.  Returns the digits and the unread rest. -/
def scanDigits (cd : CharData) (prev : Bool) : List Char → Option (List ℕ × List Char)
  | [] => if prev then none else some ([], [])
  | c :: cs =>
    match cd.digit c with
    | some v =>
      match scanDigits cd false cs with
      | some (ds, rest) => some (v :: ds, rest)
      | none => none
    | none =>
      if c = '_' then
        if prev then none else scanDigits cd true cs
      else if prev then none
      else some ([], c :: cs)

/-- Value of a list of decimal digits. -/
def digitsValue (ds : List ℕ) : ℕ := ds.foldl (fun a d => 10 * a + d) 0

/-- The optional sign: whether it is a minus, and the rest. -/
def takeSign (s : List Char) : Bool × List Char :=
  match s with
  | '+' :: cs => (false, cs)
  | '-' :: cs => (true, cs)
  | _ => (false, s)

/-- `int(s)` for a string. -/
def pyInt (cd : CharData) (s : List Char) : Py ℤ :=
  let s := s.dropWhile cd.isSpace
  let neg := (takeSign s).1
  match scanDigits cd true (takeSign s).2 with
  | none => .error .valueError
  | some (ds, rest) =>
    if rest.all cd.isSpace then
      if ds.length ≤ cd.maxDigits then
        .ok (if neg then -(digitsValue ds : ℤ) else digitsValue ds)
      else .error .valueError
    else .error .valueError

/-- `s.split(",")`. -/
def splitComma : List Char → List (List Char)
  | [] => [[]]
  | c :: cs =>
    if c = ',' then [] :: splitComma cs
    else
      match splitComma cs with
      | [] => [[c]]
      | p :: ps => (c :: p) :: ps

/-- `parse_tuple` (hyperparameters.py:96-145). -/
def parseTuple (cd : CharData) (value : List Char) : Py (List ℤ) :=
  match pyMap (pyInt cd) (splitComma value) with
  | .error e => .error e
  | .ok vs =>
    if vs.length = 2 ∨ vs.length = 3 then
      if vs.all (fun x => decide (0 < x)) then
        if vs.getLast? = some 1 then .ok vs.dropLast else .ok vs
      else .error .valueError
    else .error .valueError

/-- What the command line (or the YAML file) says about the options with `choices`; `none` is an
omitted option.  None of the three has a `default=` (hyperparameters.py:199-231), so an omitted
option is `None` in the result. -/
structure CliOptions where
  integrator : Option String
  interpolator : Option String
  outputFormat : Option String

/-- `choices=[...]` (hyperparameters.py:200-204, 206-210, 224-228). -/
def integratorChoices : List String := ["rk4", "euler", "ab2"]
/-- See `integratorChoices`. -/
def interpolatorChoices : List String := ["cubic", "linear", "nearest", "grid"]
/-- See `integratorChoices`. -/
def formatChoices : List String := ["mat", "vtk"]

/-- `argparse` refuses (by exiting) a value outside the choices; an omitted option is not
checked. -/
def CliOptions.Accepted (o : CliOptions) : Prop :=
  (∀ s ∈ o.integrator, s ∈ integratorChoices) ∧ (∀ s ∈ o.interpolator, s ∈ interpolatorChoices) ∧
    ∀ s ∈ o.outputFormat, s ∈ formatChoices

/-- `create_interpolator(args.interpolator, shape)`, `None.lower()` raising
`AttributeError`. -/
def cliInterpolator {K : Type} [Zero K] (lower : String → String) (name : Option String)
    (gridShape : Option (List ℕ)) : Py (AnyInterp K) :=
  match name with
  | none => .error .attributeError
  | some s => createInterpolator lower s gridShape none

/-- `create_integrator(args.integrator, interpolator)`. -/
def cliIntegrator (lower : String → String) (name : Option String) : Py Kind :=
  match name with
  | none => .error .attributeError
  | some s => createIntegrator lower s

/-- `create_writer(args.output_format, ...)`: `None` equals neither format. -/
def cliWriter (format : Option String) : Py WriterKind :=
  match format with
  | none => .error .valueError
  | some s => createWriter s

/-- The three factory calls of `MultipleFTLEProcessManager.__init__` (__main__.py:80-87), in
order. -/
def setup {K : Type} [Zero K] (lower : String → String) (o : CliOptions)
    (flowGridShape : Option (List ℕ)) : Py (AnyInterp K × Kind × WriterKind) :=
  match cliInterpolator lower o.interpolator flowGridShape with
  | .error e => .error e
  | .ok i =>
    match cliIntegrator lower o.integrator with
    | .error e => .error e
    | .ok k =>
      match cliWriter o.outputFormat with
      | .error e => .error e
      | .ok w => .ok (i, k, w)

end Verif
