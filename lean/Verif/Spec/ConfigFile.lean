import Verif.Model.Config
import Verif.Spec.CommandLine

/-!
# Specification of command lines with a configuration file
-/

namespace Verif

/-- `n` is a way to write option `o`: its name, an unambiguous abbreviation, or `-c`. -/
def Writes (n : Str) (o : Opt) : Prop := Names n o ∨ (n = "-c".toList ∧ o = .config)

/-- The command line consists of these options with these values; as `Reads`, but a configuration
file may be named: `-c FILE`, `-c=FILE`, `-cFILE`, `--config FILE`, `--config=FILE`. -/
inductive Says (cd : CharData) : List Str → List (Opt × Str) → Prop
  | nil : Says cd [] []
  | pair {n o v rest l} : Writes n o → o ≠ .help → Plain cd v → Says cd rest l →
      Says cd (n :: v :: rest) ((o, v) :: l)
  | glued {n o v rest l} : Writes n o → o ≠ .help → Says cd rest l →
      Says cd ((n ++ '=' :: v) :: rest) ((o, v) :: l)
  | short {v rest l} : v ≠ [] → v.head? ≠ some '=' → Says cd rest l →
      Says cd (("-c".toList ++ v) :: rest) ((.config, v) :: l)

/-- `n` stands on the command line, alone or followed by `=`. -/
def Mentions (argv : List Str) (n : Str) : Prop := n ∈ argv ∨ ∃ x, n ++ '=' :: x ∈ argv

/-- The command line has option `o` under its full name (or as `-c`, `-h`). -/
def Given (argv : List Str) (o : Opt) : Prop :=
  Mentions argv o.name ∨ (o = .config ∧ Mentions argv "-c".toList) ∨
    (o = .help ∧ Mentions argv "-h".toList)

/-- `key` is the name of option `o`, with or without the two dashes. -/
def KeyFor (key : Str) (o : Opt) : Prop := key = o.name ∨ "--".toList ++ key = o.name

/-- `t` is `s` without the characters `p` at both ends. -/
def Trimmed (p : Char → Prop) (s t : Str) : Prop :=
  ∃ a b, s = a ++ t ++ b ∧ (∀ c ∈ a, p c) ∧ (∀ c ∈ b, p c) ∧ (∀ c ∈ t.head?, ¬ p c) ∧
    ∀ c ∈ t.getLast?, ¬ p c

/-- The strings of a value. -/
def CfgValue.strings : CfgValue → List Str
  | .text s => [s]
  | .list l => l

/-- What the entries of a configuration file say in addition to the command line `argv`.  `option`
is the documented use, `overridden` the precedence of the command line.  The other cases are entries
whose key is no name of an option. -/
inductive FileSays (argv : List Str) : List (Str × CfgValue) → List (Opt × Str) → Prop
  | nil : FileSays argv [] []
  | overridden {key o v items m} : KeyFor key o → Given argv o → FileSays argv items m →
      FileSays argv ((key, v) :: items) m
  | option {key o s items m} : KeyFor key o → o ≠ .help → ¬ Given argv o →
      FileSays argv items m → FileSays argv ((key, .text s) :: items) ((o, s) :: m)
  | oddOverridden {key k v items m} : (∀ o, ¬ KeyFor key o) → Trimmed (· = '-') key k →
      Mentions argv ("--".toList ++ k) → FileSays argv items m →
      FileSays argv ((key, v) :: items) m
  | abbreviated {key k o v items m} : (∀ o, ¬ KeyFor key o) → Trimmed (· = '-') key k →
      ¬ Mentions argv ("--".toList ++ k) → Names ("--".toList ++ k) o → o ≠ .help →
      FileSays argv items m → FileSays argv ((key, v) :: items) (v.strings.map (o, ·) ++ m)
  | nothing {key items m} : (∀ o, ¬ KeyFor key o) → FileSays argv items m →
      FileSays argv ((key, .list []) :: items) m

/-- What the configuration file named by the options `l` of the command line `argv` says, if one is
named. -/
def FromFile (items : Str → Option (List (Str × CfgValue))) (argv : List Str)
    (l m : List (Opt × Str)) : Prop :=
  ((∀ p, LastValue l .config p → p = []) ∧ m = []) ∨
    ∃ p es, LastValue l .config p ∧ p ≠ [] ∧ items p = some es ∧ FileSays argv es m

/-! ## Lines -/

/-- The characters with a meaning are no blanks. -/
def Marks (isSpace : Char → Bool) : Prop := ∀ c ∈ ":=;#[-'\"".toList, isSpace c = false

/-- A value as it may stand unquoted in a line: no blanks at its ends, no quote, `:` or `=` at its
start, no `;` or `#` behind a blank. -/
structure PlainValue (isSpace : Char → Bool) (v : Str) : Prop where
  first : ∃ c r, v = c :: r ∧ isSpace c = false ∧ c ≠ '\'' ∧ c ≠ '"' ∧ c ≠ ';' ∧ c ≠ '#' ∧
    c ≠ ':' ∧ c ≠ '='
  last : ∀ c ∈ v.getLast?, isSpace c = false
  comment : ∀ a s c b, v = a ++ s :: c :: b → isSpace s = true → c ≠ ';' ∧ c ≠ '#'

/-- A value as written in a line: plain, or between quotes (`"` or `'`) that do not occur in it. -/
inductive Written (isSpace : Char → Bool) : Str → Str → Prop
  | plain {v} : PlainValue isSpace v → Written isSpace v v
  | quoted {v q} : q = '\'' ∨ q = '"' → v ≠ [] → q ∉ v → Written isSpace v (q :: v ++ [q])

/-- Blanks. -/
def Blank (isSpace : Char → Bool) (s : Str) : Prop := ∀ c ∈ s, isSpace c = true

/-- What may follow a value: blanks, and a comment behind at least one blank. -/
def Remark (isSpace : Char → Bool) (s : Str) : Prop :=
  Blank isSpace s ∨ ∃ a c r, s = a ++ c :: r ∧ a ≠ [] ∧ Blank isSpace a ∧ (c = ';' ∨ c = '#')

/-- What stands between key and value: `:`, `=`, possibly between blanks, or just blanks. -/
inductive Between (isSpace : Char → Bool) : Str → Prop
  | sign {a c b} : c = ':' ∨ c = '=' → Blank isSpace a → Blank isSpace b →
      Between isSpace (a ++ c :: b)
  | blank {a} : a ≠ [] → Blank isSpace a → Between isSpace a

/-- A key: no blanks and none of `:=;#`; neither `[` nor `---` at its start. -/
structure Key (isSpace : Char → Bool) (key : Str) : Prop where
  nonempty : key ≠ []
  chars : ∀ c ∈ key, isSpace c = false ∧ c ≠ ':' ∧ c ≠ '=' ∧ c ≠ ';' ∧ c ≠ '#'
  start : key.head? ≠ some '[' ∧ ¬ "---".toList <+: key

/-- The line says that `key` has the value `v`. -/
def Entry (isSpace : Char → Bool) (line key v : Str) : Prop :=
  Key isSpace key ∧ ∃ a b w r, line = a ++ key ++ b ++ w ++ r ∧ Blank isSpace a ∧
    Between isSpace b ∧ Written isSpace v w ∧ Remark isSpace r

/-- The line says nothing: it is blank, or a comment, a section or a separator. -/
def Silent (isSpace : Char → Bool) (line : Str) : Prop :=
  Blank isSpace line ∨ ∃ a r, line = a ++ r ∧ Blank isSpace a ∧
    ("#".toList <+: r ∨ ";".toList <+: r ∨ "[".toList <+: r ∨ "---".toList <+: r)

/-- A text whose lines are these. -/
def HasLines (text : Str) (lines : List Str) : Prop :=
  (∀ l ∈ lines, '\n' ∉ l ∧ '\r' ∉ l) ∧
    (text = (lines.intersperse "\n".toList).flatten ∨
      text = (lines.intersperse "\r\n".toList).flatten)

/-- The lines say these entries, in this order. -/
inductive LinesSay (isSpace : Char → Bool) : List Str → List (Str × Str) → Prop
  | nil : LinesSay isSpace [] []
  | silent {line lines es} : Silent isSpace line → LinesSay isSpace lines es →
      LinesSay isSpace (line :: lines) es
  | entry {line lines key v es} : Entry isSpace line key v → LinesSay isSpace lines es →
      LinesSay isSpace (line :: lines) ((key, v) :: es)

end Verif
