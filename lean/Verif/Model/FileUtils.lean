import Verif.Py.Basic

/-!
# Model of `src/pyftle/file_utils.py`

Text is a list of characters (encodings are not modelled).

Contract for `pandas.read_csv(path, header=None, dtype=str)`, taken from the C tokenizer
(`tokenizer.c`) with the default options -- separator `,`, quote `"`, doubled quotes, blank lines
skipped -- and from the default missing-value strings.  A byte order mark at the start of the
file is not modelled.
-/

namespace Verif

/-! ## Writing -/

/-- `write_list_to_txt` (file_utils.py:41-65): the content of the file. -/
def writeList (paths : List (List Char)) : List Char :=
  (paths.map fun p => p ++ ['\n']).flatten

/-! ## Reading -/

/-- States of the tokenizer. -/
inductive Tok where
  | startRecord
  /-- only blanks so far (kept, most recent first) -/
  | blankLine
  | startField
  | inField
  | inQuoted
  | quoteInQuoted
  /-- after a carriage return -/
  | afterCr
deriving DecidableEq

/-- Tokenizer state: mode, current field and current record (most recent first), finished
records (most recent first). -/
structure Csv where
  mode : Tok
  field : List Char
  record : List (List Char)
  records : List (List (List Char))

/-- `END_FIELD`. -/
def Csv.endField (s : Csv) : Csv :=
  { s with
    field := []
    record := s.field.reverse :: s.record }

/-- `END_LINE` (field counts are checked later, in `squareRecords`). -/
def Csv.endLine (s : Csv) (m : Tok) : Csv :=
  { s with
    mode := m
    record := []
    records := s.record.reverse :: s.records }

/-- A character in the middle of an unquoted field. -/
def Csv.fieldChar (s : Csv) (c : Char) : Csv :=
  if c = '\n' then s.endField.endLine .startRecord
  else if c = '\r' then s.endField.endLine .afterCr
  else if c = ',' then { s.endField with mode := .startField }
  else
    { s with
      mode := .inField
      field := c :: s.field }

/-- A character at the start of a field. -/
def Csv.startChar (s : Csv) (c : Char) : Csv :=
  if c = '"' then { s with mode := .inQuoted } else s.fieldChar c

/-- A character at the start of a record. -/
def Csv.recordChar (s : Csv) (c : Char) : Csv :=
  if c = '\n' then { s with mode := .startRecord }
  else if c = '\r' then { s with mode := .afterCr }
  else if c = ' ' ∨ c = '\t' then
    { s with
      mode := .blankLine
      field := [c] }
  else s.startChar c

/-- One character. -/
def Csv.step (s : Csv) (c : Char) : Csv :=
  match s.mode with
  | .startRecord => s.recordChar c
  | .afterCr => if c = '\n' then { s with mode := .startRecord } else s.recordChar c
  | .blankLine =>
    if c = '\n' then
      { s with
        mode := .startRecord
        field := [] }
    else if c = '\r' then
      { s with
        mode := .afterCr
        field := [] }
    else if c = ' ' ∨ c = '\t' then { s with field := c :: s.field }
    else s.fieldChar c
  | .startField => s.startChar c
  | .inField => s.fieldChar c
  | .inQuoted =>
    if c = '"' then { s with mode := .quoteInQuoted } else { s with field := c :: s.field }
  | .quoteInQuoted =>
    if c = '"' then
      { s with
        mode := .inQuoted
        field := '"' :: s.field }
    else s.fieldChar c

/-- End of file. -/
def Csv.finish (s : Csv) : Py (List (List (List Char))) :=
  match s.mode with
  | .startRecord | .afterCr | .blankLine => .ok s.records.reverse
  | .inQuoted => .error .parserError
  | .startField | .inField | .quoteInQuoted =>
    .ok (s.endField.endLine .startRecord).records.reverse

/-- All records of a text. -/
def csvRecords (text : List Char) : Py (List (List (List Char))) :=
  (text.foldl Csv.step ⟨.startRecord, [], [], []⟩).finish

/-- The first record fixes the number of columns; a later record with more fields raises
`ParserError` (missing trailing fields are filled).  No record at all raises
`EmptyDataError`. -/
def checkWidth : List (List (List Char)) → Py (List (List (List Char)))
  | [] => .error .emptyDataError
  | r :: rs =>
    if rs.all fun q => decide (q.length ≤ r.length) then .ok (r :: rs) else .error .parserError

/-- Strings read as missing values (`pandas` 2). -/
def missingValues : List (List Char) :=
  ["", "#N/A", "#N/A N/A", "#NA", "-1.#IND", "-1.#QNAN", "-NaN", "-nan", "1.#IND", "1.#QNAN",
    "<NA>", "N/A", "NA", "NULL", "NaN", "None", "n/a", "nan", "null"].map String.toList

/-- A cell of a `dtype=str` column; `none` is `NaN`. -/
def cell (s : List Char) : Option (List Char) := if s ∈ missingValues then none else some s

/-- `get_files_list` (file_utils.py:68-100); `none` for a file that does not exist. -/
def getFilesList (content : Option (List Char)) : Py (List (Option (List Char))) :=
  match content with
  | none => .error .fileNotFoundError
  | some text =>
    match csvRecords text with
    | .error e => .error e
    | .ok records =>
      match checkWidth records with
      | .error e => .error e
      | .ok rs => .ok (rs.map fun r => cell (r.headD []))

/-! ## Discovery -/

/-- `a <= b` for strings: by code points. -/
def strLe : List Char → List Char → Bool
  | [], _ => true
  | _ :: _, [] => false
  | a :: as, b :: bs => if a = b then strLe as bs else decide (a.toNat < b.toNat)

/-- The entries below a directory in the order in which they are found: `str(path)` and name of
files and directories alike. -/
abbrev Listing := List (List Char × List Char)

/-- `fnmatch.fnmatchcase(s, p)` for patterns without `[`. -/
def glob : List Char → List Char → Bool
  | [], s => s.isEmpty
  | p :: ps, s =>
    if p = '*' then s.tails.any (glob ps)
    else
      match s with
      | [] => false
      | c :: cs => (p = '?' || p = c) && glob ps cs

/-- `find_files_with_pattern` (file_utils.py:8-38) for a non-empty pattern without `/` (with a
`/`, or for the empty pattern, `rglob` matches paths instead of names).  Python's `sorted` is
stable; equal strings are indistinguishable. -/
def findFiles (entries : Listing) (pattern : List Char) : List (List Char) :=
  ((entries.filter fun e => glob ('*' :: (pattern ++ ['*'])) e.2).map (·.1)).mergeSort strLe

end Verif
