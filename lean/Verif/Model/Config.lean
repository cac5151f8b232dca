import Verif.Model.Args

/-!
# Model of the configuration file (`hyperparameters.py:149-154`, `pyftle -c config.yaml`)

`-c` is declared with `is_config_file=True`: `configargparse` looks for it in the command line,
reads the file, turns its entries into arguments, puts those in front of the command line and calls
`argparse`.  The program chooses no parser for the file, so it is read by
`DefaultConfigFileParser`, not by a YAML parser.  Marked "CAP": functions of `configargparse` 1.7.1
(the version in uv.lock).  The library is not part of the repository and not installed here, so this
part of the model follows its published behaviour:

* `fs` gives the text of a file (`os.path.expanduser` included), `none` if it cannot be opened;
* `json` gives for a value in square brackets the strings of its elements (`json.loads`, or the parts
  between the commas);
* messages, and the settings kept for `print_values`, are not modelled.
-/

namespace Verif

/-! ### The command line as seen by the search for the file -/

/-- An argument as classified by a parser that knows `-c` and `--config` only. -/
inductive PathTok where
  /-- not an option -/
  | arg
  /-- `-c` or `--config` without a value -/
  | want
  /-- `-c` or `--config` with its value -/
  | path (s : Str)
  /-- an option this parser does not know -/
  | other
  deriving DecidableEq, Repr

/-- `_parse_optional` (A:2243-2300) of that parser, the part for strings that are neither an option
string nor an option string followed by `=`. -/
def pathTokByPrefix (cd : CharData) (s : Str) : PathTok :=
  let rest : PathTok := if negativeNumber cd s then .arg else if ' ' ∈ s then .arg else .other
  match s with
  | '-' :: '-' :: _ =>
    if (partitionEq s).1.isPrefixOf "--config".toList then
      match (partitionEq s).2 with
      | none => .want
      | some x => .path x
    else rest
  | _ => if s.take 2 = "-c".toList then .path (s.drop 2) else rest

/-- `_parse_optional` (A:2243-2300) of that parser. -/
def pathTok (cd : CharData) (s : Str) : PathTok :=
  match s with
  | [] => .arg
  | c :: cs =>
    if c ≠ '-' then .arg
    else if s = "-c".toList ∨ s = "--config".toList then .want
    else if cs = [] then .arg
    else
      match (partitionEq s).2 with
      | none => pathTokByPrefix cd s
      | some x =>
        if (partitionEq s).1 = "-c".toList ∨ (partitionEq s).1 = "--config".toList then .path x
        else pathTokByPrefix cd s

/-- CAP `_open_config_files`: the value of `-c` found by a parser that knows nothing else and whose
`error` does nothing; `cur` is the value so far, `pending` says that `-c` waits for its value.  A
missing value ends the parser, the value so far is kept. -/
def configPath (cd : CharData) (cur : Option Str) (pending : Bool) : List Str → Option Str
  | [] => cur
  | s :: rest =>
    if s = "--".toList then cur
    else
      match pending, pathTok cd s with
      | true, .arg => configPath cd (some s) false rest
      | true, _ => cur
      | false, .arg | false, .other => configPath cd cur false rest
      | false, .path v => configPath cd (some v) false rest
      | false, .want => configPath cd cur true rest

/-! ### The file -/

/-- `s.strip(chars)`. -/
def stripBy (p : Char → Bool) (s : Str) : Str :=
  ((s.dropWhile p).reverse.dropWhile p).reverse

/-- `s.strip()`. -/
def strip (cd : CharData) (s : Str) : Str := stripBy cd.isSpace s

/-- The ways to split off a prefix whose characters satisfy `p`, longest first: the order in which
`[...]*` tries them. -/
def greedy (p : Char → Bool) : Str → List (Str × Str)
  | [] => [([], [])]
  | c :: cs =>
    if p c then (greedy p cs).map (fun q => (c :: q.1, q.2)) ++ [([], c :: cs)] else [([], c :: cs)]

/-- The ways to split a string, shortest prefix first: the order in which `.*?` tries them. -/
def lazily : Str → List (Str × Str)
  | [] => [([], [])]
  | c :: cs => ([], c :: cs) :: (lazily cs).map fun q => (c :: q.1, q.2)

/-- `[^:=;#\s]`. -/
def keyChar (cd : CharData) (c : Char) : Bool :=
  !(c = ':' || c = '=' || c = ';' || c = '#' || cd.isSpace c)

/-- `\s*(?:\s[;#]\s*(?P<comment>.*?)\s*)?$` matches. -/
def tailMatch (cd : CharData) (s : Str) : Bool :=
  match s.dropWhile cd.isSpace with
  | [] => true
  | c :: r => (c = ';' || c = '#') && decide ((c :: r).length < s.length)

/-- `(?P<value>.+?)?\3` and the tail, behind an opening quote `q` (empty if there is none): the
values in the order of the search. -/
def valueMatches (cd : CharData) (q : Str) (s : Str) : List (Option Str) :=
  ((lazily s).filter fun p => p.1 ≠ [] && q.isPrefixOf p.2 && tailMatch cd (p.2.drop q.length)).map
      (fun p => some p.1) ++
    if q.isPrefixOf s && tailMatch cd (s.drop q.length) then [none] else []

/-- `(['"]?)(?P<value>.+?)?\3` and the tail. -/
def quoteMatches (cd : CharData) (s : Str) : List (Option Str) :=
  match s with
  | [] => valueMatches cd [] s
  | c :: r =>
    (if c = '\'' || c = '"' then valueMatches cd [c] r else []) ++ valueMatches cd [] s

/-- `(?:(?P<equal>[:=\s])\s*(['"]?)(?P<value>.+?)?\3)?` and the tail: `equal` and `value`. -/
def equalMatches (cd : CharData) (s : Str) : List (Option Char × Option Str) :=
  (match s with
    | [] => []
    | e :: r =>
      if e = ':' || e = '=' || cd.isSpace e then
        (greedy cd.isSpace r).flatMap fun p => (quoteMatches cd p.2).map fun v => (some e, v)
      else []) ++
    if tailMatch cd s then [(none, none)] else []

/-- CAP `DefaultConfigFileParser.parse`: the regular expression
`^(?P<key>[^:=;#\s]+)\s*(?:(?P<equal>[:=\s])\s*(['"]?)(?P<value>.+?)?\3)?\s*(?:\s[;#]\s*(?P<comment>.*?)\s*)?$`
on a line (which contains no line break); the first match of the backtracking search. -/
def lineMatch (cd : CharData) (line : Str) : Option (Str × Option Char × Option Str) :=
  (((greedy (keyChar cd) line).filter fun k => k.1 ≠ []).flatMap fun k =>
    (greedy cd.isSpace k.2).flatMap fun w =>
      (equalMatches cd w.2).map fun m => (k.1, m.1, m.2)).head?

/-- The value of an entry. -/
inductive CfgValue where
  | text (s : Str)
  | list (l : List Str)
  deriving DecidableEq, Repr

/-- The value of a matched line: nothing behind `:` or `=` is the empty string, a key alone is
`"true"`, square brackets make a list. -/
def lineValue (json : Str → List Str) (equal : Option Char) (value : Option Str) : CfgValue :=
  let v : Str :=
    match value with
    | some v => v
    | none => if equal ≠ none ∧ equal ≠ some ' ' then [] else "true".toList
  if v.head? = some '[' ∧ v.getLast? = some ']' then .list (json v) else .text v

/-- `items[key] = value` for an `OrderedDict`. -/
def dictSet (items : List (Str × CfgValue)) (key : Str) (v : CfgValue) : List (Str × CfgValue) :=
  if items.any (fun e => e.1 = key) then items.map fun e => if e.1 = key then (key, v) else e
  else items ++ [(key, v)]

/-- The lines that are passed over: blank ones, and those that begin with `#`, `;`, `[` or
`---`. -/
def skipLine (line : Str) : Bool :=
  match line with
  | [] => true
  | c :: _ => c = '#' || c = ';' || c = '[' || "---".toList.isPrefixOf line

/-- CAP `DefaultConfigFileParser.parse`; `none`: `ConfigFileParserException`. -/
def configLines (cd : CharData) (json : Str → List Str) :
    List Str → List (Str × CfgValue) → Option (List (Str × CfgValue))
  | [], items => some items
  | line :: lines, items =>
    if skipLine (strip cd line) then configLines cd json lines items
    else
      match lineMatch cd (strip cd line) with
      | none => none
      | some (key, equal, value) =>
        configLines cd json lines (dictSet items key (lineValue json equal value))

/-- The lines of a text file.  Every line break (`\n`, `\r`, `\r\n`) is `\n` in text mode; the blank
line this function finds within `\r\n` is passed over like any other. -/
def textLines : Str → List Str
  | [] => [[]]
  | c :: cs =>
    if c = '\n' ∨ c = '\r' then [] :: textLines cs
    else
      match textLines cs with
      | [] => [[c]]
      | l :: ls => (c :: l) :: ls

/-- The entries of a file. -/
def configItems (cd : CharData) (json : Str → List Str) (text : Str) :
    Option (List (Str × CfgValue)) :=
  configLines cd json (textLines text) []

/-! ### From entries to arguments -/

/-- CAP `already_on_command_line`: the arguments, cut before `=` if they begin with a dash. -/
def argNames (argv : List Str) : List Str :=
  argv.map fun s => if s.head? = some '-' then (partitionEq s).1 else s

/-- CAP `get_possible_config_keys`: `--name` and `name` stand for the option `--name`. -/
def keyOption (key : Str) : Option Opt :=
  match optionTable.find? fun e =>
      "--".toList.isPrefixOf e.1 && (decide (e.1 = key) || decide (e.1.drop 2 = key)) with
  | none => none
  | some e => some e.2

/-- The option strings of an action. -/
def optionStrings (o : Opt) : List Str := (optionTable.filter fun e => e.2 = o).map (·.1)

/-- `action.option_strings[-1]`. -/
def commandKey (o : Opt) : Str := ((optionStrings o).getLast?).getD []

/-- CAP `get_command_line_key_for_unknown_config_file_setting`: two dashes and
`key.strip('-')`. -/
def unknownKey (key : Str) : Str := "--".toList ++ stripBy (· = '-') key

/-- CAP `convert_item_to_command_line_arg` for an entry that is not discarded; `none`:
`parser.error` (a list for an option with one value). -/
def itemArgs (key : Str) (v : CfgValue) : Option (List Str) :=
  match keyOption key, v with
  | some o, .text s => some [commandKey o ++ '=' :: s]
  | some _, .list _ => none
  | none, .text s => some [unknownKey key ++ '=' :: s]
  | none, .list l => some (l.map fun s => unknownKey key ++ '=' :: s)

/-- Whether an entry is discarded because the command line has the option. -/
def discarded (argv : List Str) (key : Str) : Bool :=
  match keyOption key with
  | some o => (optionStrings o).any fun s => (argNames argv).contains s
  | none => (argNames argv).contains (unknownKey key)

/-- The loop over the entries (CAP `parse_known_args`). -/
def configArgs (argv : List Str) : List (Str × CfgValue) → Option (List Str)
  | [] => some []
  | (key, v) :: items =>
    if discarded argv key then configArgs argv items
    else
      match itemArgs key v with
      | none => none
      | some a =>
        match configArgs argv items with
        | none => none
        | some b => some (a ++ b)

/-- `argparse` itself on the final list of arguments. -/
def parseMain {K : Type} (cd : CharData) (float : Str → Option K) (argv : List Str) :
    Except Stop (Namespace K) :=
  match classify cd argv with
  | .error e => .error e
  | .ok toks =>
    match consume cd float toks ⟨Namespace.defaults K, [], 0⟩ with
    | .error e => .error e
    | .ok st =>
      if allOptions.any (fun o => o.required && !st.seen.contains o) then .error (.exit 2)
      else if st.extras ≠ 0 then .error (.exit 2)
      else .ok st.ns

/-- The arguments that are parsed in the end: the entries of the configuration file, if one is
named, and the command line. -/
def allArgs (cd : CharData) (json : Str → List Str) (fs : Str → Option Str) (argv : List Str) :
    Except Stop (List Str) :=
  if argv.contains "-h".toList || argv.contains "--help".toList then .ok argv
  else
    match configPath cd none false argv with
    | none => .ok argv
    | some [] => .ok argv
    | some (c :: p) =>
      match fs (c :: p) with
      | none => .error (.exit 2)
      | some text =>
        match configItems cd json text with
        | none => .error (.exit 2)
        | some items =>
          match configArgs argv items with
          | none => .error (.exit 2)
          | some a => .ok (a ++ argv)

/-- `vars(parser.parse_args())` without `config` (hyperparameters.py:256-257). -/
def parseCommand {K : Type} (cd : CharData) (float : Str → Option K) (json : Str → List Str)
    (fs : Str → Option Str) (argv : List Str) : Except Stop (Namespace K) :=
  match allArgs cd json fs argv with
  | .error e => .error e
  | .ok args =>
    match parseMain cd float args with
    | .error e => .error e
    | .ok ns => .ok (Function.update ns .config none)

end Verif
