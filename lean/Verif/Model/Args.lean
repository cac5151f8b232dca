import Verif.Model.Program
import Mathlib.Logic.Function.Basic

/-!
# Model of the command line (`hyperparameters.py:93-258`)

`parser.parse_args()` from the list of arguments to the options.  The parser is a
`configargparse.ArgumentParser`, that is an `argparse.ArgumentParser` with configuration files and
environment variables.  The model follows `argparse.py` of Python 3.11 (line numbers marked "A:")
for the options declared by the program:

* no environment variable is consulted (the program sets no prefix and no `env_var`);
* a command line that names a configuration file ends in `Stop.configFile` here; `Model/Config.lean`
  adds the file;
* `SystemExit` is `Stop.exit` with its status; the messages are not modelled;
* `float(s)` is a parameter (`none`: `ValueError`).
-/

namespace Verif

/-- A Python string. -/
abbrev Str := List Char

/-- The options of the program; `-h` and `--help` are added by `argparse` itself. -/
inductive Opt where
  | help
  | config
  | experimentName
  | listVelocityFiles
  | listCoordinateFiles
  | listParticleFiles
  | snapshotTimestep
  | flowMapPeriod
  | integrator
  | interpolator
  | numProcesses
  | outputFormat
  | flowGridShape
  | particlesGridShape
  deriving DecidableEq, Repr

/-- `_option_string_actions`: the option strings in the order of their declaration
(hyperparameters.py:149-244). -/
def optionTable : List (Str × Opt) :=
  [("-h".toList, .help), ("--help".toList, .help), ("-c".toList, .config),
    ("--config".toList, .config), ("--experiment_name".toList, .experimentName),
    ("--list_velocity_files".toList, .listVelocityFiles),
    ("--list_coordinate_files".toList, .listCoordinateFiles),
    ("--list_particle_files".toList, .listParticleFiles),
    ("--snapshot_timestep".toList, .snapshotTimestep),
    ("--flow_map_period".toList, .flowMapPeriod), ("--integrator".toList, .integrator),
    ("--interpolator".toList, .interpolator), ("--num_processes".toList, .numProcesses),
    ("--output_format".toList, .outputFormat), ("--flow_grid_shape".toList, .flowGridShape),
    ("--particles_grid_shape".toList, .particlesGridShape)]

/-- `required=True` (hyperparameters.py:158-198). -/
def Opt.required : Opt → Bool
  | .experimentName | .listVelocityFiles | .listCoordinateFiles | .listParticleFiles
  | .snapshotTimestep | .flowMapPeriod => true
  | _ => false

/-- `self._option_string_actions[s]`, if present. -/
def findOption (s : Str) : Option Opt := optionTable.lookup s

/-- How the parser ends without options. -/
inductive Stop where
  /-- `SystemExit` with this status: 0 after `--help`, 2 after `parser.error` -/
  | exit (status : ℕ)
  /-- any other exception -/
  | raised (e : PyErr)
  /-- a configuration file is to be read -/
  | configFile
  deriving DecidableEq, Repr

/-- `s.partition('=')`: the part before the first `=`, and the part behind it if there is one. -/
def partitionEq : Str → Str × Option Str
  | [] => ([], none)
  | c :: cs => if c = '=' then ([], some cs) else ((c :: (partitionEq cs).1), (partitionEq cs).2)

/-- What `_parse_optional` returns for an option: the action (`none`: unknown option), whether
the string had the form `-xREST` (empty separator) and the explicit argument. -/
structure OptTuple where
  opt : Option Opt
  /-- the option string is `-x` and the separator is empty -/
  short : Bool
  explicit : Option Str
  deriving DecidableEq, Repr

/-- The second half of the pattern `-\d*\.\d+`, with backtracking. -/
def fracMatch (cd : CharData) : Str → Bool
  | [] => false
  | c :: cs => (decide (c = '.') && !cs.isEmpty && cs.all fun d => (cd.digit d).isSome) ||
      ((cd.digit c).isSome && fracMatch cd cs)

/-- The pattern `-\d+` or `-\d*\.\d+` on a whole string. -/
def negMatch (cd : CharData) : Str → Bool
  | '-' :: cs => (!cs.isEmpty && cs.all fun d => (cd.digit d).isSome) || fracMatch cd cs
  | _ => false

/-- `_negative_number_matcher.match(s)`, `'^-\d+$|^-\d*\.\d+$'` (A:1386); `$` also matches before
a final newline. -/
def negativeNumber (cd : CharData) (s : Str) : Bool :=
  negMatch cd s || (decide (s.getLast? = some '\n') && negMatch cd s.dropLast)

/-- `_get_option_tuples(s)` (A:2302-2341) for a string of at least two characters that begins with
`-`; abbreviations are allowed. -/
def optionTuples (s : Str) : List OptTuple :=
  match s with
  | '-' :: '-' :: _ => optionTable.filterMap fun e =>
      if (partitionEq s).1.isPrefixOf e.1 then some ⟨some e.2, false, (partitionEq s).2⟩ else none
  | _ => optionTable.filterMap fun e =>
      if e.1 = s.take 2 then some ⟨some e.2, true, some (s.drop 2)⟩
      else if s.isPrefixOf e.1 then some ⟨some e.2, false, none⟩ else none

/-- The second half of `_parse_optional(s)` (A:2267-2300), for a string without an exact option
string.  No option string of the program looks like a negative number. -/
def parseByPrefix (cd : CharData) (s : Str) : Except Stop (Option OptTuple) :=
  match optionTuples s with
  | [t] => .ok (some t)
  | _ :: _ :: _ => .error (.exit 2)
  | [] =>
    if negativeNumber cd s then .ok none
    else if ' ' ∈ s then .ok none
    else .ok (some ⟨none, false, none⟩)

/-- `_parse_optional(s)` (A:2243-2300): `none` for a string that is not an option. -/
def parseOptional (cd : CharData) (s : Str) : Except Stop (Option OptTuple) :=
  match s with
  | [] => .ok none
  | c :: cs =>
    if c ≠ '-' then .ok none
    else
      match findOption s with
      | some o => .ok (some ⟨some o, false, none⟩)
      | none =>
        if cs = [] then .ok none
        else
          match (partitionEq s).2, findOption (partitionEq s).1 with
          | some x, some o => .ok (some ⟨some o, false, some x⟩)
          | _, _ => parseByPrefix cd s

/-- An argument after classification: the letters `-`, `A` and `O` of `arg_strings_pattern`. -/
inductive ArgTok where
  | dashes
  | arg (s : Str)
  | opt (t : OptTuple)
  deriving DecidableEq, Repr

/-- The classification loop (A:1939-1957); everything behind `--` is an argument. -/
def classify (cd : CharData) : List Str → Except Stop (List ArgTok)
  | [] => .ok []
  | s :: rest =>
    if s = "--".toList then .ok (.dashes :: rest.map .arg)
    else
      match parseOptional cd s with
      | .error e => .error e
      | .ok t =>
        match classify cd rest with
        | .error e => .error e
        | .ok toks => .ok ((match t with | none => .arg s | some t => .opt t) :: toks)

/-- The type of the value of an option. -/
def OptType (K : Type) : Opt → Type
  | .snapshotTimestep | .flowMapPeriod => K
  | .numProcesses => ℤ
  | .flowGridShape | .particlesGridShape => List ℤ
  | _ => Str

/-- `choices=` (hyperparameters.py:202, 209, 227). -/
def inChoices (choices : List String) (s : Str) : Py Str :=
  if s ∈ choices.map String.toList then .ok s else .error .argumentTypeError

/-- `_get_values` of an option with one argument: conversion by `type=` and the check of
`choices=` (A:2495-2498, 2518-2549).  A value outside the choices raises `ArgumentError`. -/
def convert {K : Type} (cd : CharData) (float : Str → Option K) : (o : Opt) → Str →
    Py (OptType K o)
  | .snapshotTimestep, s | .flowMapPeriod, s =>
    match float s with
    | none => .error .valueError
    | some x => .ok x
  | .numProcesses, s => pyInt cd s
  | .flowGridShape, s | .particlesGridShape, s => parseTuple cd s
  | .integrator, s => inChoices integratorChoices s
  | .interpolator, s => inChoices interpolatorChoices s
  | .outputFormat, s => inChoices formatChoices s
  | .help, s | .config, s | .experimentName, s | .listVelocityFiles, s
  | .listCoordinateFiles, s | .listParticleFiles, s => .ok s

/-- The namespace: an attribute per option, `none` for `None`. -/
def Namespace (K : Type) : Type := (o : Opt) → Option (OptType K o)

/-- The defaults: only `--num_processes` has one (hyperparameters.py:214-217). -/
def Namespace.defaults (K : Type) : Namespace K
  | .numProcesses => some (1 : ℤ)
  | _ => none

/-- The local variables of `_parse_known_args`. -/
structure ParseState (K : Type) where
  ns : Namespace K
  seen : List Opt
  extras : ℕ

/-- `take_action(action, [v])` for an option that stores its argument (A:1966-1987): `ValueError`,
`TypeError` and `ArgumentError` become `parser.error`. -/
def takeAction {K : Type} (cd : CharData) (float : Str → Option K) (o : Opt) (v : Str)
    (st : ParseState K) : Except Stop (ParseState K) :=
  match convert cd float o v with
  | .ok x => .ok { st with
      ns := Function.update st.ns o (some x)
      seen := o :: st.seen }
  | .error .valueError | .error .typeError | .error .argumentTypeError => .error (.exit 2)
  | .error e => .error (.raised e)

/-- `-hREST` (A:2004-2034): further single-character options in the tail of `-h`.  `follows` says
that an argument follows.  The first action taken is `help`, which exits. -/
def helpTail (follows : Bool) : Str → Stop
  | [] => .exit 0
  | c :: r =>
    if c = '-' then .exit 2
    else
      match findOption ['-', c] with
      | some .help => if r.head? = some '=' then .exit 2 else helpTail follows r
      | some _ => if r = [] ∧ follows = false then .exit 2 else .exit 0
      | none => .exit 0

/-- Whether the next argument has the letter `A`. -/
def nextIsArg : List ArgTok → Bool
  | .arg _ :: _ => true
  | _ => false

/-- The main loop (A:2094-2131) with `consume_optional` (A:1990-2064); there are no positional
arguments.  Only the number of unrecognised arguments is kept. -/
def consume {K : Type} (cd : CharData) (float : Str → Option K) :
    List ArgTok → ParseState K → Except Stop (ParseState K)
  | [], st => .ok st
  | .arg _ :: r, st => consume cd float r { st with extras := st.extras + 1 }
  | .dashes :: r, st => consume cd float r { st with extras := st.extras + 1 }
  | .opt t :: r, st =>
    match t.opt, t.explicit with
    | none, _ => consume cd float r { st with extras := st.extras + 1 }
    | some .help, none => .error (.exit 0)
    | some .help, some x => .error (if t.short then helpTail (nextIsArg r) x else .exit 2)
    | some o, some x =>
      match takeAction cd float o x st with
      | .error e => .error e
      | .ok st => consume cd float r st
    | some o, none =>
      match r with
      | .arg v :: r =>
        match takeAction cd float o v st with
        | .error e => .error e
        | .ok st => consume cd float r st
      | _ => .error (.exit 2)

/-- `configargparse` looks for its configuration file in the arguments before `--`, unless `-h` or
`--help` is among the arguments. -/
def namesConfig (cd : CharData) (argv : List Str) : Bool :=
  !(argv.contains "-h".toList || argv.contains "--help".toList) &&
    (argv.takeWhile (fun s => s ≠ "--".toList)).any fun s =>
      match parseOptional cd s with
      | .ok (some t) => decide (t.opt = some .config)
      | _ => false

/-- All options, for the check of the required ones. -/
def allOptions : List Opt := optionTable.map (·.2)

/-- `parser.parse_args()` (hyperparameters.py:256): the classification, the main loop, the check of
the required options (A:2135-2157) and of unrecognised arguments. -/
def parseArgs {K : Type} (cd : CharData) (float : Str → Option K) (argv : List Str) :
    Except Stop (Namespace K) :=
  if namesConfig cd argv then .error .configFile
  else
    match classify cd argv with
    | .error e => .error e
    | .ok toks =>
      match consume cd float toks ⟨Namespace.defaults K, [], 0⟩ with
      | .error e => .error e
      | .ok st =>
        if allOptions.any (fun o => o.required && !st.seen.contains o) then .error (.exit 2)
        else if st.extras ≠ 0 then .error (.exit 2)
        else .ok st.ns

/-- The options with choices as `CliOptions`. -/
def Namespace.options {K : Type} (ns : Namespace K) : CliOptions where
  integrator := (ns .integrator).map String.ofList
  interpolator := (ns .interpolator).map String.ofList
  outputFormat := (ns .outputFormat).map String.ofList

/-- `MyProgramArgs(**raw_args)` (hyperparameters.py:256-258) as seen by the process manager
(__main__.py:69-81): `fs` gives the contents of the list files, `per` is
`int(flow_map_period / abs(snapshot_timestep)) + 1`.  `none` if a required option is missing,
which `parse_args` excludes. -/
def Namespace.program {K : Type} (fs : Str → Option (List Char)) (per : K → K → Py ℤ)
    (ns : Namespace K) : Option (ProgramArgs K) :=
  match ns .listVelocityFiles, ns .listCoordinateFiles, ns .listParticleFiles,
    ns .snapshotTimestep, ns .flowMapPeriod, ns .numProcesses with
  | some v, some c, some p, some dt, some T, some n => some
    { velocityList := fs v
      coordinateList := fs c
      particleList := fs p
      timestep := dt
      snapshots := per T dt
      options := ns.options
      processes := n
      flowGridShape := (ns .flowGridShape).map fun l : List ℤ => l.map Int.toNat
      particlesGridShape := (ns .particlesGridShape).map fun l : List ℤ => l.map Int.toNat }
  | _, _, _, _, _, _ => none

end Verif
