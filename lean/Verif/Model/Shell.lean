import Verif.Model.Args

/-!
# Model of the shell that reads the commands of README.md

README.md:180-194 prints a command over thirteen lines.  What the program gets of it is decided by the
shell.  This is the token recognition of a POSIX shell (XCU 2.2 and 2.3), as far as such commands need
it: blanks, newlines, backslashes, quotes and comments.  The text of a command is given; a text with
any other character that a shell treats specially outside quotes (expansions, redirections,
operators, patterns, assignments) has no meaning here (`none`), nor has one that ends within quotes or
behind a backslash.  Aliases and reserved words are not modelled.
-/

namespace Verif

/-- Where the shell is in the text. -/
inductive ShMode where
  /-- between words -/
  | blank
  /-- in a word -/
  | word (w : Str)
  /-- behind a backslash between words -/
  | escBlank
  /-- behind a backslash in a word -/
  | escWord (w : Str)
  /-- between double quotes -/
  | double (w : Str)
  /-- behind a backslash between double quotes -/
  | escDouble (w : Str)
  /-- between single quotes -/
  | single (w : Str)
  /-- in a comment -/
  | remark
  deriving DecidableEq, Repr

/-- Characters outside the modelled part when they are not quoted. -/
def shellSpecial (c : Char) : Bool :=
  c ∈ ['$', '`', ';', '&', '|', '<', '>', '(', ')', '*', '?', '[', '~', '{', '}', '!', '=', '\r']

/-- The command read so far; an empty line is no command. -/
def shellFlush (ws : List Str) : List (List Str) := if ws = [] then [] else [ws]

/-- The commands of a text as lists of words (XCU 2.2.1-2.2.3 and the rules 4, 7-10 of XCU 2.3);
`ws` are the words of the current command so far. -/
def shellScan : ShMode → List Str → Str → Option (List (List Str))
  | .blank, ws, [] | .remark, ws, [] => some (shellFlush ws)
  | .word w, ws, [] => some (shellFlush (ws ++ [w]))
  | _, _, [] => none
  | .blank, ws, c :: t =>
    if c = ' ' ∨ c = '\t' then shellScan .blank ws t
    else if c = '\n' then (shellScan .blank [] t).map (shellFlush ws ++ ·)
    else if c = '#' then shellScan .remark ws t
    else if c = '\\' then shellScan .escBlank ws t
    else if c = '"' then shellScan (.double []) ws t
    else if c = '\'' then shellScan (.single []) ws t
    else if shellSpecial c then none
    else shellScan (.word [c]) ws t
  | .word w, ws, c :: t =>
    if c = ' ' ∨ c = '\t' then shellScan .blank (ws ++ [w]) t
    else if c = '\n' then (shellScan .blank [] t).map (shellFlush (ws ++ [w]) ++ ·)
    else if c = '\\' then shellScan (.escWord w) ws t
    else if c = '"' then shellScan (.double w) ws t
    else if c = '\'' then shellScan (.single w) ws t
    else if shellSpecial c then none
    else shellScan (.word (w ++ [c])) ws t
  | .escBlank, ws, c :: t =>
    if c = '\n' then shellScan .blank ws t else shellScan (.word [c]) ws t
  | .escWord w, ws, c :: t =>
    if c = '\n' then shellScan (.word w) ws t else shellScan (.word (w ++ [c])) ws t
  | .double w, ws, c :: t =>
    if c = '"' then shellScan (.word w) ws t
    else if c = '\\' then shellScan (.escDouble w) ws t
    else if c = '$' ∨ c = '`' then none
    else shellScan (.double (w ++ [c])) ws t
  | .escDouble w, ws, c :: t =>
    if c = '\n' then shellScan (.double w) ws t
    else if c = '$' ∨ c = '`' ∨ c = '"' ∨ c = '\\' then shellScan (.double (w ++ [c])) ws t
    else shellScan (.double (w ++ ['\\', c])) ws t
  | .single w, ws, c :: t =>
    if c = '\'' then shellScan (.word w) ws t else shellScan (.single (w ++ [c])) ws t
  | .remark, ws, c :: t =>
    if c = '\n' then (shellScan .blank [] t).map (shellFlush ws ++ ·) else shellScan .remark ws t

/-- The commands of a text. -/
def shellCommands (text : Str) : Option (List (List Str)) := shellScan .blank [] text

/-- The command printed in README.md:181-193, up to the line of `--flow_grid_shape` (README.md:192). -/
def readmeStart : Str := ("pyftle \\\n" ++
  "    --experiment_name \"my_experiment\" \\\n" ++
  "    --list_velocity_files \"velocity_files.txt\" \\\n" ++
  "    --list_coordinate_files \"coordinate_files.txt\" \\\n" ++
  "    --list_particle_files \"particle_files.txt\" \\\n" ++
  "    --snapshot_timestep 0.1 \\\n" ++
  "    --flow_map_period 5.0 \\\n" ++
  "    --integrator \"rk4\" \\\n" ++
  "    --interpolator \"cubic\" \\\n" ++
  "    --num_processes 4 \\\n" ++
  "    --output_format \"vtk\" \\\n" ++
  "    --flow_grid_shape 100,100,100").toList

/-- The last line (README.md:193). -/
def readmeEnd : Str :=
  "    --particles_grid_shape 100,100,100  # comment this line for unstructured data\n".toList

/-- The command as printed (README.md:181-193). -/
def readmeCommand : Str :=
  readmeStart ++ " \\  # comment this line for unstructured data\n".toList ++ readmeEnd

end Verif
