import Verif.Model.Shell

/-!
# Specification of commands over several lines
-/

namespace Verif

/-- A character that stands for itself in a word without quotes. -/
def Bare (c : Char) : Prop :=
  c ∉ [' ', '\t', '\n', '\\', '"', '\'', '$', '`', ';', '&', '|', '<', '>', '(', ')', '*', '?', '[',
    '~', '{', '}', '!', '=', '\r']

/-- `s` is a way to write the word `w`: as it is, or between double or single quotes. -/
inductive Spelled : Str → Str → Prop
  | bare {w} : w ≠ [] → w.head? ≠ some '#' → (∀ c ∈ w, Bare c) → Spelled w w
  | double {w} : (∀ c ∈ w, c ≠ '"' ∧ c ≠ '\\' ∧ c ≠ '$' ∧ c ≠ '`') → Spelled w ('"' :: w ++ ['"'])
  | single {w} : '\'' ∉ w → Spelled w ('\'' :: w ++ ['\''])

/-- Blanks and backslashes at the end of a line; nothing at all is allowed. -/
inductive Space : Str → Prop
  | nil : Space []
  | blank {s} : Space s → Space (' ' :: s)
  | tab {s} : Space s → Space ('\t' :: s)
  | line {s} : Space s → Space ('\\' :: '\n' :: s)

/-- What separates two words: at least one blank, and any number of continued lines. -/
def Apart (g : Str) : Prop := Space g ∧ (' ' ∈ g ∨ '\t' ∈ g)

/-- `s` is a way to write the words `ws`. -/
inductive Line : List Str → Str → Prop
  | last {w s} : Spelled w s → Line [w] s
  | more {w s g ws t} : Spelled w s → Apart g → Line ws t → Line (w :: ws) (s ++ g ++ t)

/-- The end of a command: nothing, or a comment apart from the last word, and the end of the line. -/
inductive Closes : Str → Prop
  | plain {g} : Space g → Closes (g ++ ['\n'])
  | remark {g r} : Apart g → '\n' ∉ r → Closes (g ++ '#' :: r ++ ['\n'])

/-- A text of several commands. -/
inductive Script : List (List Str) → Str → Prop
  | nil : Script [] []
  | cons {i ws s e cs t} : Space i → Line ws s → Closes e → Script cs t →
      Script (ws :: cs) (i ++ s ++ e ++ t)

/-- The options that README.md:181-193 is meant to set, with their values. -/
def readmeOptions : List (Opt × Str) :=
  [(.experimentName, "my_experiment".toList), (.listVelocityFiles, "velocity_files.txt".toList),
    (.listCoordinateFiles, "coordinate_files.txt".toList),
    (.listParticleFiles, "particle_files.txt".toList), (.snapshotTimestep, "0.1".toList),
    (.flowMapPeriod, "5.0".toList), (.integrator, "rk4".toList), (.interpolator, "cubic".toList),
    (.numProcesses, "4".toList), (.outputFormat, "vtk".toList),
    (.flowGridShape, "100,100,100".toList), (.particlesGridShape, "100,100,100".toList)]

end Verif
