import Verif.Lemmas.Shell
import Verif.Model.FloatText

/-!
# C123: commands over several lines
-/

namespace Verif

variable {K F α : Type}

/-! ## Which commands a text consists of -/

theorem shellScan_script {cs : List (List Str)} {t : Str} (h : Script cs t) :
    shellScan .blank [] t = some cs := by
  induction h with
  | nil => rfl
  | @cons i ws s e cs t hi hs he _ ih =>
    obtain ⟨vs, w, rfl, h2⟩ := hs.scan [] (e ++ t)
    rw [List.append_assoc, List.append_assoc, hi.scan, h2, he.scan, ih]
    rfl

/-- **C123** (layout).  Words may be written with and without quotes, separated by blanks and
continued lines in any number, indented, and followed by a comment at the end of the command: the
shell reads the words that are written. -/
theorem C123_layout {cs : List (List Str)} {t : Str} (h : Script cs t) :
    shellCommands t = some cs := shellScan_script h

/-- **C123 is false of the documentation (comments).**  A comment behind the backslash that should
continue the line: the backslash protects the blank behind it, which becomes a word of its own, and
the lines that follow are commands of their own. -/
theorem C123_remark_fails {i ws s g b r cs t} (hi : Space i) (hs : Line ws s) (hg : Apart g)
    (hb : Apart b) (hr : '\n' ∉ r) (ht : Script cs t) {c : Char} (hc : c = ' ' ∨ c = '\t') :
    shellCommands (i ++ s ++ g ++ '\\' :: c :: b ++ '#' :: r ++ '\n' :: t) =
      some ((ws ++ [[c]]) :: cs) := by
  obtain ⟨vs, w, rfl, h2⟩ := hs.scan [] (g ++ '\\' :: c :: (b ++ '#' :: (r ++ '\n' :: t)))
  have e : i ++ s ++ g ++ '\\' :: c :: b ++ '#' :: r ++ '\n' :: t =
      i ++ (s ++ (g ++ '\\' :: c :: (b ++ '#' :: (r ++ '\n' :: t)))) := by
    simp
  unfold shellCommands
  rw [e, hi.scan, h2, hg.scan]
  have h3 : ∀ ws u, shellScan .blank ws ('\\' :: c :: u) = shellScan (.word [c]) ws u := by
    intro ws u
    have : c ≠ '\n' := by rcases hc with rfl | rfl <;> decide
    simp [shellScan, this]
  rw [h3]
  have := (Closes.remark hb hr).scan ([] ++ vs ++ [w]) [c] t
  simp only [List.append_assoc, List.cons_append, List.nil_append] at this ⊢
  rw [this, shellScan_script ht]
  rfl

/-- **C123 is false of the documentation (lines made comments).**  The README advises to comment a
line of the command: what follows that line is no longer part of the command. -/
theorem C123_commented_fails {i ws s g r cs t} (hi : Space i) (hs : Line ws s) (hg : Apart g)
    (hr : '\n' ∉ r) (ht : Script cs t) :
    shellCommands (i ++ s ++ (g ++ '#' :: r ++ ['\n']) ++ t) = some (ws :: cs) :=
  C123_layout (.cons hi hs (.remark hg hr) ht)

/-! ## What the program does with a word that belongs to no option -/

/-- **C123** (stray words).  A word without a dash behind complete options is never accepted,
whatever follows and whatever the files contain. -/
theorem C123_stray (cd : CharData) (hl : cd.Lawful) (float : Str → Option K)
    (json : Str → List Str) (texts : Str → Option Str) {pre : List Str} {l : List (Opt × Str)}
    (h : Says cd pre l) {v : Str} (hv : ¬ "-".toList <+: v) (post : List Str) (ns : Namespace K) :
    parseCommand cd float json texts (pre ++ v :: post) ≠ .ok ns := by
  intro h'
  obtain ⟨L, m, hs, -⟩ := (C100_accepted_iff cd float json texts hl _ ns).1 h'
  exact says_stray h hv hs

/-- **C123** (stray words, status).  At the end of options given on the command line such a word ends
the program with status 2, before anything is read or written. -/
theorem C123_stray_status [Zero K] [LT K] [DecidableLT K] [Inhabited F] (cd : CharData)
    (hl : cd.Lawful) (float : Str → Option K) (json : Str → List Str) (texts : Str → Option Str)
    (per : K → K → Py ℤ) (lower : String → String) (d : Disk α) {pre : List Str}
    {l : List (Opt × Str)} (h : Reads cd pre l) {v : Str} (hv : ¬ "-".toList <+: v) :
    startCommand (F := F) cd float json texts per lower d (pre ++ [v]) =
      (d, [], .error (.exit 2)) := by
  unfold startCommand
  rw [parseCommand_stray hl float json texts h hv]

/-! ## The command of the README -/

/-- The arguments that the options of the README have when all of them arrive. -/
def readmeArgs (l : List (Opt × Str)) : List Str := l.flatMap fun p => [p.1.name, p.2]

theorem readme_reads (cd : CharData) {l : List (Opt × Str)} (h : ∀ p ∈ l, p ∈ readmeOptions) :
    Reads cd (readmeArgs l) l := by
  induction l with
  | nil => exact .nil
  | cons p l ih =>
    have hp := h p (by simp)
    have hv : p.1.Valued ∧ ¬ "-".toList <+: p.2 := by
      unfold Opt.Valued
      revert hp
      revert p
      unfold readmeOptions
      intro p _ hp
      simp only [List.mem_cons, List.not_mem_nil, or_false] at hp
      rcases hp with rfl | rfl | rfl | rfl | rfl | rfl | rfl | rfl | rfl | rfl | rfl | rfl <;>
        exact ⟨⟨by decide, by decide⟩, by decide⟩
    exact .pair (Opt.names_name p.1) hv.1 (.inl hv.2) (ih fun q hq => h q (by simp [hq]))

/-- **C123 is false of the documentation (the printed command).**  The command of the README is read
as two commands.  The first one has an additional argument, a blank, which makes the program stop
with status 2 whatever files there are; the second one, `--particles_grid_shape`, is no program. -/
theorem C123_readme_fails [Zero K] [LT K] [DecidableLT K] [Inhabited F] :
    shellCommands readmeCommand =
      some ["pyftle".toList :: (readmeArgs (readmeOptions.take 11) ++ [" ".toList]),
        ["--particles_grid_shape".toList, "100,100,100".toList]] ∧
    ∀ (cd : CharData), cd.Lawful → ∀ (float : Str → Option K) (json : Str → List Str)
      (texts : Str → Option Str) (per : K → K → Py ℤ) (lower : String → String) (d : Disk α),
      startCommand (F := F) cd float json texts per lower d
        (readmeArgs (readmeOptions.take 11) ++ [" ".toList]) = (d, [], .error (.exit 2)) :=
  ⟨by decide +kernel, fun cd hl float json texts per lower d =>
    C123_stray_status cd hl float json texts per lower d
      (readme_reads cd fun _ hp => List.mem_of_mem_take hp) (by decide)⟩

/-- **C123**, part.  With the comment taken out, the command of the README is one command, and its
arguments are the twelve options with the values shown.  Missing: the comment, with which this is
false (`C123_readme_fails`). -/
theorem C123_readme_partial (cd : CharData) :
    shellCommands (readmeStart ++ " \\\n".toList ++ readmeEnd) =
      some ["pyftle".toList :: readmeArgs readmeOptions] ∧
    Reads cd (readmeArgs readmeOptions) readmeOptions :=
  ⟨by decide +kernel, readme_reads cd fun _ hp => hp⟩

/-! ## Concrete cases -/

/-- With the comment taken out the options are accepted: the values are valid. -/
example : (parseArgs asciiData (readFloat asciiData) (readmeArgs readmeOptions)).toOption.isSome =
    true := by decide +kernel

/-- `pyftle -c \` and `config.yaml  # the file` on the next line. -/
example : Script [["pyftle".toList, "-c".toList, "config.yaml".toList]]
    "pyftle -c \\\n  'config.yaml'  # the file\n".toList := by
  have hb : ∀ w : Str, w ≠ [] → w.head? ≠ some '#' → (∀ c ∈ w, Bare c) → Spelled w w :=
    fun w => .bare
  have h1 : Line ["pyftle".toList, "-c".toList, "config.yaml".toList]
      ("pyftle".toList ++ " ".toList ++ ("-c".toList ++ " \\\n  ".toList ++
        ('\'' :: "config.yaml".toList ++ ['\'']))) :=
    .more (hb _ (by decide) (by decide) (by unfold Bare; decide)) ⟨.blank .nil, .inl (by decide)⟩
      (.more (hb _ (by decide) (by decide) (by unfold Bare; decide))
        ⟨.blank (.line (.blank (.blank .nil))), .inl (by decide)⟩ (.last (.single (by decide))))
  exact .cons (i := []) .nil h1 (.remark (g := "  ".toList) (r := " the file".toList)
    ⟨.blank (.blank .nil), .inl (by decide)⟩ (by decide)) .nil

/-- The hypotheses of `C123_remark_fails` as in the README, and its second command. -/
example : shellCommands "pyftle -c a \\  # b\n -c d\n".toList =
    some [["pyftle".toList, "-c".toList, "a".toList, " ".toList], ["-c".toList, "d".toList]] := by
  have hb : ∀ w : Str, w ≠ [] → w.head? ≠ some '#' → (∀ c ∈ w, Bare c) → Spelled w w :=
    fun w => .bare
  have h1 : Line ["pyftle".toList, "-c".toList, "a".toList]
      ("pyftle".toList ++ " ".toList ++ ("-c".toList ++ " ".toList ++ "a".toList)) :=
    .more (hb _ (by decide) (by decide) (by unfold Bare; decide)) ⟨.blank .nil, .inl (by decide)⟩
      (.more (hb _ (by decide) (by decide) (by unfold Bare; decide)) ⟨.blank .nil, .inl (by decide)⟩
        (.last (hb _ (by decide) (by decide) (by unfold Bare; decide))))
  have h2 : Line ["-c".toList, "d".toList] ("-c".toList ++ " ".toList ++ "d".toList) :=
    .more (hb _ (by decide) (by decide) (by unfold Bare; decide)) ⟨.blank .nil, .inl (by decide)⟩
      (.last (hb _ (by decide) (by decide) (by unfold Bare; decide)))
  exact C123_remark_fails (i := []) (g := " ".toList) (b := " ".toList) (r := " b".toList) .nil h1
    ⟨.blank .nil, .inl (by decide)⟩ ⟨.blank .nil, .inl (by decide)⟩ (by decide)
    (.cons (i := " ".toList) (.blank .nil) h2 (.plain (g := []) .nil) .nil) (.inl rfl)

/-- A line made a comment as the README advises: `--particles_grid_shape` is cut off. -/
example : shellCommands ("pyftle --num_processes 4 \\\n" ++
      "    # --flow_grid_shape 100,100,100 \\\n    --particles_grid_shape 100,100,100\n").toList =
    some [["pyftle".toList, "--num_processes".toList, "4".toList],
      ["--particles_grid_shape".toList, "100,100,100".toList]] := by decide +kernel

end Verif
