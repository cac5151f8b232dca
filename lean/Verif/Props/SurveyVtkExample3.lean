import Verif.Props.SurveyExample3
import Verif.Props.SurveyVtk

/-!
# C106 for VTK output: a concrete call in three dimensions

The call of `SurveyExample3.lean` with a second `--output_format`.
-/

namespace Verif

open Matrix Set

/-- The options of the call. -/
def vtkSpaceOptions : List (Opt × Str) := spaceOptions ++ [(.outputFormat, "vtk".toList)]

/-- The command line. -/
def vtkSpaceArgv : List Str := vtkSpaceOptions.flatMap fun e => [e.1.name, e.2]

/-- What it asks for. -/
noncomputable def vtkSpaceExperiment : Experiment ℝ := { spaceExperiment with format := "vtk" }

theorem vtkSpaceSays : Says asciiData vtkSpaceArgv vtkSpaceOptions := by
  have hn : ∀ o, Names (Opt.name o) o := by
    intro o
    refine ⟨?_, fun o' => ?_⟩
    · have : ∀ o ∈ Opt.all, "--".toList.isPrefixOf o.name = true := by decide +kernel
      rw [← List.isPrefixOf_iff_prefix]
      exact this o (by cases o <;> decide)
    · have : ∀ o ∈ Opt.all, ∀ o' ∈ Opt.all, o.name.isPrefixOf o'.name = true ↔ o' = o := by
        decide +kernel
      rw [← List.isPrefixOf_iff_prefix]
      exact this o (by cases o <;> decide) o' (by cases o' <;> decide)
  have hp : ∀ e ∈ vtkSpaceOptions, e.1 ≠ .help ∧ ¬ "-".toList <+: e.2 := by decide +kernel
  unfold vtkSpaceArgv
  generalize vtkSpaceOptions = l at hp
  induction l with
  | nil => exact .nil
  | cons e l ih =>
    obtain ⟨h1, h2⟩ := hp e (by simp)
    exact .pair (.inl (hn e.1)) h1 (.inl h2) (ih fun x hx => hp x (by simp [hx]))

theorem vtkSpaceFromFile (items : Str → Option (List (Str × CfgValue))) :
    FromFile items vtkSpaceArgv vtkSpaceOptions [] := by
  refine .inl ⟨fun p hp => ?_, rfl⟩
  have := hp.mem
  simp [vtkSpaceOptions, spaceOptions] at this

theorem vtkSpaceAsks : Asks asciiData surveyFloat surveyTexts (fun _ _ => .ok 2)
    ([] ++ vtkSpaceOptions) vtkSpaceExperiment := by
  have last : ∀ (a b : List (Opt × Str)) (o : Opt) (v : Str), (∀ e ∈ b, e.1 ≠ o) →
      LastValue (a ++ (o, v) :: b) o v := fun a b o v h => ⟨a, b, rfl, fun w hw => h _ hw rfl⟩
  have parsed : (Except.toOption (convert asciiData callFloat .flowGridShape "801,801,801".toList) :
      Option (List ℤ)) = some [801, 801, 801] := by decide +kernel
  have shape : ShapeLiteral asciiData "801,801,801".toList [801, 801, 801] :=
    (convert_iff asciiData callFloat asciiData_lawful .flowGridShape _ _).1
      (ok_of_toOption parsed)
  have fl : surveyFloat "0.01".toList = some (1 / 100) := if_pos rfl
  refine ⟨?_, last [] _ _ _ (by decide), ⟨['V'], last (vtkSpaceOptions.take 1) _ _ _ (by decide), rfl⟩,
    ⟨['C'], last (vtkSpaceOptions.take 2) _ _ _ (by decide), rfl⟩,
    ⟨['P'], last (vtkSpaceOptions.take 3) _ _ _ (by decide), rfl⟩,
    ⟨_, last (vtkSpaceOptions.take 4) _ _ _ (by decide), fl⟩,
    ⟨_, _, last (vtkSpaceOptions.take 5) _ _ _ (by decide), fl, rfl⟩,
    last (vtkSpaceOptions.take 6) _ _ _ (by decide),
    last (vtkSpaceOptions.take 7) _ _ _ (by decide), last (vtkSpaceOptions.take 10) [] _ _ (by decide),
    .inr ⟨by simp [vtkSpaceOptions, spaceOptions], rfl⟩,
    .inl ⟨_, _, last (vtkSpaceOptions.take 9) _ _ _ (by decide), shape, rfl⟩,
    .inr ⟨by simp [vtkSpaceOptions, spaceOptions], rfl⟩⟩
  intro e he
  rw [List.nil_append] at he
  rcases List.mem_append.1 he with he | he
  · exact spaceAsks.valid e (List.mem_append_right _ he)
  · rw [List.mem_singleton] at he
    subst he
    exact ⟨"vtk".toList, rfl, .inr rfl⟩

theorem vtkSpaceSensible : vtkSpaceExperiment.Sensible :=
  ⟨spaceSensible.plain, spaceSensible.coordinate_ne, spaceSensible.particle_ne,
    spaceSensible.one_le, spaceSensible.enough, spaceSensible.shape, spaceSensible.processes⟩

theorem vtkSpaceOrder : inRunOrder vtkSpaceExperiment.timestep vtkSpaceExperiment.velocity =
    ["v0", "v1", "v0"] := by
  have : ¬ (vtkSpaceExperiment.timestep < 0) := by
    show ¬ ((1 / 100 : ℝ) < 0)
    norm_num
  unfold inRunOrder
  rw [if_neg this]
  rfl

theorem vtkSpaceNames : vtkSpaceExperiment.fileNames shearEnv3.stem =
    ["ftle_v0.vtp".toList, "ftle_v1.vtp".toList] := by
  unfold Experiment.fileNames
  rw [vtkSpaceOrder]
  rfl

theorem vtkSpaceTakes : surveyDisk.Takes ("outputs/".toList ++ vtkSpaceExperiment.name)
    (vtkSpaceExperiment.fileNames shearEnv3.stem) := by
  have way : surveyDisk.way ("outputs/".toList ++ vtkSpaceExperiment.name) =
      [[tmpName], [tmpName, "outputs".toList], [tmpName, "outputs".toList, "run".toList]] := by rfl
  have target : surveyDisk.target ("outputs/".toList ++ vtkSpaceExperiment.name) =
      [tmpName, "outputs".toList, "run".toList] := by rfl
  refine ⟨diskOf_tree rfl rfl ?_, .inl (by decide +kernel), ?_, rfl, ?_⟩
  · intro e he
    simp only [List.mem_cons, List.not_mem_nil, or_false] at he
    rcases he with rfl | rfl
    · exact .inl rfl
    · exact .inr rfl
  · rw [way]
    intro x hx
    simp only [List.mem_cons, List.not_mem_nil, or_false] at hx
    rcases hx with rfl | rfl | rfl
    · exact .inl rfl
    · exact .inr ⟨rfl, rfl⟩
    · exact .inr ⟨rfl, rfl⟩
  · rw [way, target, vtkSpaceNames]
    intro n hn
    simp only [List.mem_cons, List.not_mem_nil, or_false] at hn
    rcases hn with rfl | rfl
    · refine ⟨?_, rfl, by decide⟩
      rw [show surveyDisk.node _ = none from rfl]
      simp
    · refine ⟨?_, rfl, by decide⟩
      rw [show surveyDisk.node _ = none from rfl]
      simp

theorem vtkSpaceFirst (i : ℕ) : vtkSpaceExperiment.first i = i := spaceFirst i

theorem vtkSpaceData {P : Particles ℝ} (hP : readSeedParticles shearFiles3 "p" = .ok P) :
    Survey3 shearFiles3 vtkSpaceExperiment (fun _ => shear3) 0 801 801 (-4) (1 / 100) (-4) (1 / 100)
      (-4) (1 / 100) P :=
  have h := spaceData hP
  ⟨h.hm, h.hnz, h.lm, h.lnz, h.lmz, h.hdx, h.hdy, h.hdz, h.several, h.distinct, h.nodes, h.samples,
    h.seeds⟩

theorem vtkSpaceResolved {L B M r : ℝ} {x : ℕ → Fin 6 → Fin 3 → ℝ} {X σ} (h : Resolved3 spaceExperiment
    (fun _ => shear3) 0 801 801 (-4) (1 / 100) (-4) (1 / 100) (-4) (1 / 100) L B M r 1 x X σ) :
    Resolved3 vtkSpaceExperiment (fun _ => shear3) 0 801 801 (-4) (1 / 100) (-4) (1 / 100) (-4)
      (1 / 100) L B M r 1 x X σ :=
  ⟨h.two_le, h.step, h.small, h.lipschitz, h.trajectories, h.inside, h.stretching⟩

/-- The call starts, runs to its end, and leaves two files with one record each: the origin, and a
value near `100 ln σ`. -/
example : ∃ (σ : ℝ) (st : Started ℝ FVal) (rs : _), 1 ≤ σ ∧
    (startCommand asciiData surveyFloat (fun _ => []) surveyTexts (fun _ _ => .ok 2) id surveyDisk
      vtkSpaceArgv).2.2 = .ok st ∧
    ∀ name ∈ ["ftle_v0.vtp", "ftle_v1.vtp"], ∃ (saved : Saved ℝ FVal) (Λ : ℝ),
      ((startCommand asciiData surveyFloat (fun _ => []) surveyTexts (fun _ _ => .ok 2) id surveyDisk
        vtkSpaceArgv : _ × _ × Except Stop (Started ℝ FVal)).1.writeFiles st.folder
          (st.files id rs [1, 0])).1.node
        [tmpName, "outputs".toList, "run".toList, name.toList] = some (.file saved) ∧
      saved.Says [(.fin Λ, [0, 0, 0])] ∧
      Near Λ (((2 : ℕ) - 1) * |1 / 100|) σ (stretchError3 (1 * max (max (1 / 100) (1 / 100)) (1 / 100)) 1 1 0
        (1 / 100) 2 (cross3 0 1)) := by
  obtain ⟨seed, P, s1, s2, s3, s4⟩ := shear3_seeds
  obtain ⟨X, σ, hσ, res0⟩ := spaceResolved s4
  have res := vtkSpaceResolved res0
  obtain ⟨st, H, s₀, h1, h2, -, h4⟩ := C105_starts (F := FVal) asciiData surveyFloat (fun _ => [])
    surveyTexts (fun _ _ => .ok 2) id asciiData_lawful (by simp) vtkSpaceSays (vtkSpaceFromFile _)
    vtkSpaceAsks vtkSpaceSensible (by decide) surveyDisk shearEnv3 (fun _ _ => 7)
  obtain ⟨bs, s, rs, h5, h6, -⟩ := C106_vtk_completes_3d asciiData surveyFloat (fun _ => [])
    surveyTexts (fun _ _ => .ok 2) id asciiData_lawful (by simp) vtkSpaceSays (vtkSpaceFromFile _)
    vtkSpaceAsks vtkSpaceSensible (by decide) surveyDisk (env := shearEnv3) ⟨rfl, rfl, rfl⟩ (.inl rfl) rfl
    rfl rfl (vtkSpaceData s3) rfl s1 s2 res (fun _ _ => 7) h1 h2 h4 .nil (by simp) 0 0
  have hall := C106_vtk_values_3d asciiData surveyFloat (fun _ => [])
    surveyTexts (fun _ _ => .ok 2) id asciiData_lawful (by simp) vtkSpaceSays (vtkSpaceFromFile _)
    vtkSpaceAsks vtkSpaceSensible (by decide) surveyDisk (env := shearEnv3) ⟨rfl, rfl, rfl⟩ (.inl rfl)
    (by rw [vtkSpaceOrder]; decide +kernel) (by rw [vtkSpaceOrder]; decide +kernel) vtkSpaceTakes rfl rfl rfl
    (vtkSpaceData s3) rfl s1 s2 res (fun _ _ => 7) h1 h2 h4 h5 h6 [1, 0] (by decide) id
  have group : groupOf seed 6 1 3 0 = cross3 0 1 := funext s4
  have record : ∀ Λ : ℕ → ℝ, (List.range 1).map
      (fun g => groupRecordAt (Λ g) (groupOf seed 6 1 3 g)) = [(FVal.fin (Λ 0), [0, 0, 0])] := by
    intro Λ
    simp [groupRecordAt, s4, cross3, Fin.sum_univ_six]
  refine ⟨σ, st, rs, hσ, h1, fun name hname => ?_⟩
  simp only [List.mem_cons, List.not_mem_nil, or_false] at hname
  rcases hname with rfl | rfl
  · obtain ⟨first, saved, Λ, g1, g2, g3, g4⟩ := hall 0
      (by simp [Experiment.fields, vtkSpaceExperiment, spaceExperiment])
    rw [vtkSpaceFirst] at g1
    obtain rfl : "v0".toList = first := Option.some.inj g1
    rw [record] at g3
    have g4 := g4 0 one_pos
    rw [group] at g4
    exact ⟨saved, Λ 0, g2, g3, g4⟩
  · obtain ⟨first, saved, Λ, g1, g2, g3, g4⟩ := hall 1
      (by simp [Experiment.fields, vtkSpaceExperiment, spaceExperiment])
    rw [vtkSpaceFirst] at g1
    obtain rfl : "v1".toList = first := Option.some.inj g1
    rw [record] at g3
    have g4 := g4 0 one_pos
    rw [group] at g4
    exact ⟨saved, Λ 0, g2, g3, g4⟩

end Verif
