import Verif.Props.SurveyExample
import Verif.Props.SurveyVtk

/-!
# C106 for VTK output: a concrete call

The call of `SurveyExample.lean` with a second `--output_format`.
-/

namespace Verif

open Matrix Set

/-- The options of the call. -/
def vtkOptions : List (Opt × Str) := surveyOptions ++ [(.outputFormat, "vtk".toList)]

/-- The command line. -/
def vtkArgv : List Str := vtkOptions.flatMap fun e => [e.1.name, e.2]

/-- What it asks for. -/
noncomputable def vtkExperiment : Experiment ℝ := { surveyExperiment with format := "vtk" }

theorem vtkSays : Says asciiData vtkArgv vtkOptions := by
  have hn : ∀ o, Names (Opt.name o) o := by
    intro o
    refine ⟨?_, fun o' => ?_⟩
    · have : ∀ o ∈ Opt.all, "--".toList.isPrefixOf o.name = true := by decide +kernel
      rw [← List.isPrefixOf_iff_prefix]
      exact this o (by cases o <;> decide)
    · have : ∀ o ∈ Opt.all, ∀ o' ∈ Opt.all, o.name.isPrefixOf o'.name = true ↔ o' = o := by
        decide +kernel
      rw [← List.isPrefixOf_iff_prefix]
      exact this o (by cases o <;> decide) o' (by cases o' <;> decide)
  have hp : ∀ e ∈ vtkOptions, e.1 ≠ .help ∧ ¬ "-".toList <+: e.2 := by decide +kernel
  unfold vtkArgv
  generalize vtkOptions = l at hp
  induction l with
  | nil => exact .nil
  | cons e l ih =>
    obtain ⟨h1, h2⟩ := hp e (by simp)
    exact .pair (.inl (hn e.1)) h1 (.inl h2) (ih fun x hx => hp x (by simp [hx]))

theorem vtkFromFile (items : Str → Option (List (Str × CfgValue))) :
    FromFile items vtkArgv vtkOptions [] := by
  refine .inl ⟨fun p hp => ?_, rfl⟩
  have := hp.mem
  simp [vtkOptions, surveyOptions] at this

theorem vtkAsks : Asks asciiData surveyFloat surveyTexts (fun _ _ => .ok 2)
    ([] ++ vtkOptions) vtkExperiment := by
  have last : ∀ (a b : List (Opt × Str)) (o : Opt) (v : Str), (∀ e ∈ b, e.1 ≠ o) →
      LastValue (a ++ (o, v) :: b) o v := fun a b o v h => ⟨a, b, rfl, fun w hw => h _ hw rfl⟩
  have parsed : (Except.toOption (convert asciiData callFloat .flowGridShape "801,801".toList) :
      Option (List ℤ)) = some [801, 801] := by decide +kernel
  have shape : ShapeLiteral asciiData "801,801".toList [801, 801] :=
    (convert_iff asciiData callFloat asciiData_lawful .flowGridShape _ _).1
      (ok_of_toOption parsed)
  have fl : surveyFloat "0.01".toList = some (1 / 100) := if_pos rfl
  refine ⟨?_, last [] _ _ _ (by decide), ⟨['V'], last (vtkOptions.take 1) _ _ _ (by decide), rfl⟩,
    ⟨['C'], last (vtkOptions.take 2) _ _ _ (by decide), rfl⟩,
    ⟨['P'], last (vtkOptions.take 3) _ _ _ (by decide), rfl⟩,
    ⟨_, last (vtkOptions.take 4) _ _ _ (by decide), fl⟩,
    ⟨_, _, last (vtkOptions.take 5) _ _ _ (by decide), fl, rfl⟩,
    last (vtkOptions.take 6) _ _ _ (by decide),
    last (vtkOptions.take 7) _ _ _ (by decide), last (vtkOptions.take 10) [] _ _ (by decide),
    .inr ⟨by simp [vtkOptions, surveyOptions], rfl⟩,
    .inl ⟨_, _, last (vtkOptions.take 9) _ _ _ (by decide), shape, rfl⟩,
    .inr ⟨by simp [vtkOptions, surveyOptions], rfl⟩⟩
  intro e he
  rw [List.nil_append] at he
  rcases List.mem_append.1 he with he | he
  · exact surveyAsks.valid e (List.mem_append_right _ he)
  · rw [List.mem_singleton] at he
    subst he
    exact ⟨"vtk".toList, rfl, .inr rfl⟩

theorem vtkSensible : vtkExperiment.Sensible :=
  ⟨surveySensible.plain, surveySensible.coordinate_ne, surveySensible.particle_ne,
    surveySensible.one_le, surveySensible.enough, surveySensible.shape, surveySensible.processes⟩

theorem vtkOrder : inRunOrder vtkExperiment.timestep vtkExperiment.velocity =
    ["v0", "v1", "v0"] := by
  have : ¬ (vtkExperiment.timestep < 0) := by
    show ¬ ((1 / 100 : ℝ) < 0)
    norm_num
  unfold inRunOrder
  rw [if_neg this]
  rfl

theorem vtkNames : vtkExperiment.fileNames shearEnv.stem =
    ["ftle_v0.vtp".toList, "ftle_v1.vtp".toList] := by
  unfold Experiment.fileNames
  rw [vtkOrder]
  rfl

theorem vtkTakes : surveyDisk.Takes ("outputs/".toList ++ vtkExperiment.name)
    (vtkExperiment.fileNames shearEnv.stem) := by
  have way : surveyDisk.way ("outputs/".toList ++ vtkExperiment.name) =
      [[tmpName], [tmpName, "outputs".toList], [tmpName, "outputs".toList, "run".toList]] := by rfl
  have target : surveyDisk.target ("outputs/".toList ++ vtkExperiment.name) =
      [tmpName, "outputs".toList, "run".toList] := by rfl
  refine ⟨diskOf_tree rfl rfl ?_, .inl (by decide +kernel), ?_, rfl, ?_⟩
  · intro e he
    simp only [List.mem_cons, List.not_mem_nil, or_false] at he
    rcases he with rfl | rfl
    · exact .inl rfl
    · exact .inr rfl
  · rw [way]
    intro x hx
    simp only [List.mem_cons, List.not_mem_nil, or_false] at hx
    rcases hx with rfl | rfl | rfl
    · exact .inl rfl
    · exact .inr ⟨rfl, rfl⟩
    · exact .inr ⟨rfl, rfl⟩
  · rw [way, target, vtkNames]
    intro n hn
    simp only [List.mem_cons, List.not_mem_nil, or_false] at hn
    rcases hn with rfl | rfl
    · refine ⟨?_, rfl, by decide⟩
      rw [show surveyDisk.node _ = none from rfl]
      simp
    · refine ⟨?_, rfl, by decide⟩
      rw [show surveyDisk.node _ = none from rfl]
      simp

theorem vtkFirst (i : ℕ) : vtkExperiment.first i = i := surveyFirst i

theorem vtkData {P : Particles ℝ} (hP : readSeedParticles shearFiles "p" = .ok P) :
    Survey2 shearFiles vtkExperiment (fun _ => shear) 0 801 801 (-4) (1 / 100) (-4) (1 / 100) P :=
  have h := surveyData hP
  ⟨h.hnx, h.hny, h.lnx, h.lny, h.hdx, h.hdy, h.several, h.distinct, h.nodes, h.samples, h.seeds⟩

theorem vtkResolved {L B M r : ℝ} {x : ℕ → Fin 4 → Fin 2 → ℝ} {X σ} (h : Resolved2 surveyExperiment
    (fun _ => shear) 0 801 801 (-4) (1 / 100) (-4) (1 / 100) L B M r 1 x X σ) :
    Resolved2 vtkExperiment (fun _ => shear) 0 801 801 (-4) (1 / 100) (-4) (1 / 100) L B M r 1 x X σ :=
  ⟨h.two_le, h.step, h.small, h.lipschitz, h.trajectories, h.inside, h.stretching⟩

/-- The call starts, runs to its end, and leaves two files with one record each: the origin, and a
value within `1/2` of `100 ln σ`. -/
example : ∃ (σ : ℝ) (st : Started ℝ FVal) (rs : _), 1 ≤ σ ∧
    (startCommand asciiData surveyFloat (fun _ => []) surveyTexts (fun _ _ => .ok 2) id surveyDisk
      vtkArgv).2.2 = .ok st ∧
    ∀ name ∈ ["ftle_v0.vtp", "ftle_v1.vtp"], ∃ (saved : Saved ℝ FVal) (Λ : ℝ),
      ((startCommand asciiData surveyFloat (fun _ => []) surveyTexts (fun _ _ => .ok 2) id surveyDisk
        vtkArgv : _ × _ × Except Stop (Started ℝ FVal)).1.writeFiles st.folder
          (st.files id rs [1, 0])).1.node
        [tmpName, "outputs".toList, "run".toList, name.toList] = some (.file saved) ∧
      saved.Says [(.fin Λ, [0, 0, 0])] ∧ |Λ - 100 * Real.log σ| ≤ 1 / 2 := by
  obtain ⟨seed, P, s1, s2, s3, s4⟩ := shear_seeds
  obtain ⟨X, σ, hσ, res0⟩ := surveyResolved s4
  have res := vtkResolved res0
  obtain ⟨st, H, s₀, h1, h2, -, h4⟩ := C105_starts (F := FVal) asciiData surveyFloat (fun _ => [])
    surveyTexts (fun _ _ => .ok 2) id asciiData_lawful (by simp) vtkSays (vtkFromFile _)
    vtkAsks vtkSensible (by decide) surveyDisk shearEnv (fun _ _ => 7)
  obtain ⟨bs, s, rs, h5, h6, -⟩ := C106_vtk_completes_2d asciiData surveyFloat (fun _ => [])
    surveyTexts (fun _ _ => .ok 2) id asciiData_lawful (by simp) vtkSays (vtkFromFile _)
    vtkAsks vtkSensible (by decide) surveyDisk (env := shearEnv) ⟨rfl, rfl, rfl⟩ (.inl rfl) rfl
    rfl rfl (vtkData s3) (.inl rfl) s1 s2 res (fun _ _ => 7) h1 h2 h4 .nil (by simp) 0 0
  have hall := C106_vtk_values_2d asciiData surveyFloat (fun _ => [])
    surveyTexts (fun _ _ => .ok 2) id asciiData_lawful (by simp) vtkSays (vtkFromFile _)
    vtkAsks vtkSensible (by decide) surveyDisk (env := shearEnv) ⟨rfl, rfl, rfl⟩ (.inl rfl)
    (by rw [vtkOrder]; decide +kernel) (by rw [vtkOrder]; decide +kernel) vtkTakes rfl rfl rfl
    (vtkData s3) (.inl rfl) s1 s2 res (fun _ _ => 7) h1 h2 h4 h5 h6 [1, 0] (by decide) id
  have w1 : groupOf seed 4 1 2 0 1 0 - groupOf seed 4 1 2 0 0 0 = 2 := by
    simp [s4, cross2]; norm_num
  have w2 : groupOf seed 4 1 2 0 2 1 - groupOf seed 4 1 2 0 3 1 = 2 := by
    simp [s4, cross2]; norm_num
  have value : ∀ Λ : ℝ, Near Λ ((vtkExperiment.snapshots - 1) * |vtkExperiment.timestep|) σ
      (stretchError2 (1 * max (1 / 100) (1 / 100)) 1 1 0 vtkExperiment.timestep
        vtkExperiment.snapshots (groupOf seed 4 1 2 0)) → |Λ - 100 * Real.log σ| ≤ 1 / 2 := by
    intro Λ h3
    unfold Near stretchError2 at h3
    rw [w1, w2] at h3
    have e1 : vtkExperiment.timestep = 1 / 100 := rfl
    have e2 : vtkExperiment.snapshots = 2 := rfl
    rw [e1, e2] at h3
    have hb : 4 * posError (1 * max (1 / 100) (1 / 100)) 1 1 0 (1 / 100) 2 *
        (1 / |(2 : ℝ)| + 1 / |(2 : ℝ)|) ≤ 1 / 400 := by
      unfold posError; norm_num [abs_of_pos]
    set β := 4 * posError (1 * max (1 / 100) (1 / 100)) 1 1 0 (1 / 100) 2 *
      (1 / |(2 : ℝ)| + 1 / |(2 : ℝ)|)
    have hT : 1 / ((((2 : ℕ) : ℝ) - 1) * |(1 / 100 : ℝ)|) = 100 := by norm_num [abs_of_pos]
    rw [hT] at h3
    refine h3.trans ?_
    have : β / (σ - β) ≤ 1 / 200 := by
      rw [div_le_div_iff₀ (by linarith) (by norm_num)]
      linarith
    linarith
  have record : ∀ Λ : ℕ → ℝ, (List.range 1).map
      (fun g => planeRecordAt (Λ g) (groupOf seed 4 1 2 g)) = [(FVal.fin (Λ 0), [0, 0, 0])] := by
    intro Λ
    simp [planeRecordAt, s4, cross2, Fin.sum_univ_four]
  refine ⟨σ, st, rs, hσ, h1, fun name hname => ?_⟩
  simp only [List.mem_cons, List.not_mem_nil, or_false] at hname
  rcases hname with rfl | rfl
  · obtain ⟨first, saved, Λ, g1, g2, g3, g4⟩ := hall 0
      (by simp [Experiment.fields, vtkExperiment, surveyExperiment])
    rw [vtkFirst] at g1
    obtain rfl : "v0".toList = first := Option.some.inj g1
    rw [record] at g3
    exact ⟨saved, Λ 0, g2, g3, value _ (g4 0 one_pos)⟩
  · obtain ⟨first, saved, Λ, g1, g2, g3, g4⟩ := hall 1
      (by simp [Experiment.fields, vtkExperiment, surveyExperiment])
    rw [vtkFirst] at g1
    obtain rfl : "v1".toList = first := Option.some.inj g1
    rw [record] at g3
    exact ⟨saved, Λ 0, g2, g3, value _ (g4 0 one_pos)⟩

end Verif
