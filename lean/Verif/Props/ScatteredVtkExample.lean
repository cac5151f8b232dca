import Verif.Props.ScatteredVtk
import Verif.Props.ScatteredExample

/-!
# C116 for VTK output: a concrete call

The call of the example of C116 with `--output_format vtk`.
-/

namespace Verif

open Matrix Set

/-- The options of the call. -/
def scatVtkOptions : List (Opt × Str) :=
  [(.experimentName, "run".toList), (.listVelocityFiles, ['V']), (.listCoordinateFiles, ['C']),
    (.listParticleFiles, ['P']), (.snapshotTimestep, "0.01".toList),
    (.flowMapPeriod, "0.01".toList), (.integrator, "ab2".toList), (.interpolator, "nearest".toList),
    (.outputFormat, "vtk".toList)]

/-- The command line. -/
def scatVtkArgv : List Str := scatVtkOptions.flatMap fun e => [e.1.name, e.2]

/-- What it asks for. -/
noncomputable def scatVtkExperiment : Experiment ℝ := { surveyExperiment with
  coordinate := ["c0".toList], interpolator := "nearest", flowGrid := none, format := "vtk" }

theorem scatVtkSays : Says asciiData scatVtkArgv scatVtkOptions := by
  have hn : ∀ o, Names (Opt.name o) o := by
    intro o
    refine ⟨?_, fun o' => ?_⟩
    · have : ∀ o ∈ Opt.all, "--".toList.isPrefixOf o.name = true := by decide +kernel
      rw [← List.isPrefixOf_iff_prefix]
      exact this o (by cases o <;> decide)
    · have : ∀ o ∈ Opt.all, ∀ o' ∈ Opt.all, o.name.isPrefixOf o'.name = true ↔ o' = o := by
        decide +kernel
      rw [← List.isPrefixOf_iff_prefix]
      exact this o (by cases o <;> decide) o' (by cases o' <;> decide)
  have hp : ∀ e ∈ scatVtkOptions, e.1 ≠ .help ∧ ¬ "-".toList <+: e.2 := by decide +kernel
  unfold scatVtkArgv
  generalize scatVtkOptions = l at hp
  induction l with
  | nil => exact .nil
  | cons e l ih =>
    obtain ⟨h1, h2⟩ := hp e (by simp)
    exact .pair (.inl (hn e.1)) h1 (.inl h2) (ih fun x hx => hp x (by simp [hx]))

theorem scatVtkFromFile (items : Str → Option (List (Str × CfgValue))) :
    FromFile items scatVtkArgv scatVtkOptions [] := by
  refine .inl ⟨fun p hp => ?_, rfl⟩
  have := hp.mem
  simp [scatVtkOptions] at this

theorem scatVtkAsks : Asks asciiData surveyFloat scatTexts (fun _ _ => .ok 2)
    ([] ++ scatVtkOptions) scatVtkExperiment := by
  have last : ∀ (a b : List (Opt × Str)) (o : Opt) (v : Str), (∀ e ∈ b, e.1 ≠ o) →
      LastValue (a ++ (o, v) :: b) o v := fun a b o v h => ⟨a, b, rfl, fun w hw => h _ hw rfl⟩
  have fl : surveyFloat "0.01".toList = some (1 / 100) := if_pos rfl
  refine ⟨?_, last [] _ _ _ (by decide), ⟨['V'], last (scatVtkOptions.take 1) _ _ _ (by decide), rfl⟩,
    ⟨['C'], last (scatVtkOptions.take 2) _ _ _ (by decide), rfl⟩,
    ⟨['P'], last (scatVtkOptions.take 3) _ _ _ (by decide), rfl⟩,
    ⟨_, last (scatVtkOptions.take 4) _ _ _ (by decide), fl⟩,
    ⟨_, _, last (scatVtkOptions.take 5) _ _ _ (by decide), fl, rfl⟩,
    last (scatVtkOptions.take 6) _ _ _ (by decide),
    last (scatVtkOptions.take 7) _ _ _ (by decide), last (scatVtkOptions.take 8) [] _ _ (by decide),
    .inr ⟨by simp [scatVtkOptions], rfl⟩, .inr ⟨by simp [scatVtkOptions], rfl⟩,
    .inr ⟨by simp [scatVtkOptions], rfl⟩⟩
  intro e he
  simp only [scatVtkOptions, List.nil_append, List.mem_cons, List.not_mem_nil, or_false] at he
  rcases he with rfl | rfl | rfl | rfl | rfl | rfl | rfl | rfl | rfl
  · exact ⟨_, rfl⟩
  · exact ⟨_, rfl⟩
  · exact ⟨_, rfl⟩
  · exact ⟨_, rfl⟩
  · exact ⟨(1 / 100 : ℝ), fl⟩
  · exact ⟨(1 / 100 : ℝ), fl⟩
  · exact ⟨"ab2".toList, rfl, .inr (.inr rfl)⟩
  · exact ⟨"nearest".toList, rfl, by simp⟩
  · exact ⟨"vtk".toList, rfl, .inr rfl⟩

theorem scatVtkSensible : scatVtkExperiment.Sensible where
  plain := by
    intro f hf
    simp only [scatVtkExperiment, surveyExperiment, List.cons_append, List.nil_append, List.mem_cons,
      List.not_mem_nil, or_false] at hf
    rcases hf with rfl | rfl | rfl | rfl | rfl <;>
      exact ⟨by decide +kernel, by decide +kernel, by decide +kernel, by decide +kernel⟩
  coordinate_ne := by simp [scatVtkExperiment]
  particle_ne := by simp [scatVtkExperiment, surveyExperiment]
  one_le := by simp [scatVtkExperiment, surveyExperiment]
  enough := by simp [scatVtkExperiment, surveyExperiment]
  shape := by simp [scatVtkExperiment]
  processes := by simp [scatVtkExperiment, surveyExperiment]

theorem scatVtkOrder : inRunOrder scatVtkExperiment.timestep scatVtkExperiment.velocity =
    ["v0", "v1", "v0"] := surveyOrder

theorem scatVtkNames : scatVtkExperiment.fileNames shearEnv.stem =
    ["ftle_v0.vtp".toList, "ftle_v1.vtp".toList] := by
  unfold Experiment.fileNames
  rw [scatVtkOrder]
  rfl

theorem scatVtkTakes : surveyDisk.Takes ("outputs/".toList ++ scatVtkExperiment.name)
    (scatVtkExperiment.fileNames shearEnv.stem) := by
  have way : surveyDisk.way ("outputs/".toList ++ scatVtkExperiment.name) =
      [[tmpName], [tmpName, "outputs".toList], [tmpName, "outputs".toList, "run".toList]] := by rfl
  have target : surveyDisk.target ("outputs/".toList ++ scatVtkExperiment.name) =
      [tmpName, "outputs".toList, "run".toList] := by rfl
  refine ⟨diskOf_tree rfl rfl ?_, .inl (by decide +kernel), ?_, rfl, ?_⟩
  · intro e he
    simp only [List.mem_cons, List.not_mem_nil, or_false] at he
    rcases he with rfl | rfl
    · exact .inl rfl
    · exact .inr rfl
  · rw [way]
    intro x hx
    simp only [List.mem_cons, List.not_mem_nil, or_false] at hx
    rcases hx with rfl | rfl | rfl
    · exact .inl rfl
    · exact .inr ⟨rfl, rfl⟩
    · exact .inr ⟨rfl, rfl⟩
  · rw [way, target, scatVtkNames]
    intro n hn
    simp only [List.mem_cons, List.not_mem_nil, or_false] at hn
    rcases hn with rfl | rfl
    · refine ⟨?_, rfl, by decide⟩
      rw [show surveyDisk.node _ = none from rfl]
      simp
    · refine ⟨?_, rfl, by decide⟩
      rw [show surveyDisk.node _ = none from rfl]
      simp

/-- The call starts, runs to its end, and leaves two files with one record each: the origin, and a
value within `1/2` of `100 ln σ`. -/
example : ∃ (σ : ℝ) (st : Started ℝ FVal) (rs : _), 1 ≤ σ ∧
    (startCommand asciiData surveyFloat (fun _ => []) scatTexts (fun _ _ => .ok 2) id surveyDisk
      scatVtkArgv).2.2 = .ok st ∧
    ∀ name ∈ ["ftle_v0.vtp", "ftle_v1.vtp"], ∃ (saved : Saved ℝ FVal) (Λ : ℝ),
      ((startCommand asciiData surveyFloat (fun _ => []) scatTexts (fun _ _ => .ok 2) id surveyDisk
        scatVtkArgv : _ × _ × Except Stop (Started ℝ FVal)).1.writeFiles st.folder
          (st.files id rs [1, 0])).1.node
        [tmpName, "outputs".toList, "run".toList, name.toList] = some (.file saved) ∧
      saved.Says [(.fin Λ, [0, 0, 0])] ∧ |Λ - 100 * Real.log σ| ≤ 1 / 2 := by
  obtain ⟨seed, P, s1, s2, s3, s4⟩ := shear_seeds
  obtain ⟨X, σ, hσ, res⟩ := surveyResolved s4
  obtain ⟨C, sv0, cover⟩ := scatData s3
  have sv : ScatteredSurvey shearFiles scatVtkExperiment (fun _ => shear) 0 (fun _ => C)
      (fun _ => 801 * 801) P := ⟨sv0.1, sv0.2, sv0.3, sv0.4⟩
  have res' : ScatteredResolved scatVtkExperiment (fun _ => shear) 0 (fun _ => C) (fun _ => 801 * 801)
      (fun _ => {z | ∃ k < 801 * 801, ‖samplePoint C k - z‖ ≤ 1 * max (1 / 100) (1 / 100)})
      (1 * max (1 / 100) (1 / 100)) 1 1 0 2 1 (groupOf seed 4 1 2) X (fun _ _ => σ) :=
    ⟨res.two_le, res.step, by rw [one_mul]; exact res.small,
      fun i _ g _ b j _ k _ => shear_lipschitz _ _, res.trajectories,
      fun i hi g hg b j hj z hz => cover z (res.inside i hi g hg b j hj z hz),
      by rw [one_mul (1 * max (1 / 100 : ℝ) (1 / 100))]; exact res.stretching⟩
  have blends : ∀ j < scatVtkExperiment.velocity.length, scatEnv.sp.Blends .nearest C (801 * 801)
      {z | ∃ k < 801 * 801, ‖samplePoint C k - z‖ ≤ 1 * max (1 / 100) (1 / 100)}
      (1 * max (1 / 100) (1 / 100)) := fun j _ => nearestSciPy_blends _ _ (by norm_num) _
  obtain ⟨st, H, s₀, h1, h2, -, h4⟩ := C105_starts (F := FVal) asciiData surveyFloat (fun _ => [])
    scatTexts (fun _ _ => .ok 2) id asciiData_lawful (by simp) scatVtkSays (scatVtkFromFile _)
    scatVtkAsks scatVtkSensible (by decide) surveyDisk scatEnv (fun _ _ => 7)
  obtain ⟨bs, s, rs, h5, h6, -⟩ := C116_vtk_completes asciiData surveyFloat (fun _ => [])
    scatTexts (fun _ _ => .ok 2) id asciiData_lawful (by simp) scatVtkSays (scatVtkFromFile _)
    scatVtkAsks scatVtkSensible (by decide) surveyDisk (env := scatEnv) ⟨rfl, rfl, rfl⟩ (me := .nearest) rfl
    rfl rfl sv blends (.inl rfl) s1 s2 res' (fun _ _ => 7) h1 h2 h4 .nil (by simp) 0 0
  have order : inRunOrder scatVtkExperiment.timestep scatVtkExperiment.velocity = ["v0", "v1", "v0"] :=
    surveyOrder
  have hall := C116_vtk_values asciiData surveyFloat (fun _ => [])
    scatTexts (fun _ _ => .ok 2) id asciiData_lawful (by simp) scatVtkSays (scatVtkFromFile _)
    scatVtkAsks scatVtkSensible (by decide) surveyDisk (env := scatEnv) ⟨rfl, rfl, rfl⟩
    (by rw [order]; decide +kernel) (by rw [order]; decide +kernel) scatVtkTakes (me := .nearest) rfl rfl
    rfl sv blends (.inl rfl) s1 s2 res' (fun _ _ => 7) h1 h2 h4 h5 h6 [1, 0] (by decide) id
  have w1 : groupOf seed 4 1 2 0 1 0 - groupOf seed 4 1 2 0 0 0 = 2 := by
    simp [s4, cross2]; norm_num
  have w2 : groupOf seed 4 1 2 0 2 1 - groupOf seed 4 1 2 0 3 1 = 2 := by
    simp [s4, cross2]; norm_num
  have value : ∀ Λ : ℝ, Near Λ ((scatVtkExperiment.snapshots - 1) * |scatVtkExperiment.timestep|) σ
      (stretchError2 (1 * (1 * max (1 / 100) (1 / 100))) 1 1 0 scatVtkExperiment.timestep
        scatVtkExperiment.snapshots (groupOf seed 4 1 2 0)) → |Λ - 100 * Real.log σ| ≤ 1 / 2 := by
    intro Λ h3
    unfold Near stretchError2 at h3
    rw [w1, w2] at h3
    have e1 : scatVtkExperiment.timestep = 1 / 100 := rfl
    have e2 : scatVtkExperiment.snapshots = 2 := rfl
    rw [e1, e2] at h3
    have hb : 4 * posError (1 * (1 * max (1 / 100) (1 / 100))) 1 1 0 (1 / 100) 2 *
        (1 / |(2 : ℝ)| + 1 / |(2 : ℝ)|) ≤ 1 / 400 := by
      unfold posError; norm_num [abs_of_pos]
    set β := 4 * posError (1 * (1 * max (1 / 100) (1 / 100))) 1 1 0 (1 / 100) 2 *
      (1 / |(2 : ℝ)| + 1 / |(2 : ℝ)|)
    have hT : 1 / ((((2 : ℕ) : ℝ) - 1) * |(1 / 100 : ℝ)|) = 100 := by norm_num [abs_of_pos]
    rw [hT] at h3
    refine h3.trans ?_
    have : β / (σ - β) ≤ 1 / 200 := by
      rw [div_le_div_iff₀ (by linarith) (by norm_num)]
      linarith
    linarith
  have record : ∀ Λ : ℕ → ℝ, (List.range 1).map
      (fun g => planeRecordAt (Λ g) (groupOf seed 4 1 2 g)) = [(FVal.fin (Λ 0), [0, 0, 0])] := by
    intro Λ
    simp [planeRecordAt, s4, cross2, Fin.sum_univ_four]
  have first_eq : ∀ i, scatVtkExperiment.first i = i := surveyFirst
  refine ⟨σ, st, rs, hσ, h1, fun name hname => ?_⟩
  simp only [List.mem_cons, List.not_mem_nil, or_false] at hname
  rcases hname with rfl | rfl
  · obtain ⟨first, saved, Λ, g1, g2, g3, g4⟩ := hall 0
      (by simp [Experiment.fields, scatVtkExperiment, surveyExperiment])
    rw [first_eq] at g1
    obtain rfl : "v0".toList = first := Option.some.inj g1
    rw [record] at g3
    exact ⟨saved, Λ 0, g2, g3, value _ (g4 0 one_pos)⟩
  · obtain ⟨first, saved, Λ, g1, g2, g3, g4⟩ := hall 1
      (by simp [Experiment.fields, scatVtkExperiment, surveyExperiment])
    rw [first_eq] at g1
    obtain rfl : "v1".toList = first := Option.some.inj g1
    rw [record] at g3
    exact ⟨saved, Λ 0, g2, g3, value _ (g4 0 one_pos)⟩

end Verif
