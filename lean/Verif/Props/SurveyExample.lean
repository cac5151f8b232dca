import Verif.Props.Survey

/-!
# C106: a concrete call

The shear flow `(0, sin x)` of C84 in three snapshots, the four seeds at distance 1 from the origin;
a call of the program that asks for two fields.
-/

namespace Verif

open Matrix Set

/-- The lists of files of the call. -/
def surveyTexts (p : Str) : Option Str :=
  if p = ['V'] then some "v0\nv1\nv0\n".toList
  else if p = ['C'] then some "c0\nc1\n".toList
  else if p = ['P'] then some "p\n".toList
  else none

/-- A stand-in for `float` that can read one number. -/
noncomputable def surveyFloat (s : Str) : Option ℝ := if s = "0.01".toList then some (1 / 100) else none

/-- The options of the call. -/
def surveyOptions : List (Opt × Str) :=
  [(.experimentName, "run".toList), (.listVelocityFiles, ['V']), (.listCoordinateFiles, ['C']),
    (.listParticleFiles, ['P']), (.snapshotTimestep, "0.01".toList),
    (.flowMapPeriod, "0.01".toList), (.integrator, "ab2".toList), (.interpolator, "grid".toList),
    (.outputFormat, "mat".toList), (.flowGridShape, "801,801".toList)]

/-- The command line. -/
def surveyArgv : List Str := surveyOptions.flatMap fun e => [e.1.name, e.2]

/-- What it asks for. -/
noncomputable def surveyExperiment : Experiment ℝ where
  name := "run".toList
  velocity := ["v0".toList, "v1".toList, "v0".toList]
  coordinate := ["c0".toList, "c1".toList]
  particle := [['p']]
  timestep := 1 / 100
  snapshots := 2
  integrator := "ab2"
  interpolator := "grid"
  format := "mat"
  processes := 1
  flowGrid := some [801, 801]
  particlesGrid := none

theorem surveySays : Says asciiData surveyArgv surveyOptions := by
  have hn : ∀ o, Names (Opt.name o) o := by
    intro o
    refine ⟨?_, fun o' => ?_⟩
    · have : ∀ o ∈ Opt.all, "--".toList.isPrefixOf o.name = true := by decide +kernel
      rw [← List.isPrefixOf_iff_prefix]
      exact this o (by cases o <;> decide)
    · have : ∀ o ∈ Opt.all, ∀ o' ∈ Opt.all, o.name.isPrefixOf o'.name = true ↔ o' = o := by
        decide +kernel
      rw [← List.isPrefixOf_iff_prefix]
      exact this o (by cases o <;> decide) o' (by cases o' <;> decide)
  have hp : ∀ e ∈ surveyOptions, e.1 ≠ .help ∧ ¬ "-".toList <+: e.2 := by decide +kernel
  unfold surveyArgv
  generalize surveyOptions = l at hp
  induction l with
  | nil => exact .nil
  | cons e l ih =>
    obtain ⟨h1, h2⟩ := hp e (by simp)
    exact .pair (.inl (hn e.1)) h1 (.inl h2) (ih fun x hx => hp x (by simp [hx]))

theorem surveyFromFile (items : Str → Option (List (Str × CfgValue))) :
    FromFile items surveyArgv surveyOptions [] := by
  refine .inl ⟨fun p hp => ?_, rfl⟩
  have := hp.mem
  simp [surveyOptions] at this

theorem surveyAsks : Asks asciiData surveyFloat surveyTexts (fun _ _ => .ok 2)
    ([] ++ surveyOptions) surveyExperiment := by
  have last : ∀ (a b : List (Opt × Str)) (o : Opt) (v : Str), (∀ e ∈ b, e.1 ≠ o) →
      LastValue (a ++ (o, v) :: b) o v := fun a b o v h => ⟨a, b, rfl, fun w hw => h _ hw rfl⟩
  have parsed : (Except.toOption (convert asciiData callFloat .flowGridShape "801,801".toList) :
      Option (List ℤ)) = some [801, 801] := by decide +kernel
  have shape : ShapeLiteral asciiData "801,801".toList [801, 801] :=
    (convert_iff asciiData callFloat asciiData_lawful .flowGridShape _ _).1
      (ok_of_toOption parsed)
  have fl : surveyFloat "0.01".toList = some (1 / 100) := if_pos rfl
  refine ⟨?_, last [] _ _ _ (by decide), ⟨['V'], last (surveyOptions.take 1) _ _ _ (by decide), rfl⟩,
    ⟨['C'], last (surveyOptions.take 2) _ _ _ (by decide), rfl⟩,
    ⟨['P'], last (surveyOptions.take 3) _ _ _ (by decide), rfl⟩,
    ⟨_, last (surveyOptions.take 4) _ _ _ (by decide), fl⟩,
    ⟨_, _, last (surveyOptions.take 5) _ _ _ (by decide), fl, rfl⟩,
    last (surveyOptions.take 6) _ _ _ (by decide),
    last (surveyOptions.take 7) _ _ _ (by decide), last (surveyOptions.take 8) _ _ _ (by decide),
    .inr ⟨by simp [surveyOptions], rfl⟩,
    .inl ⟨_, _, last (surveyOptions.take 9) [] _ _ (by decide), shape, rfl⟩,
    .inr ⟨by simp [surveyOptions], rfl⟩⟩
  intro e he
  simp only [surveyOptions, List.nil_append, List.mem_cons, List.not_mem_nil, or_false] at he
  rcases he with rfl | rfl | rfl | rfl | rfl | rfl | rfl | rfl | rfl | rfl
  · exact ⟨_, rfl⟩
  · exact ⟨_, rfl⟩
  · exact ⟨_, rfl⟩
  · exact ⟨_, rfl⟩
  · exact ⟨(1 / 100 : ℝ), fl⟩
  · exact ⟨(1 / 100 : ℝ), fl⟩
  · exact ⟨"ab2".toList, rfl, .inr (.inr rfl)⟩
  · exact ⟨"grid".toList, rfl, .inr (.inr (.inr rfl))⟩
  · exact ⟨"mat".toList, rfl, .inl rfl⟩
  · exact ⟨[801, 801], shape⟩

theorem surveySensible : surveyExperiment.Sensible where
  plain := by
    intro f hf
    simp only [surveyExperiment, List.cons_append, List.nil_append, List.mem_cons, List.not_mem_nil,
      or_false] at hf
    rcases hf with rfl | rfl | rfl | rfl | rfl | rfl <;>
      exact ⟨by decide +kernel, by decide +kernel, by decide +kernel, by decide +kernel⟩
  coordinate_ne := by simp [surveyExperiment]
  particle_ne := by simp [surveyExperiment]
  one_le := by simp [surveyExperiment]
  enough := by simp [surveyExperiment]
  shape := by simp [surveyExperiment]
  processes := by simp [surveyExperiment]

/-- The disk of the example: an empty working directory. -/
def surveyDisk : Disk (Saved ℝ FVal) := diskOf [tmpName] [([], .dir), ([tmpName], .dir)] []

theorem surveyOrder : inRunOrder surveyExperiment.timestep surveyExperiment.velocity =
    ["v0", "v1", "v0"] := by
  have : ¬ (surveyExperiment.timestep < 0) := by
    simp only [surveyExperiment]
    norm_num
  unfold inRunOrder
  rw [if_neg this]
  rfl

theorem surveyNames : surveyExperiment.fileNames shearEnv.stem =
    ["ftle_v0.mat".toList, "ftle_v1.mat".toList] := by
  unfold Experiment.fileNames
  rw [surveyOrder]
  rfl

theorem surveyTakes : surveyDisk.Takes ("outputs/".toList ++ surveyExperiment.name)
    (surveyExperiment.fileNames shearEnv.stem) := by
  have way : surveyDisk.way ("outputs/".toList ++ surveyExperiment.name) =
      [[tmpName], [tmpName, "outputs".toList], [tmpName, "outputs".toList, "run".toList]] := by rfl
  have target : surveyDisk.target ("outputs/".toList ++ surveyExperiment.name) =
      [tmpName, "outputs".toList, "run".toList] := by rfl
  refine ⟨diskOf_tree rfl rfl ?_, .inl (by decide +kernel), ?_, rfl, ?_⟩
  · intro e he
    simp only [List.mem_cons, List.not_mem_nil, or_false] at he
    rcases he with rfl | rfl
    · exact .inl rfl
    · exact .inr rfl
  · rw [way]
    intro x hx
    simp only [List.mem_cons, List.not_mem_nil, or_false] at hx
    rcases hx with rfl | rfl | rfl
    · exact .inl rfl
    · exact .inr ⟨rfl, rfl⟩
    · exact .inr ⟨rfl, rfl⟩
  · rw [way, target, surveyNames]
    intro n hn
    simp only [List.mem_cons, List.not_mem_nil, or_false] at hn
    rcases hn with rfl | rfl
    · refine ⟨?_, rfl, by decide⟩
      rw [show surveyDisk.node _ = none from rfl]
      simp
    · refine ⟨?_, rfl, by decide⟩
      rw [show surveyDisk.node _ = none from rfl]
      simp

theorem surveyFirst (i : ℕ) : surveyExperiment.first i = i := by
  unfold Experiment.first
  rw [if_neg]
  simp only [surveyExperiment]
  norm_num

/-- The files are a survey of the shear flow. -/
theorem surveyData {P : Particles ℝ} (hP : readSeedParticles shearFiles "p" = .ok P) :
    Survey2 shearFiles surveyExperiment (fun _ => shear) 0 801 801 (-4) (1 / 100) (-4) (1 / 100) P where
  hnx := by norm_num
  hny := by norm_num
  lnx := by norm_num
  lny := by norm_num
  hdx := by norm_num
  hdy := by norm_num
  several := by simp [surveyExperiment]
  distinct := by simp only [surveyExperiment]; decide
  nodes := by
    intro f hf
    have hf : String.ofList f = "c0" ∨ String.ofList f = "c1" := by
      simp only [surveyExperiment, List.mem_cons, List.not_mem_nil, or_false] at hf
      rcases hf with rfl | rfl
      · exact .inl rfl
      · exact .inr rfl
    obtain ⟨C, b1, b2, b3, b4⟩ := shear_coordinate hf
    refine ⟨C, b1, b2, fun a ha b hb => ?_⟩
    rw [b3, b4, Nat.add_mul_mod_self_left, Nat.mod_eq_of_lt ha,
      Nat.add_mul_div_left _ _ (by norm_num), Nat.div_eq_of_lt ha, Nat.zero_add]
    exact ⟨rfl, rfl⟩
  samples := by
    intro j f hj
    have hf : String.ofList f = "v0" ∨ String.ofList f = "v1" := by
      have := List.mem_of_getElem? hj
      simp only [surveyExperiment, List.mem_cons, List.not_mem_nil, or_false] at this
      rcases this with rfl | rfl | rfl
      · exact .inl rfl
      · exact .inr rfl
      · exact .inl rfl
    obtain ⟨V, a1, a2, a3, a4⟩ := shear_velocity hf
    refine ⟨V, a1, a2, fun a ha b hb c => ?_⟩
    fin_cases c
    · exact a3 _
    · show V.get [1, a + 801 * b] = Real.sin (-4 + a * (1 / 100))
      rw [a4, Nat.add_mul_mod_self_left, Nat.mod_eq_of_lt ha]
  seeds := by
    intro f hf
    simp only [surveyExperiment, List.mem_cons, List.not_mem_nil, or_false] at hf
    rw [hf]
    exact hP

theorem shear_along_from (x : Fin 2 → ℝ) (t0 h : ℝ) (n : ℕ) :
    Along (fun _ => shear) t0 h n 1 0 (fun t => shearPath x (t - t0)) where
  trajectory := by
    intro t _
    rw [hasDerivWithinAt_pi]
    intro i
    fin_cases i
    · exact hasDerivWithinAt_const _ _ _
    · have := (((hasDerivWithinAt_id t (uIcc t0 (t0 + n * h))).sub_const t0).mul_const
        (Real.sin (x 0))).const_add (x 1)
      simpa [shear, shearPath] using this
  speed := by
    intro t _
    rw [pi_norm_le_iff_of_nonneg (by positivity)]
    intro c
    fin_cases c
    · simp [shear]
    · exact Real.abs_sin_le_one _
  accel := by
    intro s _ t _
    have : shear (shearPath x (s - t0)) = shear (shearPath x (t - t0)) := by simp [shear, shearPath]
    rw [this]
    simp

/-- Grid and time step resolve it, with a largest stretching of at least 1. -/
theorem surveyResolved {seed : NDArray ℝ} (s4 : ∀ b, groupOf seed 4 1 2 0 b = cross2 0 1 b) :
    ∃ X σ, 1 ≤ σ ∧ Resolved2 surveyExperiment (fun _ => shear) 0 801 801 (-4) (1 / 100) (-4) (1 / 100) 1
      1 0 2 1 (groupOf seed 4 1 2) X (fun _ _ => σ) := by
  set X : ℕ → ℕ → Fin 4 → ℝ → Fin 2 → ℝ := fun i _ b t =>
    shearPath (cross2 0 1 b) (t - surveyExperiment.startTime 0 i) with hX
  set D := diffs2 (fun b => shearPath (cross2 0 1 b) ((2 : ℕ) * (1 / 100))) (groupOf seed 4 1 2 0)
    with hD
  obtain ⟨σ, hσ⟩ := ftle2_computes.exists_stretch D
  have d11 : D 1 1 = 1 := by
    rw [hD]
    simp [diffs2, s4, shearPath, cross2]
  have d01 : D 0 1 = 0 := by
    rw [hD]
    simp [diffs2, s4, shearPath, cross2]
  have hσ1 : 1 ≤ σ := by
    have h1 := hσ.2 ⟨![0, 1], by simp [len], rfl⟩
    refine le_trans (le_of_eq ?_) h1
    have : D *ᵥ ![0, 1] = ![0, 1] := by
      funext i
      fin_cases i <;> simp [Matrix.mulVec, dotProduct, Fin.sum_univ_two, d11, d01]
    rw [this]
    simp [len]
  have w1 : groupOf seed 4 1 2 0 1 0 - groupOf seed 4 1 2 0 0 0 = 2 := by
    simp [s4, cross2]; norm_num
  have w2 : groupOf seed 4 1 2 0 2 1 - groupOf seed 4 1 2 0 3 1 = 2 := by
    simp [s4, cross2]; norm_num
  refine ⟨X, σ, hσ1, ?_, ?_, shear_small, fun _ _ w _ w' _ => shear_lipschitz w w', ?_, ?_, ?_⟩
  · simp [surveyExperiment]
  · simp [surveyExperiment]
  · intro i hi g hg b
    obtain rfl : g = 0 := by omega
    refine ⟨shear_along_from _ _ _ _, ?_⟩
    rw [s4, hX]
    simp only [sub_self]
    exact (shear_trajectory _ univ).2
  · intro i hi g hg b j hj z hz
    have hj : j < 2 := hj
    have hj' : (j : ℝ) ≤ 1 := by exact_mod_cast (by omega : j ≤ 1)
    have hj0 : (0 : ℝ) ≤ j := by positivity
    have he : X i g b (surveyExperiment.startTime 0 i + j * surveyExperiment.timestep) =
        shearPath (cross2 0 1 b) (j * (1 / 100)) := by
      rw [hX]
      simp only [add_sub_cancel_left]
      rfl
    rw [he] at hz
    have h0 := (norm_le_pi_norm (z - shearPath (cross2 0 1 b) (j * (1 / 100))) 0).trans hz
    have h1 := (norm_le_pi_norm (z - shearPath (cross2 0 1 b) (j * (1 / 100))) 1).trans hz
    have hp0 : |shearPath (cross2 0 1 b) (j * (1 / 100)) 0| ≤ 1 := by
      fin_cases b <;> simp [shearPath, cross2]
    have hp1 : |shearPath (cross2 0 1 b) (j * (1 / 100)) 1| ≤ 1 + 1 / 100 := by
      have e : shearPath (cross2 0 1 b) (j * (1 / 100)) 1 =
          cross2 0 1 b 1 + (j * (1 / 100)) * Real.sin (cross2 0 1 b 0) := rfl
      have c1 : |cross2 0 1 b 1| ≤ 1 := by fin_cases b <;> simp [cross2]
      have c2 : |((j : ℝ) * (1 / 100)) * Real.sin (cross2 0 1 b 0)| ≤ 1 / 100 := by
        rw [abs_mul]
        have := Real.abs_sin_le_one (cross2 0 1 b 0)
        have : |(j : ℝ) * (1 / 100)| ≤ 1 / 100 := by
          rw [abs_of_nonneg (by positivity)]; linarith
        nlinarith [abs_nonneg (Real.sin (cross2 0 1 b 0)), abs_nonneg ((j : ℝ) * (1 / 100))]
      rw [e]
      exact (abs_add_le _ _).trans (add_le_add c1 c2)
    rw [Pi.sub_apply, Real.norm_eq_abs, abs_le] at h0 h1
    rw [abs_le] at hp0 hp1
    unfold OnAxis
    norm_num
    refine ⟨⟨?_, ?_⟩, ?_, ?_⟩ <;> linarith [h0.1, h0.2, h1.1, h1.2, hp0.1, hp0.2, hp1.1, hp1.2]
  · intro i hi g hg
    obtain rfl : g = 0 := by omega
    refine ⟨D, ?_, hσ, lt_of_lt_of_le ?_ hσ1⟩
    · refine centralDiff2_ok.2 ⟨⟨by rw [w1]; norm_num, by rw [w2]; norm_num⟩, ?_⟩
      rw [hD, hX]
      simp only [add_sub_cancel_left]
      rfl
    · unfold stretchError2
      rw [w1, w2]
      unfold posError
      norm_num [abs_of_pos, surveyExperiment]

/-- The call starts, runs to its end, and leaves two files with one record each: the origin, and a
value within `1/2` of `100 ln σ`. -/
example : ∃ (σ : ℝ) (st : Started ℝ FVal) (rs : _), 1 ≤ σ ∧
    (startCommand asciiData surveyFloat (fun _ => []) surveyTexts (fun _ _ => .ok 2) id surveyDisk
      surveyArgv).2.2 = .ok st ∧
    ∀ name ∈ ["ftle_v0.mat", "ftle_v1.mat"], ∃ (saved : Saved ℝ FVal) (Λ : ℝ),
      ((startCommand asciiData surveyFloat (fun _ => []) surveyTexts (fun _ _ => .ok 2) id surveyDisk
        surveyArgv : _ × _ × Except Stop (Started ℝ FVal)).1.writeFiles st.folder
          (st.files id rs [1, 0])).1.node
        [tmpName, "outputs".toList, "run".toList, name.toList] = some (.file saved) ∧
      saved.Says [(.fin Λ, [0, 0])] ∧ |Λ - 100 * Real.log σ| ≤ 1 / 2 := by
  obtain ⟨seed, P, s1, s2, s3, s4⟩ := shear_seeds
  obtain ⟨X, σ, hσ, res⟩ := surveyResolved s4
  obtain ⟨st, H, s₀, h1, h2, -, h4⟩ := C105_starts (F := FVal) asciiData surveyFloat (fun _ => [])
    surveyTexts (fun _ _ => .ok 2) id asciiData_lawful (by simp) surveySays (surveyFromFile _)
    surveyAsks surveySensible (by decide) surveyDisk shearEnv (fun _ _ => 7)
  obtain ⟨bs, s, rs, h5, h6, -⟩ := C106_completes_2d asciiData surveyFloat (fun _ => [])
    surveyTexts (fun _ _ => .ok 2) id asciiData_lawful (by simp) surveySays (surveyFromFile _)
    surveyAsks surveySensible (by decide) surveyDisk (env := shearEnv) ⟨rfl, rfl, rfl⟩ (.inl rfl) rfl
    rfl rfl (surveyData s3) (.inl rfl) s1 s2 res (fun _ _ => 7) h1 h2 h4 .nil (by simp) 0 0
  have hall := C106_values_2d asciiData surveyFloat (fun _ => [])
    surveyTexts (fun _ _ => .ok 2) id asciiData_lawful (by simp) surveySays (surveyFromFile _)
    surveyAsks surveySensible (by decide) surveyDisk (env := shearEnv) ⟨rfl, rfl, rfl⟩ (.inl rfl)
    (by rw [surveyOrder]; decide +kernel) (by rw [surveyOrder]; decide +kernel) surveyTakes rfl rfl rfl
    (surveyData s3) (.inl rfl) s1 s2 res (fun _ _ => 7) h1 h2 h4 h5 h6 [1, 0] (by decide) id
  have w1 : groupOf seed 4 1 2 0 1 0 - groupOf seed 4 1 2 0 0 0 = 2 := by
    simp [s4, cross2]; norm_num
  have w2 : groupOf seed 4 1 2 0 2 1 - groupOf seed 4 1 2 0 3 1 = 2 := by
    simp [s4, cross2]; norm_num
  have value : ∀ Λ : ℝ, Near Λ ((surveyExperiment.snapshots - 1) * |surveyExperiment.timestep|) σ
      (stretchError2 (1 * max (1 / 100) (1 / 100)) 1 1 0 surveyExperiment.timestep
        surveyExperiment.snapshots (groupOf seed 4 1 2 0)) → |Λ - 100 * Real.log σ| ≤ 1 / 2 := by
    intro Λ h3
    unfold Near stretchError2 at h3
    rw [w1, w2] at h3
    have e1 : surveyExperiment.timestep = 1 / 100 := rfl
    have e2 : surveyExperiment.snapshots = 2 := rfl
    rw [e1, e2] at h3
    have hb : 4 * posError (1 * max (1 / 100) (1 / 100)) 1 1 0 (1 / 100) 2 *
        (1 / |(2 : ℝ)| + 1 / |(2 : ℝ)|) ≤ 1 / 400 := by
      unfold posError; norm_num [abs_of_pos]
    set β := 4 * posError (1 * max (1 / 100) (1 / 100)) 1 1 0 (1 / 100) 2 *
      (1 / |(2 : ℝ)| + 1 / |(2 : ℝ)|)
    have hT : 1 / ((((2 : ℕ) : ℝ) - 1) * |(1 / 100 : ℝ)|) = 100 := by norm_num [abs_of_pos]
    rw [hT] at h3
    refine h3.trans ?_
    have : β / (σ - β) ≤ 1 / 200 := by
      rw [div_le_div_iff₀ (by linarith) (by norm_num)]
      linarith
    linarith
  have record : ∀ Λ : ℕ → ℝ, (List.range 1).map
      (fun g => groupRecordAt (Λ g) (groupOf seed 4 1 2 g)) = [(FVal.fin (Λ 0), [0, 0])] := by
    intro Λ
    simp [groupRecordAt, s4, cross2, Fin.sum_univ_four]
  refine ⟨σ, st, rs, hσ, h1, fun name hname => ?_⟩
  simp only [List.mem_cons, List.not_mem_nil, or_false] at hname
  rcases hname with rfl | rfl
  · obtain ⟨first, saved, Λ, g1, g2, g3, g4⟩ := hall 0 (by simp [Experiment.fields, surveyExperiment])
    rw [surveyFirst] at g1
    obtain rfl : "v0".toList = first := Option.some.inj g1
    rw [record] at g3
    exact ⟨saved, Λ 0, g2, g3, value _ (g4 0 one_pos)⟩
  · obtain ⟨first, saved, Λ, g1, g2, g3, g4⟩ := hall 1 (by simp [Experiment.fields, surveyExperiment])
    rw [surveyFirst] at g1
    obtain rfl : "v1".toList = first := Option.some.inj g1
    rw [record] at g3
    exact ⟨saved, Λ 0, g2, g3, value _ (g4 0 one_pos)⟩

end Verif
