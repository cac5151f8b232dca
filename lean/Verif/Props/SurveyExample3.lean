import Verif.Props.SurveyExample

/-!
# C106: a concrete call in three dimensions

The shear flow `(0, 0, sin x)` of C84 in three snapshots, the six seeds at distance 1 from the origin.
-/

namespace Verif

open Matrix Set

/-- The options of the call. -/
def spaceOptions : List (Opt × Str) :=
  [(.experimentName, "run".toList), (.listVelocityFiles, ['V']), (.listCoordinateFiles, ['C']),
    (.listParticleFiles, ['P']), (.snapshotTimestep, "0.01".toList),
    (.flowMapPeriod, "0.01".toList), (.integrator, "ab2".toList), (.interpolator, "grid".toList),
    (.outputFormat, "mat".toList), (.flowGridShape, "801,801,801".toList)]

/-- The command line. -/
def spaceArgv : List Str := spaceOptions.flatMap fun e => [e.1.name, e.2]

/-- What it asks for. -/
noncomputable def spaceExperiment : Experiment ℝ where
  name := "run".toList
  velocity := ["v0".toList, "v1".toList, "v0".toList]
  coordinate := ["c0".toList, "c1".toList]
  particle := [['p']]
  timestep := 1 / 100
  snapshots := 2
  integrator := "ab2"
  interpolator := "grid"
  format := "mat"
  processes := 1
  flowGrid := some [801, 801, 801]
  particlesGrid := none

theorem spaceSays : Says asciiData spaceArgv spaceOptions := by
  have hn : ∀ o, Names (Opt.name o) o := by
    intro o
    refine ⟨?_, fun o' => ?_⟩
    · have : ∀ o ∈ Opt.all, "--".toList.isPrefixOf o.name = true := by decide +kernel
      rw [← List.isPrefixOf_iff_prefix]
      exact this o (by cases o <;> decide)
    · have : ∀ o ∈ Opt.all, ∀ o' ∈ Opt.all, o.name.isPrefixOf o'.name = true ↔ o' = o := by
        decide +kernel
      rw [← List.isPrefixOf_iff_prefix]
      exact this o (by cases o <;> decide) o' (by cases o' <;> decide)
  have hp : ∀ e ∈ spaceOptions, e.1 ≠ .help ∧ ¬ "-".toList <+: e.2 := by decide +kernel
  unfold spaceArgv
  generalize spaceOptions = l at hp
  induction l with
  | nil => exact .nil
  | cons e l ih =>
    obtain ⟨h1, h2⟩ := hp e (by simp)
    exact .pair (.inl (hn e.1)) h1 (.inl h2) (ih fun x hx => hp x (by simp [hx]))

theorem spaceFromFile (items : Str → Option (List (Str × CfgValue))) :
    FromFile items spaceArgv spaceOptions [] := by
  refine .inl ⟨fun p hp => ?_, rfl⟩
  have := hp.mem
  simp [spaceOptions] at this

theorem spaceAsks : Asks asciiData surveyFloat surveyTexts (fun _ _ => .ok 2)
    ([] ++ spaceOptions) spaceExperiment := by
  have last : ∀ (a b : List (Opt × Str)) (o : Opt) (v : Str), (∀ e ∈ b, e.1 ≠ o) →
      LastValue (a ++ (o, v) :: b) o v := fun a b o v h => ⟨a, b, rfl, fun w hw => h _ hw rfl⟩
  have parsed : (Except.toOption (convert asciiData callFloat .flowGridShape "801,801,801".toList) :
      Option (List ℤ)) = some [801, 801, 801] := by decide +kernel
  have shape : ShapeLiteral asciiData "801,801,801".toList [801, 801, 801] :=
    (convert_iff asciiData callFloat asciiData_lawful .flowGridShape _ _).1
      (ok_of_toOption parsed)
  have fl : surveyFloat "0.01".toList = some (1 / 100) := if_pos rfl
  refine ⟨?_, last [] _ _ _ (by decide), ⟨['V'], last (spaceOptions.take 1) _ _ _ (by decide), rfl⟩,
    ⟨['C'], last (spaceOptions.take 2) _ _ _ (by decide), rfl⟩,
    ⟨['P'], last (spaceOptions.take 3) _ _ _ (by decide), rfl⟩,
    ⟨_, last (spaceOptions.take 4) _ _ _ (by decide), fl⟩,
    ⟨_, _, last (spaceOptions.take 5) _ _ _ (by decide), fl, rfl⟩,
    last (spaceOptions.take 6) _ _ _ (by decide),
    last (spaceOptions.take 7) _ _ _ (by decide), last (spaceOptions.take 8) _ _ _ (by decide),
    .inr ⟨by simp [spaceOptions], rfl⟩,
    .inl ⟨_, _, last (spaceOptions.take 9) [] _ _ (by decide), shape, rfl⟩,
    .inr ⟨by simp [spaceOptions], rfl⟩⟩
  intro e he
  simp only [spaceOptions, List.nil_append, List.mem_cons, List.not_mem_nil, or_false] at he
  rcases he with rfl | rfl | rfl | rfl | rfl | rfl | rfl | rfl | rfl | rfl
  · exact ⟨_, rfl⟩
  · exact ⟨_, rfl⟩
  · exact ⟨_, rfl⟩
  · exact ⟨_, rfl⟩
  · exact ⟨(1 / 100 : ℝ), fl⟩
  · exact ⟨(1 / 100 : ℝ), fl⟩
  · exact ⟨"ab2".toList, rfl, .inr (.inr rfl)⟩
  · exact ⟨"grid".toList, rfl, .inr (.inr (.inr rfl))⟩
  · exact ⟨"mat".toList, rfl, .inl rfl⟩
  · exact ⟨[801, 801, 801], shape⟩

theorem spaceSensible : spaceExperiment.Sensible where
  plain := by
    intro f hf
    simp only [spaceExperiment, List.cons_append, List.nil_append, List.mem_cons, List.not_mem_nil,
      or_false] at hf
    rcases hf with rfl | rfl | rfl | rfl | rfl | rfl <;>
      exact ⟨by decide +kernel, by decide +kernel, by decide +kernel, by decide +kernel⟩
  coordinate_ne := by simp [spaceExperiment]
  particle_ne := by simp [spaceExperiment]
  one_le := by simp [spaceExperiment]
  enough := by simp [spaceExperiment]
  shape := by simp [spaceExperiment]
  processes := by simp [spaceExperiment]

theorem spaceOrder : inRunOrder spaceExperiment.timestep spaceExperiment.velocity =
    ["v0", "v1", "v0"] := by
  have : ¬ (spaceExperiment.timestep < 0) := by
    simp only [spaceExperiment]
    norm_num
  unfold inRunOrder
  rw [if_neg this]
  rfl

theorem spaceNames : spaceExperiment.fileNames shearEnv3.stem =
    ["ftle_v0.mat".toList, "ftle_v1.mat".toList] := by
  unfold Experiment.fileNames
  rw [spaceOrder]
  rfl

theorem spaceTakes : surveyDisk.Takes ("outputs/".toList ++ spaceExperiment.name)
    (spaceExperiment.fileNames shearEnv3.stem) := by
  have way : surveyDisk.way ("outputs/".toList ++ spaceExperiment.name) =
      [[tmpName], [tmpName, "outputs".toList], [tmpName, "outputs".toList, "run".toList]] := by rfl
  have target : surveyDisk.target ("outputs/".toList ++ spaceExperiment.name) =
      [tmpName, "outputs".toList, "run".toList] := by rfl
  refine ⟨diskOf_tree rfl rfl ?_, .inl (by decide +kernel), ?_, rfl, ?_⟩
  · intro e he
    simp only [List.mem_cons, List.not_mem_nil, or_false] at he
    rcases he with rfl | rfl
    · exact .inl rfl
    · exact .inr rfl
  · rw [way]
    intro x hx
    simp only [List.mem_cons, List.not_mem_nil, or_false] at hx
    rcases hx with rfl | rfl | rfl
    · exact .inl rfl
    · exact .inr ⟨rfl, rfl⟩
    · exact .inr ⟨rfl, rfl⟩
  · rw [way, target, spaceNames]
    intro n hn
    simp only [List.mem_cons, List.not_mem_nil, or_false] at hn
    rcases hn with rfl | rfl
    · refine ⟨?_, rfl, by decide⟩
      rw [show surveyDisk.node _ = none from rfl]
      simp
    · refine ⟨?_, rfl, by decide⟩
      rw [show surveyDisk.node _ = none from rfl]
      simp

theorem spaceFirst (i : ℕ) : spaceExperiment.first i = i := by
  unfold Experiment.first
  rw [if_neg]
  simp only [spaceExperiment]
  norm_num

/-- The files are a survey of the shear flow. -/
theorem spaceData {P : Particles ℝ} (hP : readSeedParticles shearFiles3 "p" = .ok P) :
    Survey3 shearFiles3 spaceExperiment (fun _ => shear3) 0 801 801 (-4) (1 / 100) (-4) (1 / 100)
      (-4) (1 / 100) P where
  hm := by norm_num
  hnz := by norm_num
  lm := by norm_num
  lnz := by norm_num
  lmz := by norm_num
  hdx := by norm_num
  hdy := by norm_num
  hdz := by norm_num
  several := by simp [spaceExperiment]
  distinct := by simp only [spaceExperiment]; decide
  nodes := by
    intro f hf
    have hf : String.ofList f = "c0" ∨ String.ofList f = "c1" := by
      simp only [spaceExperiment, List.mem_cons, List.not_mem_nil, or_false] at hf
      rcases hf with rfl | rfl
      · exact .inl rfl
      · exact .inr rfl
    obtain ⟨C, b1, b2, b3, b4, b5⟩ := shear3_coordinate hf
    refine ⟨C, b1, b2, fun a ha b hb c hc => ?_⟩
    have e1 : ((b * 801 + a) * 801 + c) / 801 = b * 801 + a := fold_div _ hc
    have e2 : ((b * 801 + a) * 801 + c) % 801 = c := fold_mod _ hc
    have e3 : (b * 801 + a) / 801 = b := fold_div b ha
    have e4 : (b * 801 + a) % 801 = a := fold_mod b ha
    rw [b3, b4, b5, e1, e2, e3, e4]
    exact ⟨rfl, rfl, rfl⟩
  samples := by
    intro j f hj
    have hf : String.ofList f = "v0" ∨ String.ofList f = "v1" := by
      have := List.mem_of_getElem? hj
      simp only [spaceExperiment, List.mem_cons, List.not_mem_nil, or_false] at this
      rcases this with rfl | rfl | rfl
      · exact .inl rfl
      · exact .inr rfl
      · exact .inl rfl
    obtain ⟨V, a1, a2, a3, a4, a5⟩ := shear3_velocity hf
    refine ⟨V, a1, a2, fun a ha b hb c hc e => ?_⟩
    fin_cases e
    · exact a3 _
    · exact a4 _
    · show V.get [2, (b * 801 + a) * 801 + c] = Real.sin (-4 + a * (1 / 100))
      have e1 : ((b * 801 + a) * 801 + c) / 801 = b * 801 + a := fold_div _ hc
      have e4 : (b * 801 + a) % 801 = a := fold_mod b ha
      rw [a5, e1, e4]
  seeds := by
    intro f hf
    simp only [spaceExperiment, List.mem_cons, List.not_mem_nil, or_false] at hf
    rw [hf]
    exact hP

theorem shear3_along_from (x : Fin 3 → ℝ) (t0 h : ℝ) (n : ℕ) :
    Along (fun _ => shear3) t0 h n 1 0 (fun t => shearPath3 x (t - t0)) where
  trajectory := by
    intro t _
    rw [hasDerivWithinAt_pi]
    intro i
    fin_cases i
    · exact hasDerivWithinAt_const _ _ _
    · exact hasDerivWithinAt_const _ _ _
    · have := (((hasDerivWithinAt_id t (uIcc t0 (t0 + n * h))).sub_const t0).mul_const
        (Real.sin (x 0))).const_add (x 2)
      simpa [shear3, shearPath3] using this
  speed := by
    intro t _
    rw [pi_norm_le_iff_of_nonneg (by positivity)]
    intro c
    fin_cases c
    · simp [shear3]
    · simp [shear3]
    · exact Real.abs_sin_le_one _
  accel := by
    intro s _ t _
    have : shear3 (shearPath3 x (s - t0)) = shear3 (shearPath3 x (t - t0)) := by
      simp [shear3, shearPath3]
    rw [this]
    simp

/-- Grid and time step resolve it, with a largest stretching of at least 1. -/
theorem spaceResolved {seed : NDArray ℝ} (s4 : ∀ b, groupOf seed 6 1 3 0 b = cross3 0 1 b) :
    ∃ X σ, 1 ≤ σ ∧ Resolved3 spaceExperiment (fun _ => shear3) 0 801 801 (-4) (1 / 100) (-4) (1 / 100)
      (-4) (1 / 100) 1 1 0 2 1 (groupOf seed 6 1 3) X (fun _ _ => σ) := by
  set X : ℕ → ℕ → Fin 6 → ℝ → Fin 3 → ℝ := fun i _ b t =>
    shearPath3 (cross3 0 1 b) (t - spaceExperiment.startTime 0 i) with hX
  set D := diffs3 (fun b => shearPath3 (cross3 0 1 b) ((2 : ℕ) * (1 / 100))) (groupOf seed 6 1 3 0)
    with hD
  obtain ⟨σ, hσ⟩ := ftle3_computes.exists_stretch D
  have d2 : ∀ r, D r 2 = if r = 2 then 1 else 0 := by
    intro r
    rw [hD]
    fin_cases r <;> simp [diffs3, s4, shearPath3, cross3]
  have hσ1 : 1 ≤ σ := by
    have h1 := hσ.2 ⟨![0, 0, 1], by simp [len], rfl⟩
    refine le_trans (le_of_eq ?_) h1
    have : D *ᵥ ![0, 0, 1] = ![0, 0, 1] := by
      funext i
      fin_cases i <;> simp [Matrix.mulVec, dotProduct, Fin.sum_univ_three, d2]
    rw [this]
    simp [len]
  have w1 : groupOf seed 6 1 3 0 1 0 - groupOf seed 6 1 3 0 0 0 = 2 := by
    simp [s4, cross3]; norm_num
  have w2 : groupOf seed 6 1 3 0 2 1 - groupOf seed 6 1 3 0 3 1 = 2 := by
    simp [s4, cross3]; norm_num
  have w3 : groupOf seed 6 1 3 0 4 2 - groupOf seed 6 1 3 0 5 2 = 2 := by
    simp [s4, cross3]; norm_num
  have small : SmallSteps (1 * max (max (1 / 100) (1 / 100)) (1 / 100)) 1 1 0 (1 / 100) 2 2 := by
    rw [max_self]; exact shear_small
  refine ⟨X, σ, hσ1, ?_, ?_, small, fun _ _ w _ w' _ => shear3_lipschitz w w', ?_, ?_, ?_⟩
  · simp [spaceExperiment]
  · simp [spaceExperiment]
  · intro i hi g hg b
    obtain rfl : g = 0 := by omega
    refine ⟨shear3_along_from _ _ _ _, ?_⟩
    rw [s4, hX]
    simp only [sub_self]
    exact (shear3_trajectory _ univ).2
  · intro i hi g hg b j hj z hz
    have hj : j < 2 := hj
    have hj' : (j : ℝ) ≤ 1 := by exact_mod_cast (by omega : j ≤ 1)
    have hj0 : (0 : ℝ) ≤ j := by positivity
    have he : X i g b (spaceExperiment.startTime 0 i + j * spaceExperiment.timestep) =
        shearPath3 (cross3 0 1 b) (j * (1 / 100)) := by
      rw [hX]
      simp only [add_sub_cancel_left]
      rfl
    rw [he] at hz
    have h0 := (norm_le_pi_norm (z - shearPath3 (cross3 0 1 b) (j * (1 / 100))) 0).trans hz
    have h1 := (norm_le_pi_norm (z - shearPath3 (cross3 0 1 b) (j * (1 / 100))) 1).trans hz
    have h2 := (norm_le_pi_norm (z - shearPath3 (cross3 0 1 b) (j * (1 / 100))) 2).trans hz
    have hp0 : |shearPath3 (cross3 0 1 b) (j * (1 / 100)) 0| ≤ 1 := by
      fin_cases b <;> simp [shearPath3, cross3]
    have hp1 : |shearPath3 (cross3 0 1 b) (j * (1 / 100)) 1| ≤ 1 := by
      fin_cases b <;> simp [shearPath3, cross3]
    have hp2 : |shearPath3 (cross3 0 1 b) (j * (1 / 100)) 2| ≤ 1 + 1 / 100 := by
      have e : shearPath3 (cross3 0 1 b) (j * (1 / 100)) 2 =
          cross3 0 1 b 2 + (j * (1 / 100)) * Real.sin (cross3 0 1 b 0) := rfl
      have c1 : |cross3 0 1 b 2| ≤ 1 := by fin_cases b <;> simp [cross3]
      have c2 : |((j : ℝ) * (1 / 100)) * Real.sin (cross3 0 1 b 0)| ≤ 1 / 100 := by
        rw [abs_mul]
        have := Real.abs_sin_le_one (cross3 0 1 b 0)
        have : |(j : ℝ) * (1 / 100)| ≤ 1 / 100 := by
          rw [abs_of_nonneg (by positivity)]; linarith
        nlinarith [abs_nonneg (Real.sin (cross3 0 1 b 0)), abs_nonneg ((j : ℝ) * (1 / 100))]
      rw [e]
      exact (abs_add_le _ _).trans (add_le_add c1 c2)
    rw [Pi.sub_apply, Real.norm_eq_abs, abs_le] at h0 h1 h2
    rw [abs_le] at hp0 hp1 hp2
    unfold OnAxis
    norm_num
    refine ⟨⟨?_, ?_⟩, ⟨?_, ?_⟩, ?_, ?_⟩ <;>
      linarith [h0.1, h0.2, h1.1, h1.2, h2.1, h2.2, hp0.1, hp0.2, hp1.1, hp1.2, hp2.1, hp2.2]
  · intro i hi g hg
    obtain rfl : g = 0 := by omega
    refine ⟨D, ?_, hσ, lt_of_lt_of_le ?_ hσ1⟩
    · refine centralDiff3_ok.2 ⟨⟨by rw [w1]; norm_num, by rw [w2]; norm_num, by rw [w3]; norm_num⟩, ?_⟩
      rw [hD, hX]
      simp only [add_sub_cancel_left]
      rfl
    · unfold stretchError3
      rw [w1, w2, w3]
      unfold posError
      norm_num [abs_of_pos, spaceExperiment]

/-- The call starts, runs to its end, and leaves two files with one record each: the origin, and a
value near `100 ln σ`. -/
example : ∃ (σ : ℝ) (st : Started ℝ FVal) (rs : _), 1 ≤ σ ∧
    (startCommand asciiData surveyFloat (fun _ => []) surveyTexts (fun _ _ => .ok 2) id surveyDisk
      spaceArgv).2.2 = .ok st ∧
    ∀ name ∈ ["ftle_v0.mat", "ftle_v1.mat"], ∃ (saved : Saved ℝ FVal) (Λ : ℝ),
      ((startCommand asciiData surveyFloat (fun _ => []) surveyTexts (fun _ _ => .ok 2) id surveyDisk
        spaceArgv : _ × _ × Except Stop (Started ℝ FVal)).1.writeFiles st.folder
          (st.files id rs [1, 0])).1.node
        [tmpName, "outputs".toList, "run".toList, name.toList] = some (.file saved) ∧
      saved.Says [(.fin Λ, [0, 0, 0])] ∧
      Near Λ (((2 : ℕ) - 1) * |1 / 100|) σ (stretchError3 (1 * max (max (1 / 100) (1 / 100)) (1 / 100)) 1 1 0
        (1 / 100) 2 (cross3 0 1)) := by
  obtain ⟨seed, P, s1, s2, s3, s4⟩ := shear3_seeds
  obtain ⟨X, σ, hσ, res⟩ := spaceResolved s4
  obtain ⟨st, H, s₀, h1, h2, -, h4⟩ := C105_starts (F := FVal) asciiData surveyFloat (fun _ => [])
    surveyTexts (fun _ _ => .ok 2) id asciiData_lawful (by simp) spaceSays (spaceFromFile _)
    spaceAsks spaceSensible (by decide) surveyDisk shearEnv3 (fun _ _ => 7)
  obtain ⟨bs, s, rs, h5, h6, -⟩ := C106_completes_3d asciiData surveyFloat (fun _ => [])
    surveyTexts (fun _ _ => .ok 2) id asciiData_lawful (by simp) spaceSays (spaceFromFile _)
    spaceAsks spaceSensible (by decide) surveyDisk (env := shearEnv3) ⟨rfl, rfl, rfl⟩ (.inl rfl) rfl
    rfl rfl (spaceData s3) (.inl rfl) s1 s2 res (fun _ _ => 7) h1 h2 h4 .nil (by simp) 0 0
  have hall := C106_values_3d asciiData surveyFloat (fun _ => [])
    surveyTexts (fun _ _ => .ok 2) id asciiData_lawful (by simp) spaceSays (spaceFromFile _)
    spaceAsks spaceSensible (by decide) surveyDisk (env := shearEnv3) ⟨rfl, rfl, rfl⟩ (.inl rfl)
    (by rw [spaceOrder]; decide +kernel) (by rw [spaceOrder]; decide +kernel) spaceTakes rfl rfl rfl
    (spaceData s3) (.inl rfl) s1 s2 res (fun _ _ => 7) h1 h2 h4 h5 h6 [1, 0] (by decide) id
  have group : groupOf seed 6 1 3 0 = cross3 0 1 := funext s4
  have record : ∀ Λ : ℕ → ℝ, (List.range 1).map
      (fun g => groupRecordAt (Λ g) (groupOf seed 6 1 3 g)) = [(FVal.fin (Λ 0), [0, 0, 0])] := by
    intro Λ
    simp [groupRecordAt, s4, cross3, Fin.sum_univ_six]
  refine ⟨σ, st, rs, hσ, h1, fun name hname => ?_⟩
  simp only [List.mem_cons, List.not_mem_nil, or_false] at hname
  rcases hname with rfl | rfl
  · obtain ⟨first, saved, Λ, g1, g2, g3, g4⟩ := hall 0 (by simp [Experiment.fields, spaceExperiment])
    rw [spaceFirst] at g1
    obtain rfl : "v0".toList = first := Option.some.inj g1
    rw [record] at g3
    have g4 := g4 0 one_pos
    rw [group] at g4
    exact ⟨saved, Λ 0, g2, g3, g4⟩
  · obtain ⟨first, saved, Λ, g1, g2, g3, g4⟩ := hall 1 (by simp [Experiment.fields, spaceExperiment])
    rw [spaceFirst] at g1
    obtain rfl : "v1".toList = first := Option.some.inj g1
    rw [record] at g3
    have g4 := g4 0 one_pos
    rw [group] at g4
    exact ⟨saved, Λ 0, g2, g3, g4⟩

end Verif
