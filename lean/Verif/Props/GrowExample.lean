import Verif.Props.Grow

/-!
# Calls that meet the hypotheses of C139

First the list `v`, `w`, then the list `v`, `w`, `v`.
-/

namespace Verif

def shortTexts (p : Str) : Option Str := if p = ['V'] then some "v\nw\n".toList else callTexts p

def shortExperiment : Experiment ℚ := { callExperiment with velocity := [['v'], ['w']] }

theorem shortFromFile : FromFile (fun p => (shortTexts p).bind (configItems asciiData cfgJson)) callArgv
    [(.config, ['f']), (.integrator, "rk4".toList)] callFile := by
  refine .inr ⟨['f'], callFile.map fun e => (e.1.name.drop 2, .text e.2), ⟨[], _, rfl, by simp⟩,
    by simp, by decide +kernel, ?_⟩
  have key : ∀ (e : Opt × Str), KeyFor (e.1.name.drop 2) e.1 := by
    rintro ⟨o, v⟩
    revert v
    have : ∀ o ∈ Opt.all, "--".toList ++ o.name.drop 2 = o.name := by decide
    exact fun v => .inr (this o (by cases o <;> decide))
  have ng : ∀ e ∈ callFile, ¬ Given callArgv e.1 := by
    intro e he
    rw [← discarded_known _ (key e)]
    have : ∀ e ∈ callFile, discarded callArgv (e.1.name.drop 2) = false := by decide +kernel
    rw [this e he]
    simp
  have nh : ∀ e ∈ callFile, e.1 ≠ .help := by decide
  generalize callFile = l at ng nh
  induction l with
  | nil => exact .nil
  | cons e l ih =>
    exact .option (key e) (nh e (by simp)) (ng e (by simp))
      (ih (fun x hx => ng x (by simp [hx])) fun x hx => nh x (by simp [hx]))

theorem shortAsks : Asks asciiData callFloat shortTexts snapshotsPerPeriod
    (callFile ++ [(.config, ['f']), (.integrator, "rk4".toList)]) shortExperiment := by
  have last : ∀ (a b : List (Opt × Str)) (o : Opt) (v : Str), (∀ e ∈ b, e.1 ≠ o) →
      LastValue (a ++ (o, v) :: b) o v := fun a b o v h => ⟨a, b, rfl, fun w hw => h _ hw rfl⟩
  exact ⟨callAsks.valid, callAsks.name, ⟨['V'], last (callFile.take 1) _ _ _ (by decide), rfl⟩,
    ⟨['C'], last (callFile.take 2) _ _ _ (by decide), rfl⟩,
    ⟨['P'], last (callFile.take 3) _ _ _ (by decide), rfl⟩, callAsks.timestep, callAsks.snapshots,
    callAsks.integrator, callAsks.interpolator, callAsks.format, callAsks.processes, callAsks.flowGrid,
    callAsks.particlesGrid⟩

theorem shortSensible : shortExperiment.Sensible where
  plain := fun f hf => callSensible.plain f (by
    simp [shortExperiment, callExperiment] at hf ⊢
    tauto)
  coordinate_ne := by simp [shortExperiment, callExperiment]
  particle_ne := by simp [shortExperiment, callExperiment]
  one_le := by simp [shortExperiment, callExperiment]
  enough := by simp [shortExperiment, callExperiment]
  shape := by simp [shortExperiment, callExperiment]
  processes := by simp [shortExperiment, callExperiment]

theorem short_grows : shortExperiment.GrowsTo 1 callExperiment :=
  ⟨⟨[['v']], rfl, rfl⟩, .inr ⟨rfl, fun _ => one_dvd _⟩, .inr ⟨rfl, fun _ => one_dvd _⟩, rfl, rfl, rfl, rfl,
    rfl, rfl, rfl, rfl⟩

theorem shortRuns (d : Disk (Saved ℚ ℚ)) (mem : ℕ → List ℕ → ℚ)
    (key : (aloneRun { againEnv with junk := mem 0 } (some (Writer.fresh .mat none).asWriteFn)
      (.file (exWindow 0)) (.scatter (.fresh .linear)) .rk4).result.toBool = true) :
    ∃ (st : Started ℚ ℚ)
    (H : Host (Shared ℚ) (List ℕ → ℚ) (Option (List ℚ) × List (Event ℚ ℚ)))
    (s₀ : HostState (Shared ℚ) (Option (List ℚ) × List (Event ℚ ℚ)))
    (as : List (Action (Option (List ℚ) × List (Event ℚ ℚ))))
    (s : HostState (Shared ℚ) (Option (List ℚ) × List (Event ℚ ℚ)))
    (rs : List (Option (Option (List ℚ) × List (Event ℚ ℚ)))),
    (startCommand asciiData callFloat cfgJson shortTexts snapshotsPerPeriod id d
      callArgv).2.2 = .ok st ∧ st.program.host againEnv = .ok H ∧
    H.init mem = .ok s₀ ∧ HostState.Exec H mem s₀ as s ∧ s.pool.phase = .returned rs := by
  obtain ⟨st, H, s₀, h1, h2, -, h4⟩ := C105_starts (F := ℚ) asciiData callFloat cfgJson shortTexts
    snapshotsPerPeriod id asciiData_lawful (by simp) callSays shortFromFile shortAsks shortSensible
    (by decide) d againEnv mem
  obtain ⟨bs, s, rs, h5, h6, -⟩ := C105_completes (F := ℚ) asciiData callFloat cfgJson shortTexts
    snapshotsPerPeriod id asciiData_lawful (by simp) callSays shortFromFile shortAsks shortSensible
    (by decide) d againEnv h1 h2 mem (by
      intro I k w hs i hi t ht
      obtain ⟨rfl, rfl, rfl⟩ : I = .scatter (.fresh .linear) ∧ k = .rk4 ∧ w = .mat := by
        simp [setup, shortExperiment, callExperiment, cliInterpolator, createInterpolator, cliIntegrator,
          createIntegrator, cliWriter, createWriter] at hs
        exact ⟨hs.1.symm, hs.2.1.symm, hs.2.2.symm⟩
      obtain rfl : i = 0 := by
        have : i < 1 := hi
        omega
      obtain rfl : t = exWindow 0 :=
        ht.unique ⟨rfl, by decide, rfl, by decide, rfl, rfl, rfl, by decide⟩
      revert key
      show (aloneRun { againEnv with junk := mem 0 }
          (some (Writer.fresh .mat none).asWriteFn) (.file (exWindow 0))
          (.scatter (.fresh .linear)) .rk4).result.toBool = true → _
      cases hres : (aloneRun { againEnv with junk := mem 0 }
          (some (Writer.fresh .mat none).asWriteFn) (.file (exWindow 0))
          (.scatter (.fresh .linear)) .rk4).result with
      | error e => simp [Except.toBool]
      | ok r => exact fun _ => ⟨r, hres⟩) h4 .nil (by simp) 0 0
  exact ⟨st, H, s₀, _, s, rs, h1, h2, h4, h5, h6⟩

/-- The file of the first call is the same after the second; the second file is there. -/
example : ∃ (st st' : Started ℚ ℚ) (rs rs' : _) (d' final : Disk (Saved ℚ ℚ)) (c c' : Saved ℚ ℚ),
    d' = ((startCommand (F := ℚ) asciiData callFloat cfgJson shortTexts snapshotsPerPeriod id callDisk
      callArgv).1.writeFiles st.folder (st.files id rs [0])).1 ∧
    final = ((startCommand (F := ℚ) asciiData callFloat cfgJson callTexts snapshotsPerPeriod id d'
      callArgv).1.writeFiles st'.folder (st'.files id rs' [1, 0])).1 ∧
    d'.node [tmpName, "outputs".toList, "run".toList, "ftle_v.mat".toList] = some (.file c) ∧
    final.node [tmpName, "outputs".toList, "run".toList, "ftle_v.mat".toList] = some (.file c) ∧
    final.node [tmpName, "outputs".toList, "run".toList, "ftle_w.mat".toList] = some (.file c') := by
  obtain ⟨st, H, s₀, bs, s, rs, h1, h2, h3, h4, h5⟩ := shortRuns callDisk (fun _ _ => 7)
    (by decide +kernel)
  generalize hd : ((startCommand (F := ℚ) asciiData callFloat cfgJson shortTexts snapshotsPerPeriod id
    callDisk callArgv).1.writeFiles st.folder (st.files id rs [0])).1 = d'
  obtain ⟨st', H', s₀', bs', s', rs', h1', h2', h3', h4', h5'⟩ := againRuns d' againEnv
    (fun i _ => i) rfl (by decide +kernel)
  obtain ⟨a1, a2, -⟩ := C139_disk_partial (F := ℚ) asciiData callFloat cfgJson shortTexts
    snapshotsPerPeriod id (texts' := callTexts) asciiData_lawful (by simp) callSays shortFromFile callSays
    callFromFile shortAsks callAsks shortSensible callSensible short_grows (by decide) againEnv
    (by decide +kernel) (by decide +kernel) (d := callDisk) callTakes exStrict_respects (dim := 2)
    (by
      intro I k w hs
      simp [setup, shortExperiment, callExperiment, cliInterpolator, createInterpolator, cliIntegrator,
        createIntegrator, cliWriter, createWriter] at hs
      rw [← hs.1]
      rfl)
    (by
      intro path hp p hr
      have : path = "p" := by
        have h : inRunOrder shortExperiment.timestep shortExperiment.particle = ["p"] := by
          decide +kernel
        rw [h] at hp
        simpa using hp
      subst this
      have hsome : (readSeedParticles againEnv.fs "p").toOption.map (fun p => p.positions.shape) =
        some [4, 2] := by decide +kernel
      rw [hr] at hsome
      exact ⟨4, by simpa [Except.toOption] using hsome⟩)
    h1 h2 _ _ h3 h4 h5 [0] [1, 0] (by decide) (by decide) id hd.symm h1' h2' h3' h4' h5'
  have ht : callDisk.target ("outputs/".toList ++ shortExperiment.name) =
      [tmpName, "outputs".toList, "run".toList] := callTarget
  rw [ht] at a1 a2
  obtain ⟨c, c1, c2⟩ := a1 "ftle_v.mat".toList (by decide +kernel)
  obtain ⟨c', e⟩ := a2 "ftle_w.mat".toList (by decide +kernel)
  exact ⟨st, st', rs, rs', d', _, c, c', hd.symm, rfl, c1, c2, e⟩

/-- Two coordinate files, three snapshots, then one more: every window of the backward run changes its
grids. -/
example : ∃ tasks tasks' : List (FileSource ℚ),
    (⟨["s0", "s1", "s2"], ["c0", "c1"], ["p"], -1⟩ : Manager ℚ).handleTimeDirection.createBatches id 2 =
      .ok tasks ∧
    (⟨["s0", "s1", "s2", "s3"], ["c0", "c1"], ["p"], -1⟩ : Manager ℚ).handleTimeDirection.createBatches
      id 2 = .ok tasks' ∧ tasks.length = 2 ∧
    ∀ i < tasks.length, ∃ t t', tasks[i]? = some t ∧ tasks'[i + 1]? = some t' ∧
      t'.snapshotFiles = t.snapshotFiles ∧ t'.id = t.id ∧
      ∀ j < 2, t'.coordinateFiles[j]? ≠ t.coordinateFiles[j]? :=
  C139_backward_fails id ⟨["s0", "s1", "s2"], ["c0", "c1"], ["p"], -1⟩ ["s3"] (by norm_num) 2 (by norm_num)
    (by simp) (by simp) (by simp) (by decide) (by decide)

end Verif
