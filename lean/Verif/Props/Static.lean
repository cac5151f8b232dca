import Verif.Lemmas.Static
import Verif.Props.Command

/-!
# C109: the tutorial for data in files

`examples/02_File-based_IO.ipynb` saves the coordinates of a fixed grid once and runs the fast grid
interpolator on them.
-/

set_option linter.unusedSectionVars false

namespace Verif

/-! ## One window -/

section
variable {K F : Type} [Zero K] [One K] [Add K] [Sub K] [Mul K] [Div K] [NatCast K] [IntCast K]
  [Min K] [Max K] [NumLits K] [DecidableEq K]

/-- **C109 is false of the code** (one window).  One coordinate file for all snapshots and the fast
grid interpolator: whatever the files contain, the run ends with an exception after at most one
progress message; it neither computes nor saves a field. -/
theorem C109_window_fails (env : Env K F) (writer : Option (WriteFn K F)) {s : FileSource K}
    (hr : s.reuseCoordinates = true) (h2 : 2 ≤ s.snapshotFiles.length) (gs : List ℕ) (k : Kind) :
    let r := aloneRun env writer (.file s) (.highPerf (.fresh gs)) k
    (∃ e, r.result = .error e) ∧ (r.trace = [] ∨ r.trace = [.progress s.id 0]) := by
  obtain ⟨e, he, h⟩ := static_run env writer hr h2 gs (Integ.fresh k)
  exact ⟨⟨e, he⟩, h.imp id And.left⟩

/-- **C109** (which exception).  If the run has reported its first step and the second velocity file
can be read and has a component for every axis of the grid, the exception is a `RuntimeError`. -/
theorem C109_error_fails (env : Env K F) (writer : Option (WriteFn K F)) {s : FileSource K}
    (hr : s.reuseCoordinates = true) (gs : List ℕ) (k : Kind) {file : String}
    (hf : s.snapshotFiles[1]? = some file) (hc : s.coordinateFiles.length = s.snapshotFiles.length)
    {v : NDArray K} (hv : readVelocity env.fs file = .ok v) (hd : gs.length ≤ v.shape.headD 0)
    (hfirst : (aloneRun env writer (.file s) (.highPerf (.fresh gs)) k).trace ≠ []) :
    (aloneRun env writer (.file s) (.highPerf (.fresh gs)) k).result = .error .runtimeError := by
  have h2 : 2 ≤ s.snapshotFiles.length := (List.getElem?_eq_some_iff.1 hf).1
  obtain ⟨e, he, h | ⟨-, st, st', t, x, y, n, hI, hm, hs, h1⟩⟩ :=
    static_run env writer hr h2 gs (Integ.fresh k)
  · exact absurd h hfirst
  · obtain ⟨st'', h1'⟩ := static_second (id := s.id) hr hI hm hs hf (by omega) hv hd
    rw [h1] at h1'
    cases h1'
    exact he

end

/-! ## The whole call -/

section
variable {K F α : Type} [Zero K] [One K] [Add K] [Sub K] [Mul K] [Div K] [NatCast K] [IntCast K]
  [Min K] [Max K] [NumLits K] [DecidableEq K] [LT K] [DecidableLT K] [Inhabited F]
  (cd : CharData) (float : Str → Option K) (json : Str → List Str) (texts : Str → Option Str)
  (per : K → K → Py ℤ) (lower : String → String)

/-- The fast grid interpolator on coordinates that are the same for every snapshot. -/
structure Experiment.StaticGrid (q : Experiment K) (gs : List ℕ) : Prop where
  interpolator : q.interpolator = "grid"
  shape : q.flowGrid = some gs
  one : ∀ f ∈ q.coordinate, ∀ g ∈ q.coordinate, f = g
  two_le : 2 ≤ q.snapshots

theorem mem_of_inRunOrder {dt : K} {l : List (List Char)} {f : String} (h : f ∈ inRunOrder dt l) :
    ∃ g ∈ l, f = String.ofList g := by
  unfold inRunOrder at h
  obtain ⟨g, hg, rfl⟩ := List.mem_map.1 h
  refine ⟨g, ?_, rfl⟩
  split at hg
  · exact List.mem_reverse.1 hg
  · exact hg

/-- The windows of such an experiment take the shortcut. -/
theorem Experiment.StaticGrid.window {q : Experiment K} {gs : List ℕ} (hg : q.StaticGrid gs)
    {stem : String → String} {i : ℕ} {t : FileSource K}
    (ht : IsWindow stem (inRunOrder q.timestep q.velocity) (inRunOrder q.timestep q.coordinate)
      (inRunOrder q.timestep q.particle) q.timestep q.snapshots i t) :
    t.reuseCoordinates = true ∧ 2 ≤ t.snapshotFiles.length ∧
      t.coordinateFiles.length = t.snapshotFiles.length := by
  refine ⟨ht.reuse.2 fun f hf g hg' => ?_, by rw [ht.snapshots_length]; exact hg.two_le, by
    rw [ht.snapshots_length, ht.coordinates_length]⟩
  have key : ∀ f ∈ t.coordinateFiles, ∃ f' ∈ q.coordinate, f = String.ofList f' := by
    intro f hf
    obtain ⟨k, hk⟩ := List.mem_iff_getElem?.1 hf
    have hlt : k < q.snapshots := by
      have := (List.getElem?_eq_some_iff.1 hk).1
      rwa [ht.coordinates_length] at this
    rw [ht.coordinates k hlt] at hk
    exact mem_of_inRunOrder (List.mem_of_getElem? hk)
  obtain ⟨f', hf', rfl⟩ := key f hf
  obtain ⟨g', hg'', rfl⟩ := key g hg'
  rw [hg.one f' hf' g' hg'']

theorem Experiment.StaticGrid.setup {q : Experiment K} {gs : List ℕ} (hg : q.StaticGrid gs)
    (hlow : lower "grid" = "grid") {I : AnyInterp K} {k : Kind} {w : WriterKind}
    (h : setup lower ⟨some q.integrator, some q.interpolator, some q.format⟩ q.flowGrid =
      .ok (I, k, w)) : I = .highPerf (.fresh gs) := by
  unfold Verif.setup at h
  have hI : cliInterpolator (K := K) lower (some q.interpolator) q.flowGrid =
      .ok (.highPerf (.fresh gs)) := by
    rw [hg.interpolator, hg.shape]
    simp [cliInterpolator, createInterpolator, hlow]
  rw [hI] at h
  simp only at h
  repeat' split at h
  all_goals first
    | (cases h; done)
    | (cases h; rfl)

/-- **C109 is false of the code** (whole call).  A call for the fast grid interpolator with one
coordinate file: the output folder is made and the pool started, but whatever the files contain and
whatever the interleaving the executor never returns; every execution can be continued until it
raises; the exception raised (if no worker dies) is the one of some window; and the run of no window
gets beyond its first progress message, so that no field is computed and no file is written. -/
theorem C109_command_fails (hl : cd.Lawful)
    (hlow : ∀ s ∈ ["rk4", "euler", "ab2", "cubic", "linear", "nearest", "grid"], lower s = s)
    {argv : List Str} {l m : List (Opt × Str)} (hs : Says cd argv l)
    (hm : FromFile (fun p => (texts p).bind (configItems cd json)) argv l m) {q : Experiment K}
    (hq : Asks cd float texts per (m ++ l) q) (hsens : q.Sensible)
    (hname : q.name.head? ≠ some '/') {gs : List ℕ} (hg : q.StaticGrid gs) (d : Disk α)
    (env : Env K F) (mem : ℕ → List ℕ → K) :
    ∃ (st : Started K F) (k : Kind) (w : WriteFn K F)
      (H : Host (Shared K) (List ℕ → K) (Option (List F) × List (Event K F))) (s₀ : _),
      (startCommand cd float json texts per lower d argv).2.2 = .ok st ∧
      (startCommand (F := F) cd float json texts per lower d argv).1 =
        (d.openFolder ("outputs/".toList ++ q.name)).1 ∧
      st.program.host env = .ok H ∧ H.n = q.fields ∧ H.init mem = .ok s₀ ∧
      (∀ as s, HostState.Exec H mem s₀ as s →
        (∀ rs, s.pool.phase ≠ .returned rs) ∧
        (∃ bs s' e, HostState.Exec H mem s₀ (as ++ bs) s' ∧ s'.pool.phase = .raised e) ∧
        ∀ e, .crash ∉ as → s.pool.phase = .raised e → ∃ i < q.fields, ∃ t,
          IsWindow env.stem (inRunOrder q.timestep q.velocity)
            (inRunOrder q.timestep q.coordinate) (inRunOrder q.timestep q.particle) q.timestep
            q.snapshots i t ∧
          (aloneRun { env with junk := mem i } (some w) (.file t) (.highPerf (.fresh gs)) k).result =
            .error e) ∧
      ∀ i < q.fields, ∃ t,
        IsWindow env.stem (inRunOrder q.timestep q.velocity) (inRunOrder q.timestep q.coordinate)
          (inRunOrder q.timestep q.particle) q.timestep q.snapshots i t ∧
        ((aloneRun { env with junk := mem i } (some w) (.file t) (.highPerf (.fresh gs)) k).trace = [] ∨
          (aloneRun { env with junk := mem i } (some w) (.file t) (.highPerf (.fresh gs)) k).trace =
            [.progress t.id 0]) := by
  have hwf := q.wellFormed hsens hq.accepted
  obtain ⟨P, hP, hst⟩ := startCommand_sensible (F := F) cd float json texts per lower hl hlow hs hm
    hq hsens hname d
  obtain ⟨P', H, s₀, g1, g2, g3, g4⟩ := C77_starts (F := F) lower hlow env q.args _ _ _ _ _ _ _ hwf mem
  rw [hP] at g1
  cases g1
  obtain ⟨I, k, w, hset, -, -, -, -, -, hcr⟩ := program_created (F := F) lower hlow hwf
  obtain rfl := hg.setup lower (hlow "grid" (by simp)) hset
  obtain ⟨tasks, h1, h2, h3⟩ := program_host env hwf (.highPerf (.fresh gs)) k
    (Writer.fresh w q.particlesGrid).asWriteFn
  rw [hP] at hcr
  cases hcr
  obtain rfl := Except.ok.inj (h3.symm.trans g2)
  have hfail : ∀ i < q.fields, ∃ t, tasks[i]? = some t ∧
      IsWindow env.stem (inRunOrder q.timestep q.velocity) (inRunOrder q.timestep q.coordinate)
        (inRunOrder q.timestep q.particle) q.timestep q.snapshots i t ∧
      (∃ e, (aloneRun { env with junk := mem i } (some (Writer.fresh w q.particlesGrid).asWriteFn)
        (.file t) (.highPerf (.fresh gs)) k).result = .error e) ∧
      ((aloneRun { env with junk := mem i } (some (Writer.fresh w q.particlesGrid).asWriteFn)
        (.file t) (.highPerf (.fresh gs)) k).trace = [] ∨
        (aloneRun { env with junk := mem i } (some (Writer.fresh w q.particlesGrid).asWriteFn)
          (.file t) (.highPerf (.fresh gs)) k).trace = [.progress t.id 0]) := by
    intro i hi
    obtain ⟨t, ht, hw⟩ := h2 i hi
    obtain ⟨r1, r2, -⟩ := hg.window hw
    obtain ⟨a, b⟩ := C109_window_fails { env with junk := mem i }
      (some (Writer.fresh w q.particlesGrid).asWriteFn) r1 r2 gs k
    exact ⟨t, ht, hw, a, b⟩
  refine ⟨_, k, (Writer.fresh w q.particlesGrid).asWriteFn, _, s₀, by rw [hst], by rw [hst], g2, g3,
    g4, fun as s h => ⟨?_, ?_, fun e hc hr => ?_⟩, fun i hi => ?_⟩
  · intro rs hr
    obtain ⟨t, ht, -, ⟨e, he⟩, -⟩ := hfail 0 (by unfold Experiment.fields; omega)
    obtain ⟨r, -, hr'⟩ := (C51_isolated env _ (tasks.map .file) (.highPerf (.fresh gs)) k _ mem g4 h
      hr).2 0 (.file t) (by rw [List.getElem?_map, ht]; rfl)
    rw [show _ = _ from he] at hr'
    cases hr'
  · obtain ⟨t, ht, -, ⟨e, he⟩, -⟩ := hfail 0 (by unfold Experiment.fields; omega)
    obtain ⟨hx, -⟩ := h.refines g4
    obtain ⟨⟨bs, p, e', hp, hph⟩, -⟩ := C49_raises _ (Host.init_ok g4).1 hx (i := 0) (e := e)
      (by
        show 0 < (tasks.map Source.file).length
        rw [List.length_map, h1]
        omega)
      (by
        rw [Shared.job_outcome, List.getElem?_map, ht]
        simp only [Option.map_some]
        rw [show _ = _ from he])
    obtain ⟨s', hs', rfl⟩ := HostState.Exec.lift g4 hp
    exact ⟨bs, s', e', hs', hph⟩
  · obtain ⟨I, k', w', i, t, e1, e2, e3, e4⟩ := C77_failure lower hlow env q.args _ _ _ _ _ _ _ hwf _
      hP _ g2 mem g4 h hc hr
    rw [hset] at e1
    cases e1
    exact ⟨i, e2, t, e3, e4⟩
  · obtain ⟨t, -, hw, -, h⟩ := hfail i hi
    exact ⟨t, hw, h⟩

/-- **C109** (status).  If the windows report their first step and their second velocity files are
as they should be, the exception of every finished call in which no worker dies is a `RuntimeError`,
which `main` catches: the call ends with status 0, as if it had done its work. -/
theorem C109_status_fails (hl : cd.Lawful)
    (hlow : ∀ s ∈ ["rk4", "euler", "ab2", "cubic", "linear", "nearest", "grid"], lower s = s)
    {argv : List Str} {l m : List (Opt × Str)} (hs : Says cd argv l)
    (hm : FromFile (fun p => (texts p).bind (configItems cd json)) argv l m) {q : Experiment K}
    (hq : Asks cd float texts per (m ++ l) q) (hsens : q.Sensible)
    (hname : q.name.head? ≠ some '/') {gs : List ℕ} (hg : q.StaticGrid gs) (d : Disk α)
    (env : Env K F) (mem : ℕ → List ℕ → K)
    (hwin : ∀ i < q.fields, ∀ t,
      IsWindow env.stem (inRunOrder q.timestep q.velocity) (inRunOrder q.timestep q.coordinate)
        (inRunOrder q.timestep q.particle) q.timestep q.snapshots i t →
      (∀ file, t.snapshotFiles[1]? = some file →
        ∃ v, readVelocity env.fs file = .ok v ∧ gs.length ≤ v.shape.headD 0) ∧
      ∀ w k, (aloneRun { env with junk := mem i } (some w) (.file t) (.highPerf (.fresh gs))
        k).trace ≠ [])
    {st : Started K F} (hst : (startCommand cd float json texts per lower d argv).2.2 = .ok st)
    {H : Host (Shared K) (List ℕ → K) (Option (List F) × List (Event K F))}
    (hH : st.program.host env = .ok H)
    {s₀ s : HostState (Shared K) (Option (List F) × List (Event K F))}
    {as : List (Action (Option (List F) × List (Event K F)))}
    {r : Py (List (Option (Option (List F) × List (Event K F))))}
    (h₀ : H.init mem = .ok s₀) (h : HostState.Exec H mem s₀ as s) (hc : .crash ∉ as)
    (hr : s.pool.phase.result = some r) (start stop : ℤ) :
    r = .error .runtimeError ∧ exitStatus (mainProgram start stop r).1 = 0 ∧
      "❌ Execution stopped: " ∈ (mainProgram start stop r).2 := by
  obtain ⟨st', k, w, H', s₀', e1, -, e2, -, e3, e4, -⟩ := C109_command_fails (F := F) cd float json
    texts per lower hl hlow hs hm hq hsens hname hg d env mem
  obtain rfl := Except.ok.inj (e1.symm.trans hst)
  obtain rfl := Except.ok.inj (e2.symm.trans hH)
  obtain rfl := Except.ok.inj (e3.symm.trans h₀)
  obtain ⟨h1, -, h3⟩ := e4 as s h
  suffices hh : r = .error .runtimeError by
    subst hh
    exact ⟨rfl, rfl, by simp [mainProgram, mainPrints]⟩
  cases hp : s.pool.phase with
  | submitting i => rw [hp] at hr; cases hr
  | collecting => rw [hp] at hr; cases hr
  | returned rs => exact absurd hp (h1 rs)
  | raised e =>
    rw [hp] at hr
    cases hr
    obtain ⟨i, hi, t, ht, he⟩ := h3 e hc hp
    obtain ⟨hv, hf⟩ := hwin i hi t ht
    obtain ⟨g1, g2, g3⟩ := hg.window ht
    obtain ⟨file, hfile⟩ : ∃ file, t.snapshotFiles[1]? = some file :=
      ⟨_, List.getElem?_eq_getElem (by omega)⟩
    obtain ⟨v, hv, hd⟩ := hv file hfile
    have := C109_error_fails { env with junk := mem i } (some w) g1 gs k hfile g3 hv hd (hf w k)
    rw [he] at this
    cases this
    rfl

end

/-! ## The call of the tutorial -/

/-- The configuration of the tutorial (examples/02_File-based_IO.ipynb, the last text cell). -/
def tutorialText : Str := cfgText ["experiment_name: \"example_file-based_IO\"",
  "list_velocity_files: \"examples/velocity_filenames.txt\"  " ++
    "# assuming you run pyftle from project rootdir",
  "list_coordinate_files: \"examples/coordinate_filenames.txt\"  " ++
    "# assuming you run pyftle from project rootdir",
  "list_particle_files: \"examples/particle_filenames.txt\"  " ++
    "# assuming you run pyftle from project rootdir",
  "snapshot_timestep: 0.001  # must match your snapshot timestep",
  "flow_map_period: 0.5", "integrator: rk4", "interpolator: grid", "num_processes: 4",
  "output_format: \"vtk\"",
  "flow_grid_shape: 100, 50  # comment this line for unstructured data",
  "particles_grid_shape: 100, 50  # comment this line for unstructured data"]

/-- What it says. -/
def tutorialFile : List (Opt × Str) :=
  [(.experimentName, "example_file-based_IO".toList),
    (.listVelocityFiles, "examples/velocity_filenames.txt".toList),
    (.listCoordinateFiles, "examples/coordinate_filenames.txt".toList),
    (.listParticleFiles, "examples/particle_filenames.txt".toList),
    (.snapshotTimestep, "0.001".toList), (.flowMapPeriod, "0.5".toList),
    (.integrator, "rk4".toList), (.interpolator, "grid".toList), (.numProcesses, ['4']),
    (.outputFormat, "vtk".toList), (.flowGridShape, "100, 50".toList),
    (.particlesGridShape, "100, 50".toList)]

set_option maxRecDepth 10000 in
theorem tutorial_items : configItems asciiData cfgJson tutorialText =
    some (tutorialFile.map fun e => (e.1.name.drop 2, .text e.2)) := by
  decide +kernel

/-- The call `pyftle -c config.yaml`. -/
def tutorialArgv : List Str := ["-c".toList, "config.yaml".toList]

theorem tutorialSays : Says asciiData tutorialArgv [(.config, "config.yaml".toList)] :=
  .pair (.inr ⟨rfl, rfl⟩) (by simp) (.inl (by decide)) .nil

/-- The text files of the tutorial: the configuration and the three lists. -/
structure TutorialTexts (texts : Str → Option Str) (V C P : List (List Char)) : Prop where
  config : texts "config.yaml".toList = some tutorialText
  velocity : texts "examples/velocity_filenames.txt".toList = some (writeList V)
  coordinate : texts "examples/coordinate_filenames.txt".toList = some (writeList C)
  particle : texts "examples/particle_filenames.txt".toList = some (writeList P)

theorem tutorialFromFile {texts : Str → Option Str} {V C P : List (List Char)}
    (h : TutorialTexts texts V C P) :
    FromFile (fun p => (texts p).bind (configItems asciiData cfgJson)) tutorialArgv
      [(.config, "config.yaml".toList)] tutorialFile := by
  refine .inr ⟨"config.yaml".toList, tutorialFile.map fun e => (e.1.name.drop 2, .text e.2),
    ⟨[], _, rfl, by simp⟩, by simp, ?_, ?_⟩
  · simp only [h.config, Option.bind_some]
    exact tutorial_items
  have key : ∀ (e : Opt × Str), KeyFor (e.1.name.drop 2) e.1 := by
    rintro ⟨o, v⟩
    revert v
    have : ∀ o ∈ Opt.all, "--".toList ++ o.name.drop 2 = o.name := by decide
    exact fun v => .inr (this o (by cases o <;> decide))
  have ng : ∀ e ∈ tutorialFile, ¬ Given tutorialArgv e.1 := by
    intro e he
    rw [← discarded_known _ (key e)]
    have : ∀ e ∈ tutorialFile, discarded tutorialArgv (e.1.name.drop 2) = false := by
      decide +kernel
    rw [this e he]
    simp
  have nh : ∀ e ∈ tutorialFile, e.1 ≠ .help := by decide
  generalize tutorialFile = l at ng nh
  induction l with
  | nil => exact .nil
  | cons e l ih =>
    exact .option (key e) (nh e (by simp)) (ng e (by simp))
      (ih (fun x hx => ng x (by simp [hx])) fun x hx => nh x (by simp [hx]))

/-- What the tutorial asks for: one coordinate file, one particle file. -/
def tutorialExperiment {K : Type} (V : List (List Char)) (c pf : List Char) (dt : K) (p : ℕ) :
    Experiment K where
  name := "example_file-based_IO".toList
  velocity := V
  coordinate := [c]
  particle := [pf]
  timestep := dt
  snapshots := p
  integrator := "rk4"
  interpolator := "grid"
  format := "vtk"
  processes := 4
  flowGrid := some [100, 50]
  particlesGrid := some [100, 50]

theorem twelveOptions (a b c d e f g h i j k l m : Str) :
    let L : List (Opt × Str) := [(.experimentName, a), (.listVelocityFiles, b),
      (.listCoordinateFiles, c), (.listParticleFiles, d), (.snapshotTimestep, e),
      (.flowMapPeriod, f), (.integrator, g), (.interpolator, h), (.numProcesses, i),
      (.outputFormat, j), (.flowGridShape, k), (.particlesGridShape, l), (.config, m)]
    LastValue L .experimentName a ∧ LastValue L .listVelocityFiles b ∧
    LastValue L .listCoordinateFiles c ∧ LastValue L .listParticleFiles d ∧
    LastValue L .snapshotTimestep e ∧ LastValue L .flowMapPeriod f ∧ LastValue L .integrator g ∧
    LastValue L .interpolator h ∧ LastValue L .numProcesses i ∧ LastValue L .outputFormat j ∧
    LastValue L .flowGridShape k ∧ LastValue L .particlesGridShape l := by
  intro L
  refine ⟨⟨L.take 0, L.drop 1, rfl, by simp [L]⟩, ⟨L.take 1, L.drop 2, rfl, by simp [L]⟩,
    ⟨L.take 2, L.drop 3, rfl, by simp [L]⟩, ⟨L.take 3, L.drop 4, rfl, by simp [L]⟩,
    ⟨L.take 4, L.drop 5, rfl, by simp [L]⟩, ⟨L.take 5, L.drop 6, rfl, by simp [L]⟩,
    ⟨L.take 6, L.drop 7, rfl, by simp [L]⟩, ⟨L.take 7, L.drop 8, rfl, by simp [L]⟩,
    ⟨L.take 8, L.drop 9, rfl, by simp [L]⟩, ⟨L.take 9, L.drop 10, rfl, by simp [L]⟩,
    ⟨L.take 10, L.drop 11, rfl, by simp [L]⟩, ⟨L.take 11, L.drop 12, rfl, by simp [L]⟩⟩

theorem tutorialAsks {K : Type} {float : Str → Option K} {texts : Str → Option Str}
    {per : K → K → Py ℤ} {V : List (List Char)} {c pf : List Char} {dt T : K} {p : ℕ}
    (h : TutorialTexts texts V [c] [pf]) (hdt : float "0.001".toList = some dt)
    (hT : float "0.5".toList = some T) (hp : per T dt = .ok p) :
    Asks asciiData float texts per (tutorialFile ++ [(.config, "config.yaml".toList)])
      (tutorialExperiment V c pf dt p) := by
  obtain ⟨l1, l2, l3, l4, l5, l6, l7, l8, l9, l10, l11, l12⟩ := twelveOptions
    "example_file-based_IO".toList "examples/velocity_filenames.txt".toList
    "examples/coordinate_filenames.txt".toList "examples/particle_filenames.txt".toList
    "0.001".toList "0.5".toList "rk4".toList "grid".toList ['4'] "vtk".toList "100, 50".toList
    "100, 50".toList "config.yaml".toList
  have four : IntLiteral asciiData ['4'] 4 :=
    (pyInt_iff asciiData asciiData_lawful _ _).1 (by decide +kernel)
  have parsed : (Except.toOption (convert asciiData callFloat .flowGridShape "100, 50".toList) :
      Option (List ℤ)) = some [100, 50] := by decide +kernel
  have shape : ShapeLiteral asciiData "100, 50".toList [100, 50] :=
    (convert_iff asciiData callFloat asciiData_lawful .flowGridShape _ _).1
      (ok_of_toOption parsed)
  refine ⟨?_, l1, ⟨_, l2, h.velocity⟩, ⟨_, l3, h.coordinate⟩, ⟨_, l4, h.particle⟩, ⟨_, l5, hdt⟩,
    ⟨_, T, l6, hT, hp⟩, l7, l8, l10, .inl ⟨_, l9, four⟩, .inl ⟨_, _, l11, shape, rfl⟩,
    .inl ⟨_, _, l12, shape, rfl⟩⟩
  intro e he
  simp only [tutorialFile, List.cons_append, List.nil_append, List.mem_cons, List.not_mem_nil,
    or_false] at he
  rcases he with rfl | rfl | rfl | rfl | rfl | rfl | rfl | rfl | rfl | rfl | rfl | rfl | rfl
  · exact ⟨_, rfl⟩
  · exact ⟨_, rfl⟩
  · exact ⟨_, rfl⟩
  · exact ⟨_, rfl⟩
  · exact ⟨dt, hdt⟩
  · exact ⟨T, hT⟩
  · exact ⟨"rk4".toList, rfl, .inl rfl⟩
  · exact ⟨"grid".toList, rfl, .inr (.inr (.inr rfl))⟩
  · exact ⟨(4 : ℤ), four⟩
  · exact ⟨"vtk".toList, rfl, .inr rfl⟩
  · exact ⟨[100, 50], shape⟩
  · exact ⟨[100, 50], shape⟩
  · exact ⟨_, rfl⟩

theorem tutorialSensible {K : Type} {V : List (List Char)} {c pf : List Char} (dt : K) {p : ℕ}
    (hV : ∀ f ∈ V ++ [c] ++ [pf], PlainPath f) (h1 : 1 ≤ p) (hn : p ≤ V.length) :
    (tutorialExperiment V c pf dt p).Sensible where
  plain := hV
  coordinate_ne := List.cons_ne_nil c []
  particle_ne := List.cons_ne_nil pf []
  one_le := h1
  enough := hn
  shape := fun _ => Option.some_ne_none _
  processes := by show (1 : ℤ) ≤ 4; decide

theorem tutorialStatic {K : Type} (V : List (List Char)) (c pf : List Char) (dt : K) {p : ℕ}
    (h2 : 2 ≤ p) : (tutorialExperiment V c pf dt p).StaticGrid [100, 50] where
  interpolator := rfl
  shape := rfl
  one := fun _ hf _ hg => (List.mem_singleton.1 hf).trans (List.mem_singleton.1 hg).symm
  two_le := h2

section
variable {K F α : Type} [Zero K] [One K] [Add K] [Sub K] [Mul K] [Div K] [NatCast K] [IntCast K]
  [Min K] [Max K] [NumLits K] [DecidableEq K] [LT K] [DecidableLT K] [Inhabited F]

/-- **C109 is false of the code** (the tutorial).  `pyftle -c config.yaml` with the text of the
tutorial, a list of velocity files with at least one period, one coordinate file and one particle
file: the folder `outputs/example_file-based_IO` is made, the pool gets a task for every field, the
executor never returns and no window computes a field, whatever the `.mat` files contain. -/
theorem C109_tutorial_fails (float : Str → Option K) (texts : Str → Option Str)
    (per : K → K → Py ℤ) (lower : String → String)
    (hlow : ∀ s ∈ ["rk4", "euler", "ab2", "cubic", "linear", "nearest", "grid"], lower s = s)
    {V : List (List Char)} {c pf : List Char} {dt T : K} {p : ℕ}
    (ht : TutorialTexts texts V [c] [pf]) (hV : ∀ f ∈ V ++ [c] ++ [pf], PlainPath f)
    (hdt : float "0.001".toList = some dt) (hT : float "0.5".toList = some T)
    (hp : per T dt = .ok p) (h2 : 2 ≤ p) (hn : p ≤ V.length) (d : Disk α) (env : Env K F)
    (mem : ℕ → List ℕ → K) :
    ∃ (st : Started K F) (w : WriteFn K F) (k : Kind)
      (H : Host (Shared K) (List ℕ → K) (Option (List F) × List (Event K F))) (s₀ : _),
      (startCommand asciiData float cfgJson texts per lower d tutorialArgv).2.2 = .ok st ∧
      (startCommand (F := F) asciiData float cfgJson texts per lower d tutorialArgv).1 =
        (d.openFolder ("outputs/".toList ++ "example_file-based_IO".toList)).1 ∧
      st.program.host env = .ok H ∧ H.n = V.length - p + 1 ∧ H.init mem = .ok s₀ ∧
      (∀ as s, HostState.Exec H mem s₀ as s → (∀ rs, s.pool.phase ≠ .returned rs) ∧
        ∃ bs s' e, HostState.Exec H mem s₀ (as ++ bs) s' ∧ s'.pool.phase = .raised e) ∧
      ∀ i < V.length - p + 1, ∃ t,
        IsWindow env.stem (inRunOrder dt V) (inRunOrder dt [c]) (inRunOrder dt [pf]) dt p i t ∧
        ∀ name values centroids, .written name values centroids ∉
          (aloneRun { env with junk := mem i } (some w) (.file t)
            (.highPerf (.fresh [100, 50])) k).trace := by
  obtain ⟨st, k, w, H, s₀, e1, e2, e3, e4, e5, e6, e7⟩ := C109_command_fails (F := F) asciiData float
    cfgJson texts per lower asciiData_lawful hlow tutorialSays (tutorialFromFile ht)
    (tutorialAsks ht hdt hT hp) (tutorialSensible dt hV (by omega) hn)
    (by show ("example_file-based_IO".toList).head? ≠ some '/'; decide)
    (tutorialStatic V c pf dt h2) d env mem
  refine ⟨st, w, k, H, s₀, e1, e2, e3, e4, e5, fun as s h => ⟨(e6 as s h).1, (e6 as s h).2.1⟩,
    fun i hi => ?_⟩
  obtain ⟨t, hw, h⟩ := e7 i hi
  refine ⟨t, hw, fun name values centroids hmem => ?_⟩
  rcases h with h | h <;> rw [h] at hmem <;> simp at hmem

end

/-! ## The theorems above apply to concrete runs -/

/-- One window: the files of C39, the fast interpolator on the 3 × 3 grid.  Its first step is
reported, the second raises `RuntimeError`. -/
theorem C109_window_witness_fails :
    (∀ k w, (aloneRun exFileEnv (some w) (.file exFileSource) (.highPerf (.fresh [3, 3]))
      k).trace ≠ []) ∧
    (∀ k w, (aloneRun exFileEnv (some w) (.file exFileSource) (.highPerf (.fresh [3, 3]))
      k).result = .error .runtimeError) := by
  have first : ∀ k w, (aloneRun exFileEnv (some w) (.file exFileSource)
      (.highPerf (.fresh [3, 3])) k).trace ≠ [] := by
    intro k w
    obtain ⟨p, hp⟩ : ∃ p, readSeedParticles exFileEnv.fs exFileSource.particleFile = .ok p := by
      have : (readSeedParticles exFileEnv.fs exFileSource.particleFile).toOption.isSome = true := by
        decide +kernel
      obtain ⟨p, hp⟩ := Option.isSome_iff_exists.1 this
      exact ⟨p, ok_of_toOption hp⟩
    refine static_reported (s := exFileSource) rfl (by decide) hp ?_
    have key : ∀ k, ((readSeedParticles exFileEnv.fs exFileSource.particleFile).toOption.map
        fun p => ((⟨.highPerf (.fresh [3, 3]), Integ.fresh k, p, []⟩ : Loop ℚ ℚ).step exFileEnv
          (.file exFileSource) exFileSource.id true 0).2) = some none := by
      rintro (_ | _ | _) <;> decide +kernel
    have := key k
    rw [hp] at this
    exact Option.some.inj this
  refine ⟨first, fun k w => ?_⟩
  obtain ⟨v, hv, hd⟩ : ∃ v, readVelocity exFileEnv.fs "w" = .ok v ∧ 2 ≤ v.shape.headD 0 := by
    have : (readVelocity exFileEnv.fs "w").toOption.map (fun v => v.shape.headD 0) = some 2 := by
      decide +kernel
    cases h : readVelocity exFileEnv.fs "w" with
    | error e => rw [h] at this; cases this
    | ok v =>
      rw [h] at this
      exact ⟨v, rfl, (Option.some.inj this).ge⟩
  exact C109_error_fails exFileEnv (some w) (s := exFileSource) rfl [3, 3] k rfl rfl hv hd
    (first k w)

/-- The call `pyftle -c f --integrator=rk4 --interpolator=grid --flow_grid_shape=3,3`. -/
def staticArgv : List Str := ["-c".toList, ['f'], "--integrator=rk4".toList,
  "--interpolator=grid".toList, "--flow_grid_shape=3,3".toList]

/-- What it says. -/
def staticOpts : List (Opt × Str) := [(.config, ['f']), (.integrator, "rk4".toList),
  (.interpolator, "grid".toList), (.flowGridShape, "3,3".toList)]

/-- What it asks for: the experiment of C105 with the fast interpolator. -/
def staticExperiment : Experiment ℚ :=
  { callExperiment with interpolator := "grid", flowGrid := some [3, 3] }

theorem staticSays : Says asciiData staticArgv staticOpts := by
  have hn : ∀ o ∈ Opt.all, o.name.length > 2 → Names o.name o := by
    intro o ho h
    refine ⟨by revert ho h; cases o <;> decide, fun o' => ?_⟩
    have : ∀ o ∈ Opt.all, ∀ o' ∈ Opt.all, o.name.isPrefixOf o'.name = true ↔ o' = o := by
      decide +kernel
    rw [← List.isPrefixOf_iff_prefix]
    exact this o ho o' (by cases o' <;> decide)
  exact .pair (.inr ⟨rfl, rfl⟩) (by simp) (.inl (by decide))
    (.glued (n := "--integrator".toList) (v := "rk4".toList)
      (.inl (hn .integrator (by decide) (by decide))) (by simp)
    (.glued (n := "--interpolator".toList) (v := "grid".toList)
      (.inl (hn .interpolator (by decide) (by decide))) (by simp)
    (.glued (n := "--flow_grid_shape".toList) (v := "3,3".toList)
      (.inl (hn .flowGridShape (by decide) (by decide))) (by simp) .nil)))

/-- The options of the file that the call does not give itself. -/
def staticFile : List (Opt × Str) :=
  [(.experimentName, "run".toList), (.listVelocityFiles, ['V']), (.listCoordinateFiles, ['C']),
    (.listParticleFiles, ['P']), (.snapshotTimestep, ['1']), (.flowMapPeriod, ['1']),
    (.outputFormat, "mat".toList), (.numProcesses, ['2'])]

theorem staticFromFile : FromFile (fun p => (callTexts p).bind (configItems asciiData cfgJson))
    staticArgv staticOpts staticFile := by
  refine .inr ⟨['f'], callFile.map fun e => (e.1.name.drop 2, .text e.2),
    ⟨[], staticOpts.drop 1, rfl, by simp [staticOpts]⟩, by simp, by decide +kernel, ?_⟩
  have key : ∀ (e : Opt × Str), KeyFor (e.1.name.drop 2) e.1 := by
    rintro ⟨o, v⟩
    revert v
    have : ∀ o ∈ Opt.all, "--".toList ++ o.name.drop 2 = o.name := by decide
    exact fun v => .inr (this o (by cases o <;> decide))
  have nh : ∀ e ∈ callFile, e.1 ≠ .help := by decide
  have hf : staticFile = callFile.filter fun e => !discarded staticArgv (e.1.name.drop 2) := by
    decide +kernel
  rw [hf]
  generalize callFile = l at nh
  induction l with
  | nil => exact .nil
  | cons e l ih =>
    have ih := ih fun x hx => nh x (by simp [hx])
    cases hd : discarded staticArgv (e.1.name.drop 2) with
    | true =>
      rw [List.filter_cons_of_neg (by simp [hd])]
      exact .overridden (key e) ((discarded_known _ (key e)).1 hd) ih
    | false =>
      rw [List.filter_cons_of_pos (by simp [hd])]
      exact .option (key e) (nh e (by simp)) (by rw [← discarded_known _ (key e), hd]; simp) ih

theorem staticAsks : Asks asciiData callFloat callTexts snapshotsPerPeriod
    (staticFile ++ staticOpts) staticExperiment := by
  have last : ∀ (a b : List (Opt × Str)) (o : Opt) (v : Str), (∀ e ∈ b, e.1 ≠ o) →
      LastValue (a ++ (o, v) :: b) o v := fun a b o v h => ⟨a, b, rfl, fun w hw => h _ hw rfl⟩
  have two : IntLiteral asciiData ['2'] 2 :=
    (pyInt_iff asciiData asciiData_lawful _ _).1 (by decide +kernel)
  have parsed : (Except.toOption (convert asciiData callFloat .flowGridShape "3,3".toList) :
      Option (List ℤ)) = some [3, 3] := by decide +kernel
  have shape : ShapeLiteral asciiData "3,3".toList [3, 3] :=
    (convert_iff asciiData callFloat asciiData_lawful .flowGridShape _ _).1
      (ok_of_toOption parsed)
  refine ⟨?_, last [] _ _ _ (by decide), ⟨['V'], last (staticFile.take 1) _ _ _ (by decide), rfl⟩,
    ⟨['C'], last (staticFile.take 2) _ _ _ (by decide), rfl⟩,
    ⟨['P'], last (staticFile.take 3) _ _ _ (by decide), rfl⟩,
    ⟨['1'], last (staticFile.take 4) _ _ _ (by decide), rfl⟩,
    ⟨['1'], 1, last (staticFile.take 5) _ _ _ (by decide), rfl,
      ok_of_toOption (by decide +kernel)⟩,
    last (staticFile ++ staticOpts.take 1) _ _ _ (by decide),
    last (staticFile ++ staticOpts.take 2) _ _ _ (by decide),
    last (staticFile.take 6) _ _ _ (by decide),
    .inl ⟨['2'], last (staticFile.take 7) _ _ _ (by decide), two⟩,
    .inl ⟨_, _, last (staticFile ++ staticOpts.take 3) _ _ _ (by decide), shape, rfl⟩,
    .inr ⟨?_, rfl⟩⟩
  · intro e he
    simp only [staticFile, staticOpts, List.cons_append, List.nil_append, List.mem_cons,
      List.not_mem_nil, or_false] at he
    rcases he with rfl | rfl | rfl | rfl | rfl | rfl | rfl | rfl | rfl | rfl | rfl | rfl
    · exact ⟨_, rfl⟩
    · exact ⟨_, rfl⟩
    · exact ⟨_, rfl⟩
    · exact ⟨_, rfl⟩
    · exact ⟨(1 : ℚ), rfl⟩
    · exact ⟨(1 : ℚ), rfl⟩
    · exact ⟨"mat".toList, rfl, .inl rfl⟩
    · exact ⟨(2 : ℤ), two⟩
    · exact ⟨_, rfl⟩
    · exact ⟨"rk4".toList, rfl, .inl rfl⟩
    · exact ⟨"grid".toList, rfl, .inr (.inr (.inr rfl))⟩
    · exact ⟨[3, 3], shape⟩
  · simp [staticFile, staticOpts]

theorem staticSensible : staticExperiment.Sensible where
  plain := exArgs_wellFormed.plain
  coordinate_ne := by simp [staticExperiment, callExperiment]
  particle_ne := by simp [staticExperiment, callExperiment]
  one_le := by simp [staticExperiment, callExperiment]
  enough := by simp [staticExperiment, callExperiment]
  shape := by simp [staticExperiment]
  processes := by simp [staticExperiment, callExperiment]

theorem staticGrid : staticExperiment.StaticGrid [3, 3] :=
  ⟨rfl, rfl, by simp [staticExperiment, callExperiment], by simp [staticExperiment, callExperiment]⟩

/-- The windows of the example report their first step. -/
theorem static_windows : ∀ i < 2, (∀ file, (exWindow i).snapshotFiles[1]? = some file →
      ∃ v, readVelocity exProgEnv.fs file = .ok v ∧ 2 ≤ v.shape.headD 0) ∧
    ∀ w k, (aloneRun { exProgEnv with junk := fun _ => 7 } (some w) (.file (exWindow i))
      (.highPerf (.fresh [3, 3])) k).trace ≠ [] := by
  intro i hi
  have hr : (exWindow i).reuseCoordinates = true := by interval_cases i <;> rfl
  refine ⟨fun file hf => ?_, fun w k => ?_⟩
  · have : ∀ f ∈ ["v", "w"], (readVelocity exProgEnv.fs f).toOption.map
        (fun v => v.shape.headD 0) = some 2 := by decide +kernel
    have := this file (by
      interval_cases i
      · cases hf; simp
      · cases hf; simp)
    cases h : readVelocity exProgEnv.fs file with
    | error e => rw [h] at this; cases this
    | ok v =>
      rw [h] at this
      exact ⟨v, rfl, (Option.some.inj this).ge⟩
  · obtain ⟨p, hp⟩ : ∃ p, readSeedParticles exProgEnv.fs (exWindow i).particleFile = .ok p := by
      have : ∀ i < 2, (readSeedParticles exProgEnv.fs
          (exWindow i).particleFile).toOption.isSome = true := by
        decide +kernel
      obtain ⟨p, hp⟩ := Option.isSome_iff_exists.1 (this i hi)
      exact ⟨p, ok_of_toOption hp⟩
    refine static_reported (s := exWindow i) hr (by interval_cases i <;> decide) hp ?_
    have key : ∀ k, ∀ i < 2, ((readSeedParticles exProgEnv.fs
        (exWindow i).particleFile).toOption.map
        fun p => ((⟨.highPerf (.fresh [3, 3]), Integ.fresh k, p, []⟩ : Loop ℚ ℚ).step
          { exProgEnv with junk := fun _ => 7 } (.file (exWindow i)) (exWindow i).id true 0).2) =
        some none := by
      rintro (_ | _ | _) <;> decide +kernel
    have := key k i hi
    rw [hp] at this
    exact Option.some.inj this

/-- C109 (whole call and status): the call of the example starts; some execution of it finishes
without the death of a worker, all those end with a `RuntimeError` and status 0. -/
theorem C109_witness_fails :
    ∃ (st : Started ℚ ℚ)
      (H : Host (Shared ℚ) (List ℕ → ℚ) (Option (List ℚ) × List (Event ℚ ℚ))) (s₀ : _),
      (startCommand asciiData callFloat cfgJson callTexts snapshotsPerPeriod id callDisk
        staticArgv).2.2 = .ok st ∧
      st.program.host exProgEnv = .ok H ∧ H.init (fun _ _ => 7) = .ok s₀ ∧
      (∃ as s e, HostState.Exec H (fun _ _ => 7) s₀ as s ∧ s.pool.phase = .raised e) ∧
      ∀ as s r, HostState.Exec H (fun _ _ => 7) s₀ as s → .crash ∉ as →
        s.pool.phase.result = some r → r = .error .runtimeError ∧
          exitStatus (mainProgram 0 1 r).1 = 0 := by
  obtain ⟨st, k, w, H, s₀, h1, -, h2, -, h4, h5, -⟩ := C109_command_fails (F := ℚ) asciiData
    callFloat cfgJson callTexts snapshotsPerPeriod id asciiData_lawful (by simp) staticSays
    staticFromFile staticAsks staticSensible (by decide) staticGrid callDisk exProgEnv
    (fun _ _ => 7)
  refine ⟨st, H, s₀, h1, h2, h4, ?_, fun as s r h hc hr => ?_⟩
  · obtain ⟨-, ⟨bs, s, e, h6, h7⟩, -⟩ := h5 [] s₀ .nil
    exact ⟨_, s, e, h6, h7⟩
  · obtain ⟨a, b, -⟩ := C109_status_fails (F := ℚ) asciiData callFloat cfgJson callTexts
      snapshotsPerPeriod id asciiData_lawful (by simp) staticSays staticFromFile staticAsks
      staticSensible (by decide) staticGrid callDisk exProgEnv (fun _ _ => 7) (by
        intro i hi t ht
        have hi' : i < 2 := hi
        have hw : t = exWindow i := by
          refine ht.unique ?_
          interval_cases i
          · exact ⟨rfl, by decide, rfl, by decide, rfl, rfl, rfl, by decide⟩
          · exact ⟨rfl, by decide, rfl, by decide, rfl, rfl, rfl, by decide⟩
        subst hw
        exact static_windows i hi') h1 h2 h4 h hc hr 0 1
    exact ⟨a, b⟩

/-- The texts of the tutorial with 501 velocity files. -/
def tutorialTexts (p : Str) : Option Str :=
  if p = "config.yaml".toList then some tutorialText
  else if p = "examples/velocity_filenames.txt".toList then
    some (writeList (List.replicate 501 ['v']))
  else if p = "examples/coordinate_filenames.txt".toList then some (writeList [['c']])
  else if p = "examples/particle_filenames.txt".toList then some (writeList [['p']])
  else none

/-- C109 (tutorial): such texts exist, and half a time unit is 501 snapshots. -/
example : TutorialTexts tutorialTexts (List.replicate 501 ['v']) [['c']] [['p']] ∧
    (∀ f ∈ List.replicate 501 ['v'] ++ [['c']] ++ [['p']], PlainPath f) ∧
    snapshotsPerPeriod (1 / 2) (1 / 1000) = .ok (501 : ℕ) := by
  refine ⟨⟨?_, ?_, ?_, ?_⟩, ?_, ok_of_toOption (by decide +kernel)⟩
  · exact if_pos rfl
  · exact (if_neg (by decide)).trans (if_pos rfl)
  · exact (if_neg (by decide)).trans ((if_neg (by decide)).trans (if_pos rfl))
  · exact (if_neg (by decide)).trans ((if_neg (by decide)).trans ((if_neg (by decide)).trans
      (if_pos rfl)))
  · intro f hf
    have : f ∈ [['v'], ['w'], ['v']] ++ [['c']] ++ [['p']] := by
      simp only [List.append_assoc, List.mem_append, List.mem_replicate,
        List.cons_append, List.nil_append, List.mem_cons, List.not_mem_nil, or_false] at hf ⊢
      tauto
    exact exArgs_wellFormed.plain f this

end Verif
