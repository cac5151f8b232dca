import Verif.Spec.Experiment
import Verif.Props.Config
import Verif.Props.Folder

/-!
# C105: from the command line to the disk
-/

set_option linter.unusedSectionVars false

namespace Verif

/-! ## From the options to the arguments of the program -/

/-- The arguments of the program for an experiment. -/
def Experiment.args {K : Type} (q : Experiment K) : ProgramArgs K where
  velocityList := some (writeList q.velocity)
  coordinateList := some (writeList q.coordinate)
  particleList := some (writeList q.particle)
  timestep := q.timestep
  snapshots := .ok q.snapshots
  options := ⟨some q.integrator, some q.interpolator, some q.format⟩
  processes := q.processes
  flowGridShape := q.flowGrid
  particlesGridShape := q.particlesGrid

section
variable {K : Type} (cd : CharData) (float : Str → Option K)

theorem ValueOf.unique (hl : cd.Lawful) {o : Opt} {s : Str} {x y : OptType K o}
    (hx : ValueOf cd float o s x) (hy : ValueOf cd float o s y) : x = y := by
  rw [← convert_iff cd float hl] at hx hy
  rw [hx] at hy
  exact Except.ok.inj hy

theorem LastValue.mem {l : List (Opt × Str)} {o : Opt} {v : Str} (h : LastValue l o v) :
    (o, v) ∈ l := by
  obtain ⟨a, b, rfl, -⟩ := h
  simp

theorem ShapeIn.unique (hl : cd.Lawful) {l : List (Opt × Str)} {o : Opt}
    {g g' : Option (List ℕ)} (h : ShapeIn cd l o g) (h' : ShapeIn cd l o g') : g = g' := by
  rcases h with ⟨v, t, h1, h2, rfl⟩ | ⟨h1, rfl⟩
  · rcases h' with ⟨v', t', h1', h2', rfl⟩ | ⟨h1', rfl⟩
    · obtain rfl := h1.unique h1'
      have : t = t' := ValueOf.unique (K := ℕ) cd (fun _ => none) hl (o := .flowGridShape)
        (s := v) h2 h2'
      rw [this]
    · exact absurd h1.mem (h1' v)
  · rcases h' with ⟨v', t', h1', h2', rfl⟩ | ⟨h1', rfl⟩
    · exact absurd h1'.mem (h1 v')
    · rfl

/-- Valid options with everything mandatory have a meaning. -/
theorem denotes_exists (l : List (Opt × Str)) (hv : ∀ e ∈ l, ∃ x, ValueOf cd float e.1 e.2 x)
    (hm : ∀ o : Opt, o.Mandatory → ∃ v, (o, v) ∈ l) : ∃ ns : Namespace K, Denotes cd float l ns := by
  have h : ∀ o : Opt, ∃ x : Option (OptType K o),
      (∀ v, LastValue l o v → ∃ y, x = some y ∧ ValueOf cd float o v y) ∧
      ((∀ v, (o, v) ∉ l) → Unset o x) := by
    intro o
    by_cases ho : ∃ v, (o, v) ∈ l
    · obtain ⟨v, hlast⟩ := exists_lastValue ho
      obtain ⟨y, hy⟩ := hv _ hlast.mem
      refine ⟨some y, fun w hw => ?_, fun h => absurd hlast.mem (h v)⟩
      obtain rfl := hlast.unique hw
      exact ⟨y, rfl, hy⟩
    · exact ⟨Namespace.defaults K o, fun v hw => absurd ⟨v, hw.mem⟩ ho, fun _ =>
        (unset_defaults o _).2 rfl⟩
  choose ns h1 h2 using h
  exact ⟨ns, hv, hm, fun l₁ o v l₂ hl hlast => h1 o v ⟨l₁, l₂, hl, hlast⟩, h2⟩

variable (texts : Str → Option Str) (per : K → K → Py ℤ)

theorem Asks.args (hl : cd.Lawful) {l : List (Opt × Str)} {q : Experiment K}
    (hq : Asks cd float texts per l q) {a : ProgramArgs K}
    (ha : ArgsOf cd float texts per l a) : a = q.args := by
  obtain ⟨v1, a1, b1⟩ := ha.velocity
  obtain ⟨v2, a2, b2⟩ := ha.coordinate
  obtain ⟨v3, a3, b3⟩ := ha.particle
  obtain ⟨v4, a4, b4⟩ := ha.timestep
  obtain ⟨v5, T, a5, b5, c5⟩ := ha.snapshots
  obtain ⟨w1, e1, f1⟩ := hq.velocity
  obtain ⟨w2, e2, f2⟩ := hq.coordinate
  obtain ⟨w3, e3, f3⟩ := hq.particle
  obtain ⟨w4, e4, f4⟩ := hq.timestep
  obtain ⟨w5, T', e5, f5, g5⟩ := hq.snapshots
  obtain rfl := a1.unique e1
  obtain rfl := a2.unique e2
  obtain rfl := a3.unique e3
  obtain rfl := a4.unique e4
  obtain rfl := a5.unique e5
  have h4 : a.timestep = q.timestep := Option.some.inj (b4.symm.trans f4)
  have h5 : T = T' := Option.some.inj (b5.symm.trans f5)
  have hi := (ha.integrator _).2 hq.integrator
  have hp := (ha.interpolator _).2 hq.interpolator
  have hf := (ha.outputFormat _).2 hq.format
  have hn : a.processes = q.processes := by
    rcases ha.processes with ⟨v, h1, h2⟩ | ⟨h1, h2⟩
    · rcases hq.processes with ⟨v', h1', h2'⟩ | ⟨h1', -⟩
      · obtain rfl := h1.unique h1'
        exact ValueOf.unique (K := ℕ) cd (fun _ => none) hl (o := .numProcesses) (s := v) h2 h2'
      · exact absurd h1.mem (h1' v)
    · rcases hq.processes with ⟨v', h1', h2'⟩ | ⟨-, h2'⟩
      · exact absurd h1'.mem (h1 v')
      · rw [h2, h2']
  have hfg : a.flowGridShape = q.flowGrid := ShapeIn.unique cd hl ha.flowGridShape hq.flowGrid
  have hpg : a.particlesGridShape = q.particlesGrid :=
    ShapeIn.unique cd hl ha.particlesGridShape hq.particlesGrid
  obtain ⟨x1, x2, x3, x4, x5, ⟨o1, o2, o3⟩, x7, x8, x9⟩ := a
  simp only [Experiment.args, ProgramArgs.mk.injEq, CliOptions.mk.injEq] at *
  refine ⟨b1.trans f1, b2.trans f2, b3.trans f3, h4, ?_, ⟨hi, hp, hf⟩, hn, hfg, hpg⟩
  rw [c5, h5, h4, g5]

theorem Asks.dropConfig {l : List (Opt × Str)} {q : Experiment K}
    (hq : Asks cd float texts per l q) : Asks cd float texts per (dropConfig l) q := by
  have h : ∀ {o : Opt} {v : Str}, o ≠ .config → LastValue l o v →
      LastValue (Verif.dropConfig l) o v := fun ho h => (lastValue_dropConfig l ho _).2 h
  have hn : ∀ {o : Opt}, (∀ v, (o, v) ∉ l) → ∀ v, (o, v) ∉ Verif.dropConfig l :=
    fun h v hv => h v (List.mem_filter.1 hv).1
  have hs : ∀ {o : Opt} {g : Option (List ℕ)}, o ≠ .config → ShapeIn cd l o g →
      ShapeIn cd (Verif.dropConfig l) o g := by
    rintro o g ho (⟨v, t, h1, h2⟩ | ⟨h1, h2⟩)
    · exact .inl ⟨v, t, h ho h1, h2⟩
    · exact .inr ⟨hn h1, h2⟩
  obtain ⟨v1, a1⟩ := hq.velocity
  obtain ⟨v2, a2⟩ := hq.coordinate
  obtain ⟨v3, a3⟩ := hq.particle
  obtain ⟨v4, a4⟩ := hq.timestep
  obtain ⟨v5, T, a5⟩ := hq.snapshots
  refine ⟨fun e he => hq.valid e (List.mem_filter.1 he).1, h (by simp) hq.name,
    ⟨v1, h (by simp) a1.1, a1.2⟩, ⟨v2, h (by simp) a2.1, a2.2⟩, ⟨v3, h (by simp) a3.1, a3.2⟩,
    ⟨v4, h (by simp) a4.1, a4.2⟩, ⟨v5, T, h (by simp) a5.1, a5.2⟩, h (by simp) hq.integrator,
    h (by simp) hq.interpolator, h (by simp) hq.format, ?_, hs (by simp) hq.flowGrid,
    hs (by simp) hq.particlesGrid⟩
  rcases hq.processes with ⟨v, h1, h2⟩ | ⟨h1, h2⟩
  · exact .inl ⟨v, h (by simp) h1, h2⟩
  · exact .inr ⟨hn h1, h2⟩

theorem Asks.accepted {l : List (Opt × Str)} {q : Experiment K}
    (hq : Asks cd float texts per l q) :
    CliOptions.Accepted ⟨some q.integrator, some q.interpolator, some q.format⟩ := by
  have key : ∀ {s : String} {c : String}, s.toList = c.toList → s = c :=
    fun h => String.toList_injective h
  obtain ⟨x, -, hi⟩ := hq.valid _ hq.integrator.mem
  obtain ⟨y, -, hp⟩ := hq.valid _ hq.interpolator.mem
  obtain ⟨z, -, hf⟩ := hq.valid _ hq.format.mem
  refine ⟨fun s hs => ?_, fun s hs => ?_, fun s hs => ?_⟩
  · obtain rfl := Option.some.inj hs
    rcases hi with h | h | h <;> rw [key h] <;> simp [integratorChoices]
  · obtain rfl := Option.some.inj hs
    rcases hp with h | h | h | h <;> rw [key h] <;> simp [interpolatorChoices]
  · obtain rfl := Option.some.inj hs
    rcases hf with h | h <;> rw [key h] <;> simp [formatChoices]

theorem Experiment.wellFormed {q : Experiment K} (hs : q.Sensible)
    (hacc : CliOptions.Accepted ⟨some q.integrator, some q.interpolator, some q.format⟩) :
    q.args.WellFormed q.velocity q.coordinate q.particle q.snapshots q.integrator q.interpolator
      q.format where
  velocity := rfl
  coordinate := rfl
  particle := rfl
  plain := hs.plain
  coordinate_ne := hs.coordinate_ne
  particle_ne := hs.particle_ne
  period := rfl
  one_le := hs.one_le
  enough := hs.enough
  options := rfl
  accepted := hacc
  shape := fun h => hs.shape h.2 h.1
  processes := hs.processes

end

/-! ## The call -/

section
variable {K F α : Type} [Zero K] [One K] [Add K] [Sub K] [Mul K] [Div K] [NatCast K] [IntCast K]
  [Min K] [Max K] [NumLits K] [DecidableEq K] [LT K] [DecidableLT K] [Inhabited F]
  (cd : CharData) (float : Str → Option K) (json : Str → List Str) (texts : Str → Option Str)
  (per : K → K → Py ℤ) (lower : String → String)

/-- The parser and the factories on a command line that asks for an experiment. -/
theorem startCommand_asks (hl : cd.Lawful) {argv : List Str} {l m : List (Opt × Str)}
    (hs : Says cd argv l) (hm : FromFile (fun p => (texts p).bind (configItems cd json)) argv l m)
    {q : Experiment K} (hq : Asks cd float texts per (m ++ l) q) (d : Disk α) :
    startCommand (F := F) cd float json texts per lower d argv =
      match Program.create (F := F) lower q.args with
      | .error e => (d, [], .error (.raised e))
      | .ok P =>
        match cliWriter (some q.format) with
        | .error e => (d, [], .error (.raised e))
        | .ok w => ((d.openFolder (experimentFolder q.name)).1,
            (d.openFolder (experimentFolder q.name)).2,
            .ok ⟨P, Writer.fresh w q.particlesGrid, experimentFolder q.name⟩) := by
  have hq' := hq.dropConfig
  obtain ⟨v1, a1, -⟩ := hq'.velocity
  obtain ⟨v2, a2, -⟩ := hq'.coordinate
  obtain ⟨v3, a3, -⟩ := hq'.particle
  obtain ⟨v4, a4, -⟩ := hq'.timestep
  obtain ⟨v5, T, a5, -⟩ := hq'.snapshots
  obtain ⟨ns, hd⟩ := denotes_exists cd float (dropConfig (m ++ l)) hq'.valid (by
    rintro o (rfl | rfl | rfl | rfl | rfl | rfl)
    · exact ⟨_, hq'.name.mem⟩
    · exact ⟨_, a1.mem⟩
    · exact ⟨_, a2.mem⟩
    · exact ⟨_, a3.mem⟩
    · exact ⟨_, a4.mem⟩
    · exact ⟨_, a5.mem⟩)
  have hp := (C100_accepted_iff cd float json texts hl argv ns).2 ⟨l, m, hs, hm, hd⟩
  obtain ⟨-, -, -, hu⟩ := hd.usable cd float
  obtain ⟨a, ha, ha'⟩ := hu texts per
  obtain rfl := hq'.args cd float texts per hl ha'
  have hname : ns .experimentName = some q.name := by
    obtain ⟨l₁, l₂, h1, h2⟩ := hq'.name
    obtain ⟨x, hx, rfl⟩ := hd.given l₁ _ _ l₂ h1 h2
    exact hx
  unfold startCommand
  simp only [hp, ha, hname]
  rfl

theorem writeMat_name (g : Option (List ℕ)) (n : ℕ) (name : String) (f : NDArray F)
    (c : NDArray K) {s : Saved K F} (h : writeMat g n name f c = .ok s) :
    s.name = name ++ ".mat" := by
  unfold writeMat at h
  split at h
  · repeat (split at h <;> [cases h; skip])
    cases h
    rfl
  · repeat (split at h <;> [cases h; skip])
    cases h
    rfl
  · simp only at h
    repeat (split at h <;> [cases h; skip])
    cases h
    rfl

theorem writeVtk_name (g : Option (List ℕ)) (n : ℕ) (name : String) (f : NDArray F)
    (c : NDArray K) {s : Saved K F} (h : writeVtk g n name f c = .ok s) :
    s.name = name ++ if g = none then ".vtp" else ".vts" := by
  unfold writeVtk at h
  split at h
  · simp only at h
    repeat (split at h <;> [cases h; skip])
    cases h
    rfl
  · simp only at h
    repeat (split at h <;> [cases h; skip])
    cases h
    rfl
  · cases h
  · simp only at h
    split at h
    · cases h
    · split at h
      · split at h
        · cases h
        · cases h
          rfl
      · cases h

/-- The extension a writer adds. -/
def WriterKind.extension (g : Option (List ℕ)) : WriterKind → String
  | .mat => ".mat"
  | .vtk => if g = none then ".vtp" else ".vts"

theorem write_name (k : WriterKind) (g : Option (List ℕ)) (name : String) (f : NDArray F)
    (c : NDArray K) {s : Saved K F} (h : ((Writer.fresh k g).write name f c).2 = .ok s) :
    s.name = name ++ k.extension g := by
  unfold Writer.write Writer.fresh at h
  simp only at h
  split at h
  · cases h
  · cases k with
    | mat => exact writeMat_name g _ name f c h
    | vtk => exact writeVtk_name g _ name f c h

/-- The names of the files of an experiment. -/
def Experiment.fileNames (q : Experiment K) (stem : String → String) : List (List Char) :=
  ((inRunOrder q.timestep q.velocity).take q.fields).map fun v =>
    ("ftle_" ++ stem v ++ q.extension).toList

theorem cliWriter_accepted {f : String} (h : f = "mat" ∨ f = "vtk") :
    cliWriter (some f) = .ok (if f = "mat" then .mat else .vtk) := by
  rcases h with rfl | rfl <;> rfl

theorem experimentFolder_relative {name : Str} (h : name.head? ≠ some '/') :
    experimentFolder name = "outputs/".toList ++ name := by
  have : isAbs name = false := by simpa [isAbs] using h
  unfold experimentFolder pathJoin
  rw [if_neg (by simp [this]), if_neg (by decide)]
  rfl

/-- What a call that asks for a sensible experiment starts. -/
theorem startCommand_sensible (hl : cd.Lawful)
    (hlow : ∀ s ∈ ["rk4", "euler", "ab2", "cubic", "linear", "nearest", "grid"], lower s = s)
    {argv : List Str} {l m : List (Opt × Str)} (hs : Says cd argv l)
    (hm : FromFile (fun p => (texts p).bind (configItems cd json)) argv l m) {q : Experiment K}
    (hq : Asks cd float texts per (m ++ l) q) (hsens : q.Sensible)
    (hname : q.name.head? ≠ some '/') (d : Disk α) :
    ∃ P : Program K F, Program.create lower q.args = .ok P ∧
      startCommand cd float json texts per lower d argv =
        ((d.openFolder ("outputs/".toList ++ q.name)).1,
          (d.openFolder ("outputs/".toList ++ q.name)).2,
          .ok ⟨P, Writer.fresh (if q.format = "mat" then .mat else .vtk) q.particlesGrid,
            "outputs/".toList ++ q.name⟩) := by
  have hacc := hq.accepted
  have hwf := q.wellFormed hsens hacc
  obtain ⟨I, k, w, -, -, -, -, -, -, hc⟩ := program_created (F := F) lower hlow hwf
  refine ⟨_, hc, ?_⟩
  rw [startCommand_asks cd float json texts per lower hl hs hm hq d, hc]
  have hf : q.format = "mat" ∨ q.format = "vtk" := by
    have := hacc.2.2 q.format rfl
    simpa [formatChoices] using this
  simp only [cliWriter_accepted hf, experimentFolder_relative hname]

/-! ## C105 -/

/-- **C105** (start).  A command line that, with its configuration file and the lists, asks for a
sensible experiment gets as far as the process pool, with one task per field. -/
theorem C105_starts (hl : cd.Lawful)
    (hlow : ∀ s ∈ ["rk4", "euler", "ab2", "cubic", "linear", "nearest", "grid"], lower s = s)
    {argv : List Str} {l m : List (Opt × Str)} (hs : Says cd argv l)
    (hm : FromFile (fun p => (texts p).bind (configItems cd json)) argv l m) {q : Experiment K}
    (hq : Asks cd float texts per (m ++ l) q) (hsens : q.Sensible)
    (hname : q.name.head? ≠ some '/') (d : Disk α) (env : Env K F) (mem : ℕ → List ℕ → K) :
    ∃ (st : Started K F)
      (H : Host (Shared K) (List ℕ → K) (Option (List F) × List (Event K F))) (s₀ : _),
      (startCommand cd float json texts per lower d argv).2.2 = .ok st ∧
      st.program.host env = .ok H ∧ H.n = q.fields ∧ H.init mem = .ok s₀ := by
  obtain ⟨P, hP, hst⟩ := startCommand_sensible (F := F) cd float json texts per lower hl hlow hs hm
    hq hsens hname d
  obtain ⟨P', H, s₀, h1, h2, h3, h4⟩ := C77_starts (F := F) lower hlow env q.args _ _ _ _ _ _ _
    (q.wellFormed hsens hq.accepted) mem
  rw [hP] at h1
  cases h1
  exact ⟨_, H, s₀, by rw [hst], h2, h3, h4⟩

/-- **C105** (what counts is what is said).  Two calls that ask for the same experiment -- on the
command line or in a configuration file, in any order, abbreviated or not, with lists of different
names -- start the same run and make the same folder. -/
theorem C105_meaning (hl : cd.Lawful) {argv argv' : List Str} {l m l' m' : List (Opt × Str)}
    (hs : Says cd argv l) (hm : FromFile (fun p => (texts p).bind (configItems cd json)) argv l m)
    (hs' : Says cd argv' l')
    (hm' : FromFile (fun p => (texts p).bind (configItems cd json)) argv' l' m')
    {q : Experiment K} (hq : Asks cd float texts per (m ++ l) q)
    (hq' : Asks cd float texts per (m' ++ l') q) (d : Disk α) :
    startCommand (F := F) cd float json texts per lower d argv =
      startCommand cd float json texts per lower d argv' := by
  rw [startCommand_asks cd float json texts per lower hl hs hm hq d,
    startCommand_asks cd float json texts per lower hl hs' hm' hq' d]

/-- **C105** (refused).  A call that does not get as far as the process pool leaves the disk as it
was. -/
theorem C105_refused (d : Disk α) (argv : List Str) {e : Stop}
    (h : (startCommand (F := F) cd float json texts per lower d argv).2.2 = .error e) :
    (startCommand (F := F) cd float json texts per lower d argv).1 = d := by
  unfold startCommand at h ⊢
  split
  · rfl
  · split
    · split
      · rfl
      · split
        · rfl
        · simp_all
    · rfl

/-- **C105** (result).  When the executor returns, whatever the interleaving of the processes, every
field of the experiment is in the folder `outputs/NAME`, in a file named after the first snapshot
of its window, as the field that a fresh solver computes from that window alone; no error has been
reported, and the rest of the disk is as before except for the directories on the way. -/
theorem C105_saved (hl : cd.Lawful)
    (hlow : ∀ s ∈ ["rk4", "euler", "ab2", "cubic", "linear", "nearest", "grid"], lower s = s)
    {argv : List Str} {l m : List (Opt × Str)} (hs : Says cd argv l)
    (hm : FromFile (fun p => (texts p).bind (configItems cd json)) argv l m) {q : Experiment K}
    (hq : Asks cd float texts per (m ++ l) q) (hsens : q.Sensible)
    (hname : q.name.head? ≠ some '/') (d : Disk α) (env : Env K F)
    (hstem : ∀ v ∈ (inRunOrder q.timestep q.velocity).take q.fields, '/' ∉ (env.stem v).toList)
    (hn : (((inRunOrder q.timestep q.velocity).take q.fields).map env.stem).Nodup)
    (htakes : d.Takes ("outputs/".toList ++ q.name) (q.fileNames env.stem))
    {st : Started K F} (hst : (startCommand cd float json texts per lower d argv).2.2 = .ok st)
    {H : Host (Shared K) (List ℕ → K) (Option (List F) × List (Event K F))}
    (hH : st.program.host env = .ok H) (mem : ℕ → List ℕ → K)
    {s₀ s : HostState (Shared K) (Option (List F) × List (Event K F))}
    {as : List (Action (Option (List F) × List (Event K F)))}
    {rs : List (Option (Option (List F) × List (Event K F)))}
    (h₀ : H.init mem = .ok s₀) (h : HostState.Exec H mem s₀ as s)
    (hr : s.pool.phase = .returned rs)
    (order : List ℕ) (ho : order.Perm (List.range q.fields)) (file : Saved K F → α) :
    let r := startCommand (F := F) cd float json texts per lower d argv
    let final := r.1.writeFiles st.folder (st.files file rs order)
    let folder := d.target ("outputs/".toList ++ q.name)
    r.2.1 = [] ∧ final.2 = none ∧
    ∃ (I : AnyInterp K) (k : Kind) (w : WriterKind),
      setup lower ⟨some q.integrator, some q.interpolator, some q.format⟩ q.flowGrid =
        .ok (I, k, w) ∧
      (∀ i < q.fields, ∃ t ps first field saved,
        IsWindow env.stem (inRunOrder q.timestep q.velocity) (inRunOrder q.timestep q.coordinate)
          (inRunOrder q.timestep q.particle) q.timestep q.snapshots i t ∧
        readSeedParticles env.fs t.particleFile = .ok ps ∧
        (inRunOrder q.timestep q.velocity)[i]? = some first ∧
        (aloneRun { env with junk := mem i } none (.file t) I k).result = .ok (some field) ∧
        ((Writer.fresh w q.particlesGrid).write ("ftle_" ++ env.stem first) (arrayOfList field)
          ps.initialCentroid).2 = .ok saved ∧
        final.1.node (folder ++ [("ftle_" ++ env.stem first ++ q.extension).toList]) =
          some (.file (file saved))) ∧
      ∀ x, (∀ n ∈ q.fileNames env.stem, x ≠ folder ++ [n]) →
        final.1.node x = d.node x ∨ d.node x = none ∧
          x ∈ d.way ("outputs/".toList ++ q.name) ∧ final.1.node x = some .dir := by
  intro r final folder
  have hacc := hq.accepted
  have hwf := q.wellFormed hsens hacc
  obtain ⟨P, hP, hst'⟩ := startCommand_sensible (F := F) cd float json texts per lower hl hlow hs hm
    hq hsens hname d
  rw [hst'] at hst
  cases hst
  obtain ⟨I, k, w, hsetup, hlen, hall⟩ := C77_output lower hlow env q.args _ _ _ _ _ _ _ hwf P hP H
    hH mem h₀ h hr
  have hw : w = if q.format = "mat" then .mat else .vtk := by
    have hf : q.format = "mat" ∨ q.format = "vtk" := by
      have := hacc.2.2 q.format rfl
      simpa [formatChoices] using this
    unfold setup at hsetup
    split at hsetup
    · cases hsetup
    · split at hsetup
      · cases hsetup
      · have hc : q.args.options.outputFormat = some q.format := rfl
        rw [hc, cliWriter_accepted hf] at hsetup
        simp only [Except.ok.injEq, Prod.mk.injEq] at hsetup
        exact hsetup.2.2.symm
  have hlenV : (inRunOrder q.timestep q.velocity).length = q.velocity.length := by
    unfold inRunOrder
    split <;> simp
  have hp := hsens.enough
  have hp1 := hsens.one_le
  have hfields : q.fields ≤ q.velocity.length := by
    unfold Experiment.fields
    omega
  set V := inRunOrder q.timestep q.velocity with hV
  have hVi : ∀ i < q.fields, ∃ hi : i < V.length, V[i]? = some V[i] := by
    intro i hi
    have : i < V.length := by omega
    exact ⟨this, List.getElem?_eq_getElem this⟩
  -- what each task saves
  have hall' : ∀ i, ∃ sv : Saved K F, i < q.fields → ∃ t ps first field,
      IsWindow env.stem V (inRunOrder q.timestep q.coordinate)
        (inRunOrder q.timestep q.particle) q.timestep q.snapshots i t ∧
      readSeedParticles env.fs t.particleFile = .ok ps ∧ V[i]? = some first ∧
      (aloneRun { env with junk := mem i } none (.file t) I k).result = .ok (some field) ∧
      ((Writer.fresh w q.particlesGrid).write ("ftle_" ++ env.stem first) (arrayOfList field)
        ps.initialCentroid).2 = .ok sv ∧
      sv.name = "ftle_" ++ env.stem first ++ q.extension ∧
      (savedBy ((rs[i]?).getD none)).flatMap
        ((Writer.fresh w q.particlesGrid).savedFile file) = [(sv.name.toList, file sv)] := by
    intro i
    by_cases hi : i < q.fields
    · obtain ⟨t, ps, first, field, events, sv, g1, g2, g3, g4, g5, g6, g7⟩ := hall i hi
      refine ⟨sv, fun _ => ⟨t, ps, first, field, g1, g2, g3, g4, g7, ?_, ?_⟩⟩
      · rw [write_name _ _ _ _ _ g7, hw, Experiment.extension]
        by_cases hf : q.format = "mat"
        · rw [if_pos hf, if_pos hf]
          rfl
        · rw [if_neg hf, if_neg hf]
          rfl
      · have := savedBy_none_of_names g5 none
        rw [g6, Option.getD_some]
        simp only [savedBy] at this ⊢
        rw [List.filterMap_append, this]
        have g7' : ((Writer.fresh w q.particlesGrid).write ("ftle_" ++ env.stem first)
          (arrayOfList field) ps.initialCentroid).2 = .ok sv := g7
        simp [Writer.savedFile, g7']
    · exact ⟨.vtp "" ⟨[], fun _ => 0⟩ .points ⟨[], fun _ => default⟩, fun h => absurd h hi⟩
  choose sv hsv using hall'
  have hmem : ∀ i ∈ order, i < q.fields := fun i hi => List.mem_range.1 (ho.mem_iff.1 hi)
  have hfiles : Started.files (⟨P, Writer.fresh (if q.format = "mat" then .mat else .vtk)
      q.particlesGrid, "outputs/".toList ++ q.name⟩ : Started K F) file rs order =
      order.map fun i => ((sv i).name.toList, file (sv i)) := by
    unfold Started.files
    refine flatMap_single fun i hi => ?_
    obtain ⟨t, ps, first, field, -, -, -, -, -, -, g⟩ := hsv i (hmem i hi)
    rw [← hw]
    exact g
  have hnm : ∀ i < q.fields, (sv i).name.toList ∈ q.fileNames env.stem := by
    intro i hi
    obtain ⟨t, ps, first, field, -, -, g3, -, -, g6, -⟩ := hsv i hi
    rw [g6]
    refine List.mem_map.2 ⟨first, ?_, rfl⟩
    refine List.mem_iff_getElem?.2 ⟨i, ?_⟩
    rw [List.getElem?_take_of_lt hi]
    exact g3
  have hfn : ∀ n ∈ q.fileNames env.stem, FileName n := by
    intro n hn'
    obtain ⟨v, hv, rfl⟩ := List.mem_map.1 hn'
    have he : ("ftle_" ++ env.stem v ++ q.extension).toList = 'f' :: 't' :: 'l' :: 'e' :: '_' ::
        ((env.stem v).toList ++ q.extension.toList) := by
      simp [String.toList_append]
    have hext : '/' ∉ q.extension.toList := by
      unfold Experiment.extension
      split_ifs <;> decide
    rw [he]
    exact ⟨by simp, by simp [hext, hstem v hv], by simp, by simp⟩
  have h0 : "outputs/".toList ++ q.name ≠ [] := by simp
  obtain ⟨c1, c2, c3, c4⟩ := C99_saved_partial htakes.tree h0 htakes.straight htakes.available
    htakes.unlocked (order.map fun i => ((sv i).name.toList, file (sv i))) (by
      intro f hf
      obtain ⟨i, hi, rfl⟩ := List.mem_map.1 hf
      have := hnm i (hmem i hi)
      obtain ⟨t1, t2, t3⟩ := htakes.free _ this
      exact ⟨hfn _ this, t1, t2, t3⟩)
  have hr1 : r.1 = (d.openFolder ("outputs/".toList ++ q.name)).1 := by rw [show r = _ from hst']
  have hr2 : r.2.1 = (d.openFolder ("outputs/".toList ++ q.name)).2 := by rw [show r = _ from hst']
  have hfinal : final = (d.openFolder ("outputs/".toList ++ q.name)).1.writeFiles
      ("outputs/".toList ++ q.name) (order.map fun i => ((sv i).name.toList, file (sv i))) := by
    show r.1.writeFiles _ _ = _
    rw [hr1, hfiles]
  rw [hr2, hfinal]
  refine ⟨c1, c2, I, k, w, hsetup, fun i hi => ?_, fun x hx => c4 x fun f hf => ?_⟩
  · obtain ⟨t, ps, first, field, g1, g2, g3, g4, g5, g6, -⟩ := hsv i hi
    refine ⟨t, ps, first, field, sv i, g1, g2, g3, g4, g5, ?_⟩
    rw [← g6]
    refine (c3 _ _).2 (.inl ?_)
    have hinj : ∀ j ∈ order, (sv j).name = (sv i).name → j = i := by
      intro j hj hij
      obtain ⟨-, -, first', -, -, -, g3', -, -, g6', -⟩ := hsv j (hmem j hj)
      rw [g6, g6'] at hij
      have hstems : env.stem first' = env.stem first := by
        have := congrArg String.toList hij
        simp only [String.toList_append, List.append_assoc] at this
        exact String.toList_injective (List.append_cancel_right (List.append_cancel_left this))
      have hj' := hmem j hj
      have e1 : ((V.take q.fields).map env.stem)[j]? = some (env.stem first') := by
        rw [List.getElem?_map, List.getElem?_take_of_lt hj', g3']
        rfl
      have e2 : ((V.take q.fields).map env.stem)[i]? = some (env.stem first) := by
        rw [List.getElem?_map, List.getElem?_take_of_lt hi, g3]
        rfl
      obtain ⟨hj'', e1⟩ := List.getElem?_eq_some_iff.1 e1
      obtain ⟨hi'', e2⟩ := List.getElem?_eq_some_iff.1 e2
      have := List.nodup_iff_injective_getElem.1 hn (a₁ := ⟨j, hj''⟩) (a₂ := ⟨i, hi''⟩)
        (by simp only [e1, e2, hstems])
      simpa using this
    unfold lastSaved
    have hfind : ((order.map fun i => ((sv i).name.toList, file (sv i))).reverse.find?
        fun f => f.1 = (sv i).name.toList) = some ((sv i).name.toList, file (sv i)) := by
      rw [← List.map_reverse, List.find?_map]
      have hex : (order.reverse.find? ((fun f : List Char × α => decide (f.1 =
          (sv i).name.toList)) ∘ fun i => ((sv i).name.toList, file (sv i)))) = some i := by
        cases hfd : (order.reverse.find? ((fun f : List Char × α => decide (f.1 =
          (sv i).name.toList)) ∘ fun i => ((sv i).name.toList, file (sv i)))) with
        | none =>
          rw [List.find?_eq_none] at hfd
          exact absurd (hfd i (List.mem_reverse.2 (ho.mem_iff.2 (List.mem_range.2 hi))))
            (by simp)
        | some j =>
          have hj := List.mem_of_find?_eq_some hfd
          have hj2 := List.find?_some hfd
          simp only [Function.comp_apply, decide_eq_true_eq] at hj2
          rw [hinj j (List.mem_reverse.1 hj) (String.toList_injective hj2)]
      rw [hex]
      rfl
    rw [hfind]
    rfl
  · obtain ⟨i, hi, rfl⟩ := List.mem_map.1 hf
    exact hx _ (hnm i (hmem i hi))

/-- **C105** (completion).  If the window of every field can be computed and saved by a fresh solver,
every execution in which no worker dies can be continued until the executor returns; the exit status
is then 0. -/
theorem C105_completes (hl : cd.Lawful)
    (hlow : ∀ s ∈ ["rk4", "euler", "ab2", "cubic", "linear", "nearest", "grid"], lower s = s)
    {argv : List Str} {l m : List (Opt × Str)} (hs : Says cd argv l)
    (hm : FromFile (fun p => (texts p).bind (configItems cd json)) argv l m) {q : Experiment K}
    (hq : Asks cd float texts per (m ++ l) q) (hsens : q.Sensible)
    (hname : q.name.head? ≠ some '/') (d : Disk α) (env : Env K F)
    {st : Started K F} (hst : (startCommand cd float json texts per lower d argv).2.2 = .ok st)
    {H : Host (Shared K) (List ℕ → K) (Option (List F) × List (Event K F))}
    (hH : st.program.host env = .ok H) (mem : ℕ → List ℕ → K)
    (hok : ∀ I k w,
      setup lower ⟨some q.integrator, some q.interpolator, some q.format⟩ q.flowGrid =
        .ok (I, k, w) →
      ∀ i < q.fields, ∀ t, IsWindow env.stem (inRunOrder q.timestep q.velocity)
        (inRunOrder q.timestep q.coordinate) (inRunOrder q.timestep q.particle) q.timestep
        q.snapshots i t →
        ∃ r, (aloneRun { env with junk := mem i }
          (some (Writer.fresh w q.particlesGrid).asWriteFn) (.file t) I k).result = .ok r)
    {s₀ s : HostState (Shared K) (Option (List F) × List (Event K F))}
    {as : List (Action (Option (List F) × List (Event K F)))}
    (h₀ : H.init mem = .ok s₀) (h : HostState.Exec H mem s₀ as s) (hc : .crash ∉ as)
    (start stop : ℤ) :
    ∃ bs s' rs, HostState.Exec H mem s₀ (as ++ bs) s' ∧ s'.pool.phase = .returned rs ∧
      exitStatus (mainProgram start stop (.ok rs : Py _)).1 = 0 := by
  obtain ⟨P, hP, hst'⟩ := startCommand_sensible (F := F) cd float json texts per lower hl hlow hs hm
    hq hsens hname d
  rw [hst'] at hst
  cases hst
  obtain ⟨bs, s', rs, h1, h2⟩ := C77_completes lower hlow env q.args _ _ _ _ _ _ _
    (q.wellFormed hsens hq.accepted) P hP H hH mem hok h₀ h hc
  exact ⟨bs, s', rs, h1, h2, rfl⟩

end

/-! ## A concrete call -/

/-- The text files of the example: `f` is the configuration file, `V`, `C`, `P` are the lists. -/
def callTexts (p : Str) : Option Str :=
  if p = ['f'] then some (cfgText ["experiment_name: run", "list_velocity_files: V",
    "list_coordinate_files = C", "list_particle_files P", "snapshot_timestep: 1",
    "flow_map_period: 1", "integrator: euler", "interpolator: linear", "output_format: \"mat\"",
    "num_processes: 2"])
  else if p = ['V'] then some "v\nw\nv\n".toList
  else if p = ['C'] then some "c\n".toList
  else if p = ['P'] then some "p\n".toList
  else none

/-- A stand-in for `float`. -/
def callFloat (s : Str) : Option ℚ := if s = ['1'] then some 1 else none

/-- The call `pyftle -c f --integ=rk4`. -/
def callArgv : List Str := ["-c".toList, ['f'], "--integ=rk4".toList]

/-- What it asks for. -/
def callExperiment : Experiment ℚ where
  name := "run".toList
  velocity := [['v'], ['w'], ['v']]
  coordinate := [['c']]
  particle := [['p']]
  timestep := 1
  snapshots := 2
  integrator := "rk4"
  interpolator := "linear"
  format := "mat"
  processes := 2
  flowGrid := none
  particlesGrid := none

/-- The options in the file. -/
def callFile : List (Opt × Str) :=
  [(.experimentName, "run".toList), (.listVelocityFiles, ['V']), (.listCoordinateFiles, ['C']),
    (.listParticleFiles, ['P']), (.snapshotTimestep, ['1']), (.flowMapPeriod, ['1']),
    (.integrator, "euler".toList), (.interpolator, "linear".toList), (.outputFormat, "mat".toList),
    (.numProcesses, ['2'])]

theorem callSays : Says asciiData callArgv [(.config, ['f']), (.integrator, "rk4".toList)] := by
  have hn : Names "--integ".toList .integrator :=
    ⟨by decide, fun o => by
      have : ∀ o ∈ Opt.all, "--integ".toList.isPrefixOf o.name = true ↔ o = .integrator := by
        decide +kernel
      rw [← List.isPrefixOf_iff_prefix]
      exact this o (by cases o <;> decide)⟩
  exact .pair (.inr ⟨rfl, rfl⟩) (by simp) (.inl (by decide))
    (.glued (n := "--integ".toList) (v := "rk4".toList) (.inl hn) (by simp) .nil)

theorem callFromFile : FromFile (fun p => (callTexts p).bind (configItems asciiData cfgJson)) callArgv
    [(.config, ['f']), (.integrator, "rk4".toList)] callFile := by
  refine .inr ⟨['f'], callFile.map fun e => (e.1.name.drop 2, .text e.2), ⟨[], _, rfl, by simp⟩,
    by simp, by decide +kernel, ?_⟩
  have key : ∀ (e : Opt × Str), KeyFor (e.1.name.drop 2) e.1 := by
    rintro ⟨o, v⟩
    revert v
    have : ∀ o ∈ Opt.all, "--".toList ++ o.name.drop 2 = o.name := by decide
    exact fun v => .inr (this o (by cases o <;> decide))
  have ng : ∀ e ∈ callFile, ¬ Given callArgv e.1 := by
    intro e he
    rw [← discarded_known _ (key e)]
    have : ∀ e ∈ callFile, discarded callArgv (e.1.name.drop 2) = false := by decide +kernel
    rw [this e he]
    simp
  have nh : ∀ e ∈ callFile, e.1 ≠ .help := by decide
  generalize callFile = l at ng nh
  induction l with
  | nil => exact .nil
  | cons e l ih =>
    exact .option (key e) (nh e (by simp)) (ng e (by simp))
      (ih (fun x hx => ng x (by simp [hx])) fun x hx => nh x (by simp [hx]))

theorem callAsks : Asks asciiData callFloat callTexts snapshotsPerPeriod
    (callFile ++ [(.config, ['f']), (.integrator, "rk4".toList)]) callExperiment := by
  have last : ∀ (a b : List (Opt × Str)) (o : Opt) (v : Str), (∀ e ∈ b, e.1 ≠ o) →
      LastValue (a ++ (o, v) :: b) o v := fun a b o v h => ⟨a, b, rfl, fun w hw => h _ hw rfl⟩
  have two : IntLiteral asciiData ['2'] 2 :=
    (pyInt_iff asciiData asciiData_lawful _ _).1 (by decide +kernel)
  refine ⟨?_, last [] _ _ _ (by decide), ⟨['V'], last (callFile.take 1) _ _ _ (by decide), rfl⟩,
    ⟨['C'], last (callFile.take 2) _ _ _ (by decide), rfl⟩,
    ⟨['P'], last (callFile.take 3) _ _ _ (by decide), rfl⟩,
    ⟨['1'], last (callFile.take 4) _ _ _ (by decide), rfl⟩,
    ⟨['1'], 1, last (callFile.take 5) _ _ _ (by decide), rfl,
      ok_of_toOption (by decide +kernel)⟩,
    last (callFile ++ [(.config, ['f'])]) [] _ _ (by decide),
    last (callFile.take 7) _ _ _ (by decide), last (callFile.take 8) _ _ _ (by decide),
    .inl ⟨['2'], last (callFile.take 9) _ _ _ (by decide), two⟩, .inr ⟨?_, rfl⟩, .inr ⟨?_, rfl⟩⟩
  · intro e he
    simp only [callFile, List.cons_append, List.nil_append, List.mem_cons, List.not_mem_nil,
      or_false] at he
    rcases he with rfl | rfl | rfl | rfl | rfl | rfl | rfl | rfl | rfl | rfl | rfl | rfl
    · exact ⟨_, rfl⟩
    · exact ⟨_, rfl⟩
    · exact ⟨_, rfl⟩
    · exact ⟨_, rfl⟩
    · exact ⟨(1 : ℚ), rfl⟩
    · exact ⟨(1 : ℚ), rfl⟩
    · exact ⟨"euler".toList, rfl, .inr (.inl rfl)⟩
    · exact ⟨"linear".toList, rfl, .inr (.inl rfl)⟩
    · exact ⟨"mat".toList, rfl, .inl rfl⟩
    · exact ⟨(2 : ℤ), two⟩
    · exact ⟨_, rfl⟩
    · exact ⟨"rk4".toList, rfl, .inl rfl⟩
  · simp [callFile]
  · simp [callFile]

theorem callSensible : callExperiment.Sensible where
  plain := exArgs_wellFormed.plain
  coordinate_ne := by simp [callExperiment]
  particle_ne := by simp [callExperiment]
  one_le := by simp [callExperiment]
  enough := by simp [callExperiment]
  shape := by simp [callExperiment]
  processes := by simp [callExperiment]

/-- The disk of the example: the working directory `/w`, with nothing in it. -/
def callDisk : Disk (Saved ℚ ℚ) := diskOf [tmpName] [([], .dir), ([tmpName], .dir)] []

theorem callWay : callDisk.way ("outputs/".toList ++ callExperiment.name) =
    [[tmpName], [tmpName, "outputs".toList], [tmpName, "outputs".toList, "run".toList]] := by
  decide +kernel

theorem callTarget : callDisk.target ("outputs/".toList ++ callExperiment.name) =
    [tmpName, "outputs".toList, "run".toList] := by
  decide +kernel

theorem callNames : callExperiment.fileNames exProgEnv.stem =
    ["ftle_v.mat".toList, "ftle_w.mat".toList] := by
  decide +kernel

/-- The disk of the example takes the files. -/
theorem callTakes : callDisk.Takes ("outputs/".toList ++ callExperiment.name)
    (callExperiment.fileNames exProgEnv.stem) := by
  refine ⟨diskOf_tree rfl rfl ?_, .inl (by decide +kernel), ?_, rfl, ?_⟩
  · intro e he
    simp only [List.mem_cons, List.not_mem_nil, or_false] at he
    rcases he with rfl | rfl
    · exact .inl rfl
    · exact .inr rfl
  · rw [callWay]
    intro x hx
    simp only [List.mem_cons, List.not_mem_nil, or_false] at hx
    rcases hx with rfl | rfl | rfl
    · exact .inl rfl
    · exact .inr ⟨rfl, rfl⟩
    · exact .inr ⟨rfl, rfl⟩
  · rw [callWay, callTarget, callNames]
    intro n hn
    simp only [List.mem_cons, List.not_mem_nil, or_false] at hn
    rcases hn with rfl | rfl
    · refine ⟨?_, rfl, by decide⟩
      rw [show callDisk.node _ = none from rfl]
      simp
    · refine ⟨?_, rfl, by decide⟩
      rw [show callDisk.node _ = none from rfl]
      simp

/-- The call starts and runs to its end. -/
theorem callRuns : ∃ (st : Started ℚ ℚ)
    (H : Host (Shared ℚ) (List ℕ → ℚ) (Option (List ℚ) × List (Event ℚ ℚ)))
    (s₀ : HostState (Shared ℚ) (Option (List ℚ) × List (Event ℚ ℚ)))
    (as : List (Action (Option (List ℚ) × List (Event ℚ ℚ))))
    (s : HostState (Shared ℚ) (Option (List ℚ) × List (Event ℚ ℚ)))
    (rs : List (Option (Option (List ℚ) × List (Event ℚ ℚ)))),
    (startCommand asciiData callFloat cfgJson callTexts snapshotsPerPeriod id callDisk
      callArgv).2.2 = .ok st ∧ st.program.host exProgEnv = .ok H ∧
    H.init (fun _ _ => 7) = .ok s₀ ∧ HostState.Exec H (fun _ _ => 7) s₀ as s ∧
    s.pool.phase = .returned rs := by
  obtain ⟨st, H, s₀, h1, h2, -, h4⟩ := C105_starts (F := ℚ) asciiData callFloat cfgJson callTexts
    snapshotsPerPeriod id asciiData_lawful (by simp) callSays callFromFile callAsks callSensible
    (by decide) callDisk exProgEnv (fun _ _ => 7)
  obtain ⟨bs, s, rs, h5, h6, -⟩ := C105_completes (F := ℚ) asciiData callFloat cfgJson callTexts
    snapshotsPerPeriod id asciiData_lawful (by simp) callSays callFromFile callAsks callSensible
    (by decide) callDisk exProgEnv h1 h2 (fun _ _ => 7) (by
      intro I k w hs i hi t ht
      obtain ⟨rfl, rfl, rfl⟩ : I = .scatter (.fresh .linear) ∧ k = .rk4 ∧ w = .mat := by
        simp [setup, callExperiment, cliInterpolator, createInterpolator, cliIntegrator,
          createIntegrator, cliWriter, createWriter] at hs
        exact ⟨hs.1.symm, hs.2.1.symm, hs.2.2.symm⟩
      have key : ∀ i < 2, (aloneRun { exProgEnv with junk := fun _ => 7 }
          (some (Writer.fresh .mat none).asWriteFn) (.file (exWindow i))
          (.scatter (.fresh .linear)) .rk4).result.toBool = true := by decide +kernel
      have hi' : i < 2 := hi
      have hw : t = exWindow i := by
        refine ht.unique ?_
        interval_cases i
        · exact ⟨rfl, by decide, rfl, by decide, rfl, rfl, rfl, by decide⟩
        · exact ⟨rfl, by decide, rfl, by decide, rfl, rfl, rfl, by decide⟩
      subst hw
      have := key i hi'
      revert this
      show (aloneRun { exProgEnv with junk := fun _ => 7 }
          (some (Writer.fresh .mat none).asWriteFn) (.file (exWindow i))
          (.scatter (.fresh .linear)) .rk4).result.toBool = true → _
      cases hres : (aloneRun { exProgEnv with junk := fun _ => 7 }
          (some (Writer.fresh .mat none).asWriteFn) (.file (exWindow i))
          (.scatter (.fresh .linear)) .rk4).result with
      | error e => simp [Except.toBool]
      | ok r => exact fun _ => ⟨r, hres⟩) h4 .nil (by simp) 0 0
  exact ⟨st, H, s₀, _, s, rs, h1, h2, h4, h5, h6⟩

/-- The call starts, runs to its end, whatever is in memory, and leaves the two files on the disk. -/
example : ∃ (st : Started ℚ ℚ) (rs : _) (s₁ s₂ : Saved ℚ ℚ),
    (startCommand asciiData callFloat cfgJson callTexts snapshotsPerPeriod id callDisk
      callArgv).2.2 = .ok st ∧
    (((startCommand asciiData callFloat cfgJson callTexts snapshotsPerPeriod id callDisk
      callArgv : _ × _ × Except Stop (Started ℚ ℚ)).1.writeFiles st.folder
        (st.files id rs [1, 0])).1.node
      [tmpName, "outputs".toList, "run".toList, "ftle_v.mat".toList] = some (.file s₁)) ∧
    (((startCommand asciiData callFloat cfgJson callTexts snapshotsPerPeriod id callDisk
      callArgv : _ × _ × Except Stop (Started ℚ ℚ)).1.writeFiles st.folder
        (st.files id rs [1, 0])).1.node
      [tmpName, "outputs".toList, "run".toList, "ftle_w.mat".toList] = some (.file s₂)) := by
  obtain ⟨st, H, s₀, bs, s, rs, h1, h2, h4, h5, h6⟩ := callRuns
  obtain ⟨-, -, I, k, w, -, hall, -⟩ := C105_saved (F := ℚ) asciiData callFloat cfgJson callTexts
    snapshotsPerPeriod id asciiData_lawful (by simp) callSays callFromFile callAsks callSensible
    (by decide) callDisk exProgEnv (by decide +kernel) (by decide +kernel) callTakes h1 h2
    (fun _ _ => 7) h4 h5 h6 [1, 0] (by decide) id
  obtain ⟨-, -, f₀, -, s₁, -, -, e0, -, -, g0⟩ := hall 0 (by decide)
  obtain ⟨-, -, f₁, -, s₂, -, -, e1, -, -, g1⟩ := hall 1 (by decide)
  have e0 : some "v" = some f₀ := e0
  have e1 : some "w" = some f₁ := e1
  cases e0
  cases e1
  rw [callTarget] at g0 g1
  exact ⟨st, rs, s₁, s₂, h1, g0, g1⟩

end Verif
