import Verif.Model.Program
import Verif.Props.Isolation
import Verif.Props.Api
import Verif.Props.Main
import Verif.Props.FileUtils
import Verif.Props.Cli

/-!
# C77: a whole run of the command line program
-/

set_option linter.unusedSectionVars false

namespace Verif

/-! ## Specification -/

/-- The files in the order in which a run with time step `dt` goes through them. -/
def inRunOrder {K : Type} [Zero K] [LT K] [DecidableLT K] (dt : K) (files : List (List Char)) :
    List String :=
  (if dt < 0 then files.reverse else files).map String.ofList

/-- A directory after files have been saved one after the other. -/
def saveAll {α : Type} : List (String × α) → (String → Option α) → String → Option α
  | [], dir => dir
  | (name, content) :: rest, dir => saveAll rest fun n => if n = name then some content else dir n

/-- The list files were written from lists of ordinary paths, all three options with a choice are
given, and there are enough snapshots for one period. -/
structure ProgramArgs.WellFormed {K : Type} (a : ProgramArgs K) (V C P : List (List Char)) (p : ℕ)
    (integ interp fmt : String) : Prop where
  velocity : a.velocityList = some (writeList V)
  coordinate : a.coordinateList = some (writeList C)
  particle : a.particleList = some (writeList P)
  plain : ∀ f ∈ V ++ C ++ P, PlainPath f
  coordinate_ne : C ≠ []
  particle_ne : P ≠ []
  period : a.snapshots = .ok p
  one_le : 1 ≤ p
  enough : p ≤ V.length
  options : a.options = ⟨some integ, some interp, some fmt⟩
  accepted : CliOptions.Accepted ⟨some integ, some interp, some fmt⟩
  shape : ¬ (a.flowGridShape = none ∧ interp = "grid")
  processes : 1 ≤ a.processes

/-! ## From the options to the pool -/

theorem pathStrings_some (l : List (List Char)) :
    pathStrings (l.map some) = .ok (l.map String.ofList) := by
  unfold pathStrings
  induction l with
  | nil => rfl
  | cons a l ih =>
    rw [List.map_cons, pyMap, ih]
    rfl

theorem readPaths_plain {l : List (List Char)} (hne : l ≠ []) (h : ∀ p ∈ l, PlainPath p) :
    readPaths (some (writeList l)) = .ok (l.map String.ofList) := by
  unfold readPaths
  rw [C61_plain_partial l hne h]
  exact pathStrings_some l

section
variable {K F : Type} [Zero K] [One K] [Add K] [Sub K] [Mul K] [Div K] [NatCast K] [IntCast K]
  [Min K] [Max K] [NumLits K] [DecidableEq K] [LT K] [DecidableLT K] [Inhabited F]

/-- What the constructor builds. -/
theorem program_created (lower : String → String)
    (hlow : ∀ s ∈ ["rk4", "euler", "ab2", "cubic", "linear", "nearest", "grid"], lower s = s)
    {a : ProgramArgs K} {V C P : List (List Char)} {p : ℕ} {integ interp fmt : String}
    (ha : a.WellFormed V C P p integ interp fmt) :
    ∃ (I : AnyInterp K) (k : Kind) (w : WriterKind),
      setup lower a.options a.flowGridShape = .ok (I, k, w) ∧
      (k = .euler ↔ integ = "euler") ∧ (k = .rk4 ↔ integ = "rk4") ∧ (k = .ab2 ↔ integ = "ab2") ∧
      (w = .mat ↔ fmt = "mat") ∧ (w = .vtk ↔ fmt = "vtk") ∧
      Program.create (F := F) lower a = .ok
        { manager := ⟨inRunOrder a.timestep V, inRunOrder a.timestep C, inRunOrder a.timestep P,
            a.timestep⟩
          snapshots := .ok p
          interp := I
          integ := Integ.fresh k
          writer := (Writer.fresh w a.particlesGridShape).asWriteFn
          processes := a.processes } := by
  have hV : V ≠ [] := by
    rintro rfl
    have h1 := ha.one_le
    have h2 := ha.enough
    simp only [List.length_nil] at h2
    omega
  obtain ⟨I, k, w, hs, h1, h2, h3, h4, h5⟩ :=
    (C60_given_partial (K := K) lower hlow a.flowGridShape integ interp fmt ha.accepted).2 ha.shape
  rw [← ha.options] at hs
  refine ⟨I, k, w, hs, h1, h2, h3, h4, h5, ?_⟩
  unfold Program.create
  rw [ha.velocity, ha.coordinate, ha.particle,
    readPaths_plain hV fun q hq => ha.plain q (by simp [hq]),
    readPaths_plain ha.coordinate_ne fun q hq => ha.plain q (by simp [hq]),
    readPaths_plain ha.particle_ne fun q hq => ha.plain q (by simp [hq]), hs]
  simp only [Except.ok.injEq, Program.mk.injEq, ha.period, and_self, and_true]
  unfold Manager.handleTimeDirection inRunOrder
  split <;> simp [*]

/-- The tasks are the windows of the ordered lists. -/
theorem program_host (env : Env K F) {a : ProgramArgs K} {V C P : List (List Char)} {p : ℕ}
    {integ interp fmt : String} (ha : a.WellFormed V C P p integ interp fmt) (I : AnyInterp K)
    (k : Kind) (w : WriteFn K F) :
    ∃ tasks : List (FileSource K), tasks.length = V.length - p + 1 ∧
      (∀ i < V.length - p + 1, ∃ t, tasks[i]? = some t ∧
        IsWindow env.stem (inRunOrder a.timestep V) (inRunOrder a.timestep C)
          (inRunOrder a.timestep P) a.timestep p i t) ∧
      (Program.mk ⟨inRunOrder a.timestep V, inRunOrder a.timestep C, inRunOrder a.timestep P,
        a.timestep⟩ (.ok p) I (Integ.fresh k) w a.processes).host env =
        .ok (Shared.host env (some w) a.processes ⟨tasks.map .file, I, Integ.fresh k⟩) := by
  have hlen : ∀ l : List (List Char), (inRunOrder a.timestep l).length = l.length := by
    intro l
    unfold inRunOrder
    split <;> simp
  have hne : ∀ l : List (List Char), l ≠ [] → inRunOrder a.timestep l ≠ [] := by
    intro l hl h
    have h' := hlen l
    rw [h, List.length_nil] at h'
    exact hl (List.length_eq_zero_iff.1 h'.symm)
  obtain ⟨tasks, h1, h2, h3⟩ := C43_windows env.stem
    (⟨inRunOrder a.timestep V, inRunOrder a.timestep C, inRunOrder a.timestep P, a.timestep⟩ :
      Manager K) p ha.one_le (by rw [hlen]; exact ha.enough) (hne C ha.coordinate_ne)
    (hne P ha.particle_ne)
  simp only [hlen] at h2 h3
  exact ⟨tasks, h2, h3, by simp only [Program.host, h1]⟩

/-! ## C77 -/

/-- **C77** (start).  A call of the program with well-formed options gets as far as the process
pool, with `n - p + 1` tasks. -/
theorem C77_starts (lower : String → String)
    (hlow : ∀ s ∈ ["rk4", "euler", "ab2", "cubic", "linear", "nearest", "grid"], lower s = s)
    (env : Env K F) (a : ProgramArgs K) (V C P : List (List Char)) (p : ℕ)
    (integ interp fmt : String) (ha : a.WellFormed V C P p integ interp fmt)
    (mem : ℕ → List ℕ → K) :
    ∃ prog H s₀, Program.create (F := F) lower a = .ok prog ∧ prog.host env = .ok H ∧
      H.n = V.length - p + 1 ∧ H.init mem = .ok s₀ := by
  obtain ⟨I, k, w, -, -, -, -, -, -, hc⟩ := program_created (F := F) lower hlow ha
  obtain ⟨tasks, h1, -, h3⟩ := program_host env ha I k
    (Writer.fresh w a.particlesGridShape).asWriteFn
  have hp := ha.processes
  obtain ⟨s₀, hs₀⟩ : ∃ s₀, (Shared.host env
      (some (Writer.fresh w a.particlesGridShape).asWriteFn) a.processes
      ⟨tasks.map .file, I, Integ.fresh k⟩).init mem = .ok s₀ := by
    unfold Host.init Job.init Host.job Shared.host
    simp only [List.length_map, h1]
    rw [if_neg (by omega), if_neg (by omega)]
    exact ⟨_, rfl⟩
  exact ⟨_, _, s₀, hc, h3, by simp [Shared.host, h1], hs₀⟩

theorem pathStrings_missing : ∀ cells : List (Option (List Char)), none ∈ cells →
    pathStrings cells = .error .typeError
  | none :: _, _ => rfl
  | some s :: cells, h => by
    have := pathStrings_missing cells (by simpa using h)
    unfold pathStrings at this ⊢
    simp only [pyMap, this]

/-- **C77, missing entries (partial).** A list file with a missing entry (an empty field, `NaN`,
…) never turns into a file name: if pandas reads such an entry in one of the three list files,
and the other two are read without error, the program ends with `TypeError`.  Partial: the
`TypeError` is raised where the list is read, while the code hands the float `nan` on and raises
when the path is used. -/
theorem C77_missing_entry_partial (lower : String → String) (a : ProgramArgs K)
    {V C P : List (Option (List Char))} (hV : getFilesList a.velocityList = .ok V)
    (hC : getFilesList a.coordinateList = .ok C) (hP : getFilesList a.particleList = .ok P)
    (h : none ∈ V ∨ none ∈ C ∨ none ∈ P) :
    Program.create (F := F) lower a = .error .typeError := by
  have ok : ∀ cells : List (Option (List Char)), none ∉ cells → ∃ l, pathStrings cells = .ok l := by
    intro cells
    induction cells with
    | nil => exact fun _ => ⟨[], rfl⟩
    | cons c cells ih =>
      intro hc
      obtain ⟨l, hl⟩ := ih fun hm => hc (List.mem_cons_of_mem _ hm)
      cases c with
      | none => exact absurd (by simp) hc
      | some s =>
        refine ⟨String.ofList s :: l, ?_⟩
        unfold pathStrings at hl ⊢
        simp only [pyMap, hl]
  unfold Program.create
  simp only [readPaths, hV, hC, hP]
  by_cases hv : none ∈ V
  · rw [pathStrings_missing V hv]
  · obtain ⟨l, hl⟩ := ok V hv
    rw [hl]
    by_cases hc : none ∈ C
    · simp only [pathStrings_missing C hc]
    · obtain ⟨l', hl'⟩ := ok C hc
      have hp : none ∈ P := by tauto
      simp only [hl', pathStrings_missing P hp]

/-- The second snapshot of this list is missing. -/
example (a : ProgramArgs K) :
    Program.create (F := F) id { a with
      velocityList := some "v0.mat\nNaN\n".toList
      coordinateList := some "c.mat\n".toList
      particleList := some "p.mat\n".toList } = .error .typeError :=
  C77_missing_entry_partial id _ (V := [some "v0.mat".toList, none])
    (C := [some "c.mat".toList]) (P := [some "p.mat".toList])
    (by dsimp only; decide +kernel) (by dsimp only; decide +kernel)
    (by dsimp only; decide +kernel) (by simp)

/-- **C77** (result).  Whatever the interleaving: when the executor returns, there are
`n - p + 1` results, and task `i` has saved exactly one file.  It is named after the first
snapshot of window `i` of the lists in run order and holds the field that a fresh solver computes
for that window alone, with the centroids of the seed particles of that window. -/
theorem C77_output (lower : String → String)
    (hlow : ∀ s ∈ ["rk4", "euler", "ab2", "cubic", "linear", "nearest", "grid"], lower s = s)
    (env : Env K F) (a : ProgramArgs K) (V C P : List (List Char)) (p : ℕ)
    (integ interp fmt : String) (ha : a.WellFormed V C P p integ interp fmt)
    (prog : Program K F) (hprog : Program.create lower a = .ok prog)
    (H : Host (Shared K) (List ℕ → K) (Option (List F) × List (Event K F)))
    (hH : prog.host env = .ok H) (mem : ℕ → List ℕ → K)
    {s₀ s : HostState (Shared K) (Option (List F) × List (Event K F))}
    {as : List (Action (Option (List F) × List (Event K F)))}
    {rs : List (Option (Option (List F) × List (Event K F)))}
    (h₀ : H.init mem = .ok s₀) (h : HostState.Exec H mem s₀ as s)
    (hr : s.pool.phase = .returned rs) :
    ∃ (I : AnyInterp K) (k : Kind) (w : WriterKind),
      setup lower a.options a.flowGridShape = .ok (I, k, w) ∧ rs.length = V.length - p + 1 ∧
      ∀ i < V.length - p + 1, ∃ t q first field events file,
        IsWindow env.stem (inRunOrder a.timestep V) (inRunOrder a.timestep C)
          (inRunOrder a.timestep P) a.timestep p i t ∧
        readSeedParticles env.fs t.particleFile = .ok q ∧
        (inRunOrder a.timestep V)[i]? = some first ∧
        (aloneRun { env with junk := mem i } none (.file t) I k).result = .ok (some field) ∧
        writtenNames events = [] ∧
        rs[i]? = some (some (none, events ++
          [.written ("ftle_" ++ env.stem first) field q.initialCentroid])) ∧
        ((Writer.fresh w a.particlesGridShape).write ("ftle_" ++ env.stem first)
          (arrayOfList field) q.initialCentroid).2 = .ok file := by
  obtain ⟨I, k, w, hs, -, -, -, -, -, hc⟩ := program_created (F := F) lower hlow ha
  obtain ⟨tasks, h1, h2, h3⟩ := program_host env ha I k
    (Writer.fresh w a.particlesGridShape).asWriteFn
  rw [hc] at hprog
  cases hprog
  rw [h3] at hH
  cases hH
  obtain ⟨e1, e2⟩ := C51_isolated env _ (tasks.map .file) I k a.processes mem h₀ h hr
  refine ⟨I, k, w, hs, by rw [e1, List.length_map, h1], fun i hi => ?_⟩
  obtain ⟨t, ht, hw⟩ := h2 i hi
  obtain ⟨r, h4, h5⟩ := e2 i (.file t) (by rw [List.getElem?_map, ht]; rfl)
  have h5' := h5
  unfold aloneRun at h5'
  obtain ⟨q, id, x, field, g1, g2, -, -, g3, -, g4⟩ := run_ok_parts h5'
  obtain ⟨rfl, g5, g6⟩ := g4 _ rfl
  have hid : some id = (inRunOrder a.timestep V)[i]?.map env.stem := by
    have : t.id = id := by
      have := g2
      simp only [Source.id, Except.ok.injEq] at this
      exact this
    rw [← this]
    exact hw.id
  cases hf : (inRunOrder a.timestep V)[i]? with
  | none => rw [hf] at hid; cases hid
  | some first =>
    rw [hf] at hid
    obtain rfl : id = env.stem first := by simpa using hid
    cases hfile : ((Writer.fresh w a.particlesGridShape).write ("ftle_" ++ env.stem first)
        (arrayOfList field) q.initialCentroid).2 with
    | error e =>
      simp only [Writer.asWriteFn, hfile] at g5
      cases g5
    | ok file =>
      refine ⟨t, q, first, field, (aloneRun { env with junk := mem i } none (.file t) I k).trace,
        file, hw, g1, rfl, g3, ?_, ?_, hfile⟩
      · obtain ⟨id', g7, g8⟩ := C46_written_name { env with junk := mem i } true
          (Writer.fresh w a.particlesGridShape).asWriteFn ⟨.file t, I, Integ.fresh k⟩ none h5'
        rw [g6, writtenNames_append] at g8
        have := congrArg List.length g8
        simp only [List.length_append, writtenNames, List.length_cons, List.length_nil] at this
        exact List.length_eq_zero_iff.1 (by
          show (writtenNames ((⟨.file t, I, Integ.fresh k⟩ : Solver K).run
            { env with junk := mem i } true none).trace).length = 0
          omega)
      · rw [h4]
        unfold aloneRun
        rw [g6]

/-- **C77** (liveness).  If the window of every task can be computed and saved by a fresh solver,
every execution in which no worker dies can be continued until the executor returns. -/
theorem C77_completes (lower : String → String)
    (hlow : ∀ s ∈ ["rk4", "euler", "ab2", "cubic", "linear", "nearest", "grid"], lower s = s)
    (env : Env K F) (a : ProgramArgs K) (V C P : List (List Char)) (p : ℕ)
    (integ interp fmt : String) (ha : a.WellFormed V C P p integ interp fmt)
    (prog : Program K F) (hprog : Program.create lower a = .ok prog)
    (H : Host (Shared K) (List ℕ → K) (Option (List F) × List (Event K F)))
    (hH : prog.host env = .ok H) (mem : ℕ → List ℕ → K)
    (hok : ∀ I k w, setup lower a.options a.flowGridShape = .ok (I, k, w) →
      ∀ i < V.length - p + 1, ∀ t, IsWindow env.stem (inRunOrder a.timestep V)
        (inRunOrder a.timestep C) (inRunOrder a.timestep P) a.timestep p i t →
        ∃ r, (aloneRun { env with junk := mem i }
          (some (Writer.fresh w a.particlesGridShape).asWriteFn) (.file t) I k).result = .ok r)
    {s₀ s : HostState (Shared K) (Option (List F) × List (Event K F))}
    {as : List (Action (Option (List F) × List (Event K F)))}
    (h₀ : H.init mem = .ok s₀) (h : HostState.Exec H mem s₀ as s) (hc : .crash ∉ as) :
    ∃ bs s' rs, HostState.Exec H mem s₀ (as ++ bs) s' ∧ s'.pool.phase = .returned rs := by
  obtain ⟨I, k, w, hs, -, -, -, -, -, hcr⟩ := program_created (F := F) lower hlow ha
  obtain ⟨tasks, h1, h2, h3⟩ := program_host env ha I k
    (Writer.fresh w a.particlesGridShape).asWriteFn
  rw [hcr] at hprog
  cases hprog
  rw [h3] at hH
  cases hH
  refine C51_returns env _ (tasks.map .file) I k a.processes mem (fun i src hi => ?_) h₀ h hc
  have hlt : i < V.length - p + 1 := by
    have := (List.getElem?_eq_some_iff.1 hi).1
    rwa [List.length_map, h1] at this
  obtain ⟨t, ht, hw⟩ := h2 i hlt
  rw [List.getElem?_map, ht] at hi
  obtain rfl : .file t = src := by simpa using hi
  exact hok I k w hs i hlt t hw

/-- **C77** (failure).  If the executor raises although no worker has died, the exception is the
one a fresh solver raises for some window alone. -/
theorem C77_failure (lower : String → String)
    (hlow : ∀ s ∈ ["rk4", "euler", "ab2", "cubic", "linear", "nearest", "grid"], lower s = s)
    (env : Env K F) (a : ProgramArgs K) (V C P : List (List Char)) (p : ℕ)
    (integ interp fmt : String) (ha : a.WellFormed V C P p integ interp fmt)
    (prog : Program K F) (hprog : Program.create lower a = .ok prog)
    (H : Host (Shared K) (List ℕ → K) (Option (List F) × List (Event K F)))
    (hH : prog.host env = .ok H) (mem : ℕ → List ℕ → K)
    {s₀ s : HostState (Shared K) (Option (List F) × List (Event K F))}
    {as : List (Action (Option (List F) × List (Event K F)))} {e : PyErr}
    (h₀ : H.init mem = .ok s₀) (h : HostState.Exec H mem s₀ as s) (hc : .crash ∉ as)
    (hr : s.pool.phase = .raised e) :
    ∃ I k w i t, setup lower a.options a.flowGridShape = .ok (I, k, w) ∧
      i < V.length - p + 1 ∧
      IsWindow env.stem (inRunOrder a.timestep V) (inRunOrder a.timestep C)
        (inRunOrder a.timestep P) a.timestep p i t ∧
      (aloneRun { env with junk := mem i }
        (some (Writer.fresh w a.particlesGridShape).asWriteFn) (.file t) I k).result =
          .error e := by
  obtain ⟨I, k, w, hs, -, -, -, -, -, hcr⟩ := program_created (F := F) lower hlow ha
  obtain ⟨tasks, h1, h2, h3⟩ := program_host env ha I k
    (Writer.fresh w a.particlesGridShape).asWriteFn
  rw [hcr] at hprog
  cases hprog
  rw [h3] at hH
  cases hH
  obtain ⟨i, src, hi, he⟩ := C51_isolated_failure env _ (tasks.map .file) I k a.processes mem
    (fun src hsrc => by
      obtain ⟨t, -, rfl⟩ := List.mem_map.1 hsrc
      exact ⟨_, rfl⟩) h₀ h hc hr
  have hlt : i < V.length - p + 1 := by
    have := (List.getElem?_eq_some_iff.1 hi).1
    rwa [List.length_map, h1] at this
  obtain ⟨t, ht, hw⟩ := h2 i hlt
  rw [List.getElem?_map, ht] at hi
  obtain rfl : .file t = src := by simpa using hi
  exact ⟨I, k, w, i, t, hs, hlt, hw, he⟩

end

/-! ## The output directory -/

theorem saveAll_notMem {α : Type} (l : List (String × α)) (dir : String → Option α) (n : String)
    (h : n ∉ l.map Prod.fst) : saveAll l dir n = dir n := by
  induction l generalizing dir with
  | nil => rfl
  | cons x l ih =>
    simp only [List.map_cons, List.mem_cons, not_or] at h
    rw [saveAll, ih _ h.2]
    simp [h.1]

theorem saveAll_mem {α : Type} (l : List (String × α)) (dir : String → Option α)
    (hn : (l.map Prod.fst).Nodup) {x : String × α} (hx : x ∈ l) :
    saveAll l dir x.1 = some x.2 := by
  induction l generalizing dir with
  | nil => cases hx
  | cons y l ih =>
    simp only [List.map_cons, List.nodup_cons] at hn
    rcases List.mem_cons.1 hx with rfl | hx
    · rw [saveAll, saveAll_notMem _ _ _ hn.1]
      simp
    · exact ih _ hn.2 hx

theorem flatMap_single {α β : Type} {l : List α} {f : α → List β} {g : α → β}
    (h : ∀ x ∈ l, f x = [g x]) : l.flatMap f = l.map g := by
  induction l with
  | nil => rfl
  | cons x l ih =>
    rw [List.flatMap_cons, h x (by simp), ih fun y hy => h y (by simp [hy])]
    rfl

/-- Files with different names do not depend on the order in which they are saved. -/
theorem directory_after {α : Type} (stem : String → String) (starts : List String)
    (content : ℕ → α) (dir : String → Option α) (hn : (starts.map stem).Nodup)
    (order : List ℕ) (ho : order.Perm (List.range starts.length)) :
    (∀ i first, starts[i]? = some first →
      saveAll (order.map fun i => ("ftle_" ++ ((starts[i]?).map stem).getD "", content i)) dir
        ("ftle_" ++ stem first) = some (content i)) ∧
    ∀ n, (∀ first ∈ starts, n ≠ "ftle_" ++ stem first) →
      saveAll (order.map fun i => ("ftle_" ++ ((starts[i]?).map stem).getD "", content i)) dir n =
        dir n := by
  set w : List (String × α) := order.map fun i =>
    ("ftle_" ++ ((starts[i]?).map stem).getD "", content i) with hw
  have hmem : ∀ i ∈ order, ∃ h : i < starts.length, starts[i]? = some starts[i] := by
    intro i hi
    have := List.mem_range.1 (ho.mem_iff.1 hi)
    exact ⟨this, List.getElem?_eq_getElem this⟩
  have hnd : (w.map Prod.fst).Nodup := by
    rw [hw, List.map_map]
    refine (List.nodup_map_iff_inj_on (ho.nodup_iff.2 List.nodup_range)).2 ?_
    intro i hi j hj hij
    obtain ⟨hi', hi⟩ := hmem i hi
    obtain ⟨hj', hj⟩ := hmem j hj
    have hs : stem starts[i] = stem starts[j] := by
      simp only [Function.comp_apply, hi, hj, Option.map_some, Option.getD_some] at hij
      have := congrArg String.toList hij
      exact String.toList_injective (by simpa [String.toList_append] using this)
    have := List.nodup_iff_injective_getElem.1 hn
      (a₁ := ⟨i, by simpa using hi'⟩) (a₂ := ⟨j, by simpa using hj'⟩) (by simpa using hs)
    simpa using this
  refine ⟨fun i first hi => ?_, fun n hne => ?_⟩
  · have hlt := (List.getElem?_eq_some_iff.1 hi).1
    have : ("ftle_" ++ stem first, content i) ∈ w :=
      List.mem_map.2 ⟨i, ho.mem_iff.2 (List.mem_range.2 hlt), by simp [hi]⟩
    exact saveAll_mem w dir hnd this
  · refine saveAll_notMem w dir n fun hm => ?_
    rw [hw, List.map_map] at hm
    obtain ⟨i, hi, rfl⟩ := List.mem_map.1 hm
    obtain ⟨hlt, hi⟩ := hmem i hi
    refine hne starts[i] (List.getElem_mem hlt) ?_
    simp [hi]

section
variable {K F : Type} [Zero K] [One K] [Add K] [Sub K] [Mul K] [Div K] [NatCast K] [IntCast K]
  [Min K] [Max K] [NumLits K] [DecidableEq K] [LT K] [DecidableLT K] [Inhabited F]

theorem savedBy_none_of_names {events : List (Event K F)} (h : writtenNames events = [])
    (r : Option (List F)) : savedBy (some (r, events)) = [] := by
  unfold savedBy
  induction events with
  | nil => rfl
  | cons e es ih => cases e <;> simp_all [writtenNames]

/-- **C77** (directory).  If the first snapshots of the windows have different stems, the output
directory does not depend on the order in which the tasks get to saving their files: the field of
window `i` is there under the name of its first snapshot, and everything else is as before. -/
theorem C77_directory (lower : String → String)
    (hlow : ∀ s ∈ ["rk4", "euler", "ab2", "cubic", "linear", "nearest", "grid"], lower s = s)
    (env : Env K F) (a : ProgramArgs K) (V C P : List (List Char)) (p : ℕ)
    (integ interp fmt : String) (ha : a.WellFormed V C P p integ interp fmt)
    (hn : (((inRunOrder a.timestep V).take (V.length - p + 1)).map env.stem).Nodup)
    (prog : Program K F) (hprog : Program.create lower a = .ok prog)
    (H : Host (Shared K) (List ℕ → K) (Option (List F) × List (Event K F)))
    (hH : prog.host env = .ok H) (mem : ℕ → List ℕ → K)
    {s₀ s : HostState (Shared K) (Option (List F) × List (Event K F))}
    {as : List (Action (Option (List F) × List (Event K F)))}
    {rs : List (Option (Option (List F) × List (Event K F)))}
    (h₀ : H.init mem = .ok s₀) (h : HostState.Exec H mem s₀ as s)
    (hr : s.pool.phase = .returned rs)
    (order : List ℕ) (ho : order.Perm (List.range (V.length - p + 1)))
    (dir : String → Option (List F × NDArray K)) :
    ∃ (I : AnyInterp K) (k : Kind) (w : WriterKind),
      setup lower a.options a.flowGridShape = .ok (I, k, w) ∧
      (∀ i < V.length - p + 1, ∃ t q first field,
        IsWindow env.stem (inRunOrder a.timestep V) (inRunOrder a.timestep C)
          (inRunOrder a.timestep P) a.timestep p i t ∧
        readSeedParticles env.fs t.particleFile = .ok q ∧
        (inRunOrder a.timestep V)[i]? = some first ∧
        (aloneRun { env with junk := mem i } none (.file t) I k).result = .ok (some field) ∧
        saveAll (order.flatMap fun i => savedBy ((rs[i]?).getD none)) dir
          ("ftle_" ++ env.stem first) = some (field, q.initialCentroid)) ∧
      ∀ n, (∀ first ∈ (inRunOrder a.timestep V).take (V.length - p + 1),
          n ≠ "ftle_" ++ env.stem first) →
        saveAll (order.flatMap fun i => savedBy ((rs[i]?).getD none)) dir n = dir n := by
  obtain ⟨I, k, w, hs, hl, hall⟩ := C77_output lower hlow env a V C P p integ interp fmt ha prog
    hprog H hH mem h₀ h hr
  have hlen : (inRunOrder a.timestep V).length = V.length := by
    unfold inRunOrder
    split <;> simp
  have hp := ha.enough
  have hp1 := ha.one_le
  set starts := (inRunOrder a.timestep V).take (V.length - p + 1) with hst
  have hsl : starts.length = V.length - p + 1 := by
    rw [hst, List.length_take, hlen]
    omega
  have hsi : ∀ i < V.length - p + 1, starts[i]? = (inRunOrder a.timestep V)[i]? := by
    intro i hi
    rw [hst, List.getElem?_take_of_lt hi]
  have hall' : ∀ i, ∃ c : List F × NDArray K, i < V.length - p + 1 → ∃ t q first,
        IsWindow env.stem (inRunOrder a.timestep V) (inRunOrder a.timestep C)
          (inRunOrder a.timestep P) a.timestep p i t ∧
        readSeedParticles env.fs t.particleFile = .ok q ∧
        (inRunOrder a.timestep V)[i]? = some first ∧ c.2 = q.initialCentroid ∧
        (aloneRun { env with junk := mem i } none (.file t) I k).result = .ok (some c.1) ∧
        savedBy ((rs[i]?).getD none) = [("ftle_" ++ env.stem first, c)] := by
    intro i
    by_cases hi : i < V.length - p + 1
    · obtain ⟨t, q, first, field, events, file, g1, g2, g3, g4, g5, g6, -⟩ := hall i hi
      refine ⟨(field, q.initialCentroid), fun _ => ⟨t, q, first, g1, g2, g3, rfl, g4, ?_⟩⟩
      have := savedBy_none_of_names g5 none
      rw [g6, Option.getD_some]
      simp only [savedBy] at this ⊢
      rw [List.filterMap_append, this]
      rfl
    · exact ⟨([], ⟨[], fun _ => 0⟩), fun h => absurd h hi⟩
  choose content hcontent using hall'
  have hflat : (order.flatMap fun i => savedBy ((rs[i]?).getD none)) =
      order.map fun i => ("ftle_" ++ ((starts[i]?).map env.stem).getD "", content i) := by
    refine flatMap_single fun i hi => ?_
    have hi' := List.mem_range.1 (ho.mem_iff.1 hi)
    obtain ⟨t, q, first, -, -, g3, -, -, g6⟩ := hcontent i hi'
    rw [g6, hsi i hi', g3]
    rfl
  obtain ⟨d1, d2⟩ := directory_after env.stem starts content dir hn order (by rw [hsl]; exact ho)
  rw [hflat]
  refine ⟨I, k, w, hs, fun i hi => ?_, d2⟩
  obtain ⟨t, q, first, g1, g2, g3, g4, g5, -⟩ := hcontent i hi
  refine ⟨t, q, first, (content i).1, g1, g2, g3, g5, ?_⟩
  rw [d1 i first (by rw [hsi i hi, g3]), ← g4]

end

/-! ## Exit status -/

section
variable {K F : Type} [Zero K] [One K] [Add K] [Sub K] [Mul K] [Div K] [NatCast K] [IntCast K]
  [Min K] [Max K] [NumLits K] [DecidableEq K] [LT K] [DecidableLT K] [Inhabited F]

/-- **C77** (status).  If no window fails with a `RuntimeError` and no worker dies, the process
ends with status 0 exactly when every window has been computed and saved. -/
theorem C77_status (lower : String → String)
    (hlow : ∀ s ∈ ["rk4", "euler", "ab2", "cubic", "linear", "nearest", "grid"], lower s = s)
    (env : Env K F) (a : ProgramArgs K) (V C P : List (List Char)) (p : ℕ)
    (integ interp fmt : String) (ha : a.WellFormed V C P p integ interp fmt)
    (prog : Program K F) (hprog : Program.create lower a = .ok prog)
    (H : Host (Shared K) (List ℕ → K) (Option (List F) × List (Event K F)))
    (hH : prog.host env = .ok H) (mem : ℕ → List ℕ → K)
    (hrt : ∀ I k w, setup lower a.options a.flowGridShape = .ok (I, k, w) →
      ∀ i < V.length - p + 1, ∀ t, IsWindow env.stem (inRunOrder a.timestep V)
        (inRunOrder a.timestep C) (inRunOrder a.timestep P) a.timestep p i t →
        (aloneRun { env with junk := mem i }
          (some (Writer.fresh w a.particlesGridShape).asWriteFn) (.file t) I k).result ≠
            .error .runtimeError)
    {s₀ s : HostState (Shared K) (Option (List F) × List (Event K F))}
    {as : List (Action (Option (List F) × List (Event K F)))}
    {r : Py (List (Option (Option (List F) × List (Event K F))))}
    (h₀ : H.init mem = .ok s₀) (h : HostState.Exec H mem s₀ as s) (hc : .crash ∉ as)
    (hr : s.pool.phase.result = some r) (start stop : ℤ) :
    exitStatus (mainProgram start stop r).1 = 0 ↔ ∃ rs, s.pool.phase = .returned rs := by
  obtain ⟨h1, h2⟩ := main_status start stop r
  constructor
  · intro h0
    cases hp : s.pool.phase with
    | submitting i => rw [hp] at hr; cases hr
    | collecting => rw [hp] at hr; cases hr
    | returned rs => exact ⟨rs, rfl⟩
    | raised e =>
      rw [hp] at hr
      cases hr
      rcases h1.1 h0 with ⟨x, hx⟩ | hx
      · cases hx
      · cases hx
        obtain ⟨I, k, w, i, t, hs, hi, hw, he⟩ := C77_failure lower hlow env a V C P p integ interp
          fmt ha prog hprog H hH mem h₀ h hc hp
        exact (hrt I k w hs i hi t hw he).elim
  · rintro ⟨rs, hp⟩
    rw [hp] at hr
    cases hr
    exact h1.2 (.inl ⟨rs, rfl⟩)

/-- A period longer than the list of snapshots: the constructor succeeds, and the executor raises
`IndexError` before any task exists; the process ends with status 1. -/
theorem C77_too_long (env : Env K F) (prog : Program K F) (p : ℤ) (hp : prog.snapshots = .ok p)
    (hn : (prog.manager.snapshotFiles.length : ℤ) < p) (mem : ℕ → List ℕ → K) (start stop : ℤ) :
    ∃ H e, prog.host env = .ok H ∧ H.init mem = .error e ∧ e = .indexError ∧
      exitStatus (mainProgram start stop (.error e : Py Unit)).1 = 1 := by
  refine ⟨Shared.host env (some prog.writer) prog.processes ⟨[], prog.interp, prog.integ⟩, _, ?_,
    rfl, rfl, rfl⟩
  simp only [Program.host, hp, C44_too_long env.stem prog.manager p hn, List.map_nil]

end

/-! ## A concrete run -/

/-- The surroundings of the example: two snapshot files, one coordinate and one particle file. -/
def exProgEnv : Env ℚ ℚ :=
  { exFileEnv with
    ftle2 := fun js _ => .ok (js.map fun J => J 0 0) }

/-- Three snapshots, two per period, forward in time. -/
def exArgs : ProgramArgs ℚ where
  velocityList := some "v\nw\nv\n".toList
  coordinateList := some "c\n".toList
  particleList := some "p\n".toList
  timestep := 1
  snapshots := .ok 2
  options := ⟨some "rk4", some "linear", some "mat"⟩
  processes := 2
  flowGridShape := none
  particlesGridShape := none

theorem exArgs_wellFormed : exArgs.WellFormed [['v'], ['w'], ['v']] [['c']] [['p']] 2 "rk4" "linear"
    "mat" where
  velocity := rfl
  coordinate := rfl
  particle := rfl
  plain := by
    intro f hf
    simp only [List.cons_append, List.nil_append, List.mem_cons, List.not_mem_nil, or_false] at hf
    rcases hf with rfl | rfl | rfl | rfl | rfl <;>
      exact ⟨by decide, by decide, by decide, by decide +kernel⟩
  coordinate_ne := by simp
  particle_ne := by simp
  period := rfl
  one_le := by omega
  enough := by simp
  options := rfl
  accepted := by simp [CliOptions.Accepted, integratorChoices, interpolatorChoices, formatChoices]
  shape := by simp
  processes := by simp [exArgs]

/-- The windows of the example. -/
def exWindow : ℕ → FileSource ℚ
  | 0 => ⟨["v", "w"], ["c", "c"], "p", 1, "v", true⟩
  | _ => ⟨["w", "v"], ["c", "c"], "p", 1, "w", true⟩

/-- The program of the example runs to its end, whatever is in memory, and the hypotheses of
`C77_directory` hold for it. -/
example : ∃ prog H s₀ as s rs, Program.create (F := ℚ) id exArgs = .ok prog ∧
    prog.host exProgEnv = .ok H ∧ H.init (fun _ _ => 7) = .ok s₀ ∧
    HostState.Exec H (fun _ _ => 7) s₀ as s ∧ s.pool.phase = .returned rs ∧ rs.length = 2 ∧
    (((inRunOrder exArgs.timestep [['v'], ['w'], ['v']]).take 2).map exProgEnv.stem).Nodup := by
  obtain ⟨prog, H, s₀, h1, h2, -, h4⟩ := C77_starts (F := ℚ) id (by simp) exProgEnv exArgs _ _ _ _
    _ _ _ exArgs_wellFormed (fun _ _ => 7)
  obtain ⟨bs, s, rs, h5, h6⟩ := C77_completes id (by simp) exProgEnv exArgs _ _ _ _ _ _ _
    exArgs_wellFormed prog h1 H h2 (fun _ _ => 7) (by
      intro I k w hs i hi t ht
      obtain ⟨rfl, rfl, rfl⟩ : I = .scatter (.fresh .linear) ∧ k = .rk4 ∧ w = .mat := by
        simp [setup, exArgs, cliInterpolator, createInterpolator, cliIntegrator, createIntegrator,
          cliWriter, createWriter] at hs
        exact ⟨hs.1.symm, hs.2.1.symm, hs.2.2.symm⟩
      have key : ∀ i < 2, (aloneRun { exProgEnv with junk := fun _ => 7 }
          (some (Writer.fresh .mat none).asWriteFn) (.file (exWindow i))
          (.scatter (.fresh .linear)) .rk4).result.toBool = true := by decide +kernel
      have hw : t = exWindow i := by
        refine ht.unique ?_
        simp only [List.length_cons, List.length_nil] at hi
        interval_cases i
        · exact ⟨rfl, by decide, rfl, by decide, rfl, rfl, rfl, by decide⟩
        · exact ⟨rfl, by decide, rfl, by decide, rfl, rfl, rfl, by decide⟩
      subst hw
      have := key i (by simpa using hi)
      revert this
      show (aloneRun { exProgEnv with junk := fun _ => 7 }
          (some (Writer.fresh .mat none).asWriteFn) (.file (exWindow i))
          (.scatter (.fresh .linear)) .rk4).result.toBool = true → _
      cases hres : (aloneRun { exProgEnv with junk := fun _ => 7 }
          (some (Writer.fresh .mat none).asWriteFn) (.file (exWindow i))
          (.scatter (.fresh .linear)) .rk4).result with
      | error e => simp [Except.toBool]
      | ok r => exact fun _ => ⟨r, hres⟩) h4 .nil (by simp)
  obtain ⟨_, _, _, -, h7, -⟩ := C77_output id (by simp) exProgEnv exArgs _ _ _ _ _ _ _
    exArgs_wellFormed prog h1 H h2 (fun _ _ => 7) h4 h5 h6
  exact ⟨prog, H, s₀, _, s, rs, h1, h2, h4, h5, h6, h7, by decide +kernel⟩

end Verif
