import Verif.Lemmas.Api
import Verif.Props.Isolation
import Verif.Props.Names
import Verif.Props.Writers

/-!
# C65: the analytical API, C73: what a run saves
-/

set_option linter.unusedSectionVars false

namespace Verif

section
variable {K F : Type} [Zero K] [One K] [Add K] [Sub K] [Mul K] [Div K] [NatCast K] [IntCast K]
  [Min K] [Max K] [NumLits K] [DecidableEq K]

/-! ## C65 -/

/-- The computation with start time `i·dt`: its `p` snapshots are one time step apart. -/
def startBatch (S : ApiSolver K F) (i : ℕ) : AnalyticalSource K where
  particles := S.particles
  timestep := S.timestep
  times := (List.range S.numSnapshots.toNat).map fun k : ℕ =>
    (i : K) * S.timestep + (k : K) * S.timestep

theorem shared_tasks (S : ApiSolver K F) {n : ℕ} (hn : S.numFtles = n) :
    S.shared.tasks.length = n ∧
      ∀ i < n, S.shared.tasks[i]? = some (.analytical (startBatch S i)) := by
  simp only [ApiSolver.shared, analyticalBatches, pyRange, hn, Int.toNat_natCast, List.length_map,
    List.length_range, true_and]
  intro i hi
  simp [List.getElem?_map, List.getElem?_range hi, startBatch]

/-- The list the executor returns to `AnalyticalSolver.run`: one entry per start time, each what a
fresh solver computes for that start time alone. -/
theorem api_results {env : Env K F} {S : ApiSolver K F} {kind : Kind}
    (hk : S.integ = Integ.fresh kind) {n : ℕ} (hn : S.numFtles = n) {mem : ℕ → List ℕ → K}
    {s₀ s : HostState (Shared K) (Option (List F) × List (Event K F))}
    {as : List (Action (Option (List F) × List (Event K F)))}
    {rs : List (Option (Option (List F) × List (Event K F)))}
    (h₀ : (S.host env).init mem = .ok s₀) (h : HostState.Exec (S.host env) mem s₀ as s)
    (hr : s.pool.phase = .returned rs) :
    rs.length = n ∧ ∀ i < n, ∃ r,
      rs[i]? = some (some (r, (aloneRun { env with junk := mem i } S.writer
        (.analytical (startBatch S i)) S.interp kind).trace)) ∧
      (aloneRun { env with junk := mem i } S.writer (.analytical (startBatch S i)) S.interp
        kind).result = .ok r := by
  have hh : S.host env = Shared.host env S.writer S.processes
      ⟨S.shared.tasks, S.interp, Integ.fresh kind⟩ := by rw [← hk]; rfl
  rw [hh] at h₀ h
  obtain ⟨h1, h2⟩ := C51_isolated env S.writer S.shared.tasks S.interp kind S.processes mem h₀ h hr
  obtain ⟨t1, t2⟩ := shared_tasks S hn
  exact ⟨h1.trans t1, fun i hi => h2 i _ (t2 i hi)⟩

/-- A list is determined by its entries. -/
theorem eq_map_range {α : Type} {l : List α} {n : ℕ} {f : ℕ → α} (hl : l.length = n)
    (h : ∀ i < n, l[i]? = some (f i)) : l = (List.range n).map f := by
  apply List.ext_getElem?
  intro i
  rcases Nat.lt_or_ge i n with hi | hi
  · rw [h i hi, List.getElem?_map, List.getElem?_range hi]; rfl
  · rw [List.getElem?_eq_none (by omega), List.getElem?_eq_none (by simpa using hi)]

/-- The fields the executor returned when nothing is written. -/
theorem api_fields {env : Env K F} (he : env.PerMatrix) {S : ApiSolver K F} {kind : Kind}
    (hk : S.integ = Integ.fresh kind) (hw : S.writer = none)
    {seeds : NDArray K} {N d : ℕ} (hd : d = 2 ∨ d = 3) (hs : seeds.shape = [2 * d * N, d])
    (hp : mkParticles seeds = .ok S.particles) {n : ℕ} (hn : S.numFtles = n)
    {mem : ℕ → List ℕ → K}
    {s₀ s : HostState (Shared K) (Option (List F) × List (Event K F))}
    {as : List (Action (Option (List F) × List (Event K F)))}
    {rs : List (Option (Option (List F) × List (Event K F)))}
    (h₀ : (S.host env).init mem = .ok s₀) (h : HostState.Exec (S.host env) mem s₀ as s)
    (hr : s.pool.phase = .returned rs) :
    ∃ row : ℕ → List F, rs.map (fun r => r.bind Prod.fst) = (List.range n).map (some ∘ row) ∧
      ∀ i < n, (row i).length = N ∧
        (aloneRun { env with junk := mem i } none (.analytical (startBatch S i)) S.interp
          kind).result = .ok (some (row i)) := by
  obtain ⟨h1, h2⟩ := api_results hk hn h₀ h hr
  rw [hw] at h2
  have key : ∀ i < n, ∃ row : List F, rs[i]?.map (fun r => r.bind Prod.fst) = some (some row) ∧
      row.length = N ∧ (aloneRun { env with junk := mem i } none (.analytical (startBatch S i))
        S.interp kind).result = .ok (some row) := by
    intro i hi
    obtain ⟨r, h3, h4⟩ := h2 i hi
    obtain ⟨p, id, x, field, -, -, -, -, -, h5, -⟩ := run_ok_parts h4
    obtain rfl := h5 rfl
    refine ⟨field, by rw [h3]; rfl, ?_, h4⟩
    exact run_field_length (env := { env with junk := mem i }) ⟨he.two, he.three⟩ hd hs hp rfl h4
  have hrow : ∀ i, ∃ row : List F, i < n → rs[i]?.map (fun r => r.bind Prod.fst) =
      some (some row) ∧ row.length = N ∧ (aloneRun { env with junk := mem i } none
        (.analytical (startBatch S i)) S.interp kind).result = .ok (some row) := by
    intro i
    by_cases hi : i < n
    · obtain ⟨row, hrow⟩ := key i hi
      exact ⟨row, fun _ => hrow⟩
    · exact ⟨[], fun h => absurd h hi⟩
  choose row hrow using hrow
  refine ⟨row, eq_map_range (by simpa using h1) fun i hi => ?_, fun i hi => (hrow i hi).2⟩
  rw [List.getElem?_map]
  exact (hrow i hi).1

/-- **C65** (one field).  A run with `num_ftles = 1` and no output returns the field of start time
`0`, with one value per group. -/
theorem C65_single (env : Env K F) (he : env.PerMatrix) (S : ApiSolver K F) (kind : Kind)
    (hk : S.integ = Integ.fresh kind) (hw : S.writer = none)
    {seeds : NDArray K} {N d : ℕ} (hd : d = 2 ∨ d = 3) (hs : seeds.shape = [2 * d * N, d])
    (hp : mkParticles seeds = .ok S.particles) (hn : S.numFtles = 1)
    (mem : ℕ → List ℕ → K)
    {s₀ s : HostState (Shared K) (Option (List F) × List (Event K F))}
    {as : List (Action (Option (List F) × List (Event K F)))}
    {rs : List (Option (Option (List F) × List (Event K F)))}
    (h₀ : (S.host env).init mem = .ok s₀) (h : HostState.Exec (S.host env) mem s₀ as s)
    (hr : s.pool.phase = .returned rs) :
    ∃ row, S.outcome s = some (.ok (.field row)) ∧ row.length = N ∧
      (aloneRun { env with junk := mem 0 } none (.analytical (startBatch S 0)) S.interp
        kind).result = .ok (some row) := by
  obtain ⟨row, h1, h2⟩ := api_fields he hk hw hd hs hp (n := 1) (by simpa using hn) h₀ h hr
  refine ⟨row 0, ?_, h2 0 (by omega)⟩
  simp only [ApiSolver.outcome, hr, h1]
  simp [ApiSolver.finish, hw]

/-- **C65** (several fields).  A run with `num_ftles = n ≥ 2` and no output returns an array of
`n` rows with one value per group; row `i` is the field of start time `i·dt`. -/
theorem C65_stack (env : Env K F) (he : env.PerMatrix) (S : ApiSolver K F) (kind : Kind)
    (hk : S.integ = Integ.fresh kind) (hw : S.writer = none)
    {seeds : NDArray K} {N d : ℕ} (hd : d = 2 ∨ d = 3) (hs : seeds.shape = [2 * d * N, d])
    (hp : mkParticles seeds = .ok S.particles) (n : ℕ) (hn : S.numFtles = n) (h2n : 2 ≤ n)
    (mem : ℕ → List ℕ → K)
    {s₀ s : HostState (Shared K) (Option (List F) × List (Event K F))}
    {as : List (Action (Option (List F) × List (Event K F)))}
    {rs : List (Option (Option (List F) × List (Event K F)))}
    (h₀ : (S.host env).init mem = .ok s₀) (h : HostState.Exec (S.host env) mem s₀ as s)
    (hr : s.pool.phase = .returned rs) :
    ∃ rows, S.outcome s = some (.ok (.stack rows)) ∧ rows.length = n ∧
      ∀ i < n, ∃ row, rows[i]? = some row ∧ row.length = N ∧
        (aloneRun { env with junk := mem i } none (.analytical (startBatch S i)) S.interp
          kind).result = .ok (some row) := by
  obtain ⟨row, h1, h2⟩ := api_fields he hk hw hd hs hp hn h₀ h hr
  refine ⟨(List.range n).map row, ?_, by simp, fun i hi => ⟨row i, ?_, h2 i hi⟩⟩
  · simp only [ApiSolver.outcome, hr, h1]
    obtain ⟨m, rfl⟩ : ∃ m, n = m + 2 := ⟨n - 2, by omega⟩
    have hall : ((List.range (m + 2)).map (some ∘ row)).all
        (fun r => r.map List.length == some (row 0).length) = true := by
      simp only [List.all_eq_true, List.mem_map, List.mem_range, Function.comp]
      rintro x ⟨i, hi, rfl⟩
      simp [(h2 i hi).1, (h2 0 (by omega)).1]
    have hmap : ((List.range (m + 2)).map (some ∘ row)).filterMap id =
        (List.range (m + 2)).map row := by
      rw [List.filterMap_map]
      show (List.range (m + 2)).filterMap (fun i => some (row i)) = _
      rw [List.filterMap_eq_map']
    have hcons : (List.range (m + 2)).map (some ∘ row) =
        some (row 0) :: some (row 1) :: ((List.range m).map fun i => some (row (i + 2))) := by
      simp [List.range_succ_eq_map, Function.comp_def]
    rw [← hmap]
    rw [hcons] at hall ⊢
    simp only [ApiSolver.finish, hw, npStack, hall, if_true]
  · rw [List.getElem?_map, List.getElem?_range hi]; rfl

/-- **C65** (with output).  The run returns `None`; task `i` has written exactly one file, named
after its start time, and the values written are one per group. -/
theorem C65_output (env : Env K F) (he : env.PerMatrix) (S : ApiSolver K F) (kind : Kind)
    (hk : S.integ = Integ.fresh kind) (w : WriteFn K F) (hw : S.writer = some w)
    {seeds : NDArray K} {N d : ℕ} (hd : d = 2 ∨ d = 3) (hs : seeds.shape = [2 * d * N, d])
    (hp : mkParticles seeds = .ok S.particles) (n : ℕ) (hn : S.numFtles = n)
    (mem : ℕ → List ℕ → K)
    {s₀ s : HostState (Shared K) (Option (List F) × List (Event K F))}
    {as : List (Action (Option (List F) × List (Event K F)))}
    {rs : List (Option (Option (List F) × List (Event K F)))}
    (h₀ : (S.host env).init mem = .ok s₀) (h : HostState.Exec (S.host env) mem s₀ as s)
    (hr : s.pool.phase = .returned rs) :
    S.outcome s = some (.ok .none) ∧ rs.length = n ∧
      ∀ i < n, ∃ row tr, rs[i]? = some (some (none, tr)) ∧ row.length = N ∧
        writtenNames tr = ["ftle_" ++ env.timeName ((i : K) * S.timestep +
          ((0 : ℕ) : K) * S.timestep)] ∧
        .written ("ftle_" ++ env.timeName ((i : K) * S.timestep + ((0 : ℕ) : K) * S.timestep)) row
          S.particles.initialCentroid ∈ tr ∧
        (aloneRun { env with junk := mem i } none (.analytical (startBatch S i)) S.interp
          kind).result = .ok (some row) := by
  obtain ⟨h1, h2⟩ := api_results hk hn h₀ h hr
  refine ⟨by simp only [ApiSolver.outcome, hr, ApiSolver.finish, hw], h1, fun i hi => ?_⟩
  obtain ⟨r, h3, h4⟩ := h2 i hi
  rw [hw] at h3 h4
  obtain ⟨p, id, x, field, hp', hid, -, -, h5, -, h6⟩ := run_ok_parts h4
  obtain ⟨rfl, -, h7⟩ := h6 w rfl
  cases hp'
  obtain ⟨id', hid', hnames⟩ := C46_written_name { env with junk := mem i } true w _ _ h4
  rw [hid] at hid'
  cases hid'
  have hname : id = env.timeName ((i : K) * S.timestep + ((0 : ℕ) : K) * S.timestep) := by
    simp only [Source.id, startBatch] at hid
    cases hp0 : S.numSnapshots.toNat with
    | zero => rw [hp0] at hid; cases hid
    | succ m =>
      rw [hp0] at hid
      simp only [List.range_succ_eq_map, List.map_cons] at hid
      cases hid
      rfl
  subst hname
  refine ⟨field, _, h3, ?_, hnames, ?_, h5⟩
  · exact run_field_length (env := { env with junk := mem i }) ⟨he.two, he.three⟩ hd hs hp rfl h5
  · rw [aloneRun, h7]
    simp [startBatch]

/-- **C65** (liveness).  If the computation for every start time succeeds alone, every execution
without the death of a worker can be continued until `run` ends, and then it ends normally. -/
theorem C65_returns (env : Env K F) (S : ApiSolver K F) (kind : Kind)
    (hk : S.integ = Integ.fresh kind) (n : ℕ) (hn : S.numFtles = n) (mem : ℕ → List ℕ → K)
    (hok : ∀ i < n, ∃ r, (aloneRun { env with junk := mem i } S.writer
      (.analytical (startBatch S i)) S.interp kind).result = .ok r)
    {s₀ s : HostState (Shared K) (Option (List F) × List (Event K F))}
    {as : List (Action (Option (List F) × List (Event K F)))}
    (h₀ : (S.host env).init mem = .ok s₀) (h : HostState.Exec (S.host env) mem s₀ as s)
    (hc : .crash ∉ as) :
    ∃ bs s' rs, HostState.Exec (S.host env) mem s₀ (as ++ bs) s' ∧
      s'.pool.phase = .returned rs := by
  have hh : S.host env = Shared.host env S.writer S.processes
      ⟨S.shared.tasks, S.interp, Integ.fresh kind⟩ := by rw [← hk]; rfl
  rw [hh] at h₀ h ⊢
  obtain ⟨t1, t2⟩ := shared_tasks S hn
  refine C51_returns env S.writer S.shared.tasks S.interp kind S.processes mem ?_ h₀ h hc
  intro i src hi
  have hlt : i < n := by
    rw [← t1]; exact (List.getElem?_eq_some_iff.1 hi).1
  rw [t2 i hlt] at hi
  cases hi
  exact hok i hlt

/-- **C65** (start).  With at least one field and one process the executor starts; without a field
`run` raises `IndexError` (the documented `RuntimeError` is never reached), without a process
`ValueError`. -/
theorem C65_start (env : Env K F) (S : ApiSolver K F) (mem : ℕ → List ℕ → K) :
    (1 ≤ S.numFtles → 1 ≤ S.processes → ∃ s₀, (S.host env).init mem = .ok s₀) ∧
    (S.numFtles ≤ 0 → (S.host env).init mem = .error .indexError) ∧
    (1 ≤ S.numFtles → S.processes ≤ 0 → (S.host env).init mem = .error .valueError) := by
  have hlen : (S.host env).n = S.numFtles.toNat := by
    simp [ApiSolver.host, Shared.host, ApiSolver.shared, analyticalBatches, pyRange]
  have hproc : (S.host env).workers = S.processes := rfl
  refine ⟨fun h1 h2 => ?_, fun h1 => ?_, fun h1 h2 => ?_⟩ <;>
    simp only [Host.init, Job.init, Host.job, hlen, hproc]
  · rw [if_neg (by omega), if_neg (by omega)]
    exact ⟨_, rfl⟩
  · rw [if_pos (by omega)]
  · rw [if_neg (by omega), if_pos h2]

/-- The documented `RuntimeError("No FTLE fields were returned")` cannot be raised: whenever the
executor returns, `run` returns. -/
theorem C65_dead_branch (env : Env K F) (S : ApiSolver K F) (kind : Kind)
    (hk : S.integ = Integ.fresh kind) (hn : 1 ≤ S.numFtles) (mem : ℕ → List ℕ → K)
    {s₀ s : HostState (Shared K) (Option (List F) × List (Event K F))}
    {as : List (Action (Option (List F) × List (Event K F)))}
    {rs : List (Option (Option (List F) × List (Event K F)))}
    (h₀ : (S.host env).init mem = .ok s₀) (h : HostState.Exec (S.host env) mem s₀ as s)
    (hr : s.pool.phase = .returned rs) : S.outcome s ≠ some (.error .runtimeError) := by
  obtain ⟨h1, -⟩ := api_results hk (n := S.numFtles.toNat) (by omega) h₀ h hr
  simp only [ApiSolver.outcome, hr]
  unfold ApiSolver.finish npStack
  cases rs with
  | nil => simp only [List.length_nil] at h1; omega
  | cons r rs =>
    simp only [List.map_cons]
    repeat' split
    all_goals simp_all

/-! ## C38, the whole API -/

/-- **C38 is false of the code (whole API).**  All rows returned by a run are the same, whatever
the velocity function, although they belong to different start times. -/
theorem C38_api_rows_fails (env : Env K F) (he : env.PerMatrix) (S : ApiSolver K F) (kind : Kind)
    (hk : S.integ = Integ.fresh kind) (hw : S.writer = none) (fn : VelocityFn K)
    (hfn : fn.Respects) (hI : S.interp = .analytical (.fresh (some fn)))
    {seeds : NDArray K} {N d : ℕ} (hd : d = 2 ∨ d = 3) (hs : seeds.shape = [2 * d * N, d])
    (hp : mkParticles seeds = .ok S.particles) (n : ℕ) (hn : S.numFtles = n) (h2n : 2 ≤ n)
    (mem : ℕ → List ℕ → K)
    {s₀ s : HostState (Shared K) (Option (List F) × List (Event K F))}
    {as : List (Action (Option (List F) × List (Event K F)))}
    {rs : List (Option (Option (List F) × List (Event K F)))}
    (h₀ : (S.host env).init mem = .ok s₀) (h : HostState.Exec (S.host env) mem s₀ as s)
    (hr : s.pool.phase = .returned rs) :
    ∃ row, S.outcome s = some (.ok (.stack (List.replicate n row))) := by
  obtain ⟨rows, h1, h2, h3⟩ := C65_stack env he S kind hk hw hd hs hp n hn h2n mem h₀ h hr
  have hne : S.numSnapshots.toNat ≠ 0 := by
    intro h0
    obtain ⟨row, -, -, hx⟩ := h3 0 (by omega)
    simp [aloneRun, Solver.run, Source.getParticles, Source.id, startBatch, h0] at hx
  have hpos : S.particles.positions.shape = [2 * d * N, d] := by
    rw [(mkParticles_groups hd hs hp).1, hs]
  -- all computations agree with the first one
  have same : ∀ i, (aloneRun { env with junk := mem i } none (.analytical (startBatch S i))
      S.interp kind).result = (aloneRun { env with junk := mem 0 } none
        (.analytical (startBatch S 0)) S.interp kind).result := by
    intro i
    have e1 : (aloneRun { env with junk := mem i } none (.analytical (startBatch S i))
        S.interp kind).result = (aloneRun { env with junk := mem i } none
          (.analytical (startBatch S 0)) S.interp kind).result := by
      rw [hI]
      exact C38_start_time_fails _ true (startBatch S i) (startBatch S 0) _ _
        (by simp [startBatch, hne]) rfl rfl (by simp [startBatch])
    have e2 := (C70_deterministic_partial
      { env with
        junk := mem i
        sp := ⟨fun _ _ _ => none, fun _ _ _ _ => .error .valueError, fun _ _ _ => none,
          fun _ _ _ _ => .error .valueError⟩ }
      ⟨fun _ _ _ _ _ _ => .error _, fun _ _ _ _ _ _ => .error _⟩ (mem 0) true none
      (.analytical (startBatch S 0)) S.interp kind (n := 2 * d * N) (d := d)
      (by rw [hI]; intro f hf; cases hf; exact hfn)
      (fun s hs => by rw [hI]; intro f hf; cases hf; exact hfn)
      (fun p hp => by cases hp; exact hpos)).1
    rw [e1]
    have hb : (startBatch S 0).times ≠ [] := by simp [startBatch, hne]
    rw [hI] at e2 ⊢
    rw [analytical_run _ _ _ _ _ hb, analytical_run _ _ _ _ _ hb] at e2
    unfold aloneRun
    rw [analytical_run _ _ _ _ _ hb, analytical_run _ _ _ _ _ hb]
    exact e2
  obtain ⟨row, hr0, -, hx0⟩ := h3 0 (by omega)
  refine ⟨row, ?_⟩
  rw [h1]
  congr 3
  rw [List.eq_replicate_iff]
  refine ⟨h2, fun b hb => ?_⟩
  obtain ⟨i, hi, rfl⟩ := List.getElem_of_mem hb
  obtain ⟨row', hr', -, hx'⟩ := h3 i (by omega)
  rw [List.getElem?_eq_getElem hi] at hr'
  cases hr'
  rw [same i, hx0] at hx'
  cases hx'
  rfl

/-! ## The constructor -/

/-- **C65** (construction).  What the constructor builds satisfies the hypotheses of the theorems
above: a new integrator, the analytical interpolator around the user's function, no writer
without `save_output`, and with it a writer without grid shape. -/
theorem C65_constructor [Inhabited F] (lower : String → String)
    (hl : lower "analytical" = "analytical") (fn : VelocityFn K) (particles : Particles K)
    (timestep : K) (snapshots : Py ℤ) (numFtles : ℤ) (name : String) (processes : ℤ)
    (save : Bool) (format : String) (S : ApiSolver K F)
    (h : ApiSolver.create lower fn particles timestep snapshots numFtles name processes save
      format = .ok S) :
    S.interp = .analytical (.fresh (some fn)) ∧ S.particles = particles ∧ S.timestep = timestep ∧
      S.numFtles = numFtles ∧ snapshots = .ok S.numSnapshots ∧ S.processes = processes ∧
      (∃ kind, createIntegrator lower name = .ok kind ∧ S.integ = Integ.fresh kind) ∧
      (save = false → S.writer = none) ∧
      (save = true → ∃ kind, createWriter format = .ok kind ∧
        S.writer = some (Writer.fresh kind none).asWriteFn) := by
  have hi : createInterpolator lower "analytical" none (some fn) =
      .ok (.analytical (AnalyticalState.fresh (some fn))) := by
    simp [createInterpolator, hl]
  unfold ApiSolver.create at h
  cases snapshots with
  | error e => cases h
  | ok n =>
    simp only [hi] at h
    cases hk : createIntegrator lower name with
    | error e => rw [hk] at h; cases h
    | ok kind =>
      simp only [hk] at h
      cases save with
      | false =>
        cases h
        exact ⟨rfl, rfl, rfl, rfl, rfl, rfl, ⟨kind, rfl, rfl⟩, fun _ => rfl,
          fun h => (by cases h)⟩
      | true =>
        cases hw : createWriter format with
        | error e => simp [hw] at h
        | ok w =>
          simp only [hw, if_true] at h
          cases h
          exact ⟨rfl, rfl, rfl, rfl, rfl, rfl, ⟨kind, rfl, rfl⟩, fun h => (by cases h),
            fun _ => ⟨w, rfl, rfl⟩⟩

/-! ## C73 -/

theorem arrayOfList_get [Inhabited F] (l : List F) {i : ℕ} (hi : i < l.length) :
    (arrayOfList l).get [i] = l[i] := by
  simp [arrayOfList, hi]

/-- What the file of a run must say: the value of group `i` at the centroid of group `i` of the
seed particles, i.e. the mean of its `2 d` members, rows `i, N + i, …` of the seeds. -/
def runRecords (seeds : NDArray K) (N d : ℕ) (field : List F) : List (F × List K) :=
  field.zipIdx.map fun (v, i) => (v, (List.range d).map fun c =>
    ((List.range (2 * d - 1)).map (· + 1)).foldl
      (fun acc b => acc + seeds.get [b * N + i, c]) (seeds.get [i, c]) / ((2 * d : ℕ) : K))

theorem groupRecords_run [Inhabited F] {seeds : NDArray K} {p : Particles K} {N d : ℕ}
    (hd : d = 2 ∨ d = 3) (hs : seeds.shape = [2 * d * N, d]) (hp : mkParticles seeds = .ok p)
    {field : List F} (hf : field.length = N) :
    groupRecords N d (arrayOfList field) p.initialCentroid = runRecords seeds N d field := by
  have hc : ∀ i c, p.initialCentroid.get [i, c] =
      ((List.range (2 * d - 1)).map (· + 1)).foldl
        (fun acc b => acc + seeds.get [b * N + i, c]) (seeds.get [i, c]) / ((2 * d : ℕ) : K) := by
    intro i c
    rcases hd with rfl | rfl
    · obtain ⟨q, h1, -, -, -, -, -, -, -, -, h4⟩ := mkParticles_2d (K := K) (a := seeds) (m := N) hs
      rw [h1] at hp
      cases hp
      rw [h4]
      simp [List.range_succ]
    · obtain ⟨q, h1, -, -, -, -, -, -, -, -, -, h4⟩ :=
        mkParticles_3d (K := K) (a := seeds) (m := N) hs
      rw [h1] at hp
      cases hp
      rw [h4]
      simp [List.range_succ]
  apply List.ext_getElem
  · simp [groupRecords, runRecords, hf]
  · intro i h1 h2
    simp only [groupRecords, List.length_map, List.length_range] at h1
    simp [groupRecords, runRecords, groupRecord, hc, arrayOfList, hf, h1]

/-- **C73** (unstructured output).  Saving does not change a run, and the file contains exactly one
record per group: its FTLE value at its initial centroid (VTK places planar groups at height
zero). -/
theorem C73_unstructured [Inhabited F] (env : Env K F) (he : env.PerMatrix) (queue : Bool)
    (S : Solver K) (kind : WriterKind) {seeds : NDArray K} {p : Particles K} {N d : ℕ}
    (hd : d = 2 ∨ d = 3) (hs : seeds.shape = [2 * d * N, d]) (hp : mkParticles seeds = .ok p)
    (hg : S.source.getParticles env.fs = .ok p) (field : List F)
    (h : (S.run env queue none).result = .ok (some field)) :
    ∃ id file, S.source.id env = .ok id ∧
      (S.run env queue (some (Writer.fresh kind none).asWriteFn)).result = .ok none ∧
      (S.run env queue (some (Writer.fresh kind none).asWriteFn)).trace =
        (S.run env queue none).trace ++ [.written ("ftle_" ++ id) field p.initialCentroid] ∧
      ((Writer.fresh kind none).write ("ftle_" ++ id) (arrayOfList field) p.initialCentroid).2 =
        .ok file ∧
      file.Says (match kind with
        | .mat => runRecords seeds N d field
        | .vtk => (runRecords seeds N d field).map fun r =>
            (r.1, r.2 ++ List.replicate (3 - d) 0)) := by
  obtain ⟨p', id, hp', hid, hw⟩ := run_with_writer h
  rw [hg] at hp'
  cases hp'
  have hlen := run_field_length he hd hs hp hg h
  obtain ⟨-, -, hc, -⟩ := mkParticles_groups hd hs hp
  have hrec := groupRecords_run (F := F) hd hs hp hlen
  have hfs : (arrayOfList field).shape = [N] := by simp [arrayOfList, hlen]
  obtain ⟨file, hf1, hf2⟩ : ∃ file, ((Writer.fresh kind none).write ("ftle_" ++ id)
      (arrayOfList field) p.initialCentroid).2 = .ok file ∧
      file.Says (match kind with
        | .mat => runRecords seeds N d field
        | .vtk => (runRecords seeds N d field).map fun r =>
            (r.1, r.2 ++ List.replicate (3 - d) 0)) := by
    cases kind with
    | mat =>
      obtain ⟨file, h1, -, h2⟩ := C54_flat none (.inl rfl) ("ftle_" ++ id) (arrayOfList field)
        p.initialCentroid N d hd hfs hc
      exact ⟨file, h1, by rw [← hrec]; exact h2⟩
    | vtk =>
      obtain ⟨file, h1, h2⟩ := C55_unstructured ("ftle_" ++ id) (arrayOfList field)
        p.initialCentroid N d hd hfs hc
      exact ⟨file, h1, by rw [← hrec]; exact h2⟩
  have hok : (S.run env queue (some (Writer.fresh kind none).asWriteFn)).result = .ok none := by
    rw [hw]
    simp only [Writer.asWriteFn, hf1]
  obtain ⟨p'', id'', x, field'', h1, h2, -, -, h5, -, h6⟩ := run_ok_parts hok
  rw [hg] at h1
  rw [hid] at h2
  rw [h] at h5
  cases h1
  cases h2
  cases h5
  exact ⟨id, file, hid, hok, (h6 _ rfl).2.2, hf1, hf2⟩

/-- **C73** (structured output).  With a grid shape of length two or three whose product is the
number of groups the MATLAB file again contains exactly the records of the groups; with any
other product the run raises `ValueError` after the computation, and nothing is written. -/
theorem C73_mat_structured [Inhabited F] (env : Env K F) (he : env.PerMatrix) (queue : Bool)
    (S : Solver K) {g sh : List ℕ} (hsh : GridShape g sh) {seeds : NDArray K} {p : Particles K}
    {N d : ℕ} (hd : d = 2 ∨ d = 3) (hs : seeds.shape = [2 * d * N, d])
    (hp : mkParticles seeds = .ok p) (hg : S.source.getParticles env.fs = .ok p) (field : List F)
    (h : (S.run env queue none).result = .ok (some field)) :
    ∃ id, S.source.id env = .ok id ∧
      (g.prod = N → ∃ file,
        (S.run env queue (some (Writer.fresh .mat (some g)).asWriteFn)).result = .ok none ∧
        ((Writer.fresh .mat (some g)).write ("ftle_" ++ id) (arrayOfList field)
          p.initialCentroid).2 = .ok file ∧ file.Says (runRecords seeds N d field)) ∧
      (g.prod ≠ N →
        (S.run env queue (some (Writer.fresh .mat (some g)).asWriteFn)).result =
          .error .valueError) := by
  obtain ⟨p', id, hp', hid, hw⟩ := run_with_writer h
  rw [hg] at hp'
  cases hp'
  have hlen := run_field_length he hd hs hp hg h
  obtain ⟨-, -, hc, -⟩ := mkParticles_groups hd hs hp
  have hrec := groupRecords_run (F := F) hd hs hp hlen
  have hfs : (arrayOfList field).shape = [N] := by simp [arrayOfList, hlen]
  refine ⟨id, hid, fun hn => ?_, fun hn => ?_⟩
  · obtain ⟨file, h1, h2, -⟩ := C54_structured hsh ("ftle_" ++ id) (arrayOfList field)
      p.initialCentroid N d hd hfs hc hn
    refine ⟨file, ?_, h1, by rw [← hrec]; exact h2⟩
    rw [hw]
    simp only [Writer.asWriteFn, h1]
  · rw [hw]
    simp only [Writer.asWriteFn, C54_mismatch hsh ("ftle_" ++ id) (arrayOfList field)
      p.initialCentroid N d hfs hc hn]

/-! ### Examples -/

theorem ok_of_toOption {α : Type} {x : Py α} {a : α} (h : x.toOption = some a) : x = .ok a := by
  cases x with
  | error e => cases h
  | ok b => cases h; rfl

/-- `exEnv` with kernels that return one value per matrix. -/
def exApiEnv : Env ℚ ℚ := { exEnv with
  ftle2 := fun js T => if T = 0 then .error .zeroDivisionError else .ok (js.map fun J => J 0 0 / T)
  ftle3 := fun js T => if T = 0 then .error .zeroDivisionError else .ok (js.map fun J => J 0 0 / T)
  timeName := fun t => toString t.num }

theorem exApiEnv_perMatrix : exApiEnv.PerMatrix := by
  constructor <;> intro js T v h <;> simp only [exApiEnv] at h <;> split at h <;> cases h <;> simp

/-- The particle set built from `exSeeds`. -/
def exApiParticles : Particles ℚ :=
  match mkParticles exSeeds with
  | .ok p => p
  | .error _ => exParticles

/-- The unsteady field `v(t, x) = ((1 - t) x, 0)` for arrays with two columns. -/
def exApiFn : VelocityFn ℚ := fun t q =>
  match q.shape with
  | [n, 2] => .ok ⟨[n, 2], fun idx =>
      if idx.getD 1 0 = 0 then (1 - t) * q.get [idx.getD 0 0, 0] else 0⟩
  | _ => .error .indexError

theorem exApiFn_respects : exApiFn.Respects := by
  intro t q q' h
  simp only [exApiFn]
  rw [← h.1]
  split
  · rename_i n hs
    refine .ok ⟨rfl, fun idx hi => ?_⟩
    cases hi with
    | cons hr hi =>
      simp only
      split
      · simp only [List.getD_cons_zero]
        rw [h.2]
        rw [hs]
        exact .cons hr (.cons (by omega) .nil)
      · rfl
  · exact .error _

/-- Three fields of two snapshots for the particles of `exSeeds` on two processes. -/
def exApi : ApiSolver ℚ ℚ where
  particles := exApiParticles
  timestep := 1
  numFtles := 3
  numSnapshots := 2
  interp := .analytical (.fresh (some exApiFn))
  integ := Integ.fresh .rk4
  writer := none
  processes := 2

theorem exApi_alone (i : ℕ) (hi : i < 3) : ∃ r, (aloneRun { exApiEnv with junk := fun _ => 5 }
    exApi.writer (.analytical (startBatch exApi i)) exApi.interp .rk4).result = .ok r := by
  have hb : ∀ i < 3, (aloneRun { exApiEnv with junk := fun _ => 5 } exApi.writer
      (.analytical (startBatch exApi i)) exApi.interp .rk4).result.toBool = true := by
    decide +kernel
  have := hb i hi
  revert this
  cases (aloneRun { exApiEnv with junk := fun _ => 5 } exApi.writer
    (.analytical (startBatch exApi i)) exApi.interp .rk4).result with
  | error e => simp [Except.toBool]
  | ok r => exact fun _ => ⟨r, rfl⟩

/-- C65: the run of `exApi` can be completed and returns three rows of one value. -/
example : ∃ s₀ as s rs rows, (exApi.host exApiEnv).init (fun _ _ => 5) = .ok s₀ ∧
    HostState.Exec (exApi.host exApiEnv) (fun _ _ => 5) s₀ as s ∧ s.pool.phase = .returned rs ∧
    exApi.outcome s = some (.ok (.stack rows)) ∧ rows.length = 3 := by
  obtain ⟨s₀, h₀⟩ := (C65_start exApiEnv exApi (fun _ _ => 5)).1 (by decide) (by decide)
  obtain ⟨bs, s, rs, h1, h2⟩ := C65_returns exApiEnv exApi .rk4 rfl 3 rfl (fun _ _ => 5)
    exApi_alone h₀ .nil (by simp)
  obtain ⟨rows, h3, h4, -⟩ := C65_stack exApiEnv exApiEnv_perMatrix exApi .rk4 rfl rfl (N := 1)
    (d := 2) (.inl rfl) (seeds := exSeeds) rfl rfl 3 rfl (by omega) (fun _ _ => 5) h₀ h1 h2
  exact ⟨s₀, _, s, rs, rows, h₀, h1, h2, h3, h4⟩

/-- C38 (whole API): the three rows of this run of an unsteady flow are equal. -/
example : ∃ s₀ as s rs row, (exApi.host exApiEnv).init (fun _ _ => 5) = .ok s₀ ∧
    HostState.Exec (exApi.host exApiEnv) (fun _ _ => 5) s₀ as s ∧ s.pool.phase = .returned rs ∧
    exApi.outcome s = some (.ok (.stack [row, row, row])) := by
  obtain ⟨s₀, h₀⟩ := (C65_start exApiEnv exApi (fun _ _ => 5)).1 (by decide) (by decide)
  obtain ⟨bs, s, rs, h1, h2⟩ := C65_returns exApiEnv exApi .rk4 rfl 3 rfl (fun _ _ => 5)
    exApi_alone h₀ .nil (by simp)
  obtain ⟨row, h3⟩ := C38_api_rows_fails exApiEnv exApiEnv_perMatrix exApi .rk4 rfl rfl exApiFn
    exApiFn_respects rfl (N := 1) (d := 2) (.inl rfl) (seeds := exSeeds) rfl rfl 3 rfl (by omega)
    (fun _ _ => 5) h₀ h1 h2
  exact ⟨s₀, _, s, rs, row, h₀, h1, h2, h3⟩

/-- C65 with output: the same solver with a MATLAB writer can be run to completion, returns
`None` and writes `ftle_2` for the last start time. -/
example : ∃ s₀ as s rs row tr,
    let S : ApiSolver ℚ ℚ := { exApi with writer := some (Writer.fresh .mat none).asWriteFn }
    (S.host exApiEnv).init (fun _ _ => 5) = .ok s₀ ∧
    HostState.Exec (S.host exApiEnv) (fun _ _ => 5) s₀ as s ∧ s.pool.phase = .returned rs ∧
    S.outcome s = some (.ok .none) ∧ rs[2]? = some (some (none, tr)) ∧
    .written "ftle_2" row exApiParticles.initialCentroid ∈ tr := by
  set S : ApiSolver ℚ ℚ := { exApi with writer := some (Writer.fresh .mat none).asWriteFn } with hS
  have hok : ∀ i < 3, ∃ r, (aloneRun { exApiEnv with junk := fun _ => 5 } S.writer
      (.analytical (startBatch S i)) S.interp .rk4).result = .ok r := by
    intro i hi
    obtain ⟨r, hr⟩ := exApi_alone i hi
    obtain ⟨p, id, x, field, -, -, -, -, h5, -⟩ := run_ok_parts hr
    obtain ⟨id, file, -, h7, -⟩ := C73_unstructured { exApiEnv with junk := fun _ => 5 }
      ⟨exApiEnv_perMatrix.two, exApiEnv_perMatrix.three⟩ true _ .mat (N := 1)
      (d := 2) (.inl rfl) (seeds := exSeeds) (p := exApiParticles) rfl rfl rfl field h5
    exact ⟨none, h7⟩
  obtain ⟨s₀, h₀⟩ := (C65_start exApiEnv S (fun _ _ => 5)).1 (by decide) (by decide)
  obtain ⟨bs, s, rs, h1, h2⟩ := C65_returns exApiEnv S .rk4 rfl 3 rfl (fun _ _ => 5)
    hok h₀ .nil (by simp)
  obtain ⟨h3, h4, h5⟩ := C65_output exApiEnv exApiEnv_perMatrix S .rk4 rfl _ rfl (N := 1)
    (d := 2) (.inl rfl) (seeds := exSeeds) rfl rfl 3 rfl (fun _ _ => 5) h₀ h1 h2
  obtain ⟨row, tr, h6, -, -, h7, -⟩ := h5 2 (by omega)
  have hname : "ftle_" ++ exApiEnv.timeName (((2 : ℕ) : ℚ) * S.timestep +
      ((0 : ℕ) : ℚ) * S.timestep) = "ftle_2" := by decide +kernel
  rw [hname] at h7
  exact ⟨s₀, _, s, rs, row, tr, h₀, h1, h2, h3, h6, h7⟩

/-- C65: the constructor succeeds. -/
example : ∃ S : ApiSolver ℚ ℚ, ApiSolver.create id exApiFn exApiParticles 1
    (snapshotsPerPeriod 1 1) 3 "rk4" 2 true "vtk" = .ok S ∧ S.numSnapshots = 2 := by
  have h : (snapshotsPerPeriod 1 1).toOption = some 2 := by decide +kernel
  rw [ok_of_toOption h]
  refine ⟨{ exApi with writer := some (Writer.fresh .vtk none).asWriteFn }, ?_, rfl⟩
  simp [ApiSolver.create, createInterpolator, createIntegrator, createWriter, exApi]

/-- C73: a run of two snapshots; the hypotheses hold. -/
example : ∃ field, ((⟨.analytical (startBatch exApi 0), exApi.interp, Integ.fresh .rk4⟩ :
    Solver ℚ).run exApiEnv false none).result = .ok (some field) ∧ field.length = 1 ∧
    runRecords exSeeds 1 2 field = [(field.getD 0 0, [0, 0])] := by
  have h : ((⟨.analytical (startBatch exApi 0), exApi.interp, Integ.fresh .rk4⟩ :
    Solver ℚ).run exApiEnv false none).result.toOption = some (some [(65 / 24) ^ 2]) := by
    decide +kernel
  exact ⟨_, ok_of_toOption h, rfl, by decide +kernel⟩

end

/-- The kernels of `ftle.py` return one value per matrix. -/
theorem RealEnv.perMatrix {env : Env ℝ FVal} (he : RealEnv env) : env.PerMatrix where
  two js T v h := by
    rw [he.f2] at h
    unfold ftle2 at h
    cases hr : recipPeriod T with
    | error e => simp [hr] at h
    | ok r =>
      rw [hr] at h
      cases h
      simp
  three js T v h := by
    rw [he.f3] at h
    unfold ftle3 at h
    cases hm : pyMap maxEig3 (js.map cauchyGreen3) with
    | error e => simp [hm] at h
    | ok eigs =>
      rw [hm] at h
      cases hr : recipPeriod T with
      | error e => simp [hr] at h
      | ok r =>
        rw [hr] at h
        cases h
        simpa using pyMap_ok_length hm

end Verif
