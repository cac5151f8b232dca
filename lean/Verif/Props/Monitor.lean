import Verif.Lemmas.Monitor
import Verif.Props.Isolation

/-!
# C52: the progress monitor; C69: the monitor ends with the run

The workers are given by the tasks each of them runs (identifier, number of steps); all
interleavings of their messages are considered (`Emits`).
-/

set_option linter.unusedSectionVars false

namespace Verif

/-- **C52** for tasks that succeed.  At every moment of every interleaving of the messages of
`n` workers: the monitor has not crashed; its bars are exactly those of the tasks that have
reported a step and not yet `"done"`, showing the last step; all bars have different rows
among `1..n` and the other rows are free; every finished task has been counted once.
Missing: tasks that fail between two messages, for which it is false. -/
theorem C52_monitor_partial (assignment : List (List (String × ℕ))) {l : List ProgressMsg}
    {rest : List (List ProgressMsg)} (h : Emits (assignment.map workerMessages) l rest) :
    ∃ m, (Monitor.init assignment.length).drain l = .ok m ∧
      (∀ id, (m.bars.lookup id).map (·.n) = lastStep l id) ∧
      (m.bars.map Prod.fst).Nodup ∧
      (m.rows ++ m.freeRows).Perm ((List.range assignment.length).map (· + 1)) ∧
      m.finished = doneCount l ∧ m.globalBar = doneCount l := by
  obtain ⟨m, h1, h2, h3⟩ := h.monitor (MonitorInv.init _ assignment rfl) rfl
  exact ⟨m, h1, h3, h2.keys, h2.rows, h2.fin.1, h2.fin.2⟩

/-- **C52** (rows).  A bar keeps its row until its task reports `"done"`. -/
theorem C52_row_kept {m m' : Monitor} {x : ProgressMsg} (h : m.handle x = .ok m') {id : String}
    {b : Bar} (hb : m.bars.lookup id = some b) (hx : (id, none) ≠ x) :
    ∃ b', m'.bars.lookup id = some b' ∧ b'.pos = b.pos :=
  (Monitor.handle_lookup h id).2.2 b hb hx

/-- **C52** (end).  When all messages have arrived no bar is left, all rows are free, every task
has been counted, and the loop is left at the next pass. -/
theorem C52_end_partial (assignment : List (List (String × ℕ))) {l : List ProgressMsg}
    {rest : List (List ProgressMsg)} (h : Emits (assignment.map workerMessages) l rest)
    (hall : ∀ s ∈ rest, s = []) :
    ∃ m, (Monitor.init assignment.length).drain l = .ok m ∧ m.bars = [] ∧
      m.freeRows.Perm ((List.range assignment.length).map (· + 1)) ∧
      m.finished = (assignment.map List.length).sum ∧
      ∀ stop msgs passes, m.loop (assignment.map List.length).sum ((stop, msgs) :: passes) =
        .ok (m, true) := by
  obtain ⟨m, h1, h2, h3⟩ := h.monitor (MonitorInv.init _ assignment rfl) rfl
  have hb : m.bars = [] := by
    have : heads rest = [] := by
      unfold heads
      rw [List.filterMap_eq_nil_iff]
      intro s hs
      rw [hall s hs]
      rfl
    have hs := h2.sub
    rw [this] at hs
    cases hm : m.bars with
    | nil => rfl
    | cons x xs => exact absurd (hs x.1 (by rw [hm]; simp)) (by simp)
  have hd : doneCount l = (assignment.map List.length).sum := by
    have := h.doneCount
    have hz : (rest.map doneCount).sum = 0 := by
      rw [List.sum_eq_zero]
      intro x hx
      obtain ⟨s, hs, rfl⟩ := List.mem_map.1 hx
      rw [hall s hs]
      rfl
    rw [hz, List.map_map] at this
    rw [show (doneCount ∘ workerMessages) = List.length from funext doneCount_worker] at this
    simpa using this
  refine ⟨m, h1, hb, ?_, by rw [h2.fin.1, hd], ?_⟩
  · have := h2.rows
    simpa [Monitor.rows, hb] using this
  · intro stop msgs passes
    simp only [Monitor.loop]
    rw [if_neg (by rw [h2.fin.1, hd]; omega)]

/-- **C52** (loop).  However the messages are spread over the passes of the loop: as long as the
stop event is not set and a `"done"` is missing, the monitor stays in its loop. -/
theorem C52_keeps_running (total : ℕ) (m : Monitor) (passes : List (Bool × List ProgressMsg))
    (hs : ∀ p ∈ passes, p.1 = false)
    (hd : m.finished + doneCount (passes.flatMap Prod.snd) < total) :
    m.loop total passes = (m.drain (passes.flatMap Prod.snd)).map (·, false) :=
  Monitor.loop_running total m passes hs hd

/-- **C52 is false of the code for failing tasks**: one worker, whose first task fails after its
first step (no `"done"`); the first message of the next task finds no free row and the monitor
dies with `KeyError`. -/
theorem C52_failed_task_fails :
    ∀ rest, (Monitor.init 1).drain (("a", some 0) :: ("b", some 0) :: rest) = .error .keyError := by
  intro rest
  rfl

/-- Two workers and three tasks: an interleaving in which "c" reuses the row of "a". -/
example : ∃ rest, Emits ([[("a", 1), ("c", 2)], [("b", 1)]].map workerMessages)
    [("a", some 0), ("b", some 0), ("a", none), ("c", some 0)] rest ∧
    ((Monitor.init 2).drain [("a", some 0), ("b", some 0), ("a", none), ("c", some 0)]).toOption.map
      (fun m => (m.rows, m.freeRows, m.finished)) = some ([2, 1], [], 1) := by
  have h := Emits.nil (ss := [[("a", 1), ("c", 2)], [("b", 1)]].map workerMessages)
  have h := Emits.snoc (pre := []) (x := ("a", some 0)) (post := [workerMessages [("b", 1)]])
    (r := [("a", none), ("c", some 0), ("c", some 1), ("c", none)]) h
  have h := Emits.snoc (pre := [[("a", none), ("c", some 0), ("c", some 1), ("c", none)]])
    (x := ("b", some 0)) (post := []) (r := [("b", none)]) h
  have h := Emits.snoc (pre := []) (x := ("a", none)) (post := [[("b", none)]])
    (r := [("c", some 0), ("c", some 1), ("c", none)]) h
  have h := Emits.snoc (pre := []) (x := ("c", some 0)) (post := [[("b", none)]])
    (r := [("c", some 1), ("c", none)]) h
  exact ⟨_, h, by decide +kernel⟩

/-! ## C69: the monitor ends with the run -/

variable {R : Type}

/-- **C69** (what holds).  If the identifiers of the tasks can be computed and no submission
fails, the monitor has been terminated when the executor returns or raises.  Missing: the two
cases below. -/
theorem C69_monitor_partial (J : Job R) {s₀ s : Pool R} {as : List (Action R)}
    (h₀ : J.init = .ok s₀) (h : Pool.Exec J s₀ as s) (hid : ∀ i < J.n, ∃ t, J.taskId i = .ok t)
    (hs : .submitFails ∉ as) (hdone : ∀ i, s.phase ≠ .submitting i ∧ s.phase ≠ .collecting) :
    s.monitorKilled = true := by
  have key : ∀ {as : List (Action R)} {s : Pool R}, Pool.Exec J s₀ as s → .submitFails ∉ as →
      (s.phase.active ∨ s.monitorKilled = true) := by
    intro as s h hs
    induction h with
    | nil =>
      left
      unfold Job.init at h₀
      split at h₀
      · cases h₀
      · split at h₀
        · cases h₀
        · cases h₀
          trivial
    | @snoc as s s' a he hst ih =>
      have hs' : Action.submitFails ∉ as := fun hm => hs (List.mem_append_left _ hm)
      have ih := ih hs'
      cases hst with
      | submit i hp hi hb =>
        left
        simp only
        split <;> trivial
      | submitFails i hp hb => exact (hs (by simp)).elim
      | enqueue => exact ih
      | start => exact ih
      | finish => exact ih
      | crash => exact ih
      | observe i r a b hp hf =>
        unfold Pool.handle
        cases r with
        | ok v => left; simp only [hp]; trivial
        | error e =>
          obtain ⟨k, hk⟩ := he.inv h₀
          obtain ⟨t, ht⟩ := hid i (hk.lt_of_mem_finished (r := .error e) (by rw [hf]; simp))
          right
          simp [ht]
      | finalise hp ho =>
        right
        unfold Pool.finalise
        split <;> rfl
  rcases key h hs with ha | ha
  · cases hp : s.phase with
    | submitting i => exact ((hdone i).1 hp).elim
    | collecting => exact ((hdone 0).2 hp).elim
    | returned rs => rw [hp] at ha; exact ha.elim
    | raised e => rw [hp] at ha; exact ha.elim
  · exact ha

/-- The hypotheses hold in the failing example. -/
example : (∀ i < failJob.n, ∃ t, failJob.taskId i = .ok t) ∧ .submitFails ∉ failActions ∧
    ∃ s, Pool.Exec failJob failStart failActions s ∧ s.phase = .raised .valueError := by
  obtain ⟨_, s, h1, h2, _⟩ := failJob_exec
  exact ⟨fun _ _ => ⟨_, rfl⟩, by simp [failActions], s, h1, h2⟩

theorem Pool.Exec.never_stopped {J : Job R} {s₀ s : Pool R} {as : List (Action R)}
    (h₀ : J.init = .ok s₀) (h : Pool.Exec J s₀ as s)
    (hid : ∀ i < J.n, ∃ e, J.taskId i = .error e)
    (hout : ∀ i < J.n, ∃ e, J.outcome i = .error e) :
    s.stopped = false ∧ s.monitorKilled = false := by
  have hn : 0 < J.n := by
    unfold Job.init at h₀
    split at h₀
    · cases h₀
    · omega
  induction h with
  | nil =>
    unfold Job.init at h₀
    split at h₀
    · cases h₀
    · split at h₀
      · cases h₀
      · cases h₀
        exact ⟨rfl, rfl⟩
  | @snoc as s s' a he hst ih =>
    obtain ⟨k, hk⟩ := he.inv h₀
    cases hst with
    | submit => exact ih
    | submitFails => exact ih
    | enqueue => exact ih
    | start => exact ih
    | finish => exact ih
    | crash => exact ih
    | observe i r a b hp hf =>
      have hlt := hk.lt_of_mem_finished (i := i) (r := r) (by rw [hf]; simp)
      obtain ⟨e, ht⟩ := hid i hlt
      unfold Pool.handle
      cases r with
      | ok v => exact ih
      | error e' => simp only [ht]; exact ih
    | finalise hp ho =>
      have hobs := (hk.good (by rw [hp]; trivial)).2.2 0 (hk.all_observed (hk.coll hp) ho hn)
      obtain ⟨v, hv, _⟩ := hobs
      obtain ⟨e, he'⟩ := hout 0 hn
      rw [hv] at he'
      cases he'

section
variable {K F : Type} [Zero K] [One K] [Add K] [Sub K] [Mul K] [Div K] [NatCast K] [IntCast K]
  [Min K] [Max K] [NumLits K] [DecidableEq K]

/-- **C69 is false of the code.**  `AnalyticalSolver` with a flow map period for which
`int(T / |dt|) + 1 ≤ 0` (a negative period): every task fails, the handler of the first
failure raises `IndexError` while it builds its message, and whatever happens afterwards the
stop event is not set, the monitor is not terminated, and ... -/
theorem C69_not_stopped_fails (env : Env K F) (writer : Option (WriteFn K F)) (P : Particles K)
    (dt : K) (numFtles numSnapshots : ℤ) (hneg : numSnapshots ≤ 0) (I : AnyInterp K) (k : Kind)
    (workers : ℤ) (mem : ℕ → List ℕ → K)
    {s₀ s : HostState (Shared K) (Option (List F) × List (Event K F))}
    {as : List (Action (Option (List F) × List (Event K F)))}
    (h₀ : (Shared.host env writer workers
      ⟨(analyticalBatches P dt numFtles numSnapshots).map .analytical, I, Integ.fresh k⟩).init mem =
        .ok s₀)
    (h : HostState.Exec (Shared.host env writer workers
      ⟨(analyticalBatches P dt numFtles numSnapshots).map .analytical, I, Integ.fresh k⟩) mem s₀ as s) :
    s.pool.stopped = false ∧ s.pool.monitorKilled = false ∧ ∀ rs, s.pool.phase ≠ .returned rs := by
  obtain ⟨he, _⟩ := h.refines h₀
  obtain ⟨hj, _⟩ := Host.init_ok h₀
  have htimes : ∀ S ∈ analyticalBatches P dt numFtles numSnapshots, S.times = [] := by
    intro S hS
    unfold analyticalBatches at hS
    obtain ⟨i, _, rfl⟩ := List.mem_map.1 hS
    simp [pyRange, Int.toNat_of_nonpos hneg]
  have hid : ∀ i < ((Shared.host env writer workers
      ⟨(analyticalBatches P dt numFtles numSnapshots).map .analytical, I, Integ.fresh k⟩).job mem).n,
      ∃ src : Source K, ((analyticalBatches P dt numFtles numSnapshots).map
        (fun S => Source.analytical S))[i]? = some src ∧ src.id env = .error .indexError := by
    intro i hi
    obtain ⟨src, hsrc⟩ : ∃ src : Source K, ((analyticalBatches P dt numFtles numSnapshots).map
        (fun S => Source.analytical S))[i]? = some src := ⟨_, List.getElem?_eq_getElem hi⟩
    refine ⟨src, hsrc, ?_⟩
    obtain ⟨S, hS, rfl⟩ := List.mem_map.1 (List.mem_of_getElem? hsrc)
    simp only [Source.id, htimes S hS]
  have hout : ∀ i < ((Shared.host env writer workers
      ⟨(analyticalBatches P dt numFtles numSnapshots).map .analytical, I, Integ.fresh k⟩).job mem).n,
      ∃ e, ((Shared.host env writer workers
        ⟨(analyticalBatches P dt numFtles numSnapshots).map .analytical, I,
          Integ.fresh k⟩).job mem).outcome i = .error e := by
    intro i hi
    obtain ⟨src, hsrc, hsid⟩ := hid i hi
    rw [Shared.job_outcome, hsrc]
    obtain ⟨S, hS, rfl⟩ := List.mem_map.1 (List.mem_of_getElem? hsrc)
    refine ⟨.indexError, ?_⟩
    have : (aloneRun { env with junk := mem i } writer (.analytical S) I k).result =
        .error .indexError := by
      unfold aloneRun Solver.run
      simp only [Source.getParticles, Source.id, htimes S hS]
    simp only [this]
  obtain ⟨h1, h2⟩ := he.never_stopped hj (fun i hi => by
    obtain ⟨src, hsrc, hsid⟩ := hid i hi
    refine ⟨.indexError, ?_⟩
    simp only [Host.job, Shared.host, hsrc, hsid]) hout
  refine ⟨h1, h2, fun rs hr => ?_⟩
  have hn : 0 < ((Shared.host env writer workers
      ⟨(analyticalBatches P dt numFtles numSnapshots).map .analytical, I, Integ.fresh k⟩).job mem).n := by
    by_contra hz
    unfold Job.init at hj
    rw [if_pos (by omega)] at hj
    cases hj
  obtain ⟨e, he'⟩ := hout 0 hn
  exact C49_never_returns _ hj he hn he' rs hr

/-- ... no task has sent a message, so the monitor stays in its loop: the process that started
it waits for it for ever. -/
theorem C69_monitor_hangs_fails (env : Env K F) (writer : Option (WriteFn K F)) (P : Particles K)
    (dt : K) (numFtles numSnapshots : ℤ) (hneg : numSnapshots ≤ 0) (I : AnyInterp K) (G : Integ K)
    (S : AnalyticalSource K) (hS : S ∈ analyticalBatches P dt numFtles numSnapshots) :
    messages ((⟨.analytical S, I, G⟩ : Solver K).run env true writer).trace = [] ∧
    ∀ (workers : ℤ) (passes : ℕ),
      (Monitor.init workers).loop (analyticalBatches P dt numFtles numSnapshots).length
        (List.replicate passes (false, [])) = .ok (Monitor.init workers, false) := by
  have ht : S.times = [] := by
    unfold analyticalBatches at hS
    obtain ⟨i, _, rfl⟩ := List.mem_map.1 hS
    simp [pyRange, Int.toNat_of_nonpos hneg]
  constructor
  · unfold Solver.run
    simp only [Source.getParticles, Source.id, ht]
    rfl
  · intro workers passes
    have hc : (List.replicate passes (false, ([] : List ProgressMsg))).flatMap Prod.snd = [] := by
      rw [List.flatMap_eq_nil_iff]
      intro p hp
      rw [(List.mem_replicate.1 hp).2]
    rw [C52_keeps_running _ _ _ (fun p hp => by rw [(List.mem_replicate.1 hp).2]) (by
      rw [hc]
      exact List.length_pos_of_mem hS), hc]
    rfl

/-- A period of `-3` with timestep `1`, two fields, four workers: the hypotheses hold. -/
example : snapshotsPerPeriod (-3) 1 = .ok (-2) ∧
    ∃ s₀, (Shared.host (F := ℚ) exEnv none 4
      ⟨(analyticalBatches exParticles 1 2 (-2)).map .analytical, .analytical (.fresh none),
        Integ.fresh .rk4⟩).init (fun _ _ => 0) = .ok s₀ :=
  ⟨by decide +kernel, _, rfl⟩

end

end Verif
