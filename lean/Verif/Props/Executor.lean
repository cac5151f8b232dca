import Verif.Model.Executor
import Verif.Props.Monitor
import Verif.Props.Api

/-!
# C79: using an executor again, C80: running a solver again
-/

namespace Verif

variable {R : Type}

/-! ## C79 -/

/-- Two states that differ at most in the stop event. -/
def SameButStop (s t : Pool R) : Prop := ∃ b, s = { t with stopped := b }

theorem SameButStop.step {J : Job R} {s t s' : Pool R} {a : Action R} (hst : SameButStop s t)
    (h : Pool.Step J s a s') : ∃ t', Pool.Step J t a t' ∧ SameButStop s' t' := by
  obtain ⟨b, rfl⟩ := hst
  cases h with
  | submit i hp hi hb => exact ⟨_, .submit t i hp hi hb, b, rfl⟩
  | submitFails i hp hb => exact ⟨_, .submitFails t i hp hb, b, rfl⟩
  | enqueue i rest hp hq => exact ⟨_, .enqueue t i rest hp hq, b, rfl⟩
  | start i rest hq hr => exact ⟨_, .start t i rest hq hr, b, rfl⟩
  | finish i a b' hr => exact ⟨_, .finish t i a b' hr, b, rfl⟩
  | crash hb => exact ⟨_, .crash t hb, b, rfl⟩
  | observe i r a b' hp hf =>
    refine ⟨_, .observe t i r a b' hp hf, ?_⟩
    unfold Pool.handle
    cases r with
    | ok v => exact ⟨b, rfl⟩
    | error e =>
      dsimp only
      split
      · exact ⟨b, rfl⟩
      · exact ⟨true, rfl⟩
  | finalise hp ho =>
    refine ⟨_, .finalise t hp ho, ?_⟩
    unfold Pool.finalise
    dsimp only
    split
    · exact ⟨b, rfl⟩
    · exact ⟨b, rfl⟩

/-- **C79** (results).  Whatever an executor has been used for before, a run on it is, action by
action, a run on a new executor: same results, same exceptions, same schedule. -/
theorem C79_results (J : Job R) (E : Executor) {s₀ s : Pool R} {as : List (Action R)}
    (h₀ : J.initOn E = .ok s₀) (h : Pool.Exec J s₀ as s) :
    ∃ t₀ t, J.init = .ok t₀ ∧ Pool.Exec J t₀ as t ∧ s.phase = t.phase ∧ s.results = t.results ∧
      s.cancelled = t.cancelled ∧ s.monitorKilled = t.monitorKilled := by
  unfold Job.initOn at h₀
  cases hi : J.init with
  | error e => rw [hi] at h₀; cases h₀
  | ok t₀ =>
    rw [hi] at h₀
    cases h₀
    have key : ∃ t, Pool.Exec J t₀ as t ∧ SameButStop s t := by
      clear hi
      induction h with
      | nil => exact ⟨t₀, .nil, E.stopped, rfl⟩
      | snoc _ hs ih =>
        obtain ⟨t, ht, hst⟩ := ih
        obtain ⟨t', h1, h2⟩ := hst.step hs
        exact ⟨t', ht.snoc h1, h2⟩
    obtain ⟨t, ht, b, rfl⟩ := key
    exact ⟨t₀, t, rfl, ht, rfl, rfl, rfl, rfl⟩

theorem Pool.Step.stopped_mono {J : Job R} {s s' : Pool R} {a : Action R} (h : Pool.Step J s a s')
    (hs : s.stopped = true) : s'.stopped = true := by
  cases h with
  | submit i hp hi hb => exact hs
  | submitFails i hp hb => exact hs
  | enqueue i rest hp hq => exact hs
  | start i rest hq hr => exact hs
  | finish i a b' hr => exact hs
  | crash hb => exact hs
  | observe i r a b' hp hf =>
    unfold Pool.handle
    cases r with
    | ok v => exact hs
    | error e =>
      dsimp only
      split
      · exact hs
      · rfl
  | finalise hp ho =>
    unfold Pool.finalise
    split <;> exact hs

/-- Once a failure has been handed to the caller (its task having an identifier), the stop event
is set, whatever happens afterwards. -/
theorem stopped_after_failure (J : Job R) {s₀ s : Pool R} {as : List (Action R)} {i : ℕ}
    {e : PyErr} (h : Pool.Exec J s₀ as s) (ho : .observe i (.error e) ∈ as)
    (hid : ∃ t, J.taskId i = .ok t) : s.stopped = true := by
  induction h with
  | nil => cases ho
  | snoc _ hs ih =>
    rw [List.mem_append, List.mem_singleton] at ho
    rcases ho with ho | rfl
    · exact hs.stopped_mono (ih ho)
    · obtain ⟨t, ht⟩ := hid
      cases hs with
      | observe _ _ a b hp hf =>
        unfold Pool.handle
        simp only [ht]

/-- **C79 is false of the code** (after a failure).  After any run in which a failure was handed to
the caller, the monitor of every later run on the same executor leaves its loop at once: it reads
no message and counts no task, whatever the tasks do. -/
theorem C79_after_failure_fails (J : Job R) {s₀ s : Pool R} {as : List (Action R)} {i : ℕ}
    {e : PyErr} (h : Pool.Exec J s₀ as s) (ho : .observe i (.error e) ∈ as)
    (hid : ∃ t, J.taskId i = .ok t) (E : Executor) (sent₁ : List ProgressMsg) (read : ℕ)
    (workers : ℤ) (total : ℕ) (sent : List ProgressMsg) (passes : List (Bool × List ProgressMsg))
    (hw : (E.after s sent₁ read).Watches sent passes) (hp : passes ≠ []) :
    (Monitor.init workers).loop total passes = .ok (Monitor.init workers, true) := by
  have hs : (E.after s sent₁ read).stopped = true := stopped_after_failure J h ho hid
  cases passes with
  | nil => exact absurd rfl hp
  | cons p ps =>
    have := hw.stays hs p (by simp)
    obtain ⟨stop, msgs⟩ := p
    simp only at this
    subst this
    simp [Monitor.loop]

/-- The event is not set by a run that returns. -/
theorem C79_not_stopped (J : Job R) {s₀ s : Pool R} {as : List (Action R)} {rs : List (Option R)}
    (h₀ : J.init = .ok s₀) (h : Pool.Exec J s₀ as s) (hr : s.phase = .returned rs) :
    s.stopped = false := by
  have key : ∀ {as : List (Action R)} {s : Pool R}, Pool.Exec J s₀ as s →
      s.stopped = false ∨ ∃ e, s.phase = .raised e := by
    intro as s h
    induction h with
    | nil =>
      left
      unfold Job.init at h₀
      split at h₀
      · cases h₀
      · split at h₀
        · cases h₀
        · cases h₀
          rfl
    | snoc _ hs ih =>
      cases hs with
      | submit i hp hi hb =>
        left
        rcases ih with ih | ⟨e, ih⟩
        · exact ih
        · rw [hp] at ih; cases ih
      | submitFails i hp hb => exact .inr ⟨_, rfl⟩
      | enqueue i rest hp hq => exact ih
      | start i rest hq hr => exact ih
      | finish i a b' hr => exact ih
      | crash hb => exact ih
      | observe i r a b' hp hf =>
        unfold Pool.handle
        cases r with
        | ok v =>
          rcases ih with ih | ⟨e, ih⟩
          · exact .inl ih
          · rw [hp] at ih; cases ih
        | error e =>
          dsimp only
          split
          · exact .inr ⟨_, rfl⟩
          · exact .inr ⟨_, rfl⟩
      | finalise hp ho =>
        left
        unfold Pool.finalise
        rcases ih with ih | ⟨e, ih⟩
        · split <;> exact ih
        · rw [hp] at ih; cases ih
  rcases key h with h1 | ⟨e, h1⟩
  · exact h1
  · rw [hr] at h1; cases h1

/-- One task named `"t"` that succeeds. -/
def oneJob : Job ℕ := ⟨1, 1, fun _ => .ok 5, fun _ => .ok "t"⟩

/-- The run of `oneJob`. -/
theorem oneJob_returns : ∃ s₀ as s, oneJob.init = .ok s₀ ∧ Pool.Exec oneJob s₀ as s ∧
    s.phase = .returned [some 5] := by
  exact ⟨_, [.submit 0, .enqueue 0, .start 0, .finish 0, .observe 0 (.ok 5), .finalise], _, rfl,
    (((((Pool.Exec.nil.snoc (.submit _ 0 rfl (by decide) rfl)).snoc (.enqueue _ 0 [] rfl
      (by decide))).snoc (.start _ 0 [] rfl (by decide))).snoc (.finish _ 0 [] [] rfl)).snoc
      (.observe _ 0 (.ok 5) [] [] rfl rfl)).snoc (.finalise _ rfl rfl), rfl⟩

/-- **C79 is false of the code** (after a success).  The caller terminates the monitor as soon as
it has the last result, so messages may stay on the queue.  Here the `"done"` of the only task of
a first, successful run is left over; the monitor of a second run with one task counts it and
leaves its loop before that task has sent anything. -/
theorem C79_stale_fails :
    ∃ (s₀ s : Pool ℕ) (as : List (Action ℕ)) (passes₁ passes₂ : List (Bool × List ProgressMsg))
      (m : Monitor),
      oneJob.init = .ok s₀ ∧ Pool.Exec oneJob s₀ as s ∧ s.phase = .returned [some 5] ∧
      Executor.fresh.Watches [("t", some 0), ("t", none)] passes₁ ∧
      (Executor.fresh.after s [("t", some 0), ("t", none)]
        (passes₁.flatMap Prod.snd).length).Watches [] passes₂ ∧
      (Monitor.init 1).loop 1 passes₂ = .ok (m, true) ∧ m.finished = 1 := by
  obtain ⟨s₀, as, s, h1, h2, h3⟩ := oneJob_returns
  have hs := C79_not_stopped oneJob h1 h2 h3
  refine ⟨s₀, s, as, [(false, [("t", some 0)])], [(false, [("t", none)]), (false, [])],
    ⟨[], [1], 1, 1⟩, h1, h2, h3, ⟨by decide, by simp [Executor.fresh]⟩, ⟨?_, ?_⟩, rfl, rfl⟩
  · simp [Executor.after, Executor.fresh]
  · simp [Executor.after, hs]

/-- The runs made so far on an executor that was new once: all messages put on its queue and all
messages its monitors have read, oldest first. -/
inductive History (R : Type) : Executor → List ProgressMsg → List ProgressMsg → Prop
  | start : History R Executor.fresh [] []
  | run {E : Executor} {sent seen : List ProgressMsg} (h : History R E sent seen) (s : Pool R)
      (new : List ProgressMsg) (passes : List (Bool × List ProgressMsg))
      (hw : E.Watches new passes) :
      History R (E.after s new (passes.flatMap Prod.snd).length) (sent ++ new)
        (seen ++ passes.flatMap Prod.snd)

/-- **C79, the queue.** Over any number of runs on one executor no message is lost, duplicated or
reordered: the messages sent so far are those read so far followed by those still queued.  In
particular every message that one run leaves unread is read before the messages of later runs. -/
theorem C79_nothing_lost {R : Type} {E : Executor} {sent seen : List ProgressMsg}
    (h : History R E sent seen) : sent = seen ++ E.queue := by
  induction h with
  | start => rfl
  | @run E sent seen h s new passes hw ih =>
    obtain ⟨rest, hrest⟩ := hw.fifo
    have : (E.queue ++ new).drop (passes.flatMap Prod.snd).length = rest := by
      rw [← hrest, List.drop_left]
    show _ = _ ++ (E.queue ++ new).drop _
    rw [this, ih, List.append_assoc, List.append_assoc, hrest]

/-- Three runs whose monitors read nothing, one message, and the rest. -/
example (s : Pool ℕ) : ∃ E, History ℕ E [("a", some 0), ("a", none), ("b", some 0), ("c", none)]
    [("a", some 0), ("a", none), ("b", some 0)] ∧ E.queue = [("c", none)] :=
  ⟨_, .run (.run (.run .start { s with stopped := false } [("a", some 0), ("a", none)]
      [(false, [])] ⟨⟨_, rfl⟩, by simp [Executor.fresh]⟩) { s with stopped := true } [("b", some 0)]
      [(false, [("a", some 0)])] ⟨⟨_, rfl⟩, by simp [Executor.after]⟩) s [("c", none)]
      [(true, [("a", none)]), (true, [("b", some 0)])] ⟨⟨_, rfl⟩, by simp⟩, rfl⟩

/-- **C79** (what holds for the monitor).  After a run on a new executor that returned, with all
messages read, the executor is as new: nothing distinguishes it from one just constructed.

Partial: after a failure, or if messages were left on the queue, it is not. -/
theorem C79_clean_partial (J : Job R) {s₀ s : Pool R} {as : List (Action R)}
    {rs : List (Option R)} (h₀ : J.initOn Executor.fresh = .ok s₀) (h : Pool.Exec J s₀ as s)
    (hr : s.phase = .returned rs) (sent : List ProgressMsg)
    (passes : List (Bool × List ProgressMsg)) (hall : passes.flatMap Prod.snd = sent) :
    Executor.fresh.after s sent (passes.flatMap Prod.snd).length = Executor.fresh := by
  have h₀' : J.init = .ok s₀ := by
    unfold Job.initOn at h₀
    cases hi : J.init with
    | error e => rw [hi] at h₀; cases h₀
    | ok t =>
      rw [hi] at h₀
      cases h₀
      have : t.stopped = false := by
        unfold Job.init at hi
        split at hi
        · cases hi
        · split at hi
          · cases hi
          · cases hi
            rfl
      cases t
      simp only at this
      subst this
      rfl
  have hs := C79_not_stopped J h₀' h hr
  unfold Executor.after
  rw [hs, hall]
  simp [Executor.fresh]

/-- The hypotheses of `C79_clean_partial` and of `C79_after_failure_fails` hold in concrete
runs. -/
example : (∃ s₀ as s rs, oneJob.initOn Executor.fresh = .ok s₀ ∧ Pool.Exec oneJob s₀ as s ∧
      s.phase = .returned rs) ∧
    Executor.fresh.Watches [("t", some 0), ("t", none)]
      [(false, [("t", some 0), ("t", none)])] ∧
    (∃ s, Pool.Exec failJob failStart failActions s) ∧
    .observe 1 (.error .valueError) ∈ failActions := by
  obtain ⟨s₀, as, s, h1, h2, h3⟩ := oneJob_returns
  refine ⟨⟨s₀, as, s, _, ?_, h2, h3⟩, ⟨by decide, by simp [Executor.fresh]⟩, ?_, by
    simp [failActions]⟩
  · rw [← h1]
    rfl
  · obtain ⟨_, s, h1, _⟩ := failJob_exec
    exact ⟨s, h1⟩

/-! ## C80 -/

section
variable {K F : Type} [Zero K] [One K] [Add K] [Sub K] [Mul K] [Div K] [NatCast K] [IntCast K]
  [Min K] [Max K] [NumLits K] [DecidableEq K]

/-- **C80.**  Two runs of one `AnalyticalSolver` -- with any interleavings of the workers and
whatever their uninitialised memory contains -- return the same: the particles and the
integrator in the calling process are not touched, the workers change copies. -/
theorem C80_run_again (env : Env K F) (hsp : env.sp.Respects) (S : ApiSolver K F) (kind : Kind)
    (hk : S.integ = Integ.fresh kind) {d : ℕ} (hI : S.interp.Fills d) (hC : S.interp.Complete d)
    {n : ℕ} (hp : S.particles.positions.shape = [n, d]) (mem mem' : ℕ → List ℕ → K)
    {s₀ s s₀' s' : HostState (Shared K) (Option (List F) × List (Event K F))}
    {as as' : List (Action (Option (List F) × List (Event K F)))}
    {rs rs' : List (Option (Option (List F) × List (Event K F)))}
    (h₀ : (S.host env).init mem = .ok s₀) (h : HostState.Exec (S.host env) mem s₀ as s)
    (hr : s.pool.phase = .returned rs)
    (h₀' : (S.host env).init mem' = .ok s₀') (h' : HostState.Exec (S.host env) mem' s₀' as' s')
    (hr' : s'.pool.phase = .returned rs') :
    s.object = s₀'.object ∧ rs = rs' ∧ S.outcome s = S.outcome s' := by
  have hh : S.host env = Shared.host env S.writer S.processes
      ⟨S.shared.tasks, S.interp, Integ.fresh kind⟩ := by rw [← hk]; rfl
  have hobj : ∀ {mem : ℕ → List ℕ → K}
      {s₀ s : HostState (Shared K) (Option (List F) × List (Event K F))} {as},
      (S.host env).init mem = .ok s₀ → HostState.Exec (S.host env) mem s₀ as s →
      s.object = S.shared := by
    intro mem s₀ s as h₀ h
    induction h with
    | nil =>
      unfold Host.init at h₀
      split at h₀
      · cases h₀
      · cases h₀
        rfl
    | snoc _ hs ih =>
      cases hs with
      | start => exact ih
      | finish => exact ih
      | other => exact ih
  have hs₀' := hobj h₀' .nil
  have hs := hobj h₀ h
  rw [hh] at h₀ h h₀' h'
  have hshape : ∀ src ∈ S.shared.tasks, ∀ p, src.getParticles env.fs = .ok p →
      ∃ n, p.positions.shape = [n, d] := by
    intro src hsrc p hgp
    obtain ⟨b, hb, rfl⟩ := List.mem_map.1 hsrc
    obtain ⟨i, -, rfl⟩ := List.mem_map.1 hb
    cases hgp
    exact ⟨n, hp⟩
  obtain ⟨h1, h2⟩ := C51_fresh_solver env hsp S.writer S.shared.tasks S.interp kind S.processes mem
    hI (fun _ _ => hC) hshape h₀ h hr
  obtain ⟨h1', h2'⟩ := C51_fresh_solver env hsp S.writer S.shared.tasks S.interp kind S.processes
    mem' hI (fun _ _ => hC) hshape h₀' h' hr'
  have hrs : rs = rs' := by
    apply List.ext_getElem?
    intro i
    rcases Nat.lt_or_ge i S.shared.tasks.length with hi | hi
    · obtain ⟨r, g1, g2⟩ := h2 i _ (List.getElem?_eq_getElem hi)
      obtain ⟨r', g1', g2'⟩ := h2' i _ (List.getElem?_eq_getElem hi)
      rw [g2] at g2'
      cases g2'
      rw [g1, g1']
    · rw [List.getElem?_eq_none (by omega), List.getElem?_eq_none (by omega)]
  refine ⟨hs.trans hs₀'.symm, hrs, ?_⟩
  simp only [ApiSolver.outcome, hr, hr', hrs]

end

end Verif
