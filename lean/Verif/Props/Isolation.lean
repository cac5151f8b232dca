import Verif.Lemmas.Workers
import Verif.Props.Pool
import Verif.Props.Memory
import Verif.Props.Batches

/-!
# C51 (isolation of tasks) and C44 (infeasible periods, whole run)
-/

set_option linter.unusedSectionVars false

namespace Verif

section
variable {K F : Type} [Zero K] [One K] [Add K] [Sub K] [Mul K] [Div K] [NatCast K] [IntCast K]
  [Min K] [Max K] [NumLits K] [DecidableEq K]

/-- A run of task `src` alone by a freshly constructed solver, in surroundings `env`. -/
def aloneRun (env : Env K F) (writer : Option (WriteFn K F)) (src : Source K) (I : AnyInterp K)
    (k : Kind) : RunOut K F :=
  (⟨src, I, Integ.fresh k⟩ : Solver K).run env true writer

theorem Shared.job_outcome (env : Env K F) (writer : Option (WriteFn K F))
    (tasks : List (Source K)) (I : AnyInterp K) (k : Kind) (workers : ℤ) (mem : ℕ → List ℕ → K)
    (i : ℕ) :
    ((Shared.host env writer workers ⟨tasks, I, Integ.fresh k⟩).job mem).outcome i =
      match tasks[i]? with
      | none => .error .indexError
      | some src =>
        match (aloneRun { env with junk := mem i } writer src I k).result with
        | .error e => .error e
        | .ok r => .ok (r, (aloneRun { env with junk := mem i } writer src I k).trace) := by
  show (Shared.worker env writer i (mem i) ⟨tasks, I, Integ.fresh k⟩).2 = _
  unfold Shared.worker aloneRun
  cases h : tasks[i]? with
  | none => rfl
  | some src =>
    simp only
    cases ((⟨src, I, Integ.fresh k⟩ : Solver K).run { env with junk := mem i } true
      writer).result <;> rfl

/-- **C51.**  Whatever the number of workers, the other tasks and the interleaving: entry `i` of
the returned list is what a freshly constructed solver computes for task `i` alone (on a
machine whose uninitialised memory holds what task `i` found), with the same effects. -/
theorem C51_isolated (env : Env K F) (writer : Option (WriteFn K F)) (tasks : List (Source K))
    (I : AnyInterp K) (k : Kind) (workers : ℤ) (mem : ℕ → List ℕ → K)
    {s₀ s : HostState (Shared K) (Option (List F) × List (Event K F))}
    {as : List (Action (Option (List F) × List (Event K F)))}
    {rs : List (Option (Option (List F) × List (Event K F)))}
    (h₀ : (Shared.host env writer workers ⟨tasks, I, Integ.fresh k⟩).init mem = .ok s₀)
    (h : HostState.Exec (Shared.host env writer workers ⟨tasks, I, Integ.fresh k⟩) mem s₀ as s)
    (hr : s.pool.phase = .returned rs) :
    rs.length = tasks.length ∧ ∀ (i : ℕ) src, tasks[i]? = some src →
      ∃ r, rs[i]? = some (some (r, (aloneRun { env with junk := mem i } writer src I k).trace)) ∧
        (aloneRun { env with junk := mem i } writer src I k).result = .ok r := by
  obtain ⟨he, _⟩ := h.refines h₀
  obtain ⟨h1, h2⟩ := C48_task_order _ (Host.init_ok h₀).1 he hr
  refine ⟨h1, fun i src hi => ?_⟩
  obtain ⟨v, hv, hvr⟩ := h2 i (List.getElem?_eq_some_iff.1 hi).1
  rw [Shared.job_outcome, hi] at hv
  simp only at hv
  cases hres : (aloneRun { env with junk := mem i } writer src I k).result with
  | error e => rw [hres] at hv; cases hv
  | ok r =>
    rw [hres] at hv
    cases hv
    exact ⟨r, hvr, rfl⟩

/-- **C51** (memory included).  With the hypotheses of C70 the entry does not depend on the
contents of uninitialised memory either: it is what a fresh solver computes for the task alone,
anywhere. -/
theorem C51_fresh_solver (env : Env K F) (hsp : env.sp.Respects)
    (writer : Option (WriteFn K F)) (tasks : List (Source K))
    (I : AnyInterp K) (k : Kind) (workers : ℤ) (mem : ℕ → List ℕ → K) {d : ℕ} (hI : I.Fills d)
    (hA : ∀ s, .analytical s ∈ tasks → I.Complete d)
    (hp : ∀ src ∈ tasks, ∀ p, src.getParticles env.fs = .ok p → ∃ n, p.positions.shape = [n, d])
    {s₀ s : HostState (Shared K) (Option (List F) × List (Event K F))}
    {as : List (Action (Option (List F) × List (Event K F)))}
    {rs : List (Option (Option (List F) × List (Event K F)))}
    (h₀ : (Shared.host env writer workers ⟨tasks, I, Integ.fresh k⟩).init mem = .ok s₀)
    (h : HostState.Exec (Shared.host env writer workers ⟨tasks, I, Integ.fresh k⟩) mem s₀ as s)
    (hr : s.pool.phase = .returned rs) :
    rs.length = tasks.length ∧ ∀ (i : ℕ) src, tasks[i]? = some src →
      ∃ r, rs[i]? = some (some (r, (aloneRun env writer src I k).trace)) ∧
        (aloneRun env writer src I k).result = .ok r := by
  obtain ⟨h1, h2⟩ := C51_isolated env writer tasks I k workers mem h₀ h hr
  refine ⟨h1, fun i src hi => ?_⟩
  obtain ⟨r, h3, h4⟩ := h2 i src hi
  have hm := List.mem_of_getElem? hi
  have key : (aloneRun env writer src I k).result =
        (aloneRun { env with junk := mem i } writer src I k).result ∧
      (aloneRun env writer src I k).trace =
        (aloneRun { env with junk := mem i } writer src I k).trace := by
    cases hgp : src.getParticles env.fs with
    | error e =>
      unfold aloneRun Solver.run
      simp only [hgp]
      exact ⟨trivial, trivial⟩
    | ok p =>
      obtain ⟨n, hn⟩ := hp src hm p hgp
      exact C70_deterministic_partial env hsp (mem i) true writer src I k hI
        (fun s hs => hA s (hs ▸ hm)) (n := n)
        (fun p' hp' => by rw [hgp] at hp'; cases hp'; exact hn)
  exact ⟨r, by rw [key.2]; exact h3, by rw [key.1]; exact h4⟩

/-- **C51** (failures).  If the caller gets an exception, no worker having died and identifiers
being computable, it is the one a fresh solver raises for some task alone. -/
theorem C51_isolated_failure (env : Env K F) (writer : Option (WriteFn K F))
    (tasks : List (Source K)) (I : AnyInterp K) (k : Kind) (workers : ℤ) (mem : ℕ → List ℕ → K)
    {s₀ s : HostState (Shared K) (Option (List F) × List (Event K F))}
    {as : List (Action (Option (List F) × List (Event K F)))} {e : PyErr}
    (hid : ∀ src ∈ tasks, ∃ t, src.id env = .ok t)
    (h₀ : (Shared.host env writer workers ⟨tasks, I, Integ.fresh k⟩).init mem = .ok s₀)
    (h : HostState.Exec (Shared.host env writer workers ⟨tasks, I, Integ.fresh k⟩) mem s₀ as s)
    (hc : .crash ∉ as) (hr : s.pool.phase = .raised e) :
    ∃ i src, tasks[i]? = some src ∧
      (aloneRun { env with junk := mem i } writer src I k).result = .error e := by
  obtain ⟨he, _⟩ := h.refines h₀
  obtain ⟨pre, i, hi, -, -, ho⟩ := C49_first_observed _ (Host.init_ok h₀).1 he (fun i hi => by
    obtain ⟨t, ht⟩ := hid tasks[i] (List.getElem_mem hi)
    refine ⟨t, ?_⟩
    simp only [Host.job, Shared.host]
    rw [List.getElem?_eq_getElem hi]
    exact ht) hc hr
  obtain ⟨src, hsrc⟩ : ∃ src, tasks[i]? = some src := ⟨_, List.getElem?_eq_getElem hi⟩
  refine ⟨i, src, hsrc, ?_⟩
  rw [Shared.job_outcome, hsrc] at ho
  simp only at ho
  cases hres : (aloneRun { env with junk := mem i } writer src I k).result with
  | error e => rw [hres] at ho; cases ho; rfl
  | ok r => rw [hres] at ho; cases ho

/-- **C51** (liveness).  If the run of every task alone succeeds, every execution without the
death of a worker can be continued until the list is returned. -/
theorem C51_returns (env : Env K F) (writer : Option (WriteFn K F))
    (tasks : List (Source K)) (I : AnyInterp K) (k : Kind) (workers : ℤ) (mem : ℕ → List ℕ → K)
    {s₀ s : HostState (Shared K) (Option (List F) × List (Event K F))}
    {as : List (Action (Option (List F) × List (Event K F)))}
    (hok : ∀ (i : ℕ) src, tasks[i]? = some src →
      ∃ r, (aloneRun { env with junk := mem i } writer src I k).result = .ok r)
    (h₀ : (Shared.host env writer workers ⟨tasks, I, Integ.fresh k⟩).init mem = .ok s₀)
    (h : HostState.Exec (Shared.host env writer workers ⟨tasks, I, Integ.fresh k⟩) mem s₀ as s)
    (hc : .crash ∉ as) :
    ∃ bs s' rs, HostState.Exec (Shared.host env writer workers ⟨tasks, I, Integ.fresh k⟩) mem s₀
      (as ++ bs) s' ∧ s'.pool.phase = .returned rs := by
  obtain ⟨he, _⟩ := h.refines h₀
  obtain ⟨bs, p, rs, hx, hp, -⟩ := C48_returns _ (Host.init_ok h₀).1 he (fun i hi => by
    obtain ⟨src, hsrc⟩ : ∃ src, tasks[i]? = some src := ⟨_, List.getElem?_eq_getElem hi⟩
    obtain ⟨r, hr⟩ := hok i src hsrc
    rw [Shared.job_outcome, hsrc]
    simp only [hr]
    exact ⟨_, rfl⟩) hc
  obtain ⟨s', hs', rfl⟩ := HostState.Exec.lift h₀ hx
  exact ⟨bs, s', rs, hs', hp⟩

/-- Two analytical tasks on three workers: the hypotheses of `C51_returns` and
`C51_fresh_solver` hold. -/
example : (∃ s₀, (Shared.host (F := ℚ) exEnv none 3 ⟨[.analytical exSource, .analytical exSource],
      .analytical (.fresh (some exUnsteady)), Integ.fresh .rk4⟩).init (fun _ _ => 5) = .ok s₀) ∧
    ∀ (i : ℕ) src, [Source.analytical exSource, .analytical exSource][i]? = some src →
      ∃ r, (aloneRun { exEnv with junk := fun _ => 5 } none src
        (.analytical (.fresh (some exUnsteady))) .rk4).result = .ok r := by
  refine ⟨⟨_, rfl⟩, fun i src hi => ?_⟩
  have : src = .analytical exSource := by
    have := List.mem_of_getElem? hi
    simpa using this
  subst this
  have hb : (aloneRun { exEnv with junk := fun _ => 5 } none (.analytical exSource)
      (.analytical (.fresh (some exUnsteady))) .rk4).result.toBool = true := by decide +kernel
  revert hb
  cases (aloneRun { exEnv with junk := fun _ => 5 } none (.analytical exSource)
    (.analytical (.fresh (some exUnsteady))) .rk4).result with
  | error e => simp [Except.toBool]
  | ok r => exact fun _ => ⟨r, rfl⟩

end

/-! ## C44 -/

section
variable {K F : Type} [Zero K] [One K] [Add K] [Sub K] [Mul K] [Div K] [NatCast K] [IntCast K]
  [Min K] [Max K] [NumLits K] [DecidableEq K]

/-- **C44.**  If the period needs fewer than one or more than all snapshots, the run raises
before the pool exists: there is no initial state, so no task is ever started. -/
theorem C44_infeasible (env : Env K F) (writer : Option (WriteFn K F)) (M : Manager K) (p : ℤ)
    (hp : p < 1 ∨ (M.snapshotFiles.length : ℤ) < p) (I : AnyInterp K) (G : Integ K) (workers : ℤ)
    (mem : ℕ → List ℕ → K) :
    M.start env writer p I G workers mem = .error .valueError ∨
      M.start env writer p I G workers mem = .error .indexError := by
  unfold Manager.start
  rcases hp with hp | hp
  · rcases C44_not_positive env.stem M p hp with h | h <;> rw [h]
    · exact .inl rfl
    · exact .inr rfl
  · rw [C44_too_long env.stem M p hp]
    exact .inr rfl

/-- Conversely a feasible period with files and at least one worker starts the pool. -/
theorem C44_feasible (env : Env K F) (writer : Option (WriteFn K F)) (M : Manager K) (p : ℕ)
    (hp : 1 ≤ p) (hn : p ≤ M.snapshotFiles.length) (hc : M.coordinateFiles ≠ [])
    (hq : M.particleFiles ≠ []) (I : AnyInterp K) (G : Integ K) (workers : ℤ) (hw : 1 ≤ workers)
    (mem : ℕ → List ℕ → K) : ∃ s, M.start env writer p I G workers mem = .ok s := by
  obtain ⟨tasks, ht, hl, _⟩ := C43_windows env.stem M p hp hn hc hq
  unfold Manager.start
  rw [ht]
  unfold Host.init Job.init Host.job Shared.host
  simp only [List.length_map, hl]
  rw [if_neg (by omega), if_neg (by omega)]
  exact ⟨_, rfl⟩

example := C44_infeasible (F := ℚ) exEnv none (⟨["a", "b"], ["c"], ["p"], 1⟩ : Manager ℚ) 3
  (by simp) (.analytical (.fresh none)) (Integ.fresh .rk4) 2 (fun _ _ => 0)

end

end Verif
