import Verif.Lemmas.PoolTrace
import Verif.Model.Main

/-!
# Properties C48–C50, C53, C68, C69: the process pool

The specification looks only at the actions of an execution (`Spec/Schedule.lean`) and at the
phase of the caller.  Every theorem holds for all interleavings, including executions in which
a worker process dies (`Action.crash`) unless this is excluded explicitly.
-/

namespace Verif

variable {R : Type}

/-! ## C48: results in task order -/

/-- **C48** (safety): whatever the interleaving, a list that is returned has one entry per task
and the entry of task `i` is what task `i` returned. -/
theorem C48_task_order (J : Job R) {s₀ s : Pool R} {as : List (Action R)} {rs : List (Option R)}
    (h₀ : J.init = .ok s₀) (h : Pool.Exec J s₀ as s) (hr : s.phase = .returned rs) :
    rs.length = J.n ∧ ∀ i < J.n, ∃ v, J.outcome i = .ok v ∧ rs[i]? = some (some v) := by
  obtain ⟨k, hk⟩ := h.inv h₀
  obtain ⟨h1, rfl, h3⟩ := hk.ret rs hr
  refine ⟨hk.len, fun i hi => ?_⟩
  exact (hk.good (by rw [hr]; trivial)).2.2 i (hk.all_observed h1 h3 hi)

/-- If every task succeeds and no worker dies, no exception is raised. -/
theorem C48_no_exception (J : Job R) {s₀ s : Pool R} {as : List (Action R)}
    (h₀ : J.init = .ok s₀) (h : Pool.Exec J s₀ as s) (hok : ∀ i < J.n, ∃ v, J.outcome i = .ok v)
    (hc : .crash ∉ as) (e : PyErr) : s.phase ≠ .raised e := by
  intro he
  obtain ⟨k, _, ht⟩ := h.traceInv h₀
  rcases ht.err e he with ⟨_, i, e₀, h1, _, _, h4 | h4⟩ | h4
  · obtain ⟨v, hv⟩ := hok i (h.observed_lt h₀ (i, .error e₀) (by rw [h1]; simp))
    rw [hv] at h4
    cases h4
  · exact hc h4.1
  · exact hc h4.1

/-- Every execution can be continued, without the death of a worker, until the caller has
left the function. -/
theorem Pool.Exec.complete {J : Job R} {s₀ : Pool R} (h₀ : J.init = .ok s₀) :
    ∀ (m : ℕ) {s : Pool R} {as : List (Action R)}, Pool.Exec J s₀ as s → s.work J ≤ m →
      ∃ bs s', .crash ∉ bs ∧ Pool.Exec J s₀ (as ++ bs) s' ∧ ¬ s'.phase.active := by
  intro m
  induction m with
  | zero =>
    intro s as h hm
    refine ⟨[], s, by simp, by simpa using h, ?_⟩
    intro ha
    obtain ⟨k, hk⟩ := h.inv h₀
    obtain ⟨a, s', _, hs⟩ := hk.progress (Job.init_workers h₀) ha
    have := hs.work_lt
    omega
  | succ m ih =>
    intro s as h hm
    by_cases ha : s.phase.active
    · obtain ⟨k, hk⟩ := h.inv h₀
      obtain ⟨a, s', hne, hs⟩ := hk.progress (Job.init_workers h₀) ha
      have := hs.work_lt
      obtain ⟨bs, s'', h1, h2, h3⟩ := ih (h.snoc hs) (by omega)
      refine ⟨a :: bs, s'', ?_, ?_, h3⟩
      · intro hm
        rcases List.mem_cons.1 hm with hm | hm
        · exact hne hm.symm
        · exact h1 hm
      · simpa using h2
    · exact ⟨[], s, by simp, by simpa using h, ha⟩

/-- **C48** (liveness): if every task succeeds, every crash-free execution can be continued
to one in which the results have been returned, in task order. -/
theorem C48_returns (J : Job R) {s₀ s : Pool R} {as : List (Action R)}
    (h₀ : J.init = .ok s₀) (h : Pool.Exec J s₀ as s) (hok : ∀ i < J.n, ∃ v, J.outcome i = .ok v)
    (hc : .crash ∉ as) :
    ∃ bs s' rs, Pool.Exec J s₀ (as ++ bs) s' ∧ s'.phase = .returned rs ∧ rs.length = J.n ∧
      ∀ i < J.n, ∃ v, J.outcome i = .ok v ∧ rs[i]? = some (some v) := by
  obtain ⟨bs, s', h1, h2, h3⟩ := Pool.Exec.complete h₀ _ h le_rfl
  have hc' : Action.crash ∉ as ++ bs := by simp [hc, h1]
  cases hp : s'.phase with
  | submitting i => rw [hp] at h3; exact (h3 trivial).elim
  | collecting => rw [hp] at h3; exact (h3 trivial).elim
  | raised e => exact (C48_no_exception J h₀ h2 hok hc' e hp).elim
  | returned rs =>
    exact ⟨bs, s', rs, h2, hp, C48_task_order J h₀ h2 hp⟩

/-- Three tasks on two workers, all succeeding. -/
def okJob : Job ℕ := ⟨3, 2, fun i => .ok (10 * i), fun _ => .ok "t"⟩

example : (∃ s₀, okJob.init = .ok s₀) ∧ ∀ i < okJob.n, ∃ v, okJob.outcome i = .ok v :=
  ⟨⟨_, rfl⟩, fun i _ => ⟨10 * i, rfl⟩⟩

/-! ## C49: a failing task surfaces -/

/-- **C49**: if some task fails, the executor never returns normally. -/
theorem C49_never_returns (J : Job R) {s₀ s : Pool R} {as : List (Action R)} {i : ℕ} {e : PyErr}
    (h₀ : J.init = .ok s₀) (h : Pool.Exec J s₀ as s) (hi : i < J.n) (he : J.outcome i = .error e)
    (rs : List (Option R)) : s.phase ≠ .returned rs := by
  intro hr
  obtain ⟨v, hv, _⟩ := (C48_task_order J h₀ h hr).2 i hi
  rw [he] at hv
  cases hv

/-- **C49**: if some task fails, every execution can be continued until an exception is raised
(and every complete execution raises). -/
theorem C49_raises (J : Job R) {s₀ s : Pool R} {as : List (Action R)} {i : ℕ} {e : PyErr}
    (h₀ : J.init = .ok s₀) (h : Pool.Exec J s₀ as s) (hi : i < J.n)
    (he : J.outcome i = .error e) :
    (∃ bs s' e', Pool.Exec J s₀ (as ++ bs) s' ∧ s'.phase = .raised e') ∧
      ((∀ a s', ¬ Pool.Step J s a s') → ∃ e', s.phase = .raised e') := by
  have key : ∀ {as : List (Action R)} {s : Pool R}, Pool.Exec J s₀ as s → ¬ s.phase.active →
      ∃ e', s.phase = .raised e' := by
    intro as s h ha
    cases hp : s.phase with
    | submitting i => rw [hp] at ha; exact (ha trivial).elim
    | collecting => rw [hp] at ha; exact (ha trivial).elim
    | raised e => exact ⟨e, rfl⟩
    | returned rs => exact (C49_never_returns J h₀ h hi he rs hp).elim
  constructor
  · obtain ⟨bs, s', _, h2, h3⟩ := Pool.Exec.complete h₀ _ h le_rfl
    obtain ⟨e', he'⟩ := key h2 h3
    exact ⟨bs, s', e', h2, he'⟩
  · intro hstuck
    refine key h fun ha => ?_
    obtain ⟨k, hk⟩ := h.inv h₀
    obtain ⟨a, s', _, hs⟩ := hk.progress (Job.init_workers h₀) ha
    exact hstuck a s' hs

/-- **C49**: in an execution in which no worker dies, the exception raised is the one of the
first failed task handed to the caller; everything handed over before was a success.  The
identifier of every task can be computed. -/
theorem C49_first_observed (J : Job R) {s₀ s : Pool R} {as : List (Action R)} {e : PyErr}
    (h₀ : J.init = .ok s₀) (h : Pool.Exec J s₀ as s)
    (hid : ∀ i < J.n, ∃ t, J.taskId i = .ok t)
    (hc : .crash ∉ as) (hr : s.phase = .raised e) :
    ∃ pre i, i < J.n ∧ observations as = pre ++ [(i, .error e)] ∧
      (∀ x ∈ pre, ∃ v, x.2 = .ok v) ∧ J.outcome i = .error e := by
  obtain ⟨k, _, ht⟩ := h.traceInv h₀
  rcases ht.err e hr with ⟨pre, i, e₀, h1, h2, h3, h4⟩ | h4
  · have hlt : i < J.n := h.observed_lt h₀ (i, .error e₀) (by rw [h1]; simp)
    obtain ⟨t, hti⟩ := hid i hlt
    rw [hti] at h3
    simp only at h3
    subst h3
    rcases h4 with h4 | h4
    · exact ⟨pre, i, hlt, h1, h2, h4⟩
    · exact (hc h4.1).elim
  · exact (hc h4.1).elim

/-- Three tasks of which the middle one fails. -/
def failJob : Job ℕ :=
  ⟨3, 2, fun i => if i = 1 then .error .valueError else .ok i, fun _ => .ok "t"⟩

/-- The state in which the tasks of `failJob` are submitted. -/
def failStart : Pool ℕ :=
  ⟨.submitting 0, [], [], [], [], [], [], false, [none, none, none], [], false, false⟩

/-- Task 1 fails while task 0 is running; the caller sees the failure first. -/
def failActions : List (Action ℕ) :=
  [.submit 0, .submit 1, .submit 2, .enqueue 0, .start 0, .enqueue 1, .start 1,
    .enqueue 2, .finish 1, .observe 1 (.error .valueError)]

theorem failJob_exec : failJob.init = .ok failStart ∧ ∃ s, Pool.Exec failJob failStart failActions s ∧
    s.phase = .raised .valueError ∧ s.running = [0] ∧ s.queued = [2] := by
  refine ⟨rfl, ?_⟩
  have h := (Pool.Exec.nil (J := failJob) (s₀ := failStart)).snoc (.submit _ 0 rfl (by decide) rfl)
  have h := h.snoc (.submit _ 1 rfl (by decide) rfl)
  have h := h.snoc (.submit _ 2 rfl (by decide) rfl)
  have h := h.snoc (.enqueue _ 0 [1, 2] rfl (by decide))
  have h := h.snoc (.start _ 0 [] rfl (by decide))
  have h := h.snoc (.enqueue _ 1 [2] rfl (by decide))
  have h := h.snoc (.start _ 1 [] rfl (by decide))
  have h := h.snoc (.enqueue _ 2 [] rfl (by decide))
  have h := h.snoc (.finish _ 1 [] [0] rfl)
  have h := h.snoc (.observe _ 1 _ [] [] rfl rfl)
  exact ⟨_, h, rfl, rfl, rfl⟩

/-! ## C50: scheduling -/

/-- **C50**: no task is started twice. -/
theorem C50_started_once (J : Job R) {s₀ s : Pool R} {as : List (Action R)}
    (h₀ : J.init = .ok s₀) (h : Pool.Exec J s₀ as s) :
    (starts as).Nodup ∧ ∀ i ∈ starts as, i < J.n := by
  obtain ⟨k, hk, ht⟩ := h.traceInv h₀
  constructor
  · refine List.nodup_iff_count_le_one.2 fun i => ?_
    have := ht.once i
    omega
  · intro i hi
    have := ht.once i
    have h1 := List.count_pos_iff.2 hi
    have := hk.le
    split at * <;> omega

/-- **C50**: at no time are more than `n_processes` tasks in progress. -/
theorem C50_at_most_workers (J : Job R) {s₀ s : Pool R} {as : List (Action R)}
    (h₀ : J.init = .ok s₀) (h : Pool.Exec J s₀ as s) :
    ((inProgress as).length : ℤ) ≤ J.workers := by
  obtain ⟨k, _, ht⟩ := h.traceInv h₀
  exact ht.few

/-- **C50**: as long as the caller has neither returned nor raised, some action is possible,
and not only the death of a worker. -/
theorem C50_progress (J : Job R) {s₀ s : Pool R} {as : List (Action R)}
    (h₀ : J.init = .ok s₀) (h : Pool.Exec J s₀ as s)
    (ha : ∀ rs e, s.phase ≠ .returned rs ∧ s.phase ≠ .raised e) :
    ∃ a s', a ≠ .crash ∧ Pool.Step J s a s' := by
  obtain ⟨k, hk⟩ := h.inv h₀
  refine hk.progress (Job.init_workers h₀) ?_
  cases hp : s.phase with
  | submitting i => trivial
  | collecting => trivial
  | returned rs => exact ((ha rs .valueError).1 hp).elim
  | raised e => exact ((ha [] e).2 hp).elim

/-- **C50**: every execution is finite; the bound is linear in the number of tasks. -/
theorem C50_finite (J : Job R) {s₀ s : Pool R} {as : List (Action R)}
    (h₀ : J.init = .ok s₀) (h : Pool.Exec J s₀ as s) : as.length ≤ 5 * J.n + 2 := by
  have hw := h.work_le
  have : s₀.work J = 5 * J.n + 2 := by
    unfold Job.init at h₀
    split at h₀
    · cases h₀
    · split at h₀
      · cases h₀
      · cases h₀
        simp [Pool.work]
  omega

example : failJob.init = .ok failStart ∧ (∃ s, Pool.Exec failJob failStart failActions s) ∧
    starts failActions = [0, 1] ∧ inProgress failActions = [0] :=
  ⟨rfl, ⟨_, failJob_exec.2.choose_spec.1⟩, rfl, rfl⟩

/-- **C50**: also after an exception the workers run dry: as long as a task has been submitted
and is neither finished nor cancelled, some action of the pool is possible (so the wait in
`__exit__` ends). -/
theorem C50_drains (J : Job R) {s₀ s : Pool R} {as : List (Action R)}
    (h₀ : J.init = .ok s₀) (h : Pool.Exec J s₀ as s) :
    ∃ bs s', .crash ∉ bs ∧ Pool.Exec J s₀ (as ++ bs) s' ∧ s'.pending = [] ∧ s'.queued = [] ∧
      s'.running = [] := by
  suffices ∀ (m : ℕ) {s : Pool R} {as : List (Action R)}, Pool.Exec J s₀ as s → s.work J ≤ m →
      ∃ bs s', .crash ∉ bs ∧ Pool.Exec J s₀ (as ++ bs) s' ∧ s'.pending = [] ∧ s'.queued = [] ∧
        s'.running = [] from this _ h le_rfl
  have hw := Job.init_workers h₀
  have key : ∀ s : Pool R, (s.pending = [] ∧ s.queued = [] ∧ s.running = []) ∨
      ∃ a s', a ≠ .crash ∧ Pool.Step J s a s' := by
    intro s
    cases hr : s.running with
    | cons i rest => exact .inr ⟨_, _, by simp, .finish s i [] rest hr⟩
    | nil =>
      cases hq : s.queued with
      | cons i rest => exact .inr ⟨_, _, by simp, .start s i rest hq (by rw [hr]; simpa using hw)⟩
      | nil =>
        cases hp : s.pending with
        | cons i rest =>
          exact .inr ⟨_, _, by simp, .enqueue s i rest hp (by rw [hq]; simp; omega)⟩
        | nil => exact .inl ⟨rfl, rfl, rfl⟩
  intro m
  induction m with
  | zero =>
    intro s as h hm
    rcases key s with hk | ⟨a, s', _, hs⟩
    · exact ⟨[], s, by simp, by simpa using h, hk⟩
    · have := hs.work_lt
      omega
  | succ m ih =>
    intro s as h hm
    rcases key s with hk | ⟨a, s', hne, hs⟩
    · exact ⟨[], s, by simp, by simpa using h, hk⟩
    · have := hs.work_lt
      obtain ⟨bs, s'', h1, h2, h3⟩ := ih (h.snoc hs) (by omega)
      refine ⟨a :: bs, s'', ?_, by simpa using h2, h3⟩
      intro hm
      rcases List.mem_cons.1 hm with hm | hm
      · exact hne hm.symm
      · exact h1 hm

/-! ## C53: which exception is raised -/

/-- **C53 is false of the code**: a task that fails with `ValueError` makes the executor raise
`ValueError`, and `main` does not catch it. -/
theorem C53_fails : ∃ (J : Job ℕ) (s₀ : Pool ℕ) (as : List (Action ℕ)) (s : Pool ℕ),
    J.init = .ok s₀ ∧ Pool.Exec J s₀ as s ∧ .crash ∉ as ∧ s.phase = .raised .valueError ∧
      mainCatches (.error .valueError) ≠ .ok () := by
  obtain ⟨h1, s, h2, h3, _⟩ := failJob_exec
  exact ⟨failJob, _, _, s, h1, h2, by simp [failActions], h3, by simp [mainCatches]⟩

/-- The documented `raise RuntimeError("One or more FTLE batches failed.")` is dead code:
when the loop over the futures has been exhausted, the list of exceptions is empty. -/
theorem C53_dead_branch (J : Job R) {s₀ s s' : Pool R} {as : List (Action R)}
    (h₀ : J.init = .ok s₀) (h : Pool.Exec J s₀ as s) (hs : Pool.Step J s .finalise s') :
    s'.phase = .returned s.results := by
  obtain ⟨k, hk⟩ := h.inv h₀
  cases hs with
  | finalise hp ho =>
    have hg := hk.good (by rw [hp]; trivial)
    unfold Pool.finalise
    rw [if_neg (by simp [hg.1])]

/-- **C53** (what holds): the exception is a `RuntimeError` — which `main` turns into a
message — when every failing task fails with a `RuntimeError` and identifiers can be computed;
this includes the death of a worker process.  Missing: all other exception types. -/
theorem C53_runtime_partial (J : Job R) {s₀ s : Pool R} {as : List (Action R)} {e : PyErr}
    (h₀ : J.init = .ok s₀) (h : Pool.Exec J s₀ as s)
    (hid : ∀ i < J.n, ∃ t, J.taskId i = .ok t)
    (hrt : ∀ i < J.n, ∀ e', J.outcome i = .error e' → e' = .runtimeError) (hr : s.phase = .raised e) :
    e = .runtimeError ∧ mainCatches (.error e) = .ok () := by
  have : e = .runtimeError := by
    obtain ⟨k, _, ht⟩ := h.traceInv h₀
    rcases ht.err e hr with ⟨pre, i, e₀, h1, h2, h3, h4⟩ | h4
    · obtain ⟨t, hti⟩ := hid i (h.observed_lt h₀ (i, .error e₀) (by rw [h1]; simp))
      rw [hti] at h3
      simp only at h3
      subst h3
      rcases h4 with h4 | h4
      · exact hrt i (h.observed_lt h₀ (i, .error e) (by rw [h1]; simp)) e h4
      · exact h4.2
    · exact h4.2.1
  subst this
  exact ⟨rfl, rfl⟩

/-- A job whose only failure is a `RuntimeError`. -/
example : ∃ J : Job ℕ, (∃ s₀, J.init = .ok s₀) ∧ (∀ i < J.n, ∃ t, J.taskId i = .ok t) ∧
    (∀ i < J.n, ∀ e', J.outcome i = .error e' → e' = .runtimeError) ∧
    J.outcome 1 = .error .runtimeError := by
  refine ⟨⟨3, 2, fun i => if i = 1 then .error .runtimeError else .ok i, fun _ => .ok "t"⟩, ⟨_, rfl⟩,
    fun _ _ => ⟨_, rfl⟩, ?_, rfl⟩
  intro i _ e' h
  by_cases hi : i = 1
  · simp only [hi, if_true] at h
    cases h
    rfl
  · simp only [hi, if_false] at h
    cases h

/-! ## C68: nothing is started after a failure has been reported -/

/-- **C68 is false of the code**: after the exception of task 1 has been raised and the
remaining futures have been cancelled, task 2 is started all the same. -/
theorem C68_fails : ∃ (J : Job ℕ) (s₀ : Pool ℕ) (as : List (Action ℕ)) (s s' : Pool ℕ),
    J.init = .ok s₀ ∧ Pool.Exec J s₀ as s ∧ s.phase = .raised .valueError ∧ 2 ∉ starts as ∧
      Pool.Step J s (.start 2) s' := by
  obtain ⟨h1, s, h2, h3, h4, h5⟩ := failJob_exec
  exact ⟨failJob, _, _, s, _, h1, h2, h3, by simp [failActions, starts],
    .start s 2 [] h5 (by rw [h4]; decide)⟩

/-- What remains to be started only shrinks once an exception has been raised. -/
theorem Pool.Step.leftover {J : Job R} {s s' : Pool R} {a : Action R} (h : Pool.Step J s a s')
    {e : PyErr} (hr : s.phase = .raised e) (hp : s.pending = []) :
    s'.phase = .raised e ∧ s'.pending = [] ∧
      (starts [a]).length + s'.queued.length ≤ s.queued.length := by
  cases h with
  | submit i h1 => rw [hr] at h1; cases h1
  | submitFails i h1 => rw [hr] at h1; cases h1
  | enqueue i rest h1 => rw [hp] at h1; cases h1
  | start i rest hq => exact ⟨hr, hp, by simp [starts, hq]; omega⟩
  | finish i a b h1 => exact ⟨hr, hp, by simp [starts]⟩
  | crash h1 => exact ⟨hr, rfl, by simp [starts]⟩
  | observe i r a b h1 => rw [hr] at h1; cases h1
  | finalise h1 => rw [hr] at h1; cases h1

/-- **C68** (what holds): once an exception has been raised through the error handler (the
identifier of the failing task can be computed), the tasks that were not yet in the call queue
are never started, and at most `n_processes + 1` further tasks are.  Missing: the tasks in the
call queue and the running ones are not stopped. -/
theorem C68_cancelled_partial (J : Job R) {s₀ s s' : Pool R} {as bs : List (Action R)}
    {i : ℕ} {e : PyErr} (h₀ : J.init = .ok s₀)
    (h : Pool.Exec J s₀ (as ++ [.observe i (.error e)]) s) (hid : ∃ t, J.taskId i = .ok t)
    (h' : Pool.Exec J s bs s') :
    s'.phase = .raised e ∧ ((starts bs).length : ℤ) ≤ J.workers + 1 ∧
      ∀ j ∈ starts bs, j ∈ s.queued := by
  obtain ⟨k, hk⟩ := h.inv h₀
  have h0 : s.phase = .raised e ∧ s.pending = [] := by
    generalize hcs : as ++ [Action.observe i (.error e)] = cs at h
    cases h with
    | nil => simp at hcs
    | snoc h hs =>
      obtain ⟨-, rfl⟩ := List.append_singleton_inj.1 hcs
      cases hs with
      | observe _ _ a b hp hf =>
        obtain ⟨t, ht⟩ := hid
        simp [Pool.handle, ht]
  suffices hh : s'.phase = .raised e ∧ s'.pending = [] ∧
      (starts bs).length + s'.queued.length ≤ s.queued.length ∧
      (∀ j ∈ s'.queued, j ∈ s.queued) ∧ ∀ j ∈ starts bs, j ∈ s.queued by
    refine ⟨hh.1, ?_, hh.2.2.2.2⟩
    have := hk.queue
    have := hh.2.2.1
    omega
  induction h' with
  | nil => exact ⟨h0.1, h0.2, by simp [starts], fun j hj => hj, by simp [starts]⟩
  | snoc _ hs ih =>
    obtain ⟨i1, i2, i3, i4, i5⟩ := ih
    obtain ⟨l1, l2, l3⟩ := hs.leftover i1 i2
    refine ⟨l1, l2, ?_, ?_, ?_⟩
    · rw [starts_append, List.length_append]
      omega
    · intro j hj
      refine i4 j ?_
      cases hs with
      | start _ rest hq => rw [hq]; exact List.mem_cons_of_mem _ hj
      | enqueue _ rest hp => rw [i2] at hp; cases hp
      | crash => simp at hj
      | observe _ _ _ _ hp => rw [i1] at hp; cases hp
      | finalise hp => rw [i1] at hp; cases hp
      | _ => exact hj
    · intro j hj
      rw [starts_append] at hj
      rcases List.mem_append.1 hj with hj | hj
      · exact i5 j hj
      · cases hs with
        | start _ rest hq =>
          refine i4 j ?_
          simp only [starts, List.mem_singleton] at hj
          rw [hq, hj]
          simp
        | _ => simp [starts] at hj

/-- The witness execution meets the hypotheses. -/
example : ∃ s, Pool.Exec failJob failStart
    ([.submit 0, .submit 1, .submit 2, .enqueue 0, .start 0, .enqueue 1, .start 1,
      .enqueue 2, .finish 1] ++ [.observe 1 (.error .valueError)]) s :=
  ⟨_, failJob_exec.2.choose_spec.1⟩

end Verif
