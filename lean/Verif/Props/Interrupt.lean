import Verif.Lemmas.Interrupt
import Verif.Props.Monitor

/-!
# C131: interrupting a run

`parallel.py:15` announces "clean shutdown and interruption handling across processes".  No line of the
package handles `KeyboardInterrupt`.
-/

namespace Verif

variable {R : Type}

theorem SigPool.Exec.split {J : Job R} {s₀ : SigPool R} {as bs : List (SigAction R)} {s : SigPool R}
    (h : SigPool.Exec J s₀ (as ++ bs) s) : ∃ s₁, SigPool.Exec J s₀ as s₁ ∧ SigPool.Exec J s₁ bs s := by
  induction bs using List.reverseRecOn generalizing s with
  | nil => exact ⟨s, by simpa using h, .nil⟩
  | append_singleton bs b ih =>
    rw [← List.append_assoc] at h
    generalize hcs : (as ++ bs) ++ [b] = cs at h
    cases h with
    | nil => simp at hcs
    | snoc h hs =>
      obtain ⟨rfl, rfl⟩ := List.append_singleton_inj.1 hcs
      obtain ⟨s₁, h1, h2⟩ := ih h
      exact ⟨s₁, h1, h2.snoc hs⟩

theorem SigPool.Exec.append {J : Job R} {s₀ s s' : SigPool R} {as bs : List (SigAction R)}
    (h : SigPool.Exec J s₀ as s) (h' : SigPool.Exec J s bs s') : SigPool.Exec J s₀ (as ++ bs) s' := by
  induction h' with
  | nil => simpa using h
  | snoc _ hs ih => rw [← List.append_assoc]; exact ih.snoc hs

theorem SigPool.Exec.single {J : Job R} {s s' : SigPool R} {a : SigAction R}
    (h : SigPool.Exec J s [a] s') : SigPool.Step J s a s' := by
  generalize hcs : [a] = cs at h
  cases h with
  | nil => cases hcs
  | @snoc as _ _ b h hs =>
    obtain ⟨rfl, rfl⟩ : as = [] ∧ b = a := by
      cases as with
      | nil => simp at hcs; exact ⟨rfl, hcs.symm⟩
      | cons x xs => simp at hcs
    generalize hds : ([] : List (SigAction R)) = ds at h
    cases h with
    | nil => exact hs
    | snoc => simp at hds

/-- What happens after the interruption. -/
theorem SigPool.Exec.after {J : Job R} {s s' : SigPool R} {bs : List (SigAction R)}
    (h : SigPool.Exec J s bs s') (hi : s.interrupted = true) (hc : NoDeath bs) :
    s'.left + bs.length ≤ s.left ∧ s'.interrupted = true ∧ s'.pool.phase = s.pool.phase ∧
      submissions (poolActions bs) = [] ∧ s'.aborted = s.aborted := by
  induction h with
  | nil => exact ⟨le_rfl, hi, rfl, rfl, rfl⟩
  | @snoc as _ _ a _ hs ih =>
    obtain ⟨i1, i2, i3, i4, i5⟩ := ih fun hm => hc (List.mem_append_left _ hm)
    obtain ⟨j1, j2, j3, j4, j5⟩ := hs.left_lt i2 fun e => hc (by rw [e]; simp)
    refine ⟨?_, j2, j3.trans i3, ?_, j5.trans i5⟩
    · simp only [List.length_append, List.length_singleton]
      omega
    · rw [poolActions_append, submissions_append, i4, j4]
      rfl

theorem interrupt_state {J : Job R} {s₀ s : SigPool R} {before after : List (SigAction R)} {hit : List ℕ}
    (h : SigPool.Exec J s₀ (before ++ .interrupt hit :: after) s) (hc : NoDeath after) :
    s.interrupted = true ∧ s.aborted = hit ∧ submissions (poolActions after) = [] := by
  obtain ⟨s₁, h1, h2⟩ := h.split
  obtain ⟨s₂, h3, h4⟩ := SigPool.Exec.split (as := [.interrupt hit]) (bs := after) (by simpa using h2)
  cases h3.single with
  | interrupt _ hf hb hh =>
    obtain ⟨_, k2, _, k4, k5⟩ := h4.after rfl hc
    exact ⟨k2, k5, k4⟩

theorem noDeath_all {before after : List (SigAction R)} {hit : List ℕ}
    (hc : NoDeath before ∧ NoDeath after) : NoDeath (before ++ .interrupt hit :: after) := by
  unfold NoDeath
  simp only [List.mem_append, List.mem_cons, not_or]
  exact ⟨hc.1, by simp, hc.2⟩

theorem poolActions_interrupt (before after : List (SigAction R)) (hit : List ℕ) :
    poolActions (before ++ .interrupt hit :: after) = poolActions before ++ poolActions after := by
  rw [poolActions_append]; rfl

/-! ## C131 -/

/-- **C131 is false of the code: nothing is stopped.**  Take any execution in which the caller is
interrupted, no worker dies, and which has come to rest.  Every task submitted before the interruption
has been started, if not before the interruption then after it, and every one of them that was not in
progress in a worker reached by the signal has run to its end. -/
theorem C131_goes_on_fails (J : Job R) {s₀ s : SigPool R} {before after : List (SigAction R)}
    {hit : List ℕ} (h₀ : J.sigInit = .ok s₀)
    (h : SigPool.Exec J s₀ (before ++ .interrupt hit :: after) s)
    (hc : NoDeath before ∧ NoDeath after) (hr : Settled J s) :
    (starts (poolActions before) ++ starts (poolActions after)).Perm (submissions (poolActions before)) ∧
      (hit ++ (finishes (poolActions before) ++ finishes (poolActions after))).Perm
        (submissions (poolActions before)) := by
  obtain ⟨k, hk⟩ := h.sigInv h₀ (noDeath_all hc)
  obtain ⟨hint, hab, hsub⟩ := interrupt_state h hc.2
  obtain ⟨e1, e2, e3⟩ : s.pool.pending = [] ∧ s.pool.queued = [] ∧ s.pool.running = [] := by
    rcases SigPool.rest_or_step (Job.sigInit_workers h₀) s with h | ⟨a, s', hne, hs⟩
    · exact h
    · exact absurd (hr a s' hs) hne
  have e4 := (hk.kept (hk.inside hint)).1
  have key : ∀ i, (starts (poolActions before) ++ starts (poolActions after)).count i =
      (submissions (poolActions before)).count i := by
    intro i
    have := hk.cnt i
    rw [e1, e2, e4, poolActions_interrupt, starts_append, submissions_append, hsub] at this
    simpa using this
  refine ⟨List.perm_iff_count.2 key, List.perm_iff_count.2 fun i => ?_⟩
  have h1 := hk.run i
  rw [poolActions_interrupt, e3, hab, starts_append, finishes_append, key i] at h1
  simp only [List.count_nil, Nat.zero_add] at h1
  rw [List.count_append, h1, Nat.add_comm]

/-- **C131: the wait ends.**  An interrupted execution goes on for at most three actions per task, and
can be continued until it rests. -/
theorem C131_ends (J : Job R) {s₀ s : SigPool R} {before after : List (SigAction R)}
    {hit : List ℕ} (h₀ : J.sigInit = .ok s₀)
    (h : SigPool.Exec J s₀ (before ++ .interrupt hit :: after) s)
    (hc : NoDeath before ∧ NoDeath after) :
    after.length ≤ 3 * J.n ∧ ∃ more s', NoDeath more ∧
      SigPool.Exec J s₀ (before ++ .interrupt hit :: (after ++ more)) s' ∧ Settled J s' := by
  constructor
  · obtain ⟨s₂, h1, h2⟩ := SigPool.Exec.split (as := before ++ [.interrupt hit]) (bs := after)
      (by simpa using h)
    have hi := (interrupt_state (after := []) (by simpa using h1) (by simp [NoDeath])).1
    obtain ⟨k, hk⟩ := h1.sigInv h₀ (noDeath_all (after := []) ⟨hc.1, by simp [NoDeath]⟩)
    have := hk.left_le
    have := (h2.after hi hc.2).1
    omega
  · have hi := (interrupt_state h hc.2).1
    suffices ∀ (m : ℕ) (s : SigPool R), s.left ≤ m → s.interrupted = true →
        ∃ more s', NoDeath more ∧ SigPool.Exec J s more s' ∧ Settled J s' by
      obtain ⟨more, s', h1, h2, h3⟩ := this _ s le_rfl hi
      exact ⟨more, s', h1, by simpa using h.append h2, h3⟩
    intro m
    induction m with
    | zero =>
      intro s hm hi
      refine ⟨[], s, by simp [NoDeath], .nil, fun a s' hs => ?_⟩
      by_contra hc
      have := (hs.left_lt hi hc).1
      omega
    | succ m ih =>
      intro s hm hi
      rcases SigPool.rest_or_step (Job.sigInit_workers h₀) s with hr | ⟨a, s', hne, hs⟩
      · exact ⟨[], s, by simp [NoDeath], .nil, SigPool.atRest hi hr⟩
      · obtain ⟨l1, l2, -⟩ := hs.left_lt hi hne
        obtain ⟨more, s'', h1, h2, h3⟩ := ih s' (by omega) l2
        refine ⟨a :: more, s'', ?_, SigPool.Exec.append (as := [a]) (SigPool.Exec.nil.snoc hs) h2, h3⟩
        unfold NoDeath at h1 ⊢
        simp only [List.mem_cons, not_or]
        exact ⟨Ne.symm hne, h1⟩

/-- **C131: the wait is the whole computation.**  For every number of tasks and workers: interrupted when
all tasks have been submitted and none has been started, the executor starts every one of them, and
each runs to its end, before it lets go. -/
theorem C131_all_tasks_fails (J : Job R) {s₀ : SigPool R} (h₀ : J.sigInit = .ok s₀) :
    ∃ (before after : List (SigAction R)) (s : SigPool R),
      SigPool.Exec J s₀ (before ++ .interrupt [] :: after) s ∧ NoDeath before ∧ NoDeath after ∧
        Settled J s ∧ starts (poolActions before) = [] ∧
        (starts (poolActions after)).Perm (List.range J.n) ∧
        (finishes (poolActions after)).Perm (List.range J.n) := by
  obtain ⟨before, s, h1, h2, h3, h4, h5, h6, h7, h8, h9⟩ := submit_all h₀ J.n le_rfl
  rw [if_pos rfl] at h9
  have hs : SigPool.Step J s (.interrupt []) _ := .interrupt s [] h6 (.inr h9) (by simp)
  have h := h1.snoc hs
  obtain ⟨-, after, s', g1, g2, g3⟩ := C131_ends J h₀ (after := []) (by simpa using h)
    ⟨h2, by simp [NoDeath]⟩
  rw [List.nil_append] at g2
  obtain ⟨p1, p2⟩ := C131_goes_on_fails J h₀ g2 ⟨h2, g1⟩ g3
  rw [h3, h5] at p1
  rw [h4, h5] at p2
  exact ⟨before, after, s', g2, h2, g1, g3, h3, by simpa using p1, by simpa using p2⟩

/-- **C131 (what holds).**  An interrupted run never returns a list of results and raises no other
exception on its way, the limit on the number of processes is kept, and no task is started twice.
Missing: that anything is stopped. -/
theorem C131_surfaces_partial (J : Job R) {s₀ s : SigPool R} {before after : List (SigAction R)}
    {hit : List ℕ} (h₀ : J.sigInit = .ok s₀)
    (h : SigPool.Exec J s₀ (before ++ .interrupt hit :: after) s)
    (hc : NoDeath before ∧ NoDeath after) :
    s.interrupted = true ∧ (∀ rs e, s.pool.phase ≠ .returned rs ∧ s.pool.phase ≠ .raised e) ∧
      (s.pool.running.length : ℤ) ≤ J.workers ∧
      (starts (poolActions before) ++ starts (poolActions after)).Nodup := by
  obtain ⟨k, hk⟩ := h.sigInv h₀ (noDeath_all hc)
  have hi := (interrupt_state h hc.2).1
  refine ⟨hi, fun rs e => ?_, hk.few, List.nodup_iff_count_le_one.2 fun i => ?_⟩
  · rcases hk.inside hi with ⟨j, hj⟩ | hj <;> rw [hj] <;> simp
  · have h1 := hk.cnt i
    have h2 := hk.nodup i
    rw [poolActions_interrupt, starts_append] at h1
    rw [poolActions_interrupt] at h2
    omega

/-- **C131: the monitor is not told.**  After an interruption the stop event is not set and the monitor
process is not terminated.  If fewer tasks have been submitted than there are, the messages of the
workers never add up and the monitor never leaves its loop. -/
theorem C131_monitor_fails (J : Job R) {s₀ s : SigPool R} {before after : List (SigAction R)}
    {hit : List ℕ} (h₀ : J.sigInit = .ok s₀)
    (h : SigPool.Exec J s₀ (before ++ .interrupt hit :: after) s)
    (hc : NoDeath before ∧ NoDeath after) :
    s.pool.stopped = false ∧ s.pool.monitorKilled = false ∧
      ∀ (m : Monitor) (passes : List (Bool × List ProgressMsg)),
        (∀ p ∈ passes, p.1 = s.pool.stopped) → m.finished = 0 →
        doneCount (passes.flatMap Prod.snd) ≤ (submissions (poolActions before)).length →
        (submissions (poolActions before)).length < J.n →
        m.loop J.n passes = (m.drain (passes.flatMap Prod.snd)).map (·, false) := by
  obtain ⟨k, hk⟩ := h.sigInv h₀ (noDeath_all hc)
  obtain ⟨-, k1, k2⟩ := hk.kept (hk.inside (interrupt_state h hc.2).1)
  refine ⟨k1, k2, fun m passes hp hm hd hlt => C52_keeps_running J.n m passes (fun p hp' => ?_) ?_⟩
  · rw [hp p hp', k1]
  · omega

/-- Three tasks on two workers.  The signal arrives while tasks 0 and 1 are in progress and reaches the
worker of task 1; task 2 is started afterwards. -/
def sigActions : List (SigAction ℕ) :=
  [.act (.submit 0), .act (.submit 1), .act (.submit 2), .act (.enqueue 0), .act (.start 0),
    .act (.enqueue 1), .act (.start 1)]

example : ∃ s₀ s, okJob.sigInit = .ok s₀ ∧
    SigPool.Exec okJob s₀ (sigActions ++ .interrupt [1] ::
      [.act (.enqueue 2), .act (.start 2), .act (.finish 0), .act (.finish 2)]) s ∧
    NoDeath sigActions ∧ Settled okJob s ∧ s.interrupted = true := by
  have h := SigPool.Exec.nil (J := okJob)
    (s₀ := ⟨⟨.submitting 0, [], [], [], [], [], [], false, [none, none, none], [], false, false⟩, false,
      []⟩)
  have h := h.snoc (.act _ _ _ (.submit _ 0 rfl (by decide) rfl) (by simp))
  have h := h.snoc (.act _ _ _ (.submit _ 1 rfl (by decide) rfl) (by simp))
  have h := h.snoc (.act _ _ _ (.submit _ 2 rfl (by decide) rfl) (by simp))
  have h := h.snoc (.act _ _ _ (.enqueue _ 0 [1, 2] rfl (by decide)) (by simp))
  have h := h.snoc (.act _ _ _ (.start _ 0 [] rfl (by decide)) (by simp))
  have h := h.snoc (.act _ _ _ (.enqueue _ 1 [2] rfl (by decide)) (by simp))
  have h := h.snoc (.act _ _ _ (.start _ 1 [] rfl (by decide)) (by simp))
  have h := h.snoc (.interrupt _ [1] rfl (.inr rfl) (by decide))
  have h := h.snoc (.act _ _ _ (.enqueue _ 2 [] rfl (by decide)) (fun _ => trivial))
  have h := h.snoc (.act _ _ _ (.start _ 2 [] rfl (by decide)) (fun _ => trivial))
  have h := h.snoc (.act _ _ _ (.finish _ 0 [2] [] rfl) (fun _ => trivial))
  have h := h.snoc (.act _ _ _ (.finish _ 2 [] [] rfl) (fun _ => trivial))
  exact ⟨_, _, rfl, h, by simp [NoDeath, sigActions], SigPool.atRest rfl ⟨rfl, rfl, rfl⟩, rfl⟩

/-- An interruption after the first of three submissions. -/
example : ∃ s₀ s, okJob.sigInit = .ok s₀ ∧
    SigPool.Exec okJob s₀ ([.act (.submit 0)] ++ .interrupt [] :: []) s ∧
    (submissions (poolActions [SigAction.act (.submit 0 : Action ℕ)])).length < okJob.n := by
  have h := SigPool.Exec.nil (J := okJob)
    (s₀ := ⟨⟨.submitting 0, [], [], [], [], [], [], false, [none, none, none], [], false, false⟩, false,
      []⟩)
  have h := h.snoc (.act _ _ _ (.submit _ 0 rfl (by decide) rfl) (by simp))
  have h := h.snoc (.interrupt _ [] rfl (.inl ⟨1, rfl⟩) (by simp))
  exact ⟨_, _, rfl, h, by decide⟩

end Verif
