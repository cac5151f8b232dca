import Verif.Spec.Interrupt
import Verif.Lemmas.PoolTrace

/-! # Invariants of the pool with an interruption -/

namespace Verif

variable {R : Type}

theorem poolActions_append (as bs : List (SigAction R)) :
    poolActions (as ++ bs) = poolActions as ++ poolActions bs := by
  induction as with
  | nil => rfl
  | cons a as ih => cases a <;> simp [poolActions, ih]

theorem submissions_append (as bs : List (Action R)) :
    submissions (as ++ bs) = submissions as ++ submissions bs := by
  induction as with
  | nil => rfl
  | cons a as ih => cases a <;> simp [submissions, ih]

/-- Invariant of executions in which no worker dies; `k` tasks have been submitted. -/
structure SigInv (J : Job R) (as : List (SigAction R)) (s : SigPool R) (k : ℕ) : Prop where
  cnt : ∀ i, s.pool.pending.count i + s.pool.queued.count i + (starts (poolActions as)).count i +
    s.pool.cancelled.count i = (submissions (poolActions as)).count i
  run : ∀ i, (starts (poolActions as)).count i = s.pool.running.count i +
    (finishes (poolActions as)).count i + s.aborted.count i
  sub : submissions (poolActions as) = List.range k
  whole : s.pool.broken = false
  kept : s.pool.InBlock → s.pool.cancelled = [] ∧ s.pool.stopped = false ∧ s.pool.monitorKilled = false
  inside : s.interrupted = true → s.pool.InBlock
  few : (s.pool.running.length : ℤ) ≤ J.workers
  none : s.interrupted = false → s.aborted = []
  at_i : ∀ i, s.pool.phase = .submitting i → k = i
  at_n : s.pool.phase = .collecting → k = J.n
  le : k ≤ J.n

theorem SigInv.start {J : Job R} {s : SigPool R} (h : J.sigInit = .ok s) : SigInv J [] s 0 := by
  unfold Job.sigInit Job.init at h
  split at h
  · cases h
  · next s₁ hs =>
    cases h
    split at hs
    · cases hs
    · split at hs
      · cases hs
      · cases hs
        refine ⟨?_, ?_, rfl, rfl, ?_, ?_, ?_, ?_, ?_, ?_, Nat.zero_le _⟩ <;>
          simp_all [poolActions, starts, finishes, submissions] <;> omega

theorem SigInv.nodup {J : Job R} {as : List (SigAction R)} {s : SigPool R} {k : ℕ}
    (h : SigInv J as s k) (i : ℕ) : (submissions (poolActions as)).count i ≤ 1 := by
  rw [h.sub]
  exact List.nodup_iff_count_le_one.1 List.nodup_range i

theorem SigInv.step {J : Job R} {as : List (SigAction R)} {s s' : SigPool R} {a : SigAction R} {k : ℕ}
    (h : SigInv J as s k) (hs : SigPool.Step J s a s') (hc : a ≠ .act .crash) :
    ∃ k', SigInv J (as ++ [a]) s' k' := by
  have ea : ∀ b : Action R, poolActions (as ++ [.act b]) = poolActions as ++ [b] := fun b => by
    rw [poolActions_append]; rfl
  cases hs with
  | interrupt hit hi hb hh =>
    have e : poolActions (as ++ [.interrupt hit]) = poolActions as := by
      rw [poolActions_append]; simp [poolActions]
    refine ⟨k, ?_, ?_, ?_, h.whole, h.kept, fun _ => hb, ?_, fun hf => (by cases hf), h.at_i, h.at_n, h.le⟩
    · rw [e]; exact h.cnt
    · intro i
      rw [e]
      have h1 := h.run i
      have h2 := h.cnt i
      have h3 := h.nodup i
      have h4 : s.pool.running.count i = (s.pool.running.filter fun j => j ∉ hit).count i +
          hit.count i := by
        by_cases hm : i ∈ hit
        · have h5 := hh.count_le i
          have h6 := List.count_pos_iff.2 hm
          have h7 : (s.pool.running.filter fun j => j ∉ hit).count i = 0 :=
            List.count_eq_zero_of_not_mem (by simp [hm])
          omega
        · rw [List.count_eq_zero_of_not_mem hm, List.count_filter (by simpa using hm), Nat.add_zero]
      rw [h.none hi] at h1
      simp only [List.count_nil] at h1
      simp only
      omega
    · rw [e]; exact h.sub
    · refine le_trans ?_ h.few
      exact_mod_cast List.length_filter_le _ _
  | act a p hp hi =>
    cases hp with
    | submit i hp hlt hb =>
      obtain rfl := h.at_i i hp
      have hk := h.kept (.inl ⟨k, hp⟩)
      refine ⟨k + 1, ?_, ?_, ?_, h.whole, fun _ => hk, fun hint => (hi hint).elim, h.few, h.none, ?_, ?_, hlt⟩
      · intro j
        have := h.cnt j
        simp only [ea, starts_append, submissions_append, List.count_append, starts, submissions,
          List.count_nil] at this ⊢
        omega
      · intro j
        have := h.run j
        simp only [ea, starts_append, finishes_append, List.count_append, starts, finishes,
          List.count_nil] at this ⊢
        omega
      · rw [ea, submissions_append, h.sub, List.range_succ]
        rfl
      · intro j hj
        dsimp only at hj
        split at hj
        · cases hj
        · cases hj; rfl
      · intro hj
        dsimp only at hj
        split at hj
        · assumption
        · cases hj
    | submitFails i hp hb => exact absurd h.whole (by simp [hb])
    | enqueue i rest hp hq =>
      refine ⟨k, ?_, ?_, ?_, h.whole, h.kept, h.inside, h.few, h.none, h.at_i, h.at_n, h.le⟩
      · intro j
        have := h.cnt j
        simp only [ea, starts_append, submissions_append, List.count_append, starts, submissions,
          List.count_nil, hp, List.count_cons] at this ⊢
        omega
      · intro j
        have := h.run j
        simp only [ea, starts_append, finishes_append, List.count_append, starts, finishes,
          List.count_nil] at this ⊢
        omega
      · rw [ea, submissions_append, h.sub]
        simp [submissions]
    | start i rest hq hr =>
      refine ⟨k, ?_, ?_, ?_, h.whole, h.kept, h.inside, ?_, h.none, h.at_i, h.at_n, h.le⟩
      · intro j
        have := h.cnt j
        simp only [ea, starts_append, submissions_append, List.count_append, starts, submissions,
          List.count_nil, hq, List.count_cons] at this ⊢
        omega
      · intro j
        have := h.run j
        simp only [ea, starts_append, finishes_append, List.count_append, starts, finishes,
          List.count_nil, List.count_cons] at this ⊢
        omega
      · rw [ea, submissions_append, h.sub]
        simp [submissions]
      · simp only [List.length_cons]
        push_cast
        omega
    | finish i a b hr =>
      refine ⟨k, ?_, ?_, ?_, h.whole, h.kept, h.inside, ?_, h.none, h.at_i, h.at_n, h.le⟩
      · intro j
        have := h.cnt j
        simp only [ea, starts_append, submissions_append, List.count_append, starts, submissions,
          List.count_nil] at this ⊢
        omega
      · intro j
        have := h.run j
        simp only [ea, starts_append, finishes_append, List.count_append, starts, finishes,
          List.count_nil, List.count_cons, hr] at this ⊢
        omega
      · rw [ea, submissions_append, h.sub]
        simp [submissions]
      · have := h.few
        simp only [hr, List.length_append, List.length_cons] at this ⊢
        push_cast at this ⊢
        omega
    | crash hb => exact absurd rfl hc
    | observe i r a b hp hf =>
      have hint : s.interrupted = false := by
        cases hx : s.interrupted with
        | false => rfl
        | true => exact (hi hx).elim
      have hk := h.kept (.inr hp)
      have e1 : starts (poolActions (as ++ [.act (.observe i r)])) = starts (poolActions as) := by
        rw [ea, starts_append]; simp [starts]
      have e2 : finishes (poolActions (as ++ [.act (.observe i r)])) = finishes (poolActions as) := by
        rw [ea, finishes_append]; simp [finishes]
      have e3 : submissions (poolActions (as ++ [.act (.observe i r)])) =
          submissions (poolActions as) := by
        rw [ea, submissions_append]; simp [submissions]
      refine ⟨k, ?_, ?_, ?_, ?_, ?_, ?_, ?_, h.none, ?_, ?_, h.le⟩
      · intro j
        have := h.cnt j
        rw [e1, e3]
        unfold Pool.handle
        cases r with
        | ok v => exact this
        | error e =>
          simp only [hk.1, List.count_nil] at this
          cases J.taskId i <;> simp only [hk.1, List.count_nil] <;> omega
      · intro j
        have := h.run j
        rw [e1, e2]
        unfold Pool.handle
        cases r with
        | ok v => exact this
        | error e => cases J.taskId i <;> exact this
      · rw [e3]; exact h.sub
      · have := h.whole
        unfold Pool.handle
        cases r with
        | ok v => exact this
        | error e => cases J.taskId i <;> exact this
      · unfold Pool.handle
        cases r with
        | ok v => exact fun _ => hk
        | error e =>
          cases J.taskId i <;> rintro (⟨j, hj⟩ | hj) <;> cases hj
      · intro hx
        rw [hint] at hx
        cases hx
      · have := h.few
        unfold Pool.handle
        cases r with
        | ok v => exact this
        | error e => cases J.taskId i <;> exact this
      · intro j
        unfold Pool.handle
        cases r with
        | ok v => intro hj; exact h.at_i j hj
        | error e => cases J.taskId i <;> intro hj <;> cases hj
      · unfold Pool.handle
        cases r with
        | ok v => intro hj; exact h.at_n hj
        | error e => cases J.taskId i <;> intro hj <;> cases hj
    | finalise hp ho =>
      have hint : s.interrupted = false := by
        cases hx : s.interrupted with
        | false => rfl
        | true => exact (hi hx).elim
      have e1 : starts (poolActions (as ++ [.act .finalise])) = starts (poolActions as) := by
        rw [ea, starts_append]; simp [starts]
      have e2 : finishes (poolActions (as ++ [.act .finalise])) = finishes (poolActions as) := by
        rw [ea, finishes_append]; simp [finishes]
      have e3 : submissions (poolActions (as ++ [.act .finalise])) =
          submissions (poolActions as) := by
        rw [ea, submissions_append]; simp [submissions]
      have key : s.pool.finalise.pending = s.pool.pending ∧ s.pool.finalise.queued = s.pool.queued ∧
          s.pool.finalise.running = s.pool.running ∧ s.pool.finalise.cancelled = s.pool.cancelled ∧
          s.pool.finalise.broken = s.pool.broken ∧ (∀ i, s.pool.finalise.phase ≠ .submitting i) ∧
          s.pool.finalise.phase ≠ .collecting := by
        unfold Pool.finalise
        split <;> simp
      obtain ⟨k1, k2, k3, k4, k5, k6, k7⟩ := key
      refine ⟨k, ?_, ?_, ?_, ?_, ?_, ?_, ?_, h.none, ?_, ?_, h.le⟩
      · intro j
        rw [e1, e3]
        simp only [k1, k2, k4]
        exact h.cnt j
      · intro j
        rw [e1, e2]
        simp only [k3]
        exact h.run j
      · rw [e3]; exact h.sub
      · rw [k5]; exact h.whole
      · rintro (⟨j, hj⟩ | hj)
        · exact (k6 j hj).elim
        · exact (k7 hj).elim
      · intro hx
        rw [hint] at hx
        cases hx
      · simp only [k3]; exact h.few
      · intro j hj
        exact (k6 j hj).elim
      · intro hj
        exact (k7 hj).elim

theorem SigPool.Exec.sigInv {J : Job R} {s₀ s : SigPool R} {as : List (SigAction R)}
    (h₀ : J.sigInit = .ok s₀) (h : SigPool.Exec J s₀ as s) (hc : NoDeath as) : ∃ k, SigInv J as s k := by
  induction h with
  | nil => exact ⟨0, .start h₀⟩
  | snoc _ hs ih =>
    obtain ⟨k, hk⟩ := ih fun hm => hc (List.mem_append_left _ hm)
    exact hk.step hs fun e => hc (by rw [e]; simp)

/-- What is left to do after an interruption. -/
def SigPool.left (s : SigPool R) : ℕ :=
  3 * s.pool.pending.length + 2 * s.pool.queued.length + s.pool.running.length

theorem SigPool.Step.left_lt {J : Job R} {s s' : SigPool R} {a : SigAction R}
    (hi : s.interrupted = true) (hc : a ≠ .act .crash) (h : SigPool.Step J s a s') :
    s'.left < s.left ∧ s'.interrupted = true ∧ s'.pool.phase = s.pool.phase ∧
      submissions (poolActions [a]) = [] ∧ s'.aborted = s.aborted := by
  cases h with
  | interrupt hit hf => rw [hi] at hf; cases hf
  | act a p hp hw =>
    have := hw hi
    cases hp with
    | submit => exact this.elim
    | submitFails => exact this.elim
    | observe => exact this.elim
    | finalise => exact this.elim
    | crash => exact absurd rfl hc
    | enqueue i rest hp hq =>
      refine ⟨?_, hi, rfl, rfl, rfl⟩
      simp only [SigPool.left, hp, List.length_cons, List.length_append, List.length_nil]
      omega
    | start i rest hq hr =>
      refine ⟨?_, hi, rfl, rfl, rfl⟩
      simp only [SigPool.left, hq, List.length_cons]
      omega
    | finish i a b hr =>
      refine ⟨?_, hi, rfl, rfl, rfl⟩
      simp only [SigPool.left, hr, List.length_cons, List.length_append]
      omega

/-- Either nothing is left to do or the pool can act. -/
theorem SigPool.rest_or_step {J : Job R} (hw : 0 < J.workers) (s : SigPool R) :
    (s.pool.pending = [] ∧ s.pool.queued = [] ∧ s.pool.running = []) ∨
      ∃ a s', a ≠ .act .crash ∧ SigPool.Step J s a s' := by
  cases hr : s.pool.running with
  | cons i rest =>
    exact .inr ⟨_, _, by simp, .act s _ _ (.finish s.pool i [] rest hr) fun _ => trivial⟩
  | nil =>
    cases hq : s.pool.queued with
    | cons i rest =>
      exact .inr ⟨_, _, by simp, .act s _ _ (.start s.pool i rest hq (by rw [hr]; simpa using hw))
        fun _ => trivial⟩
    | nil =>
      cases hp : s.pool.pending with
      | cons i rest =>
        exact .inr ⟨_, _, by simp, .act s _ _ (.enqueue s.pool i rest hp (by rw [hq]; simp; omega))
          fun _ => trivial⟩
      | nil => exact .inl ⟨rfl, rfl, rfl⟩

theorem SigInv.left_le {J : Job R} {as : List (SigAction R)} {s : SigPool R} {k : ℕ}
    (h : SigInv J as s k) : s.left ≤ 3 * J.n := by
  have h1 : (s.pool.pending ++ s.pool.queued ++ s.pool.running).Subperm (List.range k) := by
    rw [List.subperm_ext_iff]
    intro i _
    have h1 := h.cnt i
    have h2 := h.run i
    rw [h.sub] at h1
    simp only [List.count_append]
    omega
  have h2 := h1.length_le
  have h3 := h.le
  simp only [List.length_append, List.length_range] at h2
  unfold SigPool.left
  omega

theorem SigPool.atRest {J : Job R} {s : SigPool R} (hi : s.interrupted = true)
    (h : s.pool.pending = [] ∧ s.pool.queued = [] ∧ s.pool.running = []) : Settled J s := by
  intro a s' hs
  by_contra hc
  have := (hs.left_lt hi hc).1
  simp [SigPool.left, h.1, h.2.1, h.2.2] at this

/-- The state after the submission of the first `i` tasks, before any of them is taken. -/
theorem submit_all {J : Job R} {s₀ : SigPool R} (h₀ : J.sigInit = .ok s₀) (i : ℕ) (hi : i ≤ J.n) :
    ∃ (as : List (SigAction R)) (s : SigPool R), SigPool.Exec J s₀ as s ∧ NoDeath as ∧
      starts (poolActions as) = [] ∧ finishes (poolActions as) = [] ∧
      submissions (poolActions as) = List.range i ∧ s.interrupted = false ∧ s.pool.broken = false ∧
      s.pool.running = [] ∧ s.pool.phase = if i = J.n then .collecting else .submitting i := by
  induction i with
  | zero =>
    refine ⟨[], s₀, .nil, by simp [NoDeath], rfl, rfl, rfl, ?_⟩
    unfold Job.sigInit Job.init at h₀
    split at h₀
    · cases h₀
    · next s₁ hs =>
      cases h₀
      split at hs
      · cases hs
      · next hn =>
        split at hs
        · cases hs
        · cases hs
          exact ⟨rfl, rfl, rfl, by rw [if_neg (Ne.symm hn)]⟩
  | succ i ih =>
    obtain ⟨as, s, h1, h2, h3, h4, h5, h6, h7, h8, h9⟩ := ih (by omega)
    rw [if_neg (by omega)] at h9
    have hs : SigPool.Step J s (.act (.submit i)) _ :=
      .act s _ _ (.submit s.pool i h9 (by omega) h7) fun hx => by rw [h6] at hx; cases hx
    refine ⟨_, _, h1.snoc hs, ?_, ?_, ?_, ?_, h6, h7, h8, rfl⟩
    · unfold NoDeath at h2 ⊢
      simp [h2]
    · rw [poolActions_append, starts_append, h3]; rfl
    · rw [poolActions_append, finishes_append, h4]; rfl
    · rw [poolActions_append, submissions_append, h5, List.range_succ]; rfl

theorem Job.sigInit_workers {J : Job R} {s : SigPool R} (h : J.sigInit = .ok s) : 0 < J.workers := by
  unfold Job.sigInit at h
  split at h
  · cases h
  · next s₁ hs => exact Job.init_workers hs

end Verif
