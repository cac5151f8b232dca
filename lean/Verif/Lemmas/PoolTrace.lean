import Verif.Lemmas.Pool
import Verif.Spec.Schedule

/-! # Relation between the actions of an execution and the state of the pool -/

namespace Verif

variable {R : Type}

theorem starts_append (as bs : List (Action R)) : starts (as ++ bs) = starts as ++ starts bs := by
  induction as with
  | nil => rfl
  | cons a as ih => cases a <;> simp [starts, ih]

theorem finishes_append (as bs : List (Action R)) :
    finishes (as ++ bs) = finishes as ++ finishes bs := by
  induction as with
  | nil => rfl
  | cons a as ih => cases a <;> simp [finishes, ih]

theorem observations_append (as bs : List (Action R)) :
    observations (as ++ bs) = observations as ++ observations bs := by
  induction as with
  | nil => rfl
  | cons a as ih => cases a <;> simp [observations, ih]

/-- Relation between the actions so far and the state; `k` tasks have been submitted. -/
structure TraceInv (J : Job R) (as : List (Action R)) (s : Pool R) (k : ℕ) : Prop where
  once : ∀ i, (starts as).count i + s.pending.count i + s.queued.count i +
    (if k ≤ i then 1 else 0) ≤ 1
  finStart : ∀ i ∈ finishes as, i ∈ starts as
  runs : s.broken = false → ∀ i, i ∈ s.running ↔ i ∈ starts as ∧ i ∉ finishes as
  few : ((inProgress as).length : ℤ) ≤ J.workers
  crashed : s.broken = true → .crash ∈ as
  oks : s.phase.notRaised → ∀ x ∈ observations as, ∃ v, x.2 = .ok v
  err : ∀ e, s.phase = .raised e →
    (∃ pre i e₀, observations as = pre ++ [(i, .error e₀)] ∧ (∀ x ∈ pre, ∃ v, x.2 = .ok v) ∧
      e = (match J.taskId i with
        | .ok _ => e₀
        | .error e' => e') ∧
      (J.outcome i = .error e₀ ∨ (.crash ∈ as ∧ e₀ = .runtimeError))) ∨
    (.crash ∈ as ∧ e = .runtimeError ∧ observations as = [])
  none : ∀ i, s.phase = .submitting i → observations as = []

theorem inProgress_perm {J : Job R} {as : List (Action R)} {s : Pool R} {k : ℕ}
    (hi : s.Inv J k) (h : TraceInv J as s k) (hb : s.broken = false) :
    (inProgress as).Perm s.running := by
  have h1 : (inProgress as).Nodup := by
    refine List.Nodup.filter _ (List.nodup_iff_count_le_one.2 fun i => ?_)
    have := h.once i
    omega
  have h2 : s.running.Nodup := by
    refine List.nodup_iff_count_le_one.2 fun i => ?_
    have := hi.cnt i
    split at this <;> omega
  rw [List.perm_ext_iff_of_nodup h1 h2]
  intro i
  rw [h.runs hb i]
  simp [inProgress]

theorem TraceInv.nil {J : Job R} {s : Pool R} (h : J.init = .ok s) : TraceInv J [] s 0 := by
  have hi := Job.init_inv h
  have hw : 0 < J.workers := by
    unfold Job.init at h
    split at h
    · cases h
    · split at h
      · cases h
      · omega
  unfold Job.init at h
  split at h
  · cases h
  · split at h
    · cases h
    · cases h
      refine ⟨?_, ?_, ?_, ?_, ?_, ?_, ?_, ?_⟩ <;> simp [starts, finishes, observations, inProgress]
      omega

theorem TraceInv.step {J : Job R} {as : List (Action R)} {s s' : Pool R} {a : Action R} {k : ℕ}
    (hi : s.Inv J k) (h : TraceInv J as s k) (hs : Pool.Step J s a s') :
    TraceInv J (as ++ [a]) s' (k + a.submits) := by
  have hi' := hs.inv hi
  cases hs with
  | submit i hp hlt hb =>
    obtain ⟨rfl, hk⟩ := hi.sub i hp
    show TraceInv J _ _ (i + 1)
    have e1 : starts (as ++ [.submit i]) = starts as := by simp [starts_append, starts]
    have e2 : finishes (as ++ [.submit i]) = finishes as := by simp [finishes_append, finishes]
    have e3 : observations (as ++ [.submit i]) = observations as := by
      simp [observations_append, observations]
    refine ⟨?_, ?_, ?_, ?_, ?_, ?_, ?_, ?_⟩
    · intro j
      have := h.once j
      simp only [e1, List.count_append, List.count_singleton, beq_iff_eq]
      split at this <;> split <;> split <;> omega
    · rw [e1, e2]; exact h.finStart
    · rw [e1, e2]; exact h.runs
    · unfold inProgress; rw [e1, e2]; exact h.few
    · intro hb'
      exact List.mem_append_left _ (h.crashed hb')
    · rw [e3]; intro _; exact h.oks (by rw [hp]; trivial)
    · intro e he
      dsimp only at he
      split at he <;> cases he
    · rw [e3]; intro j _; exact h.none i hp
  | submitFails i hp hb =>
    show TraceInv J _ _ k
    have e1 : starts (as ++ [.submitFails]) = starts as := by simp [starts_append, starts]
    have e2 : finishes (as ++ [.submitFails]) = finishes as := by simp [finishes_append, finishes]
    have e3 : observations (as ++ [.submitFails]) = observations as := by
      simp [observations_append, observations]
    have hc : Action.crash ∈ as ++ [Action.submitFails] := List.mem_append_left _ (h.crashed hb)
    refine ⟨?_, ?_, ?_, ?_, ?_, ?_, ?_, ?_⟩
    · rw [e1]; exact h.once
    · rw [e1, e2]; exact h.finStart
    · rw [e1, e2]; exact h.runs
    · unfold inProgress; rw [e1, e2]; exact h.few
    · exact fun _ => hc
    · intro hj; cases hj
    · intro e he
      cases he
      exact .inr ⟨hc, rfl, by rw [e3]; exact h.none i hp⟩
    · intro j hj; cases hj
  | enqueue i rest hp hq =>
    show TraceInv J _ _ k
    have e1 : starts (as ++ [.enqueue i]) = starts as := by simp [starts_append, starts]
    have e2 : finishes (as ++ [.enqueue i]) = finishes as := by simp [finishes_append, finishes]
    have e3 : observations (as ++ [.enqueue i]) = observations as := by
      simp [observations_append, observations]
    refine ⟨?_, ?_, ?_, ?_, ?_, ?_, ?_, ?_⟩
    · intro j
      have := h.once j
      simp only [e1, hp, List.count_append, List.count_cons, List.count_nil] at this ⊢
      omega
    · rw [e1, e2]; exact h.finStart
    · rw [e1, e2]; exact h.runs
    · unfold inProgress; rw [e1, e2]; exact h.few
    · intro hb'
      exact List.mem_append_left _ (h.crashed hb')
    · rw [e3]; exact h.oks
    · rw [e3]
      intro e he
      simpa using h.err e he
    · rw [e3]; exact h.none
  | start i rest hq hr =>
    show TraceInv J _ _ k
    have e1 : starts (as ++ [.start i]) = starts as ++ [i] := by simp [starts_append, starts]
    have e2 : finishes (as ++ [.start i]) = finishes as := by simp [finishes_append, finishes]
    have e3 : observations (as ++ [.start i]) = observations as := by
      simp [observations_append, observations]
    have hb : s.broken = false := by
      by_contra hb
      have := (hi.brk (by simpa using hb)).2.1
      simp [hq] at this
    have hfresh : i ∉ starts as := by
      have := h.once i
      simp only [hq, List.count_cons_self] at this
      exact List.count_eq_zero.1 (by omega)
    have hnf : i ∉ finishes as := fun hm => hfresh (h.finStart i hm)
    refine ⟨?_, ?_, ?_, ?_, ?_, ?_, ?_, ?_⟩
    · intro j
      have := h.once j
      simp only [e1, hq, List.count_append, List.count_cons, List.count_nil] at this ⊢
      omega
    · rw [e1, e2]
      exact fun j hj => List.mem_append_left _ (h.finStart j hj)
    · rw [e1, e2]
      intro _ j
      simp only [List.mem_cons, List.mem_append, List.not_mem_nil, or_false, h.runs hb j]
      constructor
      · rintro (rfl | ⟨h1, h2⟩)
        · exact ⟨.inr rfl, hnf⟩
        · exact ⟨.inl h1, h2⟩
      · rintro ⟨h1 | h1, h2⟩
        · exact .inr ⟨h1, h2⟩
        · exact .inl h1
    · have hl := (inProgress_perm hi h hb).length_eq
      have : inProgress (as ++ [.start i]) = inProgress as ++ [i] := by
        unfold inProgress
        rw [e1, e2, List.filter_append]
        simp [hnf]
      rw [this]
      simp only [List.length_append, List.length_singleton]
      push_cast
      omega
    · intro hb'
      exact List.mem_append_left _ (h.crashed hb')
    · rw [e3]; exact h.oks
    · rw [e3]
      intro e he
      simpa using h.err e he
    · rw [e3]; exact h.none
  | finish i a b hr =>
    show TraceInv J _ _ k
    have e1 : starts (as ++ [.finish i]) = starts as := by simp [starts_append, starts]
    have e2 : finishes (as ++ [.finish i]) = finishes as ++ [i] := by
      simp [finishes_append, finishes]
    have e3 : observations (as ++ [.finish i]) = observations as := by
      simp [observations_append, observations]
    have hb : s.broken = false := by
      by_contra hb
      have := (hi.brk (by simpa using hb)).2.2
      simp [hr] at this
    have hri : i ∈ s.running := by rw [hr]; simp
    have hab : i ∉ a ++ b := by
      have := hi.cnt i
      simp only [hr, List.count_append, List.count_cons_self] at this
      refine List.count_eq_zero.1 ?_
      rw [List.count_append]
      split at this <;> omega
    refine ⟨?_, ?_, ?_, ?_, ?_, ?_, ?_, ?_⟩
    · rw [e1]; exact h.once
    · rw [e1, e2]
      intro j hj
      rcases List.mem_append.1 hj with hj | hj
      · exact h.finStart j hj
      · rw [List.mem_singleton.1 hj]
        exact ((h.runs hb i).1 hri).1
    · rw [e1, e2]
      intro _ j
      have hj := h.runs hb j
      simp only [hr] at hj
      by_cases hji : j = i
      · subst hji
        simp only [List.mem_append, List.mem_singleton, or_true, not_true_eq_false, and_false,
          iff_false]
        simpa using hab
      · simp only [List.mem_append, List.mem_cons, List.not_mem_nil, or_false, hji, false_or] at hj ⊢
        exact hj
    · refine le_trans ?_ h.few
      unfold inProgress
      rw [e1, e2]
      have : ((starts as).filter fun j => j ∉ finishes as ++ [i]) =
          ((starts as).filter fun j => j ∉ finishes as).filter fun j => j ∉ [i] := by
        rw [List.filter_filter]
        congr 1
        funext j
        simp only [List.mem_append, not_or, Bool.decide_and]
        rw [Bool.and_comm]
      rw [this]
      exact_mod_cast List.length_filter_le _ _
    · intro hb'
      exact List.mem_append_left _ (h.crashed hb')
    · rw [e3]; exact h.oks
    · rw [e3]
      intro e he
      simpa using h.err e he
    · rw [e3]; exact h.none
  | crash hb =>
    show TraceInv J _ _ k
    have e1 : starts (as ++ [.crash]) = starts as := by simp [starts_append, starts]
    have e2 : finishes (as ++ [.crash]) = finishes as := by simp [finishes_append, finishes]
    have e3 : observations (as ++ [.crash]) = observations as := by
      simp [observations_append, observations]
    refine ⟨?_, ?_, ?_, ?_, ?_, ?_, ?_, ?_⟩
    · intro j
      have := h.once j
      simp only [e1, List.count_nil] at this ⊢
      omega
    · rw [e1, e2]; exact h.finStart
    · intro hb'; cases hb'
    · unfold inProgress; rw [e1, e2]; exact h.few
    · intro _; simp
    · rw [e3]; exact h.oks
    · rw [e3]
      intro e he
      rcases h.err e he with ⟨pre, i, e₀, h1, h2, h3, h4⟩ | ⟨h1, h2, h3⟩
      · refine .inl ⟨pre, i, e₀, h1, h2, h3, ?_⟩
        rcases h4 with h4 | h4
        · exact .inl h4
        · exact .inr ⟨by simp, h4.2⟩
      · exact .inr ⟨by simp, h2, h3⟩
    · rw [e3]; exact h.none
  | observe i r a b hp hf =>
    show TraceInv J _ _ k
    have e1 : starts (as ++ [.observe i r]) = starts as := by simp [starts_append, starts]
    have e2 : finishes (as ++ [.observe i r]) = finishes as := by simp [finishes_append, finishes]
    have e3 : observations (as ++ [.observe i r]) = observations as ++ [(i, r)] := by
      simp [observations_append, observations]
    have hoks := h.oks (by rw [hp]; trivial)
    have hfin := hi.fin i r (by rw [hf]; simp)
    unfold Pool.handle
    cases r with
    | ok v =>
      refine ⟨?_, ?_, ?_, ?_, ?_, ?_, ?_, ?_⟩
      · rw [e1]; exact h.once
      · rw [e1, e2]; exact h.finStart
      · rw [e1, e2]; exact h.runs
      · unfold inProgress; rw [e1, e2]; exact h.few
      · intro hb'
        exact List.mem_append_left _ (h.crashed hb')
      · rw [e3]
        intro _ x hx
        rcases List.mem_append.1 hx with hx | hx
        · exact hoks x hx
        · rw [List.mem_singleton.1 hx]
          exact ⟨v, rfl⟩
      · intro e he
        simp only [hp] at he
        cases he
      · intro j hj
        simp only [hp] at hj
        cases hj
    | error e =>
      have hcause : J.outcome i = .error e ∨
          (Action.crash ∈ as ++ [Action.observe i (.error e)] ∧ e = .runtimeError) := by
        rcases hfin with h1 | ⟨h1, h2⟩
        · exact .inl h1.symm
        · exact .inr ⟨List.mem_append_left _ (h.crashed h1), by cases h2; rfl⟩
      cases hid : J.taskId i with
      | error e' =>
        simp only
        refine ⟨?_, ?_, ?_, ?_, ?_, ?_, ?_, ?_⟩
        · rw [e1]; exact h.once
        · rw [e1, e2]; exact h.finStart
        · rw [e1, e2]; exact h.runs
        · unfold inProgress; rw [e1, e2]; exact h.few
        · intro hb'
          exact List.mem_append_left _ (h.crashed hb')
        · intro hj; cases hj
        · intro x hx
          cases hx
          exact .inl ⟨observations as, i, e, e3, hoks, by rw [hid], hcause⟩
        · intro j hj; cases hj
      | ok t =>
        simp only
        refine ⟨?_, ?_, ?_, ?_, ?_, ?_, ?_, ?_⟩
        · intro j
          have := h.once j
          simp only [e1, List.count_nil] at this ⊢
          omega
        · rw [e1, e2]; exact h.finStart
        · rw [e1, e2]; exact h.runs
        · unfold inProgress; rw [e1, e2]; exact h.few
        · intro hb'
          exact List.mem_append_left _ (h.crashed hb')
        · intro hj; cases hj
        · intro x hx
          cases hx
          exact .inl ⟨observations as, i, e, e3, hoks, by rw [hid], hcause⟩
        · intro j hj; cases hj
  | finalise hp ho =>
    show TraceInv J _ _ k
    have e1 : starts (as ++ [.finalise]) = starts as := by simp [starts_append, starts]
    have e2 : finishes (as ++ [.finalise]) = finishes as := by simp [finishes_append, finishes]
    have e3 : observations (as ++ [.finalise]) = observations as := by
      simp [observations_append, observations]
    have hg := hi.good (by rw [hp]; trivial)
    unfold Pool.finalise
    rw [if_neg (by simp [hg.1])]
    refine ⟨?_, ?_, ?_, ?_, ?_, ?_, ?_, ?_⟩
    · rw [e1]; exact h.once
    · rw [e1, e2]; exact h.finStart
    · rw [e1, e2]; exact h.runs
    · unfold inProgress; rw [e1, e2]; exact h.few
    · intro hb'
      exact List.mem_append_left _ (h.crashed hb')
    · rw [e3]; intro _; exact h.oks (by rw [hp]; trivial)
    · intro e he; cases he
    · intro j hj; cases hj

theorem Pool.Exec.traceInv {J : Job R} {s₀ s : Pool R} {as : List (Action R)}
    (h₀ : J.init = .ok s₀) (h : Pool.Exec J s₀ as s) : ∃ k, s.Inv J k ∧ TraceInv J as s k := by
  induction h with
  | nil => exact ⟨0, Job.init_inv h₀, TraceInv.nil h₀⟩
  | snoc _ hs ih =>
    obtain ⟨k, hk, hk'⟩ := ih
    exact ⟨_, hs.inv hk, hk'.step hk hs⟩

theorem Pool.Exec.observed_lt {J : Job R} {s₀ s : Pool R} {as : List (Action R)}
    (h₀ : J.init = .ok s₀) (h : Pool.Exec J s₀ as s) : ∀ x ∈ observations as, x.1 < J.n := by
  induction h with
  | nil => simp [observations]
  | @snoc as s s' a he hs ih =>
    obtain ⟨k, hk⟩ := he.inv h₀
    intro x hx
    rw [observations_append] at hx
    rcases List.mem_append.1 hx with hx | hx
    · exact ih x hx
    · cases hs with
      | observe i r a b hp hf =>
        simp only [observations, List.mem_singleton] at hx
        rw [hx]
        exact hk.lt_of_mem_finished (r := r) (by rw [hf]; simp)
      | _ => simp [observations] at hx

theorem Job.init_workers {J : Job R} {s : Pool R} (h : J.init = .ok s) : 0 < J.workers := by
  unfold Job.init at h
  split at h
  · cases h
  · split at h
    · cases h
    · omega

end Verif
