import Verif.Model.Workers
import Verif.Lemmas.PoolTrace

/-!
# The pool with mutable objects refines the pool with fixed outcomes
-/

set_option linter.unusedSectionVars false

namespace Verif

variable {σ M R : Type}

/-- Neither the object of the calling process nor a copy that is waiting for its call has been
changed, and every running task has a copy. -/
structure HostState.Clean (H : Host σ M R) (s : HostState σ R) : Prop where
  object : s.object = H.object
  copies : ∀ i c, s.copies i = some c → c = H.object
  running : ∀ i ∈ s.pool.running, s.copies i = some H.object

theorem HostState.Step.refines {H : Host σ M R} {mem : ℕ → M} {s s' : HostState σ R}
    {a : Action R} (h : HostState.Step H mem s a s') (hs : s.Clean H)
    (hnd : s.pool.running.Nodup) :
    Pool.Step (H.job mem) s.pool a s'.pool ∧ s'.Clean H := by
  cases h with
  | start i p hp =>
    refine ⟨hp, hs.object, ?_, ?_⟩
    · intro j c hj
      by_cases hij : j = i
      · subst hij
        simp only [Function.update_self, Option.some.injEq] at hj
        rw [← hj, hs.object]
      · simp only [Function.update_of_ne hij] at hj
        exact hs.copies j c hj
    · cases hp with
      | start _ rest hq hr =>
        intro j hj
        by_cases hij : j = i
        · subst hij
          simp only [Function.update_self, hs.object]
        · simp only [Function.update_of_ne hij]
          rcases List.mem_cons.1 hj with hj | hj
          · exact (hij hj).elim
          · exact hs.running j hj
  | finish i a b c hr hc =>
    obtain rfl := hs.copies i c hc
    refine ⟨.finish s.pool i a b hr, hs.object, ?_, ?_⟩
    · intro j c hj
      by_cases hij : j = i
      · subst hij
        simp at hj
      · simp only [Function.update_of_ne hij] at hj
        exact hs.copies j c hj
    · intro j hj
      have hij : j ≠ i := by
        rintro rfl
        rw [hr] at hnd
        have := (List.nodup_middle.1 hnd)
        exact (List.nodup_cons.1 this).1 hj
      simp only [Function.update_of_ne hij]
      refine hs.running j ?_
      rw [hr]
      rcases List.mem_append.1 hj with hj | hj
      · simp [hj]
      · simp [hj]
  | other a p h1 h2 hp =>
    refine ⟨hp, hs.object, hs.copies, ?_⟩
    intro j hj
    refine hs.running j ?_
    cases hp with
    | start i => exact (h1 i rfl).elim
    | finish i => exact (h2 i rfl).elim
    | submit => exact hj
    | submitFails => exact hj
    | enqueue => exact hj
    | crash => simp at hj
    | observe i r a b hp hf =>
      unfold Pool.handle at hj
      repeat' split at hj
      all_goals exact hj
    | finalise =>
      unfold Pool.finalise at hj
      split at hj <;> exact hj

theorem Pool.Inv.running_nodup {J : Job R} {s : Pool R} {k : ℕ} (h : s.Inv J k) :
    s.running.Nodup := by
  refine List.nodup_iff_count_le_one.2 fun i => ?_
  have := h.cnt i
  split at this <;> omega

theorem Host.init_ok {H : Host σ M R} {mem : ℕ → M} {s : HostState σ R}
    (h : H.init mem = .ok s) : (H.job mem).init = .ok s.pool ∧ s.Clean H := by
  unfold Host.init at h
  cases hp : (H.job mem).init with
  | error e => rw [hp] at h; cases h
  | ok p =>
    rw [hp] at h
    cases h
    refine ⟨rfl, rfl, by simp, ?_⟩
    unfold Job.init at hp
    split at hp
    · cases hp
    · split at hp
      · cases hp
      · cases hp
        simp

/-- Every execution with mutable objects is an execution of the pool in which each task
returns what a call on the untouched object returns. -/
theorem HostState.Exec.refines {H : Host σ M R} {mem : ℕ → M} {s₀ s : HostState σ R}
    {as : List (Action R)} (h₀ : H.init mem = .ok s₀) (h : HostState.Exec H mem s₀ as s) :
    Pool.Exec (H.job mem) s₀.pool as s.pool ∧ s.Clean H := by
  obtain ⟨hj, hc⟩ := Host.init_ok h₀
  induction h with
  | nil => exact ⟨.nil, hc⟩
  | snoc _ hs ih =>
    obtain ⟨he, hcl⟩ := ih
    obtain ⟨k, hk⟩ := he.inv hj
    obtain ⟨h1, h2⟩ := hs.refines hcl hk.running_nodup
    exact ⟨he.snoc h1, h2⟩

/-- Conversely every execution of that pool is one with mutable objects. -/
theorem HostState.Exec.lift {H : Host σ M R} {mem : ℕ → M} {s₀ : HostState σ R} {p : Pool R}
    {as : List (Action R)} (h₀ : H.init mem = .ok s₀)
    (h : Pool.Exec (H.job mem) s₀.pool as p) :
    ∃ s, HostState.Exec H mem s₀ as s ∧ s.pool = p := by
  induction h with
  | nil => exact ⟨s₀, .nil, rfl⟩
  | @snoc as p p' a _ hs ih =>
    obtain ⟨s, he, rfl⟩ := ih
    have hcl := (he.refines h₀).2
    cases hs with
    | start i rest hq hr => exact ⟨_, he.snoc (.start s i _ (.start s.pool i rest hq hr)), rfl⟩
    | finish i a b hr =>
      exact ⟨_, he.snoc (.finish s i a b H.object hr (hcl.running i (by rw [hr]; simp))), rfl⟩
    | submit i h1 h2 h3 =>
      exact ⟨_, he.snoc (.other s _ _ (by simp) (by simp) (.submit s.pool i h1 h2 h3)), rfl⟩
    | submitFails i h1 h2 =>
      exact ⟨_, he.snoc (.other s _ _ (by simp) (by simp) (.submitFails s.pool i h1 h2)), rfl⟩
    | enqueue i rest h1 h2 =>
      exact ⟨_, he.snoc (.other s _ _ (by simp) (by simp) (.enqueue s.pool i rest h1 h2)), rfl⟩
    | crash h1 =>
      exact ⟨_, he.snoc (.other s _ _ (by simp) (by simp) (.crash s.pool h1)), rfl⟩
    | observe i r a b h1 h2 =>
      exact ⟨_, he.snoc (.other s _ _ (by simp) (by simp) (.observe s.pool i r a b h1 h2)), rfl⟩
    | finalise h1 h2 =>
      exact ⟨_, he.snoc (.other s _ _ (by simp) (by simp) (.finalise s.pool h1 h2)), rfl⟩

end Verif
