import Verif.Model.Pool
import Mathlib.Data.List.Perm.Basic
import Mathlib.Data.List.Nodup
import Mathlib.Data.List.Range
import Mathlib.Tactic.Ring
import Mathlib.Tactic.Linarith

/-! # Invariants of the pool model -/

namespace Verif

variable {R : Type}

/-- The caller is still inside the function. -/
def Phase.active : Phase R → Prop
  | .submitting _ | .collecting => True
  | .returned _ | .raised _ => False

def Phase.notRaised : Phase R → Prop
  | .raised _ => False
  | _ => True

/-- Invariant; `k` tasks have been submitted. -/
structure Pool.Inv (J : Job R) (s : Pool R) (k : ℕ) : Prop where
  le : k ≤ J.n
  sub : ∀ i, s.phase = .submitting i → i = k ∧ k < J.n
  coll : s.phase = .collecting → k = J.n
  ret : ∀ rs, s.phase = .returned rs → k = J.n ∧ rs = s.results ∧ s.observed.length = J.n
  cnt : ∀ i, s.pending.count i + s.queued.count i + s.running.count i +
    (s.finished.map Prod.fst).count i + s.observed.count i + s.cancelled.count i =
      if i < k then 1 else 0
  run : (s.running.length : ℤ) ≤ J.workers
  queue : (s.queued.length : ℤ) ≤ J.workers + 1
  brk : s.broken = true → s.pending = [] ∧ s.queued = [] ∧ s.running = []
  fin : ∀ i r, (i, r) ∈ s.finished → r = J.outcome i ∨ (s.broken = true ∧ r = .error .runtimeError)
  len : s.results.length = J.n
  good : s.phase.notRaised → s.exceptions = [] ∧ s.cancelled = [] ∧
    ∀ i ∈ s.observed, ∃ v, J.outcome i = .ok v ∧ s.results[i]? = some (some v)

theorem Pool.Inv.perm {J : Job R} {s : Pool R} {k : ℕ} (h : s.Inv J k) :
    (s.pending ++ s.queued ++ s.running ++ s.finished.map Prod.fst ++ s.observed ++
      s.cancelled).Perm (List.range k) := by
  rw [List.perm_iff_count]
  intro i
  simp only [List.count_append, h.cnt i]
  split
  · rw [List.count_eq_one_of_mem List.nodup_range (List.mem_range.2 ‹_›)]
  · rw [List.count_eq_zero_of_not_mem]
    simpa using ‹¬ i < k›

theorem Pool.Inv.length {J : Job R} {s : Pool R} {k : ℕ} (h : s.Inv J k) :
    s.pending.length + s.queued.length + s.running.length + s.finished.length +
      s.observed.length + s.cancelled.length = k := by
  have := h.perm.length_eq
  simpa [List.length_append, Nat.add_assoc] using this

theorem Pool.Inv.lt_of_mem_finished {J : Job R} {s : Pool R} {k : ℕ} (h : s.Inv J k) {i : ℕ}
    {r : Py R} (hm : (i, r) ∈ s.finished) : i < J.n := by
  have h1 := h.cnt i
  have h2 : 0 < (s.finished.map Prod.fst).count i :=
    List.count_pos_iff.2 (List.mem_map.2 ⟨_, hm, rfl⟩)
  have := h.le
  by_contra hn
  rw [if_neg (by omega)] at h1
  omega

theorem Job.init_inv {J : Job R} {s : Pool R} (h : J.init = .ok s) : s.Inv J 0 := by
  unfold Job.init at h
  split at h
  · cases h
  · split at h
    · cases h
    · cases h
      refine ⟨Nat.zero_le _, ?_, ?_, ?_, ?_, ?_, ?_, ?_, ?_, ?_, ?_⟩ <;> simp_all <;> omega

/-- Tasks submitted by an action. -/
def Action.submits : Action R → ℕ
  | .submit _ => 1
  | _ => 0

theorem Pool.Step.inv {J : Job R} {s s' : Pool R} {a : Action R} {k : ℕ} (h : s.Inv J k)
    (hs : Pool.Step J s a s') : s'.Inv J (k + a.submits) := by
  cases hs with
  | submit i hp hi hb =>
    obtain ⟨rfl, hk⟩ := h.sub i hp
    show Pool.Inv J _ (i + 1)
    refine ⟨?_, ?_, ?_, ?_, ?_, h.run, h.queue, ?_, h.fin, h.len, ?_⟩
    · omega
    · intro j hj
      dsimp only at hj
      split at hj
      · cases hj
      · cases hj
        exact ⟨rfl, by omega⟩
    · intro hj
      dsimp only at hj
      split at hj
      · assumption
      · cases hj
    · intro rs hj
      dsimp only at hj
      split at hj <;> cases hj
    · intro j
      have := h.cnt j
      simp only [List.count_append, List.count_singleton, beq_iff_eq]
      split at this <;> split <;> split <;> omega
    · intro hb'
      simp [hb] at hb'
    · intro _
      exact h.good (by rw [hp]; trivial)
  | submitFails i hp hb =>
    show Pool.Inv J _ k
    refine ⟨h.le, ?_, ?_, ?_, h.cnt, h.run, h.queue, h.brk, h.fin, h.len, ?_⟩
    · intro j hj; cases hj
    · intro hj; cases hj
    · intro j hj; cases hj
    · intro hj; cases hj
  | enqueue i rest hp hq =>
    show Pool.Inv J _ k
    refine ⟨h.le, h.sub, h.coll, h.ret, ?_, h.run, ?_, ?_, h.fin, h.len, h.good⟩
    · intro j
      have := h.cnt j
      simp only [hp, List.count_cons, List.count_append, List.count_nil] at this ⊢
      omega
    · simp only [List.length_append, List.length_singleton]
      push_cast
      omega
    · intro hb
      have := (h.brk hb).1
      simp [hp] at this
  | start i rest hq hr =>
    show Pool.Inv J _ k
    refine ⟨h.le, h.sub, h.coll, h.ret, ?_, ?_, ?_, ?_, h.fin, h.len, h.good⟩
    · intro j
      have := h.cnt j
      simp only [hq, List.count_cons] at this ⊢
      omega
    · simp only [List.length_cons]
      push_cast
      omega
    · have := h.queue
      rw [hq] at this
      simp only [List.length_cons] at this ⊢
      push_cast at this
      omega
    · intro hb
      have := (h.brk hb).2.1
      simp [hq] at this
  | finish i a b hr =>
    show Pool.Inv J _ k
    refine ⟨h.le, h.sub, h.coll, h.ret, ?_, ?_, h.queue, ?_, ?_, h.len, h.good⟩
    · intro j
      have := h.cnt j
      simp only [hr, List.count_cons, List.count_append, List.map_cons] at this ⊢
      omega
    · have := h.run
      rw [hr] at this
      simp only [List.length_append, List.length_cons] at this ⊢
      push_cast at this ⊢
      omega
    · intro hb
      have := (h.brk hb).2.2
      simp [hr] at this
    · intro j r hm
      simp only [List.mem_cons, Prod.mk.injEq] at hm
      rcases hm with ⟨rfl, rfl⟩ | hm
      · exact .inl rfl
      · exact h.fin j r hm
  | crash hb =>
    show Pool.Inv J _ k
    refine ⟨h.le, h.sub, h.coll, h.ret, ?_, ?_, ?_, ?_, ?_, h.len, h.good⟩
    · intro j
      have := h.cnt j
      simp only [List.map_append, List.map_map, List.count_append, List.count_nil] at this ⊢
      have e : ∀ l : List ℕ, (l.map (Prod.fst ∘ fun x => (x, (.error .runtimeError : Py R)))) = l :=
        fun l => by simp [Function.comp_def]
      simp only [e]
      omega
    · have := h.run
      simp only [List.length_nil]
      push_cast
      omega
    · have := h.queue
      simp only [List.length_nil]
      push_cast
      omega
    · exact fun _ => ⟨rfl, rfl, rfl⟩
    · intro j r hm
      simp only [List.mem_append, List.mem_map, Prod.mk.injEq] at hm
      rcases hm with ⟨x, _, _, rfl⟩ | hm
      · exact .inr ⟨rfl, rfl⟩
      · rcases h.fin j r hm with h1 | h1
        · exact .inl h1
        · exact .inr ⟨rfl, h1.2⟩
  | observe i r a b hp hf =>
    have hin : i < J.n := h.lt_of_mem_finished (i := i) (r := r) (by rw [hf]; simp)
    have hcnt : ∀ j, s.pending.count j + s.queued.count j + s.running.count j +
        ((a ++ b).map Prod.fst).count j + (i :: s.observed).count j + s.cancelled.count j =
          if j < k then 1 else 0 := by
      intro j
      have := h.cnt j
      simp only [hf, List.map_append, List.map_cons, List.count_append, List.count_cons] at this ⊢
      omega
    have hfin : ∀ j r', (j, r') ∈ a ++ b →
        r' = J.outcome j ∨ (s.broken = true ∧ r' = .error .runtimeError) := by
      intro j r' hm
      refine h.fin j r' ?_
      rw [hf]
      simp only [List.mem_append, List.mem_cons] at hm ⊢
      tauto
    have hg := h.good (by rw [hp]; trivial)
    show Pool.Inv J _ k
    unfold Pool.handle
    cases r with
    | ok v =>
      refine ⟨h.le, ?_, h.coll, ?_, hcnt, h.run, h.queue, h.brk, hfin, ?_, ?_⟩
      · intro j hj
        simp [hp] at hj
      · intro j hj
        simp [hp] at hj
      · simpa using h.len
      · intro _
        refine ⟨hg.1, hg.2.1, ?_⟩
        intro j hj
        have hok : J.outcome i = .ok v := by
          rcases h.fin i (.ok v) (by rw [hf]; simp) with h1 | h1
          · exact h1.symm
          · cases h1.2
        simp only [List.mem_cons] at hj
        by_cases hji : j = i
        · subst hji
          refine ⟨v, hok, ?_⟩
          have := h.len
          simp [this, hin]
        · obtain ⟨w, hw, hr⟩ := hg.2.2 j (by tauto)
          refine ⟨w, hw, ?_⟩
          simp only [List.getElem?_set]
          rw [if_neg (Ne.symm hji)]
          exact hr
    | error e =>
      cases hid : J.taskId i with
      | error e' =>
        simp only
        refine ⟨h.le, ?_, ?_, ?_, hcnt, h.run, h.queue, h.brk, hfin, h.len, ?_⟩
        · intro j hj; cases hj
        · intro hj; cases hj
        · intro j hj; cases hj
        · intro hj; cases hj
      | ok t =>
        simp only
        refine ⟨h.le, ?_, ?_, ?_, ?_, h.run, h.queue, ?_, hfin, h.len, ?_⟩
        · intro j hj; cases hj
        · intro hj; cases hj
        · intro j hj; cases hj
        · intro j
          have := hcnt j
          simp only [hg.2.1, List.count_nil] at this ⊢
          omega
        · intro hb
          exact ⟨rfl, (h.brk hb).2⟩
        · intro hj; cases hj
  | finalise hp ho =>
    have hg := h.good (by rw [hp]; trivial)
    show Pool.Inv J _ k
    unfold Pool.finalise
    rw [if_neg (by simp [hg.1])]
    refine ⟨h.le, ?_, ?_, ?_, h.cnt, h.run, h.queue, h.brk, h.fin, h.len, ?_⟩
    · intro j hj; cases hj
    · intro hj; cases hj
    · intro j hj
      cases hj
      exact ⟨h.coll hp, rfl, ho⟩
    · exact fun _ => hg

theorem Pool.Exec.inv {J : Job R} {s₀ s : Pool R} {as : List (Action R)} (h₀ : J.init = .ok s₀)
    (h : Pool.Exec J s₀ as s) : ∃ k, s.Inv J k := by
  induction h with
  | nil => exact ⟨0, Job.init_inv h₀⟩
  | snoc _ hs ih =>
    obtain ⟨k, hk⟩ := ih
    exact ⟨_, hs.inv hk⟩

theorem Pool.Exec.trans {J : Job R} {s₀ s₁ s₂ : Pool R} {as bs : List (Action R)}
    (h : Pool.Exec J s₀ as s₁) (h' : Pool.Exec J s₁ bs s₂) : Pool.Exec J s₀ (as ++ bs) s₂ := by
  induction h' with
  | nil => simpa using h
  | snoc _ hs ih =>
    rw [← List.append_assoc]
    exact ih.snoc hs

/-- Work left; every action reduces it. -/
def Pool.work (J : Job R) (s : Pool R) : ℕ :=
  (match s.phase with
    | .submitting i => 5 * (J.n - i) + 1
    | .collecting => 1
    | _ => 0) +
  4 * s.pending.length + 3 * s.queued.length + 2 * s.running.length + s.finished.length +
  (if s.broken then 0 else 1)

theorem Pool.Step.work_lt {J : Job R} {s s' : Pool R} {a : Action R} (hs : Pool.Step J s a s') :
    s'.work J < s.work J := by
  cases hs with
  | submit i hp hi hb =>
    unfold Pool.work
    simp only [hp, List.length_append, List.length_singleton]
    split_ifs with h1
    all_goals simp only
    all_goals omega
  | submitFails i hp hb =>
    unfold Pool.work
    simp only [hp]
    omega
  | enqueue i rest hp hq =>
    unfold Pool.work
    simp only [hp, List.length_append, List.length_cons, List.length_nil]
    omega
  | start i rest hq hr =>
    unfold Pool.work
    simp only [hq, List.length_cons]
    omega
  | finish i a b hr =>
    unfold Pool.work
    simp only [hr, List.length_append, List.length_cons]
    omega
  | crash hb =>
    unfold Pool.work
    simp only [hb, List.length_append, List.length_map, List.length_nil, if_true]
    simp only [Bool.false_eq_true, if_false]
    omega
  | observe i r a b hp hf =>
    unfold Pool.handle
    cases r with
    | ok v =>
      unfold Pool.work
      simp only [hp, hf, List.length_append, List.length_cons]
      omega
    | error e =>
      cases hid : J.taskId i with
      | error e' =>
        unfold Pool.work
        simp only [hp, hf, List.length_append, List.length_cons]
        omega
      | ok t =>
        unfold Pool.work
        simp only [hp, hf, List.length_append, List.length_cons, List.length_nil]
        omega
  | finalise hp ho =>
    unfold Pool.finalise
    by_cases he : s.exceptions ≠ []
    · rw [if_pos he]
      unfold Pool.work
      simp only [hp]
      omega
    · rw [if_neg he]
      unfold Pool.work
      simp only [hp]
      omega

theorem Pool.Exec.work_le {J : Job R} {s₀ s : Pool R} {as : List (Action R)}
    (h : Pool.Exec J s₀ as s) : as.length + s.work J ≤ s₀.work J := by
  induction h with
  | nil => simp
  | snoc _ hs ih =>
    have := hs.work_lt
    simp only [List.length_append, List.length_singleton]
    omega

/-- Some action other than the death of a worker is possible while the caller waits. -/
theorem Pool.Inv.progress {J : Job R} {s : Pool R} {k : ℕ} (h : s.Inv J k)
    (hw : 0 < J.workers) (ha : s.phase.active) :
    ∃ a s', a ≠ .crash ∧ Pool.Step J s a s' := by
  cases hp : s.phase with
  | submitting i =>
    cases hb : s.broken with
    | true => exact ⟨_, _, by simp, .submitFails s i hp hb⟩
    | false => exact ⟨_, _, by simp, .submit s i hp (by have := h.sub i hp; omega) hb⟩
  | collecting =>
    cases hf : s.finished with
    | cons x l => exact ⟨_, _, by simp, .observe s x.1 x.2 [] l hp hf⟩
    | nil =>
      cases hr : s.running with
      | cons i l => exact ⟨_, _, by simp, .finish s i [] l hr⟩
      | nil =>
        cases hq : s.queued with
        | cons i l => exact ⟨_, _, by simp, .start s i l hq (by rw [hr]; simpa using hw)⟩
        | nil =>
          cases hpe : s.pending with
          | cons i l =>
            exact ⟨_, _, by simp, .enqueue s i l hpe (by rw [hq]; simp; omega)⟩
          | nil =>
            refine ⟨_, _, by simp, .finalise s hp ?_⟩
            have h1 := h.length
            have h2 := (h.good (by rw [hp]; trivial)).2.1
            simp only [hf, hr, hq, hpe, h2, List.length_nil] at h1
            have := h.coll hp
            omega
  | returned rs => rw [hp] at ha; exact ha.elim
  | raised e => rw [hp] at ha; exact ha.elim

theorem Pool.Inv.all_observed {J : Job R} {s : Pool R} {k : ℕ} (h : s.Inv J k)
    (hk : k = J.n) (ho : s.observed.length = J.n) {i : ℕ} (hi : i < J.n) : i ∈ s.observed := by
  subst hk
  have h1 := h.length
  have hz : s.pending.length = 0 ∧ s.queued.length = 0 ∧ s.running.length = 0 ∧
      s.finished.length = 0 ∧ s.cancelled.length = 0 := by omega
  simp only [List.length_eq_zero_iff] at hz
  have h2 := h.cnt i
  rw [if_pos hi] at h2
  simp only [hz, List.map_nil, List.count_nil] at h2
  exact List.count_pos_iff.1 (by omega)

end Verif
