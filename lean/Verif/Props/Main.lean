import Verif.Props.Pool

/-!
# C72: what the end of a command-line run says about the tasks
-/

namespace Verif

variable {R : Type}

/-- Nothing was lost: the executor returned a result for every task. -/
def AllDone (J : Job R) (p : Phase R) : Prop :=
  ∃ rs, p = .returned rs ∧ rs.length = J.n ∧
    ∀ i < J.n, ∃ v, J.outcome i = .ok v ∧ rs[i]? = some (some v)

/-- The outcome of `main` for an executor that has left its function. -/
theorem main_status (start stop : ℤ) {α : Type} (r : Py α) :
    (exitStatus (mainProgram start stop r).1 = 0 ↔ (∃ a, r = .ok a) ∨ r = .error .runtimeError) ∧
    ("❌ Execution stopped: " ∈ (mainProgram start stop r).2 ↔ r = .error .runtimeError) := by
  have hne : ∀ s : String, "❌ Execution stopped: " ≠ "Execution complete in " ++ s := by
    intro s h
    have := congrArg (fun t => t.toList.head?) h
    simp [String.toList_append] at this
  rcases r with e | a
  · cases e <;> simp [mainProgram, mainCatches, mainPrints, timeIt, exitStatus]
  · simp [mainProgram, mainCatches, mainPrints, timeIt, exitStatus, String.append_assoc, hne]

/-- One task that fails with a `RuntimeError` (for instance a `QhullError`). -/
def stopJob : Job ℕ := ⟨1, 1, fun _ => .error .runtimeError, fun _ => .ok "t"⟩

/-- **C72 is false of the code**: a task fails, the executor raises, and the process ends with
status 0 after printing the line of a complete execution. -/
theorem C72_status_fails (start stop : ℤ) :
    ∃ (s₀ : Pool ℕ) (as : List (Action ℕ)) (s : Pool ℕ) (r : Py (List (Option ℕ))),
      stopJob.init = .ok s₀ ∧ Pool.Exec stopJob s₀ as s ∧ .crash ∉ as ∧ s.phase.result = some r ∧
      ¬ AllDone stopJob s.phase ∧ exitStatus (mainProgram start stop r).1 = 0 ∧
      ∃ l ∈ (mainProgram start stop r).2, "Execution complete in ".toList <+: l.toList := by
  refine ⟨_, [.submit 0, .enqueue 0, .start 0, .finish 0, .observe 0 (.error .runtimeError)], _,
    .error .runtimeError, rfl,
    ((((Pool.Exec.nil.snoc (.submit _ 0 rfl (by decide) rfl)).snoc (.enqueue _ 0 [] rfl
      (by decide))).snoc (.start _ 0 [] rfl (by decide))).snoc (.finish _ 0 [] [] rfl)).snoc
      (.observe _ 0 (.error .runtimeError) [] [] rfl rfl), by simp, rfl, ?_, rfl, ?_⟩
  · rintro ⟨rs, h, -⟩
    cases h
  · simp [mainProgram, mainCatches, mainPrints, timeIt, String.toList_append]

/-- All tasks would succeed, but a worker process is killed: again status 0. -/
theorem C72_killed_fails (start stop : ℤ) :
    ∃ (s₀ : Pool ℕ) (as : List (Action ℕ)) (s : Pool ℕ) (r : Py (List (Option ℕ))),
      okJob.init = .ok s₀ ∧ Pool.Exec okJob s₀ as s ∧ (∀ i, .start i ∉ as) ∧
      s.phase.result = some r ∧ exitStatus (mainProgram start stop r).1 = 0 := by
  exact ⟨_, [.submit 0, .crash, .submitFails], _, .error .runtimeError, rfl,
    ((Pool.Exec.nil.snoc (.submit _ 0 rfl (by decide) rfl)).snoc (.crash _ rfl)).snoc
      (.submitFails _ 1 rfl rfl), by simp, rfl, rfl⟩

/-- **C72** (what holds).  Whatever the interleaving, if the process ends with status 0 and the
message "Execution stopped" has not been printed, then every task has returned.  Missing: the
status alone does not say so. -/
theorem C72_message_partial (J : Job R) {s₀ s : Pool R} {as : List (Action R)}
    {r : Py (List (Option R))} (start stop : ℤ)
    (h₀ : J.init = .ok s₀) (h : Pool.Exec J s₀ as s) (hr : s.phase.result = some r)
    (h0 : exitStatus (mainProgram start stop r).1 = 0)
    (hm : "❌ Execution stopped: " ∉ (mainProgram start stop r).2) : AllDone J s.phase := by
  obtain ⟨h1, h2⟩ := main_status start stop r
  rcases h1.1 h0 with ⟨a, rfl⟩ | h1
  · cases hp : s.phase with
    | submitting i => rw [hp] at hr; cases hr
    | collecting => rw [hp] at hr; cases hr
    | raised e => rw [hp] at hr; cases hr
    | returned rs =>
      obtain ⟨h3, h4⟩ := C48_task_order J h₀ h hp
      exact ⟨rs, rfl, h3, h4⟩
  · exact (hm (h2.2 h1)).elim

/-- **C72** (what holds).  If no worker dies and no task fails with a `RuntimeError`, status 0
does mean that every task has returned.  Missing: dead workers and `RuntimeError`s. -/
theorem C72_status_partial (J : Job R) {s₀ s : Pool R} {as : List (Action R)}
    {r : Py (List (Option R))} (start stop : ℤ)
    (h₀ : J.init = .ok s₀) (h : Pool.Exec J s₀ as s) (hr : s.phase.result = some r)
    (hc : .crash ∉ as) (hid : ∀ i < J.n, ∃ t, J.taskId i = .ok t)
    (hrt : ∀ i < J.n, J.outcome i ≠ .error .runtimeError) :
    exitStatus (mainProgram start stop r).1 = 0 ↔ AllDone J s.phase := by
  obtain ⟨h1, h2⟩ := main_status start stop r
  constructor
  · intro h0
    refine C72_message_partial J start stop h₀ h hr h0 fun hm => ?_
    obtain rfl := h2.1 hm
    cases hp : s.phase with
    | submitting i => rw [hp] at hr; cases hr
    | collecting => rw [hp] at hr; cases hr
    | returned rs => rw [hp] at hr; cases hr
    | raised e =>
      rw [hp] at hr
      cases hr
      obtain ⟨pre, i, hi, -, -, h5⟩ := C49_first_observed J h₀ h hid hc hp
      exact hrt i hi h5
  · rintro ⟨rs, hp, -⟩
    rw [hp] at hr
    cases hr
    exact h1.2 (.inl ⟨rs, rfl⟩)

/-- The hypotheses hold for a run of three tasks that all succeed. -/
example : ∃ (s₀ : Pool ℕ) (as : List (Action ℕ)) (s : Pool ℕ) (r : Py (List (Option ℕ))),
    okJob.init = .ok s₀ ∧ Pool.Exec okJob s₀ as s ∧ s.phase.result = some r ∧
      exitStatus (mainProgram 0 1 r).1 = 0 ∧
      "❌ Execution stopped: " ∉ (mainProgram 0 1 r).2 := by
  obtain ⟨bs, s', rs, h1, h2, -⟩ := C48_returns okJob (s₀ := _) rfl .nil
    (fun i _ => ⟨10 * i, rfl⟩) (by simp)
  refine ⟨_, _, s', .ok rs, rfl, h1, by rw [h2]; rfl, rfl, ?_⟩
  rw [(main_status 0 1 _).2]
  simp

end Verif
