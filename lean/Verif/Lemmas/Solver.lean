import Verif.Model.Solver
import Verif.Lemmas.Integrate

/-!
# Lemmas about the solver loop
-/

set_option linter.unusedSectionVars false

namespace Verif

variable {K F : Type} [Zero K] [One K] [Add K] [Sub K] [Mul K] [Div K] [NatCast K] [IntCast K]
  [Min K] [Max K] [NumLits K] [DecidableEq K]

/-- State of the buffers after a query. -/
theorem highPerf_interpolate_state (m : CMachine K) (junk : List ℕ → K) (s : HighPerf K)
    (q : NDArray K) : (s.interpolate m junk q).1 =
      match q.shape with
      | [n, d] => s.ensureBuffers n d
      | _ => s := by
  unfold HighPerf.interpolate
  rcases hq : q.shape with _ | ⟨n, _ | ⟨d, _ | ⟨_, _⟩⟩⟩
  · rfl
  · rfl
  · dsimp only
    repeat' split
    all_goals rfl
  · rfl

theorem ensureBuffers_again (s : HighPerf K) (n d : ℕ) :
    (s.ensureBuffers n d).ensureBuffers n d = s.ensureBuffers n d := by
  unfold HighPerf.ensureBuffers
  by_cases h : s.uLen = some n
  · simp [h]
  · by_cases hd : d = 3 <;> simp [h, hd]

theorem highPerf_ensure_interpolate (m : CMachine K) (junk : List ℕ → K) (s : HighPerf K)
    (q : NDArray K) {n d : ℕ} (hq : q.shape = [n, d]) :
    (s.ensureBuffers n d).interpolate m junk q = s.interpolate m junk q := by
  unfold HighPerf.interpolate
  rw [hq]
  dsimp only
  rw [ensureBuffers_again]

/-- Queries of one shape do not influence each other. -/
theorem interpolate_again (sp : SciPy K) (m : CMachine K) (junk : List ℕ → K) (I : AnyInterp K)
    (q q' : NDArray K) (h : q'.shape = q.shape) :
    (I.interpolate sp m junk q).1.interpolate sp m junk q' = I.interpolate sp m junk q' ∧
      (I.interpolate sp m junk q').1 = (I.interpolate sp m junk q).1 := by
  cases I with
  | scatter s => exact ⟨rfl, rfl⟩
  | grid s => exact ⟨rfl, rfl⟩
  | analytical s => exact ⟨rfl, rfl⟩
  | highPerf s =>
    have h1 : (s.interpolate m junk q').1 = (s.interpolate m junk q).1 := by
      rw [highPerf_interpolate_state, highPerf_interpolate_state, h]
    have h2 : (s.interpolate m junk q).1.interpolate m junk q' = s.interpolate m junk q' := by
      rw [highPerf_interpolate_state]
      rcases hq : q.shape with _ | ⟨n, _ | ⟨d, _ | ⟨_, _⟩⟩⟩
      · rfl
      · rfl
      · exact highPerf_ensure_interpolate m junk s q' (by rw [h, hq])
      · rfl
    simp only [AnyInterp.interpolate]
    exact ⟨by rw [h2], by rw [h1]⟩

/-- Splitting the loop. -/
theorem Loop.steps_append (env : Env K F) (src : Source K) (id : String) (queue : Bool)
    (as bs : List ℕ) (st : Loop K F) :
    Loop.steps env src id queue (as ++ bs) st =
      match Loop.steps env src id queue as st with
      | (st', some e) => (st', some e)
      | (st', none) => Loop.steps env src id queue bs st' := by
  induction as generalizing st with
  | nil => rfl
  | cons a as ih =>
    simp only [List.cons_append, Loop.steps]
    rcases hs : st.step env src id queue a with ⟨st', _ | e⟩
    · exact ih st'
    · rfl

/-- Trace contribution of one step. -/
theorem Loop.step_trace (env : Env K F) (src : Source K) (id : String) (queue : Bool) (i : ℕ)
    (st : Loop K F) : (st.step env src id queue i).1.trace = st.trace ++
      (if queue ∧ (st.step env src id queue i).2 = none then [.progress id i] else []) := by
  unfold Loop.step
  rcases hu : src.updateInterp env st.interp i with ⟨I, _ | e⟩
  · rcases hi : st.integ.integrate env.junk (I.velocity env) src.timestep st.particles
      with ⟨G, p, _ | e⟩
    · cases queue <;> simp [hi]
    · simp [hi]
  · simp

/-- Messages of the first `k` steps. -/
def progressMsgs (K F : Type) (id : String) (queue : Bool) (l : List ℕ) : List (Event K F) :=
  if queue then l.map (.progress id) else []

theorem Loop.steps_trace (env : Env K F) (src : Source K) (id : String) (queue : Bool)
    (l : List ℕ) (st : Loop K F) :
    ((Loop.steps env src id queue l st).2 = none →
      (Loop.steps env src id queue l st).1.trace = st.trace ++ progressMsgs K F id queue l) ∧
    (∀ e, (Loop.steps env src id queue l st).2 = some e → ∃ k < l.length,
      (Loop.steps env src id queue (l.take k) st).2 = none ∧
      (Loop.steps env src id queue (l.take (k + 1)) st).2 = some e ∧
      (Loop.steps env src id queue l st).1.trace
        = st.trace ++ progressMsgs K F id queue (l.take k)) := by
  induction l generalizing st with
  | nil =>
    constructor
    · intro _; simp [Loop.steps, progressMsgs]
    · intro e h; simp [Loop.steps] at h
  | cons a as ih =>
    have ht := Loop.step_trace env src id queue a st
    rcases hs : st.step env src id queue a with ⟨st', _ | e⟩
    · rw [hs] at ht
      have hq : st'.trace = st.trace ++ progressMsgs K F id queue [a] := by
        rw [ht]; cases queue <;> simp [progressMsgs]
      obtain ⟨h1, h2⟩ := ih st'
      have hcons : Loop.steps env src id queue (a :: as) st = Loop.steps env src id queue as st' := by
        simp only [Loop.steps, hs]
      rw [hcons]
      constructor
      · intro h
        rw [h1 h, hq]
        cases queue <;> simp [progressMsgs]
      · intro e h
        obtain ⟨k, hk, h3, h4, h5⟩ := h2 e h
        refine ⟨k + 1, by simpa using hk, ?_, ?_, ?_⟩
        · simpa only [List.take_succ_cons, Loop.steps, hs] using h3
        · simpa only [List.take_succ_cons, Loop.steps, hs] using h4
        · rw [h5, hq]
          cases queue <;> simp [progressMsgs]
    · rw [hs] at ht
      have hcons : Loop.steps env src id queue (a :: as) st = (st', some e) := by
        simp only [Loop.steps, hs]
      rw [hcons]
      constructor
      · intro h; cases h
      · intro e' h
        refine ⟨0, by simp, rfl, ?_, ?_⟩
        · simp only [List.take_succ_cons, Loop.steps, hs]
          exact h
        · rw [ht]; simp [progressMsgs]

end Verif

namespace Verif

variable {K F : Type} [Zero K] [One K] [Add K] [Sub K] [Mul K] [Div K] [NatCast K] [IntCast K]
  [Min K] [Max K] [NumLits K] [DecidableEq K]

/-- The loop of an analytical run is a plain sequence of integrator steps with one and the same
velocity source. -/
theorem analytical_loop (env : Env K F) (s : AnalyticalSource K) (a : AnalyticalState K)
    (id : String) (queue : Bool) (l : List ℕ) (G : Integ K) (p : Particles K)
    (tr : List (Event K F)) :
    Loop.steps env (.analytical s) id queue l ⟨.analytical a, G, p, tr⟩ =
      match Integ.steps env.junk (l.map fun _ => (a.interpolate, s.timestep)) G p.positions with
      | (G', .ok pos) =>
        (⟨.analytical a, G', { p with positions := pos }, tr ++ progressMsgs K F id queue l⟩, none)
      | (_, .error e) =>
        ((Loop.steps env (.analytical s) id queue l ⟨.analytical a, G, p, tr⟩).1, some e) := by
  induction l generalizing G p tr with
  | nil => simp [Loop.steps, Integ.steps, progressMsgs]
  | cons i l ih =>
    have hv : (AnyInterp.analytical a).velocity env = a.interpolate := by
      funext q; rfl
    have hst : Loop.step env (.analytical s) id queue i ⟨.analytical a, G, p, tr⟩ =
        match G.integrate env.junk a.interpolate s.timestep p with
        | (G', p', some e) => (⟨.analytical a, G', p', tr⟩, some e)
        | (G', p', none) => (⟨.analytical a, G', p',
            tr ++ (if queue then [.progress id i] else [])⟩, none) := by
      unfold Loop.step Source.updateInterp
      simp only [hv, Source.timestep]
      rcases G.integrate env.junk a.interpolate s.timestep p with ⟨G', p', _ | e⟩ <;> rfl
    simp only [Loop.steps, List.map_cons, Integ.steps, hst, Integ.integrate]
    rcases hi : G.step env.junk a.interpolate s.timestep p.positions with ⟨G', e | pos⟩
    · simp
    · simp only
      have hih := ih G' { p with positions := pos }
        (tr ++ (if queue then [Event.progress id i] else []))
      rcases hr : Integ.steps env.junk (l.map fun _ => (a.interpolate, s.timestep)) G' pos
        with ⟨G'', e | pos'⟩
      · simp only [hr] at hih
        exact hih
      · simp only [hr] at hih
        rw [hih]
        simp only [Prod.mk.injEq, Loop.mk.injEq, true_and, and_true]
        cases queue <;> simp [progressMsgs]

/-- A run, once the integration is known to succeed. -/
theorem run_of_steps {env : Env K F} {queue : Bool} {writer : Option (WriteFn K F)} {S : Solver K}
    {p : Particles K} {id : String} {st : Loop K F}
    (hp : S.source.getParticles env.fs = .ok p) (hid : S.source.id env = .ok id)
    (hst : Loop.steps env S.source id queue (List.range S.source.numSteps)
      ⟨S.interp, S.integ, p, []⟩ = (st, none)) :
    (S.run env queue none).result =
      (computeFtle env st.particles S.source.numSteps S.source.timestep).map some ∧
    ((S.run env queue writer).trace.take (if queue then S.source.numSteps + 1 else 0)) =
      progressMsgs K F id queue (List.range S.source.numSteps) ++
        (if queue then [.done id] else []) := by
  have ht := (Loop.steps_trace env S.source id queue (List.range S.source.numSteps)
      ⟨S.interp, S.integ, p, []⟩).1 (by rw [hst])
  rw [hst] at ht
  simp only [List.nil_append] at ht
  constructor
  · unfold Solver.run
    simp only [hp, hid, hst]
    cases computeFtle env st.particles S.source.numSteps S.source.timestep <;> rfl
  · unfold Solver.run
    simp only [hp, hid, hst, ht]
    cases queue
    · simp [progressMsgs]
    · simp only [if_true, progressMsgs]
      split
      · rw [List.take_of_length_le (by simp)]
      · split
        · rw [List.take_append_of_le_length (by simp), List.take_of_length_le (by simp)]
        · split
          · rw [List.take_append_of_le_length (by simp), List.take_of_length_le (by simp)]
          · rw [List.append_assoc, List.take_append_of_le_length (by simp),
              List.take_of_length_le (by simp)]

end Verif
