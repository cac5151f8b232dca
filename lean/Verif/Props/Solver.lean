import Verif.Lemmas.Solver
import Verif.Lemmas.Ftle
import Verif.Props.Integrate
import Verif.Props.Jacobian
import Verif.Props.Ftle
import Mathlib.Data.Rat.Floor

/-!
# C36, C37, C38, C40: one run of the solver

`messages` reads the progress queue off the trace of a run.  Nothing in C36, C38 and C40
depends on the arithmetic.
-/

set_option linter.unusedSectionVars false

namespace Verif

/-- What arrives on the progress queue: `some k` for step `k`, `none` for `"done"`. -/
def messages {K F : Type} (tr : List (Event K F)) : List (String × Option ℕ) :=
  tr.filterMap fun e =>
    match e with
    | .progress id k => some (id, some k)
    | .done id => some (id, none)
    | _ => none

section
variable {K F : Type} [Zero K] [One K] [Add K] [Sub K] [Mul K] [Div K] [NatCast K] [IntCast K]
  [Min K] [Max K] [NumLits K] [DecidableEq K]

/-- The outcome of the first `k` passes through the loop of a run: `none`, or the exception
that ended them. -/
def Solver.firstSteps (env : Env K F) (S : Solver K) (p : Particles K) (id : String) (k : ℕ) :
    Option PyErr :=
  (Loop.steps (F := F) env S.source id false (List.range k) ⟨S.interp, S.integ, p, []⟩).2

/-- Neither the queue nor the trace so far has an influence on the computation. -/
theorem Loop.steps_queue (env : Env K F) (src : Source K) (id : String) (q q' : Bool) (l : List ℕ)
    (I : AnyInterp K) (G : Integ K) (p : Particles K) (tr tr' : List (Event K F)) :
    (Loop.steps env src id q l ⟨I, G, p, tr⟩).2 = (Loop.steps env src id q' l ⟨I, G, p, tr'⟩).2 ∧
    (Loop.steps env src id q l ⟨I, G, p, tr⟩).1.particles =
      (Loop.steps env src id q' l ⟨I, G, p, tr'⟩).1.particles := by
  induction l generalizing I G p tr tr' with
  | nil => exact ⟨rfl, rfl⟩
  | cons i l ih =>
    simp only [Loop.steps, Loop.step]
    rcases hu : src.updateInterp env I i with ⟨I', _ | e⟩
    · simp only
      rcases hi : G.integrate env.junk (I'.velocity env) src.timestep p with ⟨G', p', _ | e⟩
      · exact ih _ _ _ _ _
      · exact ⟨rfl, rfl⟩
    · exact ⟨rfl, rfl⟩

theorem messages_append (a b : List (Event K F)) :
    messages (a ++ b) = messages a ++ messages b := by
  simp [messages]

theorem messages_progress (id : String) (l : List ℕ) :
    messages (progressMsgs K F id true l) = l.map fun k => (id, some k) := by
  simp [messages, progressMsgs]

theorem messages_none (id : String) (l : List ℕ) :
    messages (progressMsgs K F id false l) = [] := rfl

/-! ## C36 -/

/-- **C36 (success).**  If all `n` passes through the loop succeed, the queue receives exactly
`(id, 0), …, (id, n-1), (id, "done")` in this order, whatever happens afterwards. -/
theorem C36_success (env : Env K F) (writer : Option (WriteFn K F)) (S : Solver K)
    {p : Particles K} {id : String}
    (hp : S.source.getParticles env.fs = .ok p) (hid : S.source.id env = .ok id)
    (hok : S.firstSteps env p id S.source.numSteps = none) :
    messages (S.run env true writer).trace =
      (List.range S.source.numSteps).map (fun k => (id, some k)) ++ [(id, none)] := by
  have hq := (Loop.steps_queue (F := F) env S.source id true false
    (List.range S.source.numSteps) S.interp S.integ p [] []).1
  rw [← Solver.firstSteps, hok] at hq
  rcases hst : Loop.steps (F := F) env S.source id true (List.range S.source.numSteps)
      ⟨S.interp, S.integ, p, []⟩ with ⟨st, _ | e⟩
  · have ht := (Loop.steps_trace (F := F) env S.source id true (List.range S.source.numSteps)
      ⟨S.interp, S.integ, p, []⟩).1 (by rw [hst])
    rw [hst] at ht
    simp only [List.nil_append] at ht
    unfold Solver.run
    simp only [hp, hid, hst, ht]
    split
    · simp [messages, progressMsgs]
    · split
      · simp [messages, progressMsgs]
      · split <;> simp [messages, progressMsgs]
  · rw [hst] at hq; cases hq

/-- **C36 (failure).**  If step `k` is the first to raise, the queue receives exactly
`(id, 0), …, (id, k-1)`, in particular never `"done"`, and the exception leaves `run`. -/
theorem C36_failure (env : Env K F) (writer : Option (WriteFn K F)) (S : Solver K)
    {p : Particles K} {id : String} {k : ℕ} {e : PyErr} (hk : k < S.source.numSteps)
    (hp : S.source.getParticles env.fs = .ok p) (hid : S.source.id env = .ok id)
    (hok : S.firstSteps env p id k = none) (hbad : S.firstSteps env p id (k + 1) = some e) :
    messages (S.run env true writer).trace = (List.range k).map (fun j => (id, some j)) ∧
      (S.run env true writer).result = .error e := by
  have q1 := (Loop.steps_queue (F := F) env S.source id true false
    (List.range k) S.interp S.integ p [] []).1
  rw [← Solver.firstSteps, hok] at q1
  have q2 := (Loop.steps_queue (F := F) env S.source id true false
    (List.range (k + 1)) S.interp S.integ p [] []).1
  rw [← Solver.firstSteps, hbad] at q2
  rcases h1 : Loop.steps (F := F) env S.source id true (List.range k)
      ⟨S.interp, S.integ, p, []⟩ with ⟨st, o⟩
  rw [h1] at q1; simp only at q1; subst q1
  rcases h2 : Loop.steps (F := F) env S.source id true (List.range (k + 1))
      ⟨S.interp, S.integ, p, []⟩ with ⟨st2, o⟩
  rw [h2] at q2; simp only at q2; subst q2
  have ht := (Loop.steps_trace (F := F) env S.source id true (List.range k)
      ⟨S.interp, S.integ, p, []⟩).1 (by rw [h1])
  rw [h1] at ht
  simp only [List.nil_append] at ht
  -- step k raises
  have hs : st.step env S.source id true k = (st2, some e) := by
    have := h2
    rw [List.range_succ, Loop.steps_append, h1] at this
    simp only [Loop.steps] at this
    rcases hst : st.step env S.source id true k with ⟨s', _ | e'⟩
    · rw [hst] at this; simp at this
    · rw [hst] at this; simpa using this
  have htr := Loop.step_trace env S.source id true k st
  rw [hs] at htr
  simp only [reduceCtorEq, and_false, if_false, List.append_nil] at htr
  have hfull : Loop.steps (F := F) env S.source id true (List.range S.source.numSteps)
      ⟨S.interp, S.integ, p, []⟩ = (st2, some e) := by
    obtain ⟨m, hm⟩ : ∃ m, S.source.numSteps = (k + 1) + m := ⟨S.source.numSteps - (k + 1), by omega⟩
    rw [hm, List.range_add, Loop.steps_append, h2]
  unfold Solver.run
  simp only [hp, hid, hfull, htr, ht, messages_progress]
  exact ⟨trivial, trivial⟩

/-- **C36 (every run is of one of these kinds).**  When particles and identifier are
available, either all steps succeed or there is a first failing step, to which `C36_success`
or `C36_failure` applies. -/
theorem C36_exhaustive (env : Env K F) (S : Solver K) (p : Particles K) (id : String) :
    S.firstSteps env p id S.source.numSteps = none ∨
      ∃ k < S.source.numSteps, ∃ e, S.firstSteps env p id k = none ∧
        S.firstSteps env p id (k + 1) = some e := by
  rcases h : S.firstSteps env p id S.source.numSteps with _ | e
  · exact .inl rfl
  · right
    obtain ⟨k, hk, h1, h2, -⟩ := (Loop.steps_trace (F := F) env S.source id false
      (List.range S.source.numSteps) ⟨S.interp, S.integ, p, []⟩).2 e h
    rw [List.length_range] at hk
    rw [List.take_range, min_eq_left (by omega)] at h1 h2
    exact ⟨k, hk, e, h1, h2⟩

/-- **C36 (nothing else).**  If the seed particles or the identifier cannot be obtained, or
there is no queue, no message is published. -/
theorem C36_silent (env : Env K F) (writer : Option (WriteFn K F)) (S : Solver K) :
    (∀ e, S.source.getParticles env.fs = .error e → (S.run env true writer).trace = []) ∧
    (∀ e, S.source.id env = .error e → (S.run env true writer).trace = []) ∧
    messages (S.run env false writer).trace = [] := by
  refine ⟨?_, ?_, ?_⟩
  · intro e h
    unfold Solver.run
    simp only [h]
  · intro e h
    unfold Solver.run
    cases S.source.getParticles env.fs with
    | error e' => rfl
    | ok p => simp only [h]
  · unfold Solver.run
    cases S.source.getParticles env.fs with
    | error e' => rfl
    | ok p =>
      cases S.source.id env with
      | error e' => rfl
      | ok id =>
        simp only
        rcases hst : Loop.steps (F := F) env S.source id false (List.range S.source.numSteps)
          ⟨S.interp, S.integ, p, []⟩ with ⟨st, _ | e⟩
        · have ht := (Loop.steps_trace (F := F) env S.source id false
            (List.range S.source.numSteps) ⟨S.interp, S.integ, p, []⟩).1 (by rw [hst])
          rw [hst] at ht
          simp only [List.nil_append] at ht
          simp only [ht]
          split
          · simp [progressMsgs, messages]
          · split
            · simp [progressMsgs, messages]
            · split <;> simp [progressMsgs, messages]
        · obtain ⟨k, -, -, -, ht⟩ := (Loop.steps_trace (F := F) env S.source id false
            (List.range S.source.numSteps) ⟨S.interp, S.integ, p, []⟩).2 e (by rw [hst])
          rw [hst] at ht
          simp only [List.nil_append] at ht
          simp only [ht]
          rfl

/-! ## C40 -/

/-- **C40 is false of the code.**  Whenever `"done"` is published, at that moment neither the
field has been computed nor the file written: both events can only come later. -/
theorem C40_done_first_fails (env : Env K F) (writer : Option (WriteFn K F)) (S : Solver K)
    {before after : List (Event K F)} {id : String}
    (h : (S.run env true writer).trace = before ++ .done id :: after) :
    (∀ v, Event.computed v ∉ before) ∧ ∀ n v c, Event.written n v c ∉ before := by
  have key : ∀ (l : List ℕ) (id' : String) (rest : List (Event K F)),
      progressMsgs K F id' true l ++ [.done id'] ++ rest = before ++ .done id :: after →
      (∀ i, Event.done i ∉ rest) → before = progressMsgs K F id' true l := by
    intro l id' rest he hr
    have hnd : ∀ i, Event.done i ∉ progressMsgs K F id' true l := by
      intro i; simp [progressMsgs]
    rw [List.append_assoc, List.append_eq_append_iff] at he
    rcases he with ⟨as, h1, h2⟩ | ⟨bs, h1, h2⟩
    · cases as with
      | nil => simpa using h1
      | cons a as =>
        simp only [List.cons_append, List.nil_append, List.cons.injEq] at h2
        exact absurd (h2.2 ▸ by simp : Event.done id ∈ rest) (hr id)
    · cases bs with
      | nil => simpa using h1.symm
      | cons b bs =>
        simp only [List.cons_append, List.cons.injEq] at h2
        exact absurd (h1 ▸ by simp [← h2.1] : Event.done id ∈ progressMsgs K F id' true l) (hnd id)
  have fin : ∀ (l : List ℕ) (id' : String) (rest : List (Event K F)),
      progressMsgs K F id' true l ++ [.done id'] ++ rest = before ++ .done id :: after →
      (∀ i, Event.done i ∉ rest) →
      (∀ v, Event.computed v ∉ before) ∧ ∀ n v c, Event.written n v c ∉ before := by
    intro l id' rest he hr
    rw [key l id' rest he hr]
    simp [progressMsgs]
  have bad : ∀ (l : List ℕ) (id' : String),
      progressMsgs K F id' true l = before ++ .done id :: after → False := by
    intro l id' he
    have : Event.done id ∈ progressMsgs K F id' true l := by rw [he]; simp
    simp [progressMsgs] at this
  unfold Solver.run at h
  cases hp : S.source.getParticles env.fs with
  | error e => rw [hp] at h; simp at h
  | ok p =>
    cases hid : S.source.id env with
    | error e => rw [hp, hid] at h; simp at h
    | ok id' =>
      simp only [hp, hid] at h
      rcases hst : Loop.steps (F := F) env S.source id' true (List.range S.source.numSteps)
          ⟨S.interp, S.integ, p, []⟩ with ⟨st, _ | e⟩
      · have ht := (Loop.steps_trace (F := F) env S.source id' true
          (List.range S.source.numSteps) ⟨S.interp, S.integ, p, []⟩).1 (by rw [hst])
        rw [hst] at ht
        simp only [List.nil_append] at ht
        simp only [hst, ht, if_true] at h
        split at h
        · exact fin _ _ [] (by simpa using h) (by simp)
        · split at h
          · exact fin _ _ _ h (by simp)
          · split at h
            · exact fin _ _ _ h (by simp)
            · simp only [List.append_assoc] at h
              exact fin _ _ [_, _] (by simpa using h) (by simp)
      · obtain ⟨k, -, -, -, ht⟩ := (Loop.steps_trace (F := F) env S.source id' true
          (List.range S.source.numSteps) ⟨S.interp, S.integ, p, []⟩).2 e (by rw [hst])
        rw [hst] at ht
        simp only [List.nil_append] at ht
        simp only [hst, ht] at h
        exact (bad _ _ h).elim

/-- **C40 (crash points).**  If the FTLE evaluation raises, `"done"` has been published and no
field exists; if only the writer raises, `"done"` has been published and nothing was
written. -/
theorem C40_crash_fails (env : Env K F) (writer : Option (WriteFn K F)) (S : Solver K)
    {p : Particles K} {id : String} {st : Loop K F}
    (hp : S.source.getParticles env.fs = .ok p) (hid : S.source.id env = .ok id)
    (hst : Loop.steps env S.source id true (List.range S.source.numSteps)
      ⟨S.interp, S.integ, p, []⟩ = (st, none)) :
    (∀ e, computeFtle env st.particles S.source.numSteps S.source.timestep = .error e →
      Event.done id ∈ (S.run env true writer).trace ∧
      (∀ v, Event.computed v ∉ (S.run env true writer).trace) ∧
      (S.run env true writer).result = .error e) ∧
    (∀ v w e, computeFtle env st.particles S.source.numSteps S.source.timestep = .ok v →
      writer = some w → w ("ftle_" ++ id) v st.particles.initialCentroid = some e →
      Event.done id ∈ (S.run env true writer).trace ∧
      (∀ n v c, Event.written n v c ∉ (S.run env true writer).trace) ∧
      (S.run env true writer).result = .error e) := by
  have ht := (Loop.steps_trace (F := F) env S.source id true
    (List.range S.source.numSteps) ⟨S.interp, S.integ, p, []⟩).1 (by rw [hst])
  rw [hst] at ht
  simp only [List.nil_append] at ht
  constructor
  · intro e he
    unfold Solver.run
    simp only [hp, hid, hst, ht, he]
    simp [progressMsgs]
  · intro v w e hv hw he
    unfold Solver.run
    simp only [hp, hid, hst, ht, hv, hw, he]
    simp [progressMsgs]

/-- **C40 (what holds).**  `"done"` is published only after every step of the integration
succeeded.  Missing from the property: the field and the file exist at that moment. -/
theorem C40_after_integration_partial (env : Env K F) (writer : Option (WriteFn K F))
    (S : Solver K) {id : String} (h : Event.done id ∈ (S.run env true writer).trace) :
    ∃ p, S.source.getParticles env.fs = .ok p ∧ S.source.id env = .ok id ∧
      S.firstSteps env p id S.source.numSteps = none := by
  cases hp : S.source.getParticles env.fs with
  | error e =>
    rw [(C36_silent env writer S).1 e hp] at h
    simp at h
  | ok p =>
    cases hid : S.source.id env with
    | error e =>
      rw [(C36_silent env writer S).2.1 e hid] at h
      simp at h
    | ok id' =>
      have hmem : (id, none) ∈ messages (S.run env true writer).trace :=
        List.mem_filterMap.2 ⟨_, h, rfl⟩
      rcases C36_exhaustive env S p id' with hok | ⟨k, hk, e, h1, h2⟩
      · rw [C36_success env writer S hp hid hok] at hmem
        simp only [List.mem_append, List.mem_map, Prod.mk.injEq, reduceCtorEq, and_false,
          exists_false, List.mem_singleton, and_true, false_or] at hmem
        subst hmem
        exact ⟨p, rfl, rfl, hok⟩
      · rw [(C36_failure env writer S hk hp hid h1 h2).1] at hmem
        simp at hmem

/-! ## C38 -/

/-- **C38 is false of the code (1).**  An analytical run with the interpolator the factory
creates depends on the user's velocity function only through its values at time `0`. -/
theorem C38_time_zero_fails (env : Env K F) (queue : Bool) (writer : Option (WriteFn K F))
    (s : AnalyticalSource K) (G : Integ K) (fn fn' : VelocityFn K) (h0 : fn 0 = fn' 0) :
    ((⟨.analytical s, .analytical (.fresh (some fn)), G⟩ : Solver K).run env queue writer).result =
      ((⟨.analytical s, .analytical (.fresh (some fn')), G⟩ : Solver K).run env queue writer).result
    ∧
    ((⟨.analytical s, .analytical (.fresh (some fn)), G⟩ : Solver K).run env queue writer).trace =
      ((⟨.analytical s, .analytical (.fresh (some fn')), G⟩ : Solver K).run env queue writer).trace
    := by
  have hv : (AnalyticalState.fresh (some fn)).interpolate =
      (AnalyticalState.fresh (some fn')).interpolate := by
    funext q
    simp only [AnalyticalState.interpolate, AnalyticalState.fresh, h0]
  unfold Solver.run
  cases hid : (Source.analytical s).id env with
  | error e => exact ⟨rfl, rfl⟩
  | ok id =>
    have hl : ∀ (l : List ℕ) (G : Integ K) (p : Particles K) (tr : List (Event K F)),
        (Loop.steps env (.analytical s) id queue l
          ⟨.analytical (.fresh (some fn)), G, p, tr⟩).2 =
        (Loop.steps env (.analytical s) id queue l
          ⟨.analytical (.fresh (some fn')), G, p, tr⟩).2 ∧
        (Loop.steps env (.analytical s) id queue l
          ⟨.analytical (.fresh (some fn)), G, p, tr⟩).1.particles =
        (Loop.steps env (.analytical s) id queue l
          ⟨.analytical (.fresh (some fn')), G, p, tr⟩).1.particles ∧
        (Loop.steps env (.analytical s) id queue l
          ⟨.analytical (.fresh (some fn)), G, p, tr⟩).1.trace =
        (Loop.steps env (.analytical s) id queue l
          ⟨.analytical (.fresh (some fn')), G, p, tr⟩).1.trace := by
      intro l
      induction l with
      | nil => intros; exact ⟨rfl, rfl, rfl⟩
      | cons i l ih =>
        intro G p tr
        have e1 : ∀ f : VelocityFn K, (AnyInterp.analytical (.fresh (some f))).velocity env =
            (AnalyticalState.fresh (some f)).interpolate := fun f => rfl
        simp only [Loop.steps, Loop.step, Source.updateInterp, e1, hv]
        rcases G.integrate env.junk (AnalyticalState.fresh (some fn')).interpolate
          (Source.analytical s).timestep p with ⟨G', p', _ | e⟩
        · exact ih G' p' _
        · exact ⟨rfl, rfl, rfl⟩
    obtain ⟨h1, h2, h3⟩ := hl (List.range (Source.analytical s).numSteps) G s.particles []
    simp only [Source.getParticles]
    rcases ha : Loop.steps env (.analytical s) id queue (List.range (Source.analytical s).numSteps)
      ⟨.analytical (.fresh (some fn)), G, s.particles, []⟩ with ⟨st, o⟩
    rcases hb : Loop.steps env (.analytical s) id queue (List.range (Source.analytical s).numSteps)
      ⟨.analytical (.fresh (some fn')), G, s.particles, []⟩ with ⟨st', o'⟩
    rw [ha, hb] at h1 h2 h3
    simp only at h1 h2 h3
    subst h1
    cases o with
    | some e => exact ⟨rfl, h3⟩
    | none =>
      simp only [h2, h3]
      cases computeFtle env st'.particles (Source.analytical s).numSteps
          (Source.analytical s).timestep with
      | error e => exact ⟨rfl, rfl⟩
      | ok field =>
        cases writer with
        | none => exact ⟨rfl, rfl⟩
        | some w =>
          simp only
          cases w ("ftle_" ++ id) field st'.particles.initialCentroid <;> exact ⟨rfl, rfl⟩

/-- The positions a run must reach according to its batch times: step `k` uses the velocity
function at `times[k]`. -/
def documentedPositions (junk : List ℕ → K) (fn : VelocityFn K) (s : AnalyticalSource K)
    (G : Integ K) : Py (NDArray K) :=
  (Integ.steps junk (s.times.map fun t => (fn t, s.timestep)) G s.particles.positions).2

/-- The result of an analytical run as a function of the positions reached. -/
theorem analytical_run (env : Env K F) (queue : Bool) (s : AnalyticalSource K)
    (a : AnalyticalState K) (G : Integ K) (hne : s.times ≠ []) :
    ((⟨.analytical s, .analytical a, G⟩ : Solver K).run env queue none).result =
      match (Integ.steps env.junk (List.replicate s.times.length (a.interpolate, s.timestep)) G
        s.particles.positions).2 with
      | .error e => .error e
      | .ok pos =>
        (computeFtle env (advected s.particles pos) s.times.length s.timestep).map some := by
  obtain ⟨t, ts, ht⟩ := List.exists_cons_of_ne_nil hne
  have hid : (Source.analytical s).id env = .ok (env.timeName t) := by
    simp only [Source.id, ht]
  have hrep : (List.range s.times.length).map (fun _ => (a.interpolate, s.timestep)) =
      List.replicate s.times.length (a.interpolate, s.timestep) := by
    simp [List.map_const']
  have hl := analytical_loop env s a (env.timeName t) queue (List.range s.times.length) G
    s.particles []
  rw [hrep] at hl
  rcases hs : Integ.steps env.junk (List.replicate s.times.length (a.interpolate, s.timestep)) G
    s.particles.positions with ⟨G', e | pos⟩
  · rw [hs] at hl
    simp only at hl
    unfold Solver.run
    simp only [Source.getParticles, hid, Source.numSteps]
    rw [hl]
  · rw [hs] at hl
    simp only [List.nil_append] at hl
    rw [(run_of_steps (writer := none) (S := ⟨.analytical s, .analytical a, G⟩) rfl hid hl).1]
    rfl

/-- **C38 (what holds).**  If the velocity function gives the same field at all batch times as
at time `0` (a steady flow), the run reports the field of the documented positions. -/
theorem C38_steady_partial (env : Env K F) (queue : Bool) (s : AnalyticalSource K) (G : Integ K)
    (fn : VelocityFn K) (hne : s.times ≠ []) (hsteady : ∀ t ∈ s.times, fn t = fn 0) :
    ((⟨.analytical s, .analytical (.fresh (some fn)), G⟩ : Solver K).run env queue none).result =
      match documentedPositions env.junk fn s G with
      | .error e => .error e
      | .ok pos =>
        (computeFtle env (advected s.particles pos) s.times.length s.timestep).map some := by
  rw [analytical_run env queue s _ G hne]
  have h1 : s.times.map (fun t => (fn t, s.timestep)) =
      List.replicate s.times.length
        ((AnalyticalState.fresh (some fn)).interpolate, s.timestep) := by
    rw [List.eq_replicate_iff]
    refine ⟨by simp, fun b hb => ?_⟩
    obtain ⟨t, ht, rfl⟩ := List.mem_map.1 hb
    rw [hsteady t ht]
    rfl
  unfold documentedPositions
  rw [h1]

/-- **C38 is false of the code (2).**  Two batches of the same length report the same field,
whatever their times are: fields started at different times do not differ. -/
theorem C38_start_time_fails (env : Env K F) (queue : Bool) (s s' : AnalyticalSource K)
    (G : Integ K) (a : AnalyticalState K) (hne : s.times ≠ []) (hp : s'.particles = s.particles)
    (hdt : s'.timestep = s.timestep) (hlen : s'.times.length = s.times.length) :
    ((⟨.analytical s, .analytical a, G⟩ : Solver K).run env queue none).result =
      ((⟨.analytical s', .analytical a, G⟩ : Solver K).run env queue none).result := by
  have hne' : s'.times ≠ [] := by
    intro h; rw [h] at hlen; exact hne (List.length_eq_zero_iff.1 hlen.symm)
  rw [analytical_run env queue s a G hne, analytical_run env queue s' a G hne', hp, hdt, hlen]

end

/-! ### Example runs -/

section examples

/-- Surroundings of the examples: no files; the FTLE kernels return the period they are given
and the entries of the Jacobians. -/
def exEnv : Env ℚ ℚ where
  fs := fun _ => none
  sp := ⟨fun _ _ _ => none, fun _ _ _ _ => .error .valueError, fun _ _ _ => none,
    fun _ _ _ _ => .error .valueError⟩
  m := isoCpp Int.floor Int.cast
  junk := fun _ => 0
  stem := fun s => s
  timeName := fun _ => "t"
  abs := fun x => |x|
  ftle2 := fun js T => if T = 0 then .error .zeroDivisionError else
    .ok (js.map (fun J => J 0 0) ++ [T])
  ftle3 := fun _ T => .ok [T]

/-- The seed particles of `exSeeds`. -/
def exParticles : Particles ℚ := ⟨exSeeds,
  ⟨[1, 2], fun idx => exSeeds.get [2, idx.getD 1 0] - exSeeds.get [3, idx.getD 1 0]⟩,
  ⟨[1, 2], fun idx => exSeeds.get [1, idx.getD 1 0] - exSeeds.get [0, idx.getD 1 0]⟩,
  ⟨[0], fun _ => 0⟩, ⟨[1, 2], fun _ => 0⟩, 4⟩

/-- The field `v(t, x) = ((1 - t) x, 0)`. -/
def exUnsteady : VelocityFn ℚ := fun t => sourceOf 2 fun x => ![(1 - t) * x 0, 0]

/-- Two snapshots at times 0 and 1. -/
def exSource : AnalyticalSource ℚ := ⟨exParticles, 1, [0, 1]⟩

/-- The solver of the examples. -/
def exSolver : Solver ℚ := ⟨.analytical exSource, .analytical (.fresh (some exUnsteady)),
  Integ.fresh .euler⟩

/-- C36: this run succeeds; its messages are `0, 1, done`. -/
example : exSolver.source.getParticles exEnv.fs = .ok exParticles ∧
    exSolver.source.id exEnv = .ok "t" ∧ exSolver.firstSteps exEnv exParticles "t" 2 = none ∧
    messages (exSolver.run exEnv true none).trace =
      [("t", some 0), ("t", some 1), ("t", none)] := by
  have h : exSolver.firstSteps exEnv exParticles "t" 2 = none := by decide +kernel
  exact ⟨rfl, rfl, h, C36_success exEnv none exSolver rfl rfl h⟩

/-- C36: a velocity function that returns an array of the wrong shape makes step 0 fail. -/
example : ∃ S : Solver ℚ, S.source.getParticles exEnv.fs = .ok exParticles ∧
    S.firstSteps exEnv exParticles "t" 0 = none ∧
    S.firstSteps exEnv exParticles "t" 1 = some .valueError ∧ 0 < S.source.numSteps :=
  ⟨⟨.analytical exSource, .analytical (.fresh (some fun _ _ => .ok ⟨[3, 7], fun _ => 0⟩)),
    Integ.fresh .rk4⟩, rfl, rfl, by decide +kernel, by decide⟩

/-- **C38 is false of the code (3).**  A concrete unsteady flow: the documented position of the
particle started at `x = 1` after the two steps is `2`, but the run reports the Jacobian entry
`4` of an advection to `4`. -/
theorem C38_witness_fails :
    (documentedPositions exEnv.junk exUnsteady exSource (Integ.fresh .euler)).toOption.map
        (fun a => (a.get [1, 0] - a.get [0, 0]) / (exSeeds.get [1, 0] - exSeeds.get [0, 0])) =
      some 2 ∧
    (exSolver.run exEnv false none).result.toOption.join = some [4, 1] := by
  decide +kernel

/-- C38 (2) applies to the batches `[0, 1]` and `[5, 6]`. -/
example : exSource.times ≠ [] ∧ ([5, 6] : List ℚ).length = exSource.times.length := by decide

/-- C38 (partial) applies to a steady rotation. -/
example : ∀ t ∈ exSource.times,
    (fun _ : ℚ => sourceOf 2 fun x => ![-x 1, x 0]) t =
      (fun _ : ℚ => sourceOf 2 fun x => ![-x 1, x 0]) 0 := fun _ _ => rfl

/-- C40: all the hypotheses of the crash-point theorem are met by the run above with a single
snapshot: `done` is published, then the FTLE evaluation raises. -/
example : ∃ S : Solver ℚ, messages (S.run exEnv true none).trace = [("t", some 0), ("t", none)] ∧
    (S.run exEnv true none).result.toOption = none :=
  ⟨⟨.analytical ⟨exParticles, 1, [0]⟩, .analytical (.fresh (some exUnsteady)),
    Integ.fresh .euler⟩, by decide +kernel, by decide +kernel⟩

end examples

/-! ## C37 -/

section C37

/-- The surroundings of a run in exact real arithmetic with the FTLE functions of `ftle.py`. -/
structure RealEnv (env : Env ℝ FVal) : Prop where
  abs : env.abs = fun x => |x|
  f2 : env.ftle2 = ftle2
  f3 : env.ftle3 = ftle3

theorem computeFtle_2d {env : Env ℝ FVal} (he : env.abs = fun x => |x|) {p : Particles ℝ}
    (h4 : p.numNeighbors = 4) {js : List (Matrix (Fin 2) (Fin 2) ℝ)} (hj : jacobian2 p = .ok js)
    (n : ℕ) (h : ℝ) : computeFtle env p n h = env.ftle2 js ((n - 1) * |h|) := by
  unfold computeFtle
  rw [if_pos h4, hj, he]
  push_cast
  rfl

theorem computeFtle_3d {env : Env ℝ FVal} (he : env.abs = fun x => |x|) {p : Particles ℝ}
    (h4 : p.numNeighbors = 6) {js : List (Matrix (Fin 3) (Fin 3) ℝ)} (hj : jacobian3 p = .ok js)
    (n : ℕ) (h : ℝ) : computeFtle env p n h = env.ftle3 js ((n - 1) * |h|) := by
  unfold computeFtle
  rw [if_neg (by omega), hj, he]
  push_cast
  rfl

/-- **C37 is false of the code.**  Advect by a uniform field `v` in `n` steps of size `h ≠ 0`,
with any integrator.  Every particle is displaced by `(n h) v`, so the advection lasts `n h`;
the period the FTLE kernel receives is shorter by one step. -/
theorem C37_period_fails (env : Env ℝ FVal) (he : env.abs = fun x => |x|) (queue : Bool)
    (k : Kind) (s : AnalyticalSource ℝ) (fn : VelocityFn ℝ) {seed : NDArray ℝ} {N : ℕ}
    (hs : seed.shape = [4 * N, 2]) (hp : mkParticles seed = .ok s.particles)
    (hal : ∀ i < N, AxisAligned2 seed N i) (v : Fin 2 → ℝ)
    (hv : Pointwise (4 * N) 2 (fn 0) (fun _ => v)) (hne : s.times ≠ []) (hh : s.timestep ≠ 0) :
    ∃ pos T js,
      (Integ.steps env.junk (List.replicate s.times.length (fn 0, s.timestep)) (Integ.fresh k)
        s.particles.positions).2 = .ok pos ∧
      (∀ r < 4 * N, ∀ c : Fin 2,
        pos.get [r, c.1] = seed.get [r, c.1] + s.times.length * s.timestep * v c) ∧
      ((⟨.analytical s, .analytical (.fresh (some fn)), Integ.fresh k⟩ : Solver ℝ).run env queue
        none).result = (env.ftle2 js T).map some ∧
      T = |s.times.length * s.timestep| - |s.timestep| ∧ T ≠ |s.times.length * s.timestep| := by
  obtain ⟨hpos, hn⟩ : s.particles.positions = seed ∧ s.particles.numNeighbors = 4 := by
    obtain ⟨p, h1, h2, h3, -⟩ := mkParticles_2d hs
    rw [h1] at hp
    cases hp
    exact ⟨h2, h3⟩
  obtain ⟨pos, h1, h2, h3⟩ := C18_uniform_exact env.junk k hv s.timestep s.times.length hs
  have haff : AffineImage 1 (fun c => s.times.length * s.timestep * v c) (4 * N) seed pos := by
    refine ⟨h2.trans hs.symm, fun r hr c => ?_⟩
    rw [h3 r hr c, Matrix.one_mulVec]
  have hj := C06_affine_exact_2d seed pos N s.particles 1 _ hs hp haff hal
  refine ⟨pos, (s.times.length - 1) * |s.timestep|, List.replicate N 1, by rw [hpos]; exact h1, h3, ?_, ?_, ?_⟩
  · rw [analytical_run env queue s _ _ hne]
    have e1 : (Integ.steps env.junk (List.replicate s.times.length
        ((AnalyticalState.fresh (some fn)).interpolate, s.timestep)) (Integ.fresh k)
        s.particles.positions).2 = .ok pos := by rw [hpos]; exact h1
    rw [e1]
    simp only
    rw [computeFtle_2d he (by exact hn) hj]
  · rw [abs_mul, Nat.abs_cast]; ring
  · rw [abs_mul, Nat.abs_cast]
    have : 0 < |s.timestep| := abs_pos.2 hh
    intro hc
    linarith

/-- **C37 (a single snapshot).**  Although the particles are advected for one step, the run
ends with `ZeroDivisionError`; 2-D and 3-D, any source. -/
theorem C37_single_snapshot_fails (env : Env ℝ FVal) (he : RealEnv env) (S : Solver ℝ)
    (h1 : S.source.numSteps = 1) {p : Particles ℝ} {id : String} {st : Loop ℝ FVal}
    (hp : S.source.getParticles env.fs = .ok p) (hid : S.source.id env = .ok id)
    (hst : Loop.steps env S.source id false [0] ⟨S.interp, S.integ, p, []⟩ = (st, none))
    (hj : (st.particles.numNeighbors = 4 ∧ ∃ js, jacobian2 st.particles = .ok js) ∨
      (st.particles.numNeighbors = 6 ∧ ∃ js, jacobian3 st.particles = .ok js)) :
    (S.run env false none).result = .error .zeroDivisionError := by
  have hst' : Loop.steps env S.source id false (List.range S.source.numSteps)
      ⟨S.interp, S.integ, p, []⟩ = (st, none) := by rw [h1]; exact hst
  rw [(run_of_steps (writer := none) hp hid hst').1, h1]
  rcases hj with ⟨h4, js, hj⟩ | ⟨h6, js, hj⟩
  · rw [computeFtle_2d he.abs h4 hj, he.f2]
    simp [ftle2_computes.zero, Except.map]
  · rw [computeFtle_3d he.abs h6 hj, he.f3]
    simp [ftle3_computes.zero, Except.map]

/-- **C37 (what holds).**  For `n ≥ 2` snapshots and time step `h ≠ 0`, the value reported for
a positive stretching `s` is `n / (n - 1)` times the value normalised by the time integrated. -/
theorem C37_ratio_partial (n : ℕ) (hn : 2 ≤ n) (h s : ℝ) (hh : h ≠ 0) (hs : 0 < s) :
    ftleVal s ((n - 1) * |h|) =
      .fin ((n : ℝ) / (n - 1) * (1 / |n * h| * Real.log s)) := by
  rw [ftleVal_pos hs, abs_mul, Nat.abs_cast]
  have h1 : (0 : ℝ) < |h| := abs_pos.2 hh
  have h2 : (0 : ℝ) < n - 1 := by
    have : (2 : ℝ) ≤ n := by exact_mod_cast hn
    linarith
  have h3 : (0 : ℝ) < n := by linarith
  congr 1
  field_simp

end C37

end Verif
