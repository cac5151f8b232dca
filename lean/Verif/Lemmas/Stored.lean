import Verif.Model.Stored
import Verif.Lemmas.Integrate

/-!
# Lemmas on runs with stored types
-/

set_option linter.unusedSectionVars false

namespace Verif

variable {K F : Type} [Zero K] [One K] [Add K] [Sub K] [Mul K] [Div K] [NatCast K] [IntCast K]
  [Min K] [Max K] [NumLits K] [DecidableEq K]

/-! ## `float64` -/

theorem store_float64 (R : CastRules K) : DType.float64.store R = id := by
  funext x; simp [DType.store]

theorem storeIndex_float64 (R : CastRules K) (x : Option K) :
    DType.float64.storeIndex R x = x := by simp [DType.storeIndex]

theorem wrap_float64 (R : CastRules K) : DType.float64.wrap R = id := by
  funext x; simp [DType.wrap]

theorem NDArray.map_id' {α : Type} (a : NDArray α) : a.map id = a := rfl

theorem ofType_float64 (R : CastRules K) (p : Particles K) : p.ofType R .float64 = p := by
  simp only [Particles.ofType, wrap_float64, NDArray.map_id']

theorem callOf_float64 (R : CastRules K) (m : CMachine K) (it : Interp K) (n cols : ℕ)
    (t : ℕ → ℕ → K) (o : Option ℕ) : it.callOf R .float64 m n cols t o = it.call m n cols t o := by
  simp only [Interp.callOf, Interp.call, storeIndex_float64]
  rfl

theorem interpolateOf_float64 (R : CastRules K) (m : CMachine K) (junk : List ℕ → K)
    (s : HighPerf K) (q : NDArray K) :
    s.interpolateOf R .float64 m junk q = (s.interpolate m junk q).2 := by
  simp only [HighPerf.interpolateOf, HighPerf.interpolate, callOf_float64]
  rcases q.shape with _ | ⟨n, _ | ⟨dim, _ | ⟨_, _⟩⟩⟩ <;> try rfl
  simp only
  by_cases h2 : dim = 2
  · simp only [h2, if_true]
    cases (s.ensureBuffers n 2).ix with
    | none => rfl
    | some x =>
      cases (s.ensureBuffers n 2).iy with
      | none => rfl
      | some y =>
        simp only
        cases x.call m n 2 (fun r c => q.get [r, c]) (s.ensureBuffers n 2).uLen with
        | error e => rfl
        | ok u =>
          simp only
          cases y.call m n 2 (fun r c => q.get [r, c]) (s.ensureBuffers n 2).uLen <;> rfl
  · simp only [h2, if_false]
    by_cases h3 : dim = 3
    · simp only [h3, if_true]
      cases (s.ensureBuffers n 3).ix with
      | none => rfl
      | some x =>
        cases (s.ensureBuffers n 3).iy with
        | none => rfl
        | some y =>
          cases (s.ensureBuffers n 3).iz with
          | none => rfl
          | some z =>
            simp only
            cases x.call m n 3 (fun r c => q.get [r, c]) (s.ensureBuffers n 3).uLen with
            | error e => rfl
            | ok u =>
              simp only
              cases y.call m n 3 (fun r c => q.get [r, c]) (s.ensureBuffers n 3).uLen with
              | error e => rfl
              | ok v =>
                simp only
                cases z.call m n 3 (fun r c => q.get [r, c]) (s.ensureBuffers n 3).wLen <;> rfl
    · simp only [h3, if_false]

theorem rawVelocity_float64 (st : Storage K) (env : Env K F) (I : AnyInterp K) :
    I.rawVelocity st .float64 env = I.velocity env := by
  funext q
  cases I <;> simp only [AnyInterp.rawVelocity, AnyInterp.velocity]
  simp only [interpolateOf_float64, AnyInterp.interpolate]

theorem velocityOf_float64 (st : Storage K) (env : Env K F) (I : AnyInterp K) :
    I.velocityOf st .float64 env = I.velocity env := by
  funext q
  simp only [AnyInterp.velocityOf, rawVelocity_float64, store_float64, NDArray.map_id', if_true,
    ite_self]
  cases I.velocity env q with
  | error e => rfl
  | ok v => cases I <;> rfl

theorem storeAll_float64 (R : CastRules K) (r : Py (NDArray K)) : storeMoved R .float64 r = r := by
  cases r <;> simp only [storeMoved, store_float64, NDArray.map_id']

theorem stepOf_float64 (R : CastRules K) (junk : List ℕ → K) (vel : Velocity K) (h : K)
    (I : Integ K) (pos : NDArray K) :
    I.stepOf R .float64 junk vel h pos = I.step junk vel h pos := by
  cases I <;> simp only [Integ.stepOf, Integ.step, storeAll_float64, if_true]

theorem loop_step_float64 (st : Storage K) (env : Env K F) (src : Source K) (id : String)
    (queue : Bool) (i : ℕ) (l : Loop K F) :
    l.stepOf st .float64 env src id queue i = l.step env src id queue i := by
  simp only [Loop.stepOf, Loop.step, Integ.integrateOf, Integ.integrate, stepOf_float64,
    velocityOf_float64]
  rfl

theorem loop_steps_float64 (st : Storage K) (env : Env K F) (src : Source K) (id : String)
    (queue : Bool) (is : List ℕ) (l : Loop K F) :
    l.stepsOf st .float64 env src id queue is = l.steps env src id queue is := by
  induction is generalizing l with
  | nil => rfl
  | cons i is ih =>
    simp only [Loop.stepsOf, Loop.steps, loop_step_float64, ih]
    rfl

theorem computeFtleOf_float64 (R : CastRules K) (env : Env K F) (p : Particles K) (n : ℕ) (h : K) :
    computeFtleOf R .float64 env p n h = computeFtle env p n h := by
  simp only [computeFtleOf, computeFtle, jacobian2Of, jacobian2, jacobian3Of, jacobian3,
    wrap_float64, NDArray.map_id']
  rfl

theorem runOf_float64 {st : Storage K} {env : Env K F} {S : Solver K}
    (h : S.source.seedType st env.fs = .float64) (queue : Bool) (writer : Option (WriteFn K F)) :
    S.runOf st env queue writer = S.run env queue writer := by
  simp only [Solver.runOf, Solver.run, h, ofType_float64, loop_steps_float64,
    computeFtleOf_float64]
  rfl

theorem promote_float64_right (a : DType) : a.promote .float64 = .float64 := by
  cases a <;> rfl

theorem promote_eq_float64 {a b : DType} (h : a = .float64 ∨ b = .float64) :
    a.promote b = .float64 := by
  rcases h with rfl | rfl
  · cases b <;> rfl
  · cases a <;> rfl

/-! ## Integers: RK4 and functions with results of their own -/

theorem rk4StepInt_error (junk : List ℕ → K) (vel : Velocity K) (bufs : Option (Rk4Bufs K))
    (pos : NDArray K) : ∃ G e, rk4StepInt junk vel bufs pos = (G, .error e) := by
  simp only [rk4StepInt]
  split
  · exact ⟨_, _, rfl⟩
  · split <;> exact ⟨_, _, rfl⟩

/-- If the first step raises, so does the run. -/
theorem runOf_first_error {st : Storage K} {env : Env K F} {S : Solver K} (queue : Bool)
    (writer : Option (WriteFn K F)) (hn : 1 ≤ S.source.numSteps)
    (hstep : ∀ I, S.source.updateInterp env S.interp 0 = (I, none) → ∀ pos, ∃ G e,
      S.integ.stepOf st.rules (S.source.seedType st env.fs) env.junk
        (I.velocityOf st (S.source.seedType st env.fs) env) S.source.timestep pos =
          (G, .error e)) :
    ∃ e, (S.runOf st env queue writer).result = .error e := by
  simp only [Solver.runOf]
  split
  · exact ⟨_, rfl⟩
  · split
    · exact ⟨_, rfl⟩
    · next p _ _ id _ =>
      obtain ⟨n, hn'⟩ : ∃ n, S.source.numSteps = n + 1 := ⟨_, (Nat.succ_pred_eq_of_pos hn).symm⟩
      rw [hn', List.range_succ_eq_map]
      simp only [Loop.stepsOf, Loop.stepOf]
      rcases hu : S.source.updateInterp env S.interp 0 with ⟨I, _ | e⟩
      · obtain ⟨G, e, h⟩ := hstep I hu (p.ofType st.rules (S.source.seedType st env.fs)).positions
        simp only [Integ.integrateOf, h]
        exact ⟨_, rfl⟩
      · exact ⟨_, rfl⟩

theorem velocityOf_own {st : Storage K} (ho : st.own = true) {d : DType} (hd : d ≠ .float64)
    (env : Env K F) (s : AnalyticalState K) (q : NDArray K) :
    ∃ e, (AnyInterp.analytical s).velocityOf st d env q = .error e := by
  simp only [AnyInterp.velocityOf, ho, if_true, if_neg hd]
  split <;> exact ⟨_, rfl⟩

theorem stepOf_velocity_error {R : CastRules K} {d : DType} (junk : List ℕ → K) {vel : Velocity K}
    (h : K) (I : Integ K) (pos : NDArray K) (hd : d ≠ .float64) (hv : ∃ e, vel pos = .error e) :
    ∃ G e, I.stepOf R d junk vel h pos = (G, .error e) := by
  obtain ⟨e, he⟩ := hv
  cases I with
  | euler b => simp only [Integ.stepOf, eulerStep, fillFrom, he, storeMoved]; exact ⟨_, _, rfl⟩
  | ab2 p b => simp only [Integ.stepOf, ab2Step, fillFrom, he, storeMoved]; exact ⟨_, _, rfl⟩
  | rk4 b => simp only [Integ.stepOf, if_neg hd]; exact rk4StepInt_error _ _ _ _

end Verif
