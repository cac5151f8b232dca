import Verif.Lemmas.Stored
import Verif.Lemmas.Rest
import Verif.Lemmas.Jacobian
import Mathlib.Data.Real.Archimedean

/-!
# Lemmas: particles stored as integers that do not move
-/

set_option linter.unusedSectionVars false

namespace Verif

section
variable {K F : Type} [Zero K] [One K] [Add K] [Sub K] [Mul K] [Div K] [NatCast K] [IntCast K]
  [Min K] [Max K] [NumLits K] [DecidableEq K]

/-- Twins answer queries alike, for points of any type. -/
theorem Twin.rawVelocity {sh : List ℕ} {I J : AnyInterp K} (h : Twin sh I J) (st : Storage K)
    (t : DType) (env : Env K F) (q : NDArray K) (hq : q.shape = sh) :
    J.rawVelocity st t env q = I.rawVelocity st t env q := by
  rcases h.cases with ⟨rfl, hn⟩ | ⟨s, s', rfl, rfl, h1, h2, h3⟩
  · rfl
  have key : ∀ n d, sh = [n, d] →
      (s'.ensureBuffers n d).uLen = (s.ensureBuffers n d).uLen ∧
      (d = 3 → (s'.ensureBuffers n d).wLen = (s.ensureBuffers n d).wLen) := by
    intro n d hnd
    have a := (ensureBuffers_fields s n d).2.2.2.2.2
    have b := (ensureBuffers_fields s' n d).2.2.2.2.2
    refine ⟨by rw [a, b], fun hd => ?_⟩
    subst hd
    subst hnd
    rw [ensureBuffers_bufFor s n 3 h2 n rfl a, ensureBuffers_bufFor s' n 3 h3 n rfl b]
  have f1 : s'.ix = s.ix ∧ s'.iy = s.iy ∧ s'.iz = s.iz := by
    have := h1
    simp only [HighPerf.noBuf, HighPerf.mk.injEq] at this
    exact ⟨this.2.2.2.1, this.2.2.2.2.1, this.2.2.2.2.2.1⟩
  simp only [AnyInterp.rawVelocity, HighPerf.interpolateOf]
  rw [hq]
  rcases sh with _ | ⟨n, _ | ⟨d, _ | ⟨_, _⟩⟩⟩
  · rfl
  · rfl
  · obtain ⟨k1, k2⟩ := key n d rfl
    obtain ⟨-, -, x1, y1, z1, -⟩ := ensureBuffers_fields s n d
    obtain ⟨-, -, x2, y2, z2, -⟩ := ensureBuffers_fields s' n d
    simp only [x1, x2, y1, y2, z1, z2, f1.1, f1.2.1, f1.2.2, k1]
    by_cases hd3 : d = 3
    · subst hd3
      simp only [k2 rfl]
    · simp only [hd3, if_false]
  · rfl

theorem Twin.velocityOf {sh : List ℕ} {I J : AnyInterp K} (h : Twin sh I J) (st : Storage K)
    (t : DType) (env : Env K F) (q : NDArray K) (hq : q.shape = sh) :
    J.velocityOf st t env q = I.velocityOf st t env q := by
  have hr := h.rawVelocity st t env q hq
  rcases h.cases with ⟨rfl, hn⟩ | ⟨s, s', rfl, rfl, h1, h2, h3⟩
  · rfl
  · simp only [AnyInterp.velocityOf, hr]

theorem Loop.stepsOf_append (st : Storage K) (t : DType) (env : Env K F) (src : Source K)
    (id : String) (queue : Bool) (as bs : List ℕ) (l : Loop K F) :
    l.stepsOf st t env src id queue (as ++ bs) =
      match l.stepsOf st t env src id queue as with
      | (l', some e) => (l', some e)
      | (l', none) => l'.stepsOf st t env src id queue bs := by
  induction as generalizing l with
  | nil => rfl
  | cons i is ih =>
    simp only [List.cons_append, Loop.stepsOf]
    rcases l.stepOf st t env src id queue i with ⟨l', _ | e⟩
    · exact ih l'
    · rfl

variable {R d : ℕ} {S : Set ℕ} {x : ℕ → Fin d → K} {vel : Velocity K}

/-- One step of an integer run in which the rows `S` have velocity zero. -/
theorem stepOf_rest (z : ZeroLaws K) (hS : ∀ r ∈ S, r < R) (hx : ∀ r ∈ S, ∀ c, x r c + 0 = x r c)
    {C : CastRules K} {t : DType} (ht : t ≠ .float64)
    (hst : ∀ r ∈ S, ∀ c, t.store C (x r c) = x r c)
    (junk : List ℕ → K) (hv : Quiet R d S x vel) (h : K) {I J : Integ K} (hI : I.QuietOn R d S)
    {p y : NDArray K} (hp : p.shape = [R, d]) (hr : ∀ r ∈ S, rowOf p d r = x r)
    (hs : I.stepOf C t junk vel h p = (J, .ok y)) :
    J.QuietOn R d S ∧ y.shape = [R, d] ∧ ∀ r ∈ S, rowOf y d r = x r := by
  have main : ∀ a : Integ K × Py (NDArray K), a = I.step junk vel h p →
      (a.1, storeMoved C t a.2) = (J, .ok y) →
      J.QuietOn R d S ∧ y.shape = [R, d] ∧ ∀ r ∈ S, rowOf y d r = x r := by
    rintro ⟨G, e | w⟩ ha hb
    · simp [storeMoved] at hb
    · simp only [storeMoved, Prod.mk.injEq, Except.ok.injEq] at hb
      obtain ⟨rfl, rfl⟩ := hb
      obtain ⟨g1, g2, g3⟩ := step_rest z hS hx junk hv h hI hp hr ha.symm
      refine ⟨g1, g2, fun r h' => ?_⟩
      funext c
      have := congrFun (g3 r h') c
      simp only [rowOf] at this
      simp only [rowOf, NDArray.map, this, hst r h' c]
  cases I with
  | euler b => exact main (eulerStep junk vel h b p) rfl hs
  | ab2 P b => exact main (ab2Step junk vel h P b p) rfl hs
  | rk4 b =>
    simp only [Integ.stepOf, if_neg ht] at hs
    obtain ⟨G, e, hG⟩ := rk4StepInt_error junk vel b p
    rw [hG] at hs
    simp at hs

/-- The loop of an integer run. -/
theorem loopOf_rest (z : ZeroLaws K) (hS : ∀ r ∈ S, r < R) (hx : ∀ r ∈ S, ∀ c, x r c + 0 = x r c)
    {sg : Storage K} {t : DType} (ht : t ≠ .float64)
    (hsx : ∀ r ∈ S, ∀ c, t.store sg.rules (x r c) = x r c)
    (env : Env K F) (src : Source K) (id : String) (queue : Bool) {I0 : AnyInterp K}
    (hI : I0.Unused) (k : Kind) {p : Particles K} (hp : p.positions.shape = [R, d])
    (hr : ∀ r ∈ S, rowOf p.positions d r = x r) (n : ℕ)
    (hv : ∀ i < n, (src.updated env I0 (i + 1)).2 = none →
      Quiet R d S x ((src.updated env I0 (i + 1)).1.velocityOf sg t env))
    {st : Loop K F}
    (hst : Loop.stepsOf sg t env src id queue (List.range n) ⟨I0, .fresh k, p, []⟩ = (st, none)) :
    ∃ pos, st.particles = { p with positions := pos } ∧ pos.shape = [R, d] ∧
      ∀ r ∈ S, rowOf pos d r = x r := by
  suffices H : ∃ pos, st.particles = { p with positions := pos } ∧ pos.shape = [R, d] ∧
      (∀ r ∈ S, rowOf pos d r = x r) ∧ (src.updated env I0 n).2 = none ∧
      Twin [R, d] (src.updated env I0 n).1 st.interp ∧ st.integ.QuietOn R d S by
    obtain ⟨pos, h1, h2, h3, -⟩ := H
    exact ⟨pos, h1, h2, h3⟩
  induction n generalizing st with
  | zero =>
    simp only [List.range_zero, Loop.stepsOf, Prod.mk.injEq, and_true] at hst
    subst hst
    exact ⟨p.positions, rfl, hp, hr, rfl, hI.twin _, Integ.quiet_fresh R d S k⟩
  | succ n ih =>
    rw [List.range_succ, Loop.stepsOf_append] at hst
    rcases hn : Loop.stepsOf sg t env src id queue (List.range n) ⟨I0, .fresh k, p, []⟩
      with ⟨su, _ | e⟩
    · rw [hn] at hst
      obtain ⟨pos, h1, h2, h3, h4, h5, h6⟩ := ih (fun i hi => hv i (by omega)) hn
      simp only [Loop.stepsOf, Loop.stepOf] at hst
      rcases hJ : src.updateInterp env su.interp n with ⟨J, _ | e⟩
      · simp only [hJ, Integ.integrateOf] at hst
        rcases hs : su.integ.stepOf sg.rules t env.junk (J.velocityOf sg t env) src.timestep
          su.particles.positions with ⟨G, e | y⟩
        · simp [hs] at hst
        · simp only [hs, Prod.mk.injEq, and_true] at hst
          have hdef : src.updated env I0 (n + 1) =
              src.updateInterp env (src.updated env I0 n).1 n := by
            simp only [Source.updated]
            rcases hu : src.updated env I0 n with ⟨U, _ | e⟩
            · rfl
            · rw [hu] at h4; simp at h4
          obtain ⟨u1, u2⟩ := h5.updateInterp env src n
          rw [hJ] at u1 u2
          simp only at u1 u2
          have hok : (src.updated env I0 (n + 1)).2 = none := by rw [hdef]; exact u1.symm
          have hq := hv n (by omega) hok
          rw [hdef] at hq
          have hq' : Quiet R d S x (J.velocityOf sg t env) := by
            intro q A q1 q2 q3
            rw [u2.velocityOf sg t env q q1] at q3
            exact hq q A q1 q2 q3
          rw [h1] at hs
          obtain ⟨g1, g2, g3⟩ := stepOf_rest z hS hx ht hsx env.junk hq' src.timestep h6 h2 h3 hs
          subst hst
          refine ⟨y, ?_, g2, g3, hok, ?_, g1⟩
          · simp only [h1]
          · rw [hdef, h1]; exact u2.interpolate env.sp env.m env.junk pos h2
      · simp [hJ] at hst
    · rw [hn] at hst
      simp at hst

/-- Euler and Adams-Bashforth evaluate the velocity once, at the given positions. -/
theorem stepOf_once {I : Integ K} (hk : I.kind ≠ .rk4) (C : CastRules K) (t : DType)
    (junk : List ℕ → K) (vel : Velocity K) (h : K) (pos : NDArray K) :
    I.stepOf C t junk vel h pos =
      (let r := I.step junk (fun _ => vel pos) h pos; (r.1, storeMoved C t r.2)) := by
  cases I with
  | euler b => rfl
  | ab2 P b => rfl
  | rk4 b => exact absurd rfl hk

/-- An integer run with Euler or Adams-Bashforth steps in which all stored velocities are zero
at the seeds completes, and no particle moves. -/
theorem loopOf_frozen (z : ZeroLaws K) {sg : Storage K} {t : DType} (ht : t ≠ .float64)
    (hx : ∀ r < R, ∀ c, x r c + 0 = x r c) (hsx : ∀ r < R, ∀ c, t.store sg.rules (x r c) = x r c)
    (env : Env K F) (src : Source K) (id : String)
    (queue : Bool) {I0 : AnyInterp K} (hI : I0.Unused) {k : Kind} (hk : k ≠ .rk4) {p : Particles K}
    (hp : p.positions.shape = [R, d]) (hr : ∀ r < R, rowOf p.positions d r = x r) (n : ℕ)
    (hv : ∀ i < n, (src.updated env I0 (i + 1)).2 = none ∧ ∀ q : NDArray K, q.shape = [R, d] →
      (∀ r < R, rowOf q d r = x r) → ∃ A,
        (src.updated env I0 (i + 1)).1.velocityOf sg t env q = .ok A ∧ A.shape = [R, d] ∧
        ∀ r < R, rowOf A d r = fun _ => 0) :
    ∃ st pos, Loop.stepsOf sg t env src id queue (List.range n) ⟨I0, .fresh k, p, []⟩ = (st, none) ∧
      st.particles = { p with positions := pos } ∧ pos.shape = [R, d] ∧
      ∀ r < R, rowOf pos d r = x r := by
  suffices H : ∃ st,
      Loop.stepsOf sg t env src id queue (List.range n) ⟨I0, .fresh k, p, []⟩ = (st, none) ∧
      Twin [R, d] (src.updated env I0 n).1 st.interp ∧ st.particles.positions.shape = [R, d] ∧
      st.integ.Fits R d ∧ st.integ.kind = k by
    obtain ⟨st, h, -⟩ := H
    obtain ⟨pos, h1, h2, h3⟩ := loopOf_rest (S := {r | r < R}) z (fun r h => h) hx ht hsx env src id
      queue hI k hp hr n (fun i hi _ q A hq hr hA => by
        obtain ⟨B, b1, b2, b3⟩ := (hv i hi).2 q hq hr
        rw [b1] at hA
        cases hA
        exact ⟨b2, b3⟩) h
    exact ⟨st, pos, h, h1, h2, h3⟩
  induction n with
  | zero =>
    exact ⟨_, rfl, hI.twin _, hp, Integ.fits_fresh R d k, Integ.kind_fresh k⟩
  | succ n ih =>
    obtain ⟨st, h1, h2, h3, h4, h5⟩ := ih (fun i hi => hv i (by omega))
    have h3' : ∀ r < R, rowOf st.particles.positions d r = x r := by
      obtain ⟨pos, e1, -, e2⟩ := loopOf_rest (S := {r | r < R}) z (fun r h => h) hx ht hsx env src
        id queue hI k hp hr n (fun i hi _ q A hq hr hA => by
          obtain ⟨B, b1, b2, b3⟩ := (hv i (by omega)).2 q hq hr
          rw [b1] at hA
          cases hA
          exact ⟨b2, b3⟩) h1
      rw [e1]
      exact e2
    obtain ⟨u1, u2⟩ := h2.updateInterp env src n
    obtain ⟨hu, hvn⟩ := hv n (by omega)
    have hdef : src.updated env I0 (n + 1) = src.updateInterp env (src.updated env I0 n).1 n := by
      simp only [Source.updated] at hu ⊢
      rcases hn : src.updated env I0 n with ⟨J, _ | e⟩
      · rfl
      · rw [hn] at hu
        simp at hu
    rw [hdef] at hu hvn
    rw [hu] at u1
    rcases hJ : src.updateInterp env st.interp n with ⟨J, e⟩
    rw [hJ] at u1 u2
    simp only at u1 u2
    subst u1
    obtain ⟨A, a1, a2, a3⟩ := hvn st.particles.positions h3 h3'
    rw [← u2.velocityOf sg t env _ h3] at a1
    have hvJ : Pointwise R d (fun _ => .ok A) (fun _ _ => 0) := fun q _ => ⟨A, rfl, a2, a3⟩
    obtain ⟨G, pos2, f1, f2, f3, f4, -⟩ := step_rows env.junk hvJ src.timestep st.integ h4
      st.particles.positions h3
    have hs : st.integ.stepOf sg.rules t env.junk (J.velocityOf sg t env) src.timestep
        st.particles.positions = (G, .ok (pos2.map (t.store sg.rules))) := by
      rw [stepOf_once (by rw [h5]; exact hk), a1]
      simp only [f1, storeMoved]
    refine ⟨⟨(J.interpolate env.sp env.m env.junk st.particles.positions).1, G,
      { st.particles with positions := pos2.map (t.store sg.rules) },
        st.trace ++ (if queue then [.progress id n] else [])⟩, ?_, ?_, f4, f3, f2.trans h5⟩
    · rw [List.range_succ, Loop.stepsOf_append, h1]
      simp only [Loop.stepsOf, Loop.stepOf, hJ, Integ.integrateOf, hs]
    · rw [hdef]
      exact u2.interpolate env.sp env.m env.junk _ h3

/-- A completed integer run without a writer. -/
theorem runOf_of_ok {st : Storage K} {env : Env K F} {S : Solver K} {queue : Bool} {field : List F}
    (h : (S.runOf st env queue none).result = .ok (some field)) :
    ∃ p id l, S.source.getParticles env.fs = .ok p ∧
      Loop.stepsOf st (S.source.seedType st env.fs) env S.source id queue
        (List.range S.source.numSteps)
        ⟨S.interp, S.integ, p.ofType st.rules (S.source.seedType st env.fs), []⟩ = (l, none) ∧
      computeFtleOf st.rules (S.source.seedType st env.fs) env l.particles S.source.numSteps
        S.source.timestep = .ok field := by
  unfold Solver.runOf at h
  simp only at h
  cases hp : S.source.getParticles env.fs with
  | error e => simp only [hp] at h; cases h
  | ok p =>
    cases hid : S.source.id env with
    | error e => simp only [hp, hid] at h; cases h
    | ok id =>
      rcases hl : Loop.stepsOf st (S.source.seedType st env.fs) env S.source id queue
        (List.range S.source.numSteps)
        ⟨S.interp, S.integ, p.ofType st.rules (S.source.seedType st env.fs), []⟩ with ⟨l, _ | e⟩
      · simp only [hp, hid, hl] at h
        cases hf : computeFtleOf st.rules (S.source.seedType st env.fs) env l.particles
          S.source.numSteps S.source.timestep with
        | error e => rw [hf] at h; cases h
        | ok v =>
          rw [hf] at h
          simp only [Except.ok.injEq, Option.some.injEq] at h
          exact ⟨p, id, l, rfl, hl, by rw [hf, h]⟩
      · simp only [hp, hid, hl] at h
        cases h

end

/-! ## Real numbers -/

section
variable {F : Type}

theorem jacobian2Of_eq (C : CastRules ℝ) (t : DType) {seed pos : NDArray ℝ} {N : ℕ}
    {p : Particles ℝ} (hs : seed.shape = [4 * N, 2]) (hp : pos.shape = [4 * N, 2])
    (h : mkParticles seed = .ok p) :
    jacobian2Of C t { p.ofType C t with positions := pos } =
      pyMap (fun i => jac2Val
        (fun c => t.wrap C (pos.get [N + i, c] - pos.get [i, c]))
        (fun c => t.wrap C (seed.get [N + i, c] - seed.get [i, c]))
        (fun c => t.wrap C (pos.get [2 * N + i, c] - pos.get [3 * N + i, c]))
        (fun c => t.wrap C (seed.get [2 * N + i, c] - seed.get [3 * N + i, c]))) (List.range N) := by
  obtain ⟨p', q1, q2, q3, q4, q5, -, -, q8, q9, -⟩ := mkParticles_2d hs
  rw [h] at q1; cases q1
  obtain ⟨rl, r1, r2, r3⟩ := deltaRL_eq (k := 4) (by omega) hp
  obtain ⟨tb, t1, t2, t3⟩ := deltaTB_eq (k := 4) (by omega) hp
  unfold jacobian2Of Particles.deltaRL Particles.deltaTB Particles.ofType
  simp only [q3, r1, t1, hp, List.headD_cons, Nat.mul_div_cancel_left N (by omega : 0 < 4)]
  apply pyMap_congr
  intro i hi
  rw [jac2Body_eq (n := N) (by exact r2) (by exact q4) (by exact t2) (by exact q5)
    (List.mem_range.1 hi)]
  simp only [NDArray.map, r3, t3, q8, q9]

theorem jacobian3Of_eq (C : CastRules ℝ) (t : DType) {seed pos : NDArray ℝ} {N : ℕ}
    {p : Particles ℝ} (hs : seed.shape = [6 * N, 3]) (hp : pos.shape = [6 * N, 3])
    (h : mkParticles seed = .ok p) :
    jacobian3Of C t { p.ofType C t with positions := pos } =
      pyMap (fun i => jac3Val
        (fun c => t.wrap C (pos.get [N + i, c] - pos.get [i, c]))
        (fun c => t.wrap C (seed.get [N + i, c] - seed.get [i, c]))
        (fun c => t.wrap C (pos.get [2 * N + i, c] - pos.get [3 * N + i, c]))
        (fun c => t.wrap C (seed.get [2 * N + i, c] - seed.get [3 * N + i, c]))
        (fun c => t.wrap C (pos.get [4 * N + i, c] - pos.get [5 * N + i, c]))
        (fun c => t.wrap C (seed.get [4 * N + i, c] - seed.get [5 * N + i, c]))) (List.range N) := by
  obtain ⟨p', q1, q2, q3, q4, q5, q6, -, q8, q9, q10, -⟩ := mkParticles_3d hs
  rw [h] at q1; cases q1
  obtain ⟨rl, r1, r2, r3⟩ := deltaRL_eq (k := 6) (by omega) hp
  obtain ⟨tb, t1, t2, t3⟩ := deltaTB_eq (k := 6) (by omega) hp
  obtain ⟨fb, f1, f2, f3⟩ := deltaFB_eq (k := 4) hp
  unfold jacobian3Of Particles.deltaRL Particles.deltaTB Particles.deltaFB Particles.ofType
  simp only [q3, r1, t1, f1, hp, List.headD_cons, Nat.mul_div_cancel_left N (by omega : 0 < 6)]
  apply pyMap_congr
  intro i hi
  rw [jac3Body_eq (n := N) (by exact r2) (by exact q4) (by exact t2) (by exact q5) (by exact f2)
    (by exact q6) (List.mem_range.1 hi)]
  simp only [NDArray.map, r3, t3, f3, q8, q9, q10]

/-- A completed integer run in which the stored velocity of group `i` is zero. -/
theorem runOf_rest_2d {sg : Storage ℝ} (env : Env ℝ F) (src : Source ℝ) {I0 : AnyInterp ℝ}
    (ht : src.seedType sg env.fs ≠ .float64)
    (hI : I0.Unused) (k : Kind) {N i : ℕ} (hi : i < N) {seed : NDArray ℝ} {p : Particles ℝ}
    (hs : seed.shape = [4 * N, 2]) (hp : mkParticles seed = .ok p)
    (hg : src.getParticles env.fs = .ok p)
    (hsx : ∀ b < 4, ∀ c : Fin 2, (src.seedType sg env.fs).store sg.rules
      (rowOf seed 2 (b * N + i) c) = rowOf seed 2 (b * N + i) c)
    (hv : ∀ j < src.numSteps, (src.updated env I0 (j + 1)).2 = none →
      Quiet (4 * N) 2 (groupRows 4 N i) (rowOf seed 2)
        ((src.updated env I0 (j + 1)).1.velocityOf sg (src.seedType sg env.fs) env))
    (queue : Bool) {field : List F}
    (hrun : ((⟨src, I0, .fresh k⟩ : Solver ℝ).runOf sg env queue none).result =
      .ok (some field)) :
    ∃ js J, env.ftle2 js (runPeriod env src) = .ok field ∧ js[i]? = some J ∧
      jac2Val
        (fun c => (src.seedType sg env.fs).wrap sg.rules (seed.get [N + i, c] - seed.get [i, c]))
        (fun c => (src.seedType sg env.fs).wrap sg.rules (seed.get [N + i, c] - seed.get [i, c]))
        (fun c => (src.seedType sg env.fs).wrap sg.rules
          (seed.get [2 * N + i, c] - seed.get [3 * N + i, c]))
        (fun c => (src.seedType sg env.fs).wrap sg.rules
          (seed.get [2 * N + i, c] - seed.get [3 * N + i, c])) = .ok J := by
  obtain ⟨q1, q2, -, -⟩ := mkParticles_groups (d := 2) (.inl rfl) hs hp
  obtain ⟨p', id, l, h1, h2, h3⟩ := runOf_of_ok hrun
  simp only at h1 h2 h3
  rw [hg] at h1
  cases h1
  obtain ⟨pos, a1, a2, a3⟩ := loopOf_rest ⟨mul_zero, sub_zero 0, add_zero 0⟩ (groupRows_lt hi)
    (x := rowOf seed 2) (fun r _ c => add_zero _) ht (by rintro r ⟨b, hb, rfl⟩ c; exact hsx b hb c)
    env src id queue hI k (p := p.ofType sg.rules (src.seedType sg env.fs))
    (by exact q1 ▸ hs) (by intro r _; exact q1 ▸ rfl) src.numSteps hv h2
  rw [a1] at h3
  have hn : (p.ofType sg.rules (src.seedType sg env.fs)).numNeighbors = 4 := by
    obtain ⟨p', w1, w2, w3, -⟩ := mkParticles_2d hs
    rw [hp] at w1; cases w1
    exact w3
  simp only [computeFtleOf] at h3
  rw [if_pos hn, jacobian2Of_eq _ _ hs a2 hp] at h3
  split at h3
  · cases h3
  · next js hj =>
    obtain ⟨J, j1, j2⟩ := pyMap_ok_get hj i (by simpa using hi)
    rw [List.getElem_range] at j2
    refine ⟨js, J, h3, j1, ?_⟩
    have g : ∀ b < 4, ∀ c < 2, pos.get [b * N + i, c] = seed.get [b * N + i, c] := fun b hb c hc =>
      congrFun (a3 _ ⟨b, hb, rfl⟩) ⟨c, hc⟩
    rw [← j2]
    have g0 : ∀ c < 2, pos.get [i, c] = seed.get [i, c] := fun c hc => by
      simpa using g 0 (by omega) c hc
    have g1 : ∀ c < 2, pos.get [N + i, c] = seed.get [N + i, c] := fun c hc => by
      simpa using g 1 (by omega) c hc
    have g2 := g 2 (by omega)
    have g3 := g 3 (by omega)
    simp only [jac2Val, g0 0 (by omega), g0 1 (by omega), g1 0 (by omega), g1 1 (by omega),
      g2 0 (by omega), g2 1 (by omega), g3 0 (by omega), g3 1 (by omega)]

/-- The same in 3-D. -/
theorem runOf_rest_3d {sg : Storage ℝ} (env : Env ℝ F) (src : Source ℝ) {I0 : AnyInterp ℝ}
    (ht : src.seedType sg env.fs ≠ .float64)
    (hI : I0.Unused) (k : Kind) {N i : ℕ} (hi : i < N) {seed : NDArray ℝ} {p : Particles ℝ}
    (hs : seed.shape = [6 * N, 3]) (hp : mkParticles seed = .ok p)
    (hg : src.getParticles env.fs = .ok p)
    (hsx : ∀ b < 6, ∀ c : Fin 3, (src.seedType sg env.fs).store sg.rules
      (rowOf seed 3 (b * N + i) c) = rowOf seed 3 (b * N + i) c)
    (hv : ∀ j < src.numSteps, (src.updated env I0 (j + 1)).2 = none →
      Quiet (6 * N) 3 (groupRows 6 N i) (rowOf seed 3)
        ((src.updated env I0 (j + 1)).1.velocityOf sg (src.seedType sg env.fs) env))
    (queue : Bool) {field : List F}
    (hrun : ((⟨src, I0, .fresh k⟩ : Solver ℝ).runOf sg env queue none).result =
      .ok (some field)) :
    ∃ js J, env.ftle3 js (runPeriod env src) = .ok field ∧ js[i]? = some J ∧
      jac3Val
        (fun c => (src.seedType sg env.fs).wrap sg.rules (seed.get [N + i, c] - seed.get [i, c]))
        (fun c => (src.seedType sg env.fs).wrap sg.rules (seed.get [N + i, c] - seed.get [i, c]))
        (fun c => (src.seedType sg env.fs).wrap sg.rules
          (seed.get [2 * N + i, c] - seed.get [3 * N + i, c]))
        (fun c => (src.seedType sg env.fs).wrap sg.rules
          (seed.get [2 * N + i, c] - seed.get [3 * N + i, c]))
        (fun c => (src.seedType sg env.fs).wrap sg.rules
          (seed.get [4 * N + i, c] - seed.get [5 * N + i, c]))
        (fun c => (src.seedType sg env.fs).wrap sg.rules
          (seed.get [4 * N + i, c] - seed.get [5 * N + i, c])) = .ok J := by
  obtain ⟨q1, q2, -, -⟩ := mkParticles_groups (d := 3) (.inr rfl) hs hp
  obtain ⟨p', id, l, h1, h2, h3⟩ := runOf_of_ok hrun
  simp only at h1 h2 h3
  rw [hg] at h1
  cases h1
  obtain ⟨pos, a1, a2, a3⟩ := loopOf_rest ⟨mul_zero, sub_zero 0, add_zero 0⟩ (groupRows_lt hi)
    (x := rowOf seed 3) (fun r _ c => add_zero _) ht (by rintro r ⟨b, hb, rfl⟩ c; exact hsx b hb c)
    env src id queue hI k (p := p.ofType sg.rules (src.seedType sg env.fs))
    (by exact q1 ▸ hs) (by intro r _; exact q1 ▸ rfl) src.numSteps hv h2
  rw [a1] at h3
  have hn : (p.ofType sg.rules (src.seedType sg env.fs)).numNeighbors = 6 := by
    obtain ⟨p', w1, w2, w3, -⟩ := mkParticles_3d hs
    rw [hp] at w1; cases w1
    exact w3
  simp only [computeFtleOf] at h3
  rw [if_neg (by rw [hn]; omega), jacobian3Of_eq _ _ hs a2 hp] at h3
  split at h3
  · cases h3
  · next js hj =>
    obtain ⟨J, j1, j2⟩ := pyMap_ok_get hj i (by simpa using hi)
    rw [List.getElem_range] at j2
    refine ⟨js, J, h3, j1, ?_⟩
    have g : ∀ b < 6, ∀ c < 3, pos.get [b * N + i, c] = seed.get [b * N + i, c] := fun b hb c hc =>
      congrFun (a3 _ ⟨b, hb, rfl⟩) ⟨c, hc⟩
    rw [← j2]
    have g0 : ∀ c < 3, pos.get [i, c] = seed.get [i, c] := fun c hc => by
      simpa using g 0 (by omega) c hc
    have g1 : ∀ c < 3, pos.get [N + i, c] = seed.get [N + i, c] := fun c hc => by
      simpa using g 1 (by omega) c hc
    have g2 := g 2 (by omega)
    have g3 := g 3 (by omega)
    have g4 := g 4 (by omega)
    have g5 := g 5 (by omega)
    simp only [jac3Val, g0 0 (by omega), g0 1 (by omega), g0 2 (by omega), g1 0 (by omega),
      g1 1 (by omega), g1 2 (by omega), g2 0 (by omega), g2 1 (by omega), g2 2 (by omega),
      g3 0 (by omega), g3 1 (by omega), g3 2 (by omega), g4 0 (by omega), g4 1 (by omega),
      g4 2 (by omega), g5 0 (by omega), g5 1 (by omega), g5 2 (by omega)]

end

end Verif
