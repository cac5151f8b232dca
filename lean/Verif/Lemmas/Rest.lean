import Verif.Lemmas.Local
import Verif.Props.FlowMap

/-!
# Helper lemmas: particles at rest

Rows whose velocity is zero in every query keep their position, in any arithmetic in which zeros
behave as zeros; the other rows do not matter.
-/

set_option linter.unusedSectionVars false

namespace Verif

/-- What the integrators need of zero. -/
structure ZeroLaws (K : Type) [Zero K] [Add K] [Sub K] [Mul K] : Prop where
  mul : ∀ c : K, c * 0 = 0
  sub : (0 : K) - 0 = 0
  add : (0 : K) + 0 = 0

section
variable {K : Type} [Zero K] [Add K] [Sub K] [Mul K] [Div K] [NumLits K]

/-- Queries whose rows `r ∈ S` are `x r` get velocity zero in these rows (if they are answered). -/
def Quiet (R d : ℕ) (S : Set ℕ) (x : ℕ → Fin d → K) (vel : Velocity K) : Prop :=
  ∀ q A : NDArray K, q.shape = [R, d] → (∀ r ∈ S, rowOf q d r = x r) → vel q = .ok A →
    A.shape = [R, d] ∧ ∀ r ∈ S, rowOf A d r = fun _ => 0

/-- The integrator remembers velocity zero in the rows `S`. -/
def Integ.QuietOn (R d : ℕ) (S : Set ℕ) (I : Integ K) : Prop :=
  I.Fits R d ∧ ∀ P b, I = .ab2 (some P) b → ∀ r ∈ S, rowOf P d r = fun _ => 0

theorem Integ.quiet_fresh (R d : ℕ) (S : Set ℕ) (k : Kind) :
    (Integ.fresh k : Integ K).QuietOn R d S := by
  refine ⟨Integ.fits_fresh R d k, fun P b h => ?_⟩
  cases k <;> simp [Integ.fresh] at h

variable {R d : ℕ} {S : Set ℕ} {x : ℕ → Fin d → K} {vel : Velocity K}

theorem Quiet.fill (hv : Quiet R d S x vel) (hS : ∀ r ∈ S, r < R) {b q V : NDArray K}
    (hb : b.shape = [R, d]) (hq : q.shape = [R, d]) (hr : ∀ r ∈ S, rowOf q d r = x r)
    (h : fillFrom b vel q = .ok V) : V.shape = [R, d] ∧ ∀ r ∈ S, rowOf V d r = fun _ => 0 := by
  unfold fillFrom at h
  cases hA : vel q with
  | error e => rw [hA] at h; cases h
  | ok A =>
    rw [hA] at h
    obtain ⟨a1, a2⟩ := hv q A hq hr hA
    obtain ⟨B, b1, b2, b3⟩ := copyto_same hb a1
    simp only [b1, Except.ok.injEq] at h
    subst h
    exact ⟨b2, fun r h => by rw [b3 r (hS r h), a2 r h]⟩

/-- One step. -/
theorem step_rest (z : ZeroLaws K) (hS : ∀ r ∈ S, r < R) (hx : ∀ r ∈ S, ∀ c, x r c + 0 = x r c)
    (junk : List ℕ → K) (hv : Quiet R d S x vel) (h : K) {I J : Integ K} (hI : I.QuietOn R d S)
    {p y : NDArray K} (hp : p.shape = [R, d]) (hr : ∀ r ∈ S, rowOf p d r = x r)
    (hs : I.step junk vel h p = (J, .ok y)) :
    J.QuietOn R d S ∧ y.shape = [R, d] ∧ ∀ r ∈ S, rowOf y d r = x r := by
  have hb : ∀ b : Option (NDArray K), (reuseOrAlloc junk b p).shape = [R, d] := fun b => by
    rw [reuseOrAlloc_shape]; exact hp
  cases I with
  | euler buf =>
    simp only [Integ.step, eulerStep] at hs
    cases hf : fillFrom (reuseOrAlloc junk buf p) vel p with
    | error e => rw [hf] at hs; simp at hs
    | ok V =>
      obtain ⟨v1, v2⟩ := hv.fill hS (hb buf) hp hr hf
      obtain ⟨A, a1, a2, a3⟩ := zipWith_rows (f := fun x v => x + h * v) hp v1
      simp only [hf, eulerKernel, a1, Prod.mk.injEq, Except.ok.injEq] at hs
      obtain ⟨rfl, rfl⟩ := hs
      refine ⟨⟨trivial, fun P b h => by cases h⟩, a2, fun r h' => ?_⟩
      rw [a3, hr r h', v2 r h']
      simp only [z.mul, hx r h']
  | ab2 prev buf =>
    simp only [Integ.step, ab2Step] at hs
    cases hf : fillFrom (reuseOrAlloc junk buf p) vel p with
    | error e => rw [hf] at hs; simp at hs
    | ok V =>
      obtain ⟨v1, v2⟩ := hv.fill hS (hb buf) hp hr hf
      cases prev with
      | none =>
        obtain ⟨A, a1, a2, a3⟩ := zipWith_rows (f := fun x v => x + h * v) hp v1
        obtain ⟨C, c1, c2, c3⟩ := copyto_same (dst := emptyLike junk V) v1 v1
        simp only [hf, eulerKernel, a1, c1, Prod.mk.injEq, Except.ok.injEq] at hs
        obtain ⟨rfl, rfl⟩ := hs
        refine ⟨⟨c2, fun P b h => ?_⟩, a2, fun r h' => ?_⟩
        · simp only [Integ.ab2.injEq, Option.some.injEq] at h
          obtain ⟨rfl, -⟩ := h
          exact fun r h' => by rw [c3 r (hS r h'), v2 r h']
        · rw [a3, hr r h', v2 r h']
          simp only [z.mul, hx r h']
      | some P =>
        have hP : P.shape = [R, d] := hI.1
        have hP0 := hI.2 P buf rfl
        obtain ⟨W, w1, w2, w3⟩ := zipWith_rows
          (f := fun v p => NumLits.onePointFive * v - NumLits.half * p) v1 hP
        obtain ⟨A, a1, a2, a3⟩ := zipWith_rows (f := fun x w => x + h * w) hp w2
        obtain ⟨C, c1, c2, c3⟩ := copyto_same (dst := P) hP v1
        simp only [hf, ab2Kernel, w1, a1, c1, Prod.mk.injEq, Except.ok.injEq] at hs
        obtain ⟨rfl, rfl⟩ := hs
        refine ⟨⟨c2, fun P b h => ?_⟩, a2, fun r h' => ?_⟩
        · simp only [Integ.ab2.injEq, Option.some.injEq] at h
          obtain ⟨rfl, -⟩ := h
          exact fun r h' => by rw [c3 r (hS r h'), v2 r h']
        · rw [a3, hr r h', w3, v2 r h', hP0 r h']
          simp only [z.mul, z.sub, hx r h']
  | rk4 bufs =>
    obtain ⟨b1, b2, b3, b4, b5⟩ := rk4Bufs_fits junk hI.1 hp
    simp only [Integ.step, rk4Step] at hs
    generalize rk4Bufs junk bufs p = B at *
    cases e1 : fillFrom B.k1 vel p with
    | error e => rw [e1] at hs; simp at hs
    | ok k1 =>
      obtain ⟨m1, n1⟩ := hv.fill hS b1 hp hr e1
      obtain ⟨t1, s1, u1, w1⟩ := stagePoint_rows (c := NumLits.half * h) b5 hp m1
      have r1 : ∀ r ∈ S, rowOf t1 d r = x r := fun r h' => by
        rw [w1 r (hS r h'), hr r h', n1 r h']
        simp only [z.mul, hx r h']
      simp only [e1, s1] at hs
      cases e2 : fillFrom B.k2 vel t1 with
      | error e => rw [e2] at hs; simp at hs
      | ok k2 =>
        obtain ⟨m2, n2⟩ := hv.fill hS b2 u1 r1 e2
        obtain ⟨t2, s2, u2, w2⟩ := stagePoint_rows (c := NumLits.half * h) u1 hp m2
        have r2 : ∀ r ∈ S, rowOf t2 d r = x r := fun r h' => by
          rw [w2 r (hS r h'), hr r h', n2 r h']
          simp only [z.mul, hx r h']
        simp only [e2, s2] at hs
        cases e3 : fillFrom B.k3 vel t2 with
        | error e => rw [e3] at hs; simp at hs
        | ok k3 =>
          obtain ⟨m3, n3⟩ := hv.fill hS b3 u2 r2 e3
          obtain ⟨t3, s3, u3, w3⟩ := stagePoint_rows (c := h) u2 hp m3
          have r3 : ∀ r ∈ S, rowOf t3 d r = x r := fun r h' => by
            rw [w3 r (hS r h'), hr r h', n3 r h']
            simp only [z.mul, hx r h']
          simp only [e3, s3] at hs
          cases e4 : fillFrom B.k4 vel t3 with
          | error e => rw [e4] at hs; simp at hs
          | ok k4 =>
            obtain ⟨m4, n4⟩ := hv.fill hS b4 u3 r3 e4
            obtain ⟨z12, za, zb, zc⟩ := zipWith_rows (f := fun a b => a + NumLits.two * b) m1 m2
            obtain ⟨z123, zd, ze, zf⟩ := zipWith_rows (f := fun a b => a + NumLits.two * b) zb m3
            obtain ⟨Z, zg, zh, zi⟩ := zipWith_rows (f := fun a b => a + b) ze m4
            obtain ⟨A, a1, a2, a3⟩ := zipWith_rows (f := fun x s => x + (h / NumLits.six) * s) hp zh
            simp only [e4, rk4Kernel, za, zd, zg, a1, Prod.mk.injEq, Except.ok.injEq] at hs
            obtain ⟨rfl, rfl⟩ := hs
            refine ⟨⟨⟨m2.trans m1.symm, m3.trans m1.symm, m4.trans m1.symm, u3.trans m1.symm⟩,
              fun P b h => by cases h⟩, a2, fun r h' => ?_⟩
            rw [a3, hr r h', zi, zf, zc, n1 r h', n2 r h', n3 r h', n4 r h']
            simp only [z.mul, z.add, hx r h']

end

section
variable {K F : Type} [Zero K] [One K] [Add K] [Sub K] [Mul K] [Div K] [NatCast K] [IntCast K]
  [Min K] [Max K] [NumLits K] [DecidableEq K] {R d : ℕ} {S : Set ℕ} {x : ℕ → Fin d → K}

/-- The loop of a run. -/
theorem loop_rest (z : ZeroLaws K) (hS : ∀ r ∈ S, r < R) (hx : ∀ r ∈ S, ∀ c, x r c + 0 = x r c)
    (env : Env K F) (src : Source K) (id : String) (queue : Bool) {I0 : AnyInterp K}
    (hI : I0.Unused) (k : Kind) {p : Particles K} (hp : p.positions.shape = [R, d])
    (hr : ∀ r ∈ S, rowOf p.positions d r = x r) (n : ℕ)
    (hv : ∀ i < n, (src.updated env I0 (i + 1)).2 = none →
      Quiet R d S x ((src.updated env I0 (i + 1)).1.velocity env))
    {st : Loop K F}
    (hst : Loop.steps env src id queue (List.range n) ⟨I0, .fresh k, p, []⟩ = (st, none)) :
    ∃ pos, st.particles = { p with positions := pos } ∧ pos.shape = [R, d] ∧
      ∀ r ∈ S, rowOf pos d r = x r := by
  suffices H : ∃ pos, st.particles = { p with positions := pos } ∧ pos.shape = [R, d] ∧
      (∀ r ∈ S, rowOf pos d r = x r) ∧ (src.updated env I0 n).2 = none ∧
      Twin [R, d] (src.updated env I0 n).1 st.interp ∧ st.integ.QuietOn R d S by
    obtain ⟨pos, h1, h2, h3, -⟩ := H
    exact ⟨pos, h1, h2, h3⟩
  induction n generalizing st with
  | zero =>
    simp only [List.range_zero, Loop.steps, Prod.mk.injEq, and_true] at hst
    subst hst
    exact ⟨p.positions, rfl, hp, hr, rfl, hI.twin _, Integ.quiet_fresh R d S k⟩
  | succ n ih =>
    rw [List.range_succ, Loop.steps_append] at hst
    rcases hn : Loop.steps env src id queue (List.range n) ⟨I0, .fresh k, p, []⟩ with ⟨su, _ | e⟩
    · rw [hn] at hst
      obtain ⟨pos, h1, h2, h3, h4, h5, h6⟩ := ih (fun i hi => hv i (by omega)) hn
      simp only [Loop.steps, Loop.step] at hst
      rcases hJ : src.updateInterp env su.interp n with ⟨J, _ | e⟩
      · simp only [hJ, Integ.integrate] at hst
        rcases hs : su.integ.step env.junk (J.velocity env) src.timestep su.particles.positions
          with ⟨G, e | y⟩
        · simp [hs] at hst
        · simp only [hs, Prod.mk.injEq, and_true] at hst
          have hdef : src.updated env I0 (n + 1) =
              src.updateInterp env (src.updated env I0 n).1 n := by
            simp only [Source.updated]
            rcases hu : src.updated env I0 n with ⟨U, _ | e⟩
            · rfl
            · rw [hu] at h4; simp at h4
          obtain ⟨u1, u2⟩ := h5.updateInterp env src n
          rw [hJ] at u1 u2
          simp only at u1 u2
          have hok : (src.updated env I0 (n + 1)).2 = none := by rw [hdef]; exact u1.symm
          have hq := hv n (by omega) hok
          rw [hdef] at hq
          have hq' : Quiet R d S x (J.velocity env) := by
            intro q A q1 q2 q3
            rw [u2.velocity env q q1] at q3
            exact hq q A q1 q2 q3
          rw [h1] at hs
          obtain ⟨g1, g2, g3⟩ := step_rest z hS hx env.junk hq' src.timestep h6 h2 h3 hs
          subst hst
          refine ⟨y, ?_, g2, g3, hok, ?_, g1⟩
          · simp only [h1]
          · rw [hdef, h1]; exact u2.interpolate env.sp env.m env.junk pos h2
      · simp [hJ] at hst
    · rw [hn] at hst
      simp at hst

/-- The rows of group `i`. -/
def groupRows (m N i : ℕ) : Set ℕ := {r | ∃ b < m, r = b * N + i}

theorem groupRows_lt {m N i : ℕ} (hi : i < N) : ∀ r ∈ groupRows m N i, r < m * N := by
  rintro r ⟨b, hb, rfl⟩
  have : (b + 1) * N ≤ m * N := Nat.mul_le_mul_right N hb
  rw [Nat.add_mul] at this
  omega

/-- A run in which group `i` is at rest: the Jacobian of the group is the one of its seeds. -/
theorem run_rest_2d (z : ZeroLaws K) (env : Env K F) (src : Source K) {I0 : AnyInterp K}
    (hI : I0.Unused) (k : Kind) {N i : ℕ} (hi : i < N) {seed : NDArray K} {p : Particles K}
    (hs : seed.shape = [4 * N, 2]) (hp : mkParticles seed = .ok p)
    (hg : src.getParticles env.fs = .ok p)
    (hx : ∀ b c, groupOf seed 4 N 2 i b c + 0 = groupOf seed 4 N 2 i b c)
    (hv : ∀ j < src.numSteps, (src.updated env I0 (j + 1)).2 = none →
      Quiet (4 * N) 2 (groupRows 4 N i) (rowOf seed 2) ((src.updated env I0 (j + 1)).1.velocity env))
    (queue : Bool) {field : List F}
    (hrun : ((⟨src, I0, .fresh k⟩ : Solver K).run env queue none).result = .ok (some field)) :
    ∃ js J, env.ftle2 js (runPeriod env src) = .ok field ∧ js.length = N ∧ js[i]? = some J ∧
      centralDiff2 (groupOf seed 4 N 2 i) (groupOf seed 4 N 2 i) = .ok J := by
  obtain ⟨q1, q2, -, -⟩ := mkParticles_groups (d := 2) (.inl rfl) hs hp
  cases hid : src.id env with
  | error e =>
    unfold Solver.run at hrun
    simp only [hg, hid] at hrun
    cases hrun
  | ok id =>
    rcases hst : Loop.steps env src id queue (List.range src.numSteps)
      ⟨I0, .fresh k, p, []⟩ with ⟨st, _ | e⟩
    · have hr := (run_of_steps (env := env) (queue := queue) (writer := none)
        (S := ⟨src, I0, .fresh k⟩) hg hid hst).1
      rw [hr] at hrun
      obtain ⟨pos, h1, h2, h3⟩ := loop_rest z (groupRows_lt hi) (x := rowOf seed 2) (by
          rintro r ⟨b, hb, rfl⟩ c
          exact hx ⟨b, hb⟩ c) env src id queue hI k
        (by rw [q1]; exact hs) (by intro r _; rw [q1]) src.numSteps hv hst
      rw [h1] at hrun
      simp only [computeFtle_groups2 env hs h2 hp] at hrun
      cases hj : pyMap (fun i => centralDiff2 (groupOf pos 4 N 2 i) (groupOf seed 4 N 2 i))
          (List.range N) with
      | error e => rw [hj] at hrun; cases hrun
      | ok js =>
        rw [hj] at hrun
        simp only at hrun
        have hlen := pyMap_ok_length hj
        obtain ⟨J, j1, j2⟩ := pyMap_ok_get hj i (by simpa using hi)
        rw [List.getElem_range] at j2
        have hgr : groupOf pos 4 N 2 i = groupOf seed 4 N 2 i := by
          funext b
          exact h3 _ ⟨b.1, b.2, rfl⟩
        rw [hgr] at j2
        refine ⟨js, J, ?_, by simpa using hlen, j1, j2⟩
        cases hf : env.ftle2 js ((((src.numSteps : ℤ) - 1 : ℤ) : K) * env.abs src.timestep) with
        | error e => rw [hf] at hrun; cases hrun
        | ok v =>
          rw [hf] at hrun
          simp only [Except.map, Except.ok.injEq, Option.some.injEq] at hrun
          subst hrun
          exact hf
    · unfold Solver.run at hrun
      simp only [hg, hid, hst] at hrun
      cases hrun

/-- The same in 3-D. -/
theorem run_rest_3d (z : ZeroLaws K) (env : Env K F) (src : Source K) {I0 : AnyInterp K}
    (hI : I0.Unused) (k : Kind) {N i : ℕ} (hi : i < N) {seed : NDArray K} {p : Particles K}
    (hs : seed.shape = [6 * N, 3]) (hp : mkParticles seed = .ok p)
    (hg : src.getParticles env.fs = .ok p)
    (hx : ∀ b c, groupOf seed 6 N 3 i b c + 0 = groupOf seed 6 N 3 i b c)
    (hv : ∀ j < src.numSteps, (src.updated env I0 (j + 1)).2 = none →
      Quiet (6 * N) 3 (groupRows 6 N i) (rowOf seed 3) ((src.updated env I0 (j + 1)).1.velocity env))
    (queue : Bool) {field : List F}
    (hrun : ((⟨src, I0, .fresh k⟩ : Solver K).run env queue none).result = .ok (some field)) :
    ∃ js J, env.ftle3 js (runPeriod env src) = .ok field ∧ js.length = N ∧ js[i]? = some J ∧
      centralDiff3 (groupOf seed 6 N 3 i) (groupOf seed 6 N 3 i) = .ok J := by
  obtain ⟨q1, q2, -, -⟩ := mkParticles_groups (d := 3) (.inr rfl) hs hp
  cases hid : src.id env with
  | error e =>
    unfold Solver.run at hrun
    simp only [hg, hid] at hrun
    cases hrun
  | ok id =>
    rcases hst : Loop.steps env src id queue (List.range src.numSteps)
      ⟨I0, .fresh k, p, []⟩ with ⟨st, _ | e⟩
    · have hr := (run_of_steps (env := env) (queue := queue) (writer := none)
        (S := ⟨src, I0, .fresh k⟩) hg hid hst).1
      rw [hr] at hrun
      obtain ⟨pos, h1, h2, h3⟩ := loop_rest z (groupRows_lt hi) (x := rowOf seed 3) (by
          rintro r ⟨b, hb, rfl⟩ c
          exact hx ⟨b, hb⟩ c) env src id queue hI k
        (by rw [q1]; exact hs) (by intro r _; rw [q1]) src.numSteps hv hst
      rw [h1] at hrun
      simp only [computeFtle_groups3 env hs h2 hp] at hrun
      cases hj : pyMap (fun i => centralDiff3 (groupOf pos 6 N 3 i) (groupOf seed 6 N 3 i))
          (List.range N) with
      | error e => rw [hj] at hrun; cases hrun
      | ok js =>
        rw [hj] at hrun
        simp only at hrun
        have hlen := pyMap_ok_length hj
        obtain ⟨J, j1, j2⟩ := pyMap_ok_get hj i (by simpa using hi)
        rw [List.getElem_range] at j2
        have hgr : groupOf pos 6 N 3 i = groupOf seed 6 N 3 i := by
          funext b
          exact h3 _ ⟨b.1, b.2, rfl⟩
        rw [hgr] at j2
        refine ⟨js, J, ?_, by simpa using hlen, j1, j2⟩
        cases hf : env.ftle3 js ((((src.numSteps : ℤ) - 1 : ℤ) : K) * env.abs src.timestep) with
        | error e => rw [hf] at hrun; cases hrun
        | ok v =>
          rw [hf] at hrun
          simp only [Except.map, Except.ok.injEq, Option.some.injEq] at hrun
          subst hrun
          exact hf
    · unfold Solver.run at hrun
      simp only [hg, hid, hst] at hrun
      cases hrun

end

end Verif
