import Verif.Lemmas.FlowMap

/-!
# Two runs whose seeds are rows of each other

Integrators and interpolators treat rows independently: if the particles of one run are rows
of the particles of another, successful run, the first run succeeds too and its particles stay
rows of those of the other.
-/

set_option linter.unusedSectionVars false

namespace Verif

section
variable {K : Type*} [Add K] [Sub K] [Mul K] [Div K] [NumLits K] {R R' d : ℕ} {σ : ℕ → ℕ}

theorem RowsMatch.zipWith (_hσ : ∀ r < R, σ r < R') {f : K → K → K} {a a' b b' : NDArray K}
    (ha : RowsMatch R R' d σ a a') (hb : RowsMatch R R' d σ b b') :
    ∃ A A', NDArray.zipWith f a b = .ok A ∧ NDArray.zipWith f a' b' = .ok A' ∧
      RowsMatch R R' d σ A A' := by
  obtain ⟨A, h1, h2, h3⟩ := zipWith_rows (f := f) ha.left hb.left
  obtain ⟨A', h1', h2', h3'⟩ := zipWith_rows (f := f) ha.right hb.right
  exact ⟨A, A', h1, h1', h2, h2', fun r hr => by rw [h3, h3', ha.rows r hr, hb.rows r hr]⟩

theorem RowsMatch.copyto (hσ : ∀ r < R, σ r < R') {t t' a a' : NDArray K}
    (ht : t.shape = [R, d]) (ht' : t'.shape = [R', d]) (ha : RowsMatch R R' d σ a a') :
    ∃ A A', Verif.copyto t a = .ok A ∧ Verif.copyto t' a' = .ok A' ∧ RowsMatch R R' d σ A A' := by
  obtain ⟨A, h1, h2, h3⟩ := copyto_same ht ha.left
  obtain ⟨A', h1', h2', h3'⟩ := copyto_same ht' ha.right
  exact ⟨A, A', h1, h1', h2, h2', fun r hr => by
    rw [h3 r hr, h3' (σ r) (hσ r hr), ha.rows r hr]⟩

theorem RowsMatch.stagePoint (hσ : ∀ r < R, σ r < R') {t t' x x' k k' : NDArray K} (c : K)
    (ht : t.shape = [R, d]) (ht' : t'.shape = [R', d]) (hx : RowsMatch R R' d σ x x')
    (hk : RowsMatch R R' d σ k k') :
    ∃ A A', Verif.stagePoint t x c k = .ok A ∧ Verif.stagePoint t' x' c k' = .ok A' ∧
      RowsMatch R R' d σ A A' := by
  obtain ⟨A, h1, h2, h3⟩ := stagePoint_rows (c := c) ht hx.left hk.left
  obtain ⟨A', h1', h2', h3'⟩ := stagePoint_rows (c := c) ht' hx.right hk.right
  exact ⟨A, A', h1, h1', h2, h2', fun r hr => by
    rw [h3 r hr, h3' (σ r) (hσ r hr), hx.rows r hr, hk.rows r hr]⟩

/-- The two velocity sources of a step answer matching queries alike. -/
def LocalPair (R R' d : ℕ) (σ : ℕ → ℕ) (vel vel' : Velocity K) : Prop :=
  ∀ q q' A' : NDArray K, RowsMatch R R' d σ q q' → vel' q' = .ok A' →
    ∃ A, vel q = .ok A ∧ RowsMatch R R' d σ A A'

theorem LocalPair.fillFrom (hσ : ∀ r < R, σ r < R') {vel vel' : Velocity K}
    (hv : LocalPair R R' d σ vel vel') {b b' x x' v' : NDArray K}
    (hb : b.shape = [R, d]) (hb' : b'.shape = [R', d]) (hx : RowsMatch R R' d σ x x')
    (h : Verif.fillFrom b' vel' x' = .ok v') :
    ∃ v, Verif.fillFrom b vel x = .ok v ∧ RowsMatch R R' d σ v v' := by
  unfold Verif.fillFrom at h
  cases hA : vel' x' with
  | error e => rw [hA] at h; cases h
  | ok A' =>
    rw [hA] at h
    obtain ⟨A, a1, a2⟩ := hv x x' A' hx hA
    obtain ⟨v, w, c1, c2, c3⟩ := a2.copyto hσ hb hb'
    simp only at h
    rw [c2] at h
    cases h
    exact ⟨v, by simp only [Verif.fillFrom, a1, c1], c3⟩

/-- The two integrators remember matching velocities. -/
def IntegMatch (R R' d : ℕ) (σ : ℕ → ℕ) : Integ K → Integ K → Prop
  | .euler _, .euler _ => True
  | .ab2 none _, .ab2 none _ => True
  | .ab2 (some P) _, .ab2 (some P') _ => RowsMatch R R' d σ P P'
  | .rk4 b, .rk4 b' => (Integ.rk4 b).Fits R d ∧ (Integ.rk4 b').Fits R' d
  | _, _ => False

theorem IntegMatch.fresh (R R' d : ℕ) (σ : ℕ → ℕ) (k : Kind) :
    IntegMatch R R' d σ (Integ.fresh k : Integ K) (Integ.fresh k) := by
  cases k <;> simp [Integ.fresh, IntegMatch, Integ.Fits]

theorem rk4Bufs_fits (junk : List ℕ → K) {bufs : Option (Rk4Bufs K)} {pos : NDArray K} {R d : ℕ}
    (h : (Integ.rk4 bufs).Fits R d) (hp : pos.shape = [R, d]) :
    (rk4Bufs junk bufs pos).k1.shape = [R, d] ∧ (rk4Bufs junk bufs pos).k2.shape = [R, d] ∧
      (rk4Bufs junk bufs pos).k3.shape = [R, d] ∧ (rk4Bufs junk bufs pos).k4.shape = [R, d] ∧
      (rk4Bufs junk bufs pos).tmp.shape = [R, d] := by
  unfold rk4Bufs
  cases bufs with
  | none => exact ⟨hp, hp, hp, hp, hp⟩
  | some b =>
    simp only [Integ.Fits] at h
    obtain ⟨h2, h3, h4, h5⟩ := h
    by_cases hb : b.k1.shape = pos.shape
    · simp only [hb, ne_eq, not_true_eq_false, if_false]
      rw [hp] at hb
      exact ⟨hp, by rw [h2, hb], by rw [h3, hb], by rw [h4, hb], by rw [h5, hb]⟩
    · simp only [ne_eq, hb, not_false_eq_true, if_true]
      exact ⟨hp, hp, hp, hp, hp⟩

/-- One step. -/
theorem step_local (hσ : ∀ r < R, σ r < R') (junk junk' : List ℕ → K) {vel vel' : Velocity K}
    (hv : LocalPair R R' d σ vel vel') (h : K) {I I' J' : Integ K}
    (hI : IntegMatch R R' d σ I I') {x x' y' : NDArray K} (hx : RowsMatch R R' d σ x x')
    (hs : I'.step junk' vel' h x' = (J', .ok y')) :
    ∃ J y, I.step junk vel h x = (J, .ok y) ∧ IntegMatch R R' d σ J J' ∧
      RowsMatch R R' d σ y y' := by
  have hr : ∀ b : Option (NDArray K), (reuseOrAlloc junk b x).shape = [R, d] := fun b => by
    rw [reuseOrAlloc_shape]; exact hx.left
  have hr' : ∀ b : Option (NDArray K), (reuseOrAlloc junk' b x').shape = [R', d] := fun b => by
    rw [reuseOrAlloc_shape]; exact hx.right
  cases I' with
  | euler buf' =>
    cases I with
    | euler buf =>
      simp only [Integ.step, eulerStep] at hs ⊢
      cases hf : fillFrom (reuseOrAlloc junk' buf' x') vel' x' with
      | error e => rw [hf] at hs; simp at hs
      | ok v' =>
        obtain ⟨v, f1, f2⟩ := hv.fillFrom hσ (hr buf) (hr' buf') hx hf
        obtain ⟨A, A', z1, z2, z3⟩ := hx.zipWith hσ (f := fun x v => x + h * v) f2
        rw [hf] at hs
        simp only [eulerKernel, z2, Prod.mk.injEq, Except.ok.injEq] at hs
        obtain ⟨rfl, rfl⟩ := hs
        simp only [f1, eulerKernel, z1]
        exact ⟨_, A, rfl, trivial, z3⟩
    | ab2 p b => cases p <;> simp [IntegMatch] at hI
    | rk4 b => simp [IntegMatch] at hI
  | ab2 prev' buf' =>
    cases I with
    | euler b => cases prev' <;> simp [IntegMatch] at hI
    | rk4 b => cases prev' <;> simp [IntegMatch] at hI
    | ab2 prev buf =>
      simp only [Integ.step, ab2Step] at hs ⊢
      cases hf : fillFrom (reuseOrAlloc junk' buf' x') vel' x' with
      | error e => rw [hf] at hs; simp at hs
      | ok v' =>
        obtain ⟨v, f1, f2⟩ := hv.fillFrom hσ (hr buf) (hr' buf') hx hf
        rw [hf] at hs
        simp only [f1]
        cases prev' with
        | none =>
          cases prev with
          | some P => simp [IntegMatch] at hI
          | none =>
            obtain ⟨A, A', z1, z2, z3⟩ := hx.zipWith hσ (f := fun x v => x + h * v) f2
            obtain ⟨C, C', c1, c2, c3⟩ := f2.copyto hσ (t := emptyLike junk v)
              (t' := emptyLike junk' v') f2.left f2.right
            simp only [eulerKernel, z2, c2, Prod.mk.injEq, Except.ok.injEq] at hs
            obtain ⟨rfl, rfl⟩ := hs
            simp only [eulerKernel, z1, c1]
            exact ⟨_, A, rfl, c3, z3⟩
        | some P' =>
          cases prev with
          | none => simp [IntegMatch] at hI
          | some P =>
            have hI : RowsMatch R R' d σ P P' := hI
            obtain ⟨W, W', w1, w2, w3⟩ := f2.zipWith hσ
              (f := fun v p => NumLits.onePointFive * v - NumLits.half * p) hI
            obtain ⟨A, A', z1, z2, z3⟩ := hx.zipWith hσ (f := fun x w => x + h * w) w3
            obtain ⟨C, C', c1, c2, c3⟩ := f2.copyto hσ hI.left hI.right
            simp only [ab2Kernel, w2, z2, c2, Prod.mk.injEq, Except.ok.injEq] at hs
            obtain ⟨rfl, rfl⟩ := hs
            simp only [ab2Kernel, w1, z1, c1]
            exact ⟨_, A, rfl, c3, z3⟩
  | rk4 bufs' =>
    cases I with
    | euler b => simp [IntegMatch] at hI
    | ab2 p b => cases p <;> simp [IntegMatch] at hI
    | rk4 bufs =>
      obtain ⟨hF, hF'⟩ : (Integ.rk4 bufs).Fits R d ∧ (Integ.rk4 bufs').Fits R' d := hI
      obtain ⟨b1, b2, b3, b4, b5⟩ := rk4Bufs_fits junk hF hx.left
      obtain ⟨b1', b2', b3', b4', b5'⟩ := rk4Bufs_fits junk' hF' hx.right
      simp only [Integ.step, rk4Step] at hs ⊢
      generalize rk4Bufs junk bufs x = B at *
      generalize rk4Bufs junk' bufs' x' = B' at *
      cases e1 : fillFrom B'.k1 vel' x' with
      | error e => rw [e1] at hs; simp at hs
      | ok k1' =>
        obtain ⟨k1, f1, m1⟩ := hv.fillFrom hσ b1 b1' hx e1
        obtain ⟨t1, t1', s1, s1', n1⟩ := hx.stagePoint hσ (NumLits.half * h) b5 b5' m1
        simp only [e1, s1'] at hs
        cases e2 : fillFrom B'.k2 vel' t1' with
        | error e => rw [e2] at hs; simp at hs
        | ok k2' =>
          obtain ⟨k2, f2, m2⟩ := hv.fillFrom hσ b2 b2' n1 e2
          obtain ⟨t2, t2', s2, s2', n2⟩ := hx.stagePoint hσ (NumLits.half * h) n1.left n1.right m2
          simp only [e2, s2'] at hs
          cases e3 : fillFrom B'.k3 vel' t2' with
          | error e => rw [e3] at hs; simp at hs
          | ok k3' =>
            obtain ⟨k3, f3, m3⟩ := hv.fillFrom hσ b3 b3' n2 e3
            obtain ⟨t3, t3', s3, s3', n3⟩ := hx.stagePoint hσ h n2.left n2.right m3
            simp only [e3, s3'] at hs
            cases e4 : fillFrom B'.k4 vel' t3' with
            | error e => rw [e4] at hs; simp at hs
            | ok k4' =>
              obtain ⟨k4, f4, m4⟩ := hv.fillFrom hσ b4 b4' n3 e4
              obtain ⟨p1, p1', q1, q1', o1⟩ := m1.zipWith hσ (f := fun a b => a + NumLits.two * b) m2
              obtain ⟨p2, p2', q2, q2', o2⟩ := o1.zipWith hσ (f := fun a b => a + NumLits.two * b) m3
              obtain ⟨p3, p3', q3, q3', o3⟩ := o2.zipWith hσ (f := fun a b => a + b) m4
              obtain ⟨A, A', z1, z2, z3⟩ := hx.zipWith hσ
                (f := fun x s => x + (h / NumLits.six) * s) o3
              simp only [e4, rk4Kernel, q1', q2', q3', z2, Prod.mk.injEq, Except.ok.injEq] at hs
              obtain ⟨rfl, rfl⟩ := hs
              simp only [f1, s1, f2, s2, f3, s3, f4, rk4Kernel, q1, q2, q3, z1]
              refine ⟨_, A, rfl, ⟨?_, ?_⟩, z3⟩
              · exact ⟨m2.left.trans m1.left.symm, m3.left.trans m1.left.symm,
                  m4.left.trans m1.left.symm, n3.left.trans m1.left.symm⟩
              · exact ⟨m2.right.trans m1.right.symm, m3.right.trans m1.right.symm,
                  m4.right.trans m1.right.symm, n3.right.trans m1.right.symm⟩

end

section
variable {K F : Type} [Zero K] [One K] [Add K] [Sub K] [Mul K] [Div K] [NatCast K] [IntCast K]
  [Min K] [Max K] [NumLits K] [DecidableEq K] {R R' d : ℕ} {σ : ℕ → ℕ}

/-- Two sources that differ at most in their seeds. -/
def Source.SameFlow : Source K → Source K → Prop
  | .file s, .file s' => s' = { s with particleFile := s'.particleFile }
  | .analytical s, .analytical s' => s'.timestep = s.timestep ∧ s'.times = s.times
  | _, _ => False

theorem Source.SameFlow.facts {src src' : Source K} (h : src.SameFlow src') :
    src'.numSteps = src.numSteps ∧ src'.timestep = src.timestep ∧
      (∀ env : Env K F, src'.id env = src.id env) ∧
      (∀ (env : Env K F) (I : AnyInterp K) (i : ℕ),
        src'.updateInterp env I i = src.updateInterp env I i) := by
  cases src <;> cases src' <;> simp only [Source.SameFlow] at h
  · rw [h]
    exact ⟨rfl, rfl, fun _ => rfl, fun _ _ _ => rfl⟩
  · obtain ⟨h1, h2⟩ := h
    refine ⟨by simp [Source.numSteps, h2], h1, fun env => ?_, fun _ _ _ => rfl⟩
    simp only [Source.id, h2]

theorem RowLocal.twins {I J J' : AnyInterp K} {env : Env K F} (_hσ : ∀ r < R, σ r < R')
    (hv : RowLocal R R' d σ (I.velocity env)) (hJ : Twin [R, d] I J) (hJ' : Twin [R', d] I J') :
    LocalPair R R' d σ (J.velocity env) (J'.velocity env) := by
  intro q q' A' hm hA
  rw [hJ'.velocity env q' hm.right] at hA
  rw [hJ.velocity env q hm.left]
  exact hv q q' A' hm hA

/-- The loops of two runs of the same flow. -/
theorem loop_local (hσ : ∀ r < R, σ r < R') (env : Env K F) {src src' : Source K}
    (hflow : src.SameFlow src') (id : String) (queue queue' : Bool) {I0 : AnyInterp K}
    (hI : I0.Unused) (k : Kind) {p p' : Particles K}
    (hp : RowsMatch R R' d σ p.positions p'.positions) (n : ℕ) 
    (hv : ∀ i < n, (src.updated env I0 (i + 1)).2 = none →
      RowLocal R R' d σ ((src.updated env I0 (i + 1)).1.velocity env))
    {st' : Loop K F}
    (hst : Loop.steps env src' id queue' (List.range n) ⟨I0, .fresh k, p', []⟩ = (st', none)) :
    ∃ st pos pos', Loop.steps env src id queue (List.range n) ⟨I0, .fresh k, p, []⟩ = (st, none) ∧
      st.particles = { p with positions := pos } ∧ st'.particles = { p' with positions := pos' } ∧
      RowsMatch R R' d σ pos pos' := by
  suffices H : ∃ st pos pos',
      Loop.steps env src id queue (List.range n) ⟨I0, .fresh k, p, []⟩ = (st, none) ∧
      st.particles = { p with positions := pos } ∧ st'.particles = { p' with positions := pos' } ∧
      RowsMatch R R' d σ pos pos' ∧ (src.updated env I0 n).2 = none ∧
      Twin [R, d] (src.updated env I0 n).1 st.interp ∧
      Twin [R', d] (src.updated env I0 n).1 st'.interp ∧
      IntegMatch R R' d σ st.integ st'.integ by
    obtain ⟨st, pos, pos', h1, h2, h3, h4, -⟩ := H
    exact ⟨st, pos, pos', h1, h2, h3, h4⟩
  obtain ⟨-, hts, -, hupd⟩ := hflow.facts (F := F)
  induction n generalizing st' with
  | zero =>
    simp only [List.range_zero, Loop.steps, Prod.mk.injEq, and_true] at hst
    subst hst
    exact ⟨_, p.positions, p'.positions, rfl, rfl, rfl, hp, rfl, hI.twin _, hI.twin _,
      IntegMatch.fresh R R' d σ k⟩
  | succ n ih =>
    rw [List.range_succ, Loop.steps_append] at hst
    rcases hn : Loop.steps env src' id queue' (List.range n) ⟨I0, .fresh k, p', []⟩
      with ⟨su', _ | e⟩
    · rw [hn] at hst
      obtain ⟨su, pos, pos', h1, h2, h3, h4, h5, h6, h7, h8⟩ := ih (fun i hi => hv i (by omega)) hn
      simp only [Loop.steps, Loop.step, hupd, hts] at hst
      rcases hJ' : src.updateInterp env su'.interp n with ⟨J', _ | e⟩
      · simp only [hJ', Integ.integrate] at hst
        rcases hs : su'.integ.step env.junk (J'.velocity env) src.timestep su'.particles.positions
          with ⟨G', e | y'⟩
        · simp [hs] at hst
        · simp only [hs, Prod.mk.injEq, and_true] at hst
          have hdef : src.updated env I0 (n + 1) =
              src.updateInterp env (src.updated env I0 n).1 n := by
            simp only [Source.updated]
            rcases hu : src.updated env I0 n with ⟨U, _ | e⟩
            · rfl
            · rw [hu] at h5; simp at h5
          obtain ⟨u1, u2⟩ := h7.updateInterp env src n
          obtain ⟨v1, v2⟩ := h6.updateInterp env src n
          rw [hJ'] at u1 u2
          simp only at u1 u2
          rcases hJ : src.updateInterp env su.interp n with ⟨J, eJ⟩
          rw [hJ] at v1 v2
          simp only at v1 v2
          rw [← u1] at v1
          subst v1
          have hok : (src.updated env I0 (n + 1)).2 = none := by rw [hdef]; exact u1.symm
          have hloc := hv n (by omega) hok
          rw [hdef] at hloc
          have hpair := hloc.twins hσ v2 u2
          rw [h3] at hs
          obtain ⟨G, y, g1, g2, g3⟩ := step_local hσ env.junk env.junk hpair src.timestep h8 h4 hs
          subst hst
          refine ⟨⟨(J.interpolate env.sp env.m env.junk pos).1, G, { p with positions := y },
            su.trace ++ (if queue then [.progress id n] else [])⟩, y, y', ?_, rfl, ?_, g3, hok,
            ?_, ?_, g2⟩
          · rw [List.range_succ, Loop.steps_append, h1]
            simp only [Loop.steps, Loop.step, hJ, Integ.integrate, g1, h2]
          · simp only [h3]
          · rw [hdef]; exact v2.interpolate env.sp env.m env.junk pos h4.left
          · rw [hdef, h3]; exact u2.interpolate env.sp env.m env.junk pos' h4.right
      · simp [hJ'] at hst
    · rw [hn] at hst
      simp at hst

end

end Verif
