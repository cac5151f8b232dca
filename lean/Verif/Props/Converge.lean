import Verif.Spec.Trajectory
import Verif.Lemmas.Converge
import Verif.Lemmas.StretchLimit
import Verif.Props.FlowMap
import Mathlib.Analysis.Calculus.Deriv.Prod
import Mathlib.Analysis.SpecialFunctions.Trigonometric.Deriv

/-!
# C82, C83: convergence to the exponent of the flow

C82: as the time step is refined, the field of a run converges to the exponent of the exact flow
map over the groups of seeds, for every smooth flow and every integrator.
C83: as moreover the groups shrink, it converges to the exponent of the derivative of the flow
map: the finite-time Lyapunov exponent by definition.
-/

namespace Verif

open Matrix Filter Topology

/-- A family of runs over the signed period `T`: run `p` takes `p ≥ 2` snapshots, hence the time
step `T / (p - 1)`, starts with the particles `P`, and in step `i` evaluates the velocity field
`g p i` at the `R` particles. -/
structure Refines (env : Env ℝ FVal) (P : Particles ℝ) (T : ℝ) (R d : ℕ) (src : ℕ → Source ℝ)
    (I0 : ℕ → AnyInterp ℝ) (g : ℕ → ℕ → (Fin d → ℝ) → Fin d → ℝ) : Prop where
  unused : ∀ p, (I0 p).Unused
  steps : ∀ p, 2 ≤ p → (src p).numSteps = p
  timestep : ∀ p : ℕ, 2 ≤ p → (src p).timestep = T / ((p : ℝ) - 1)
  seeds : ∀ p, 2 ≤ p → (src p).getParticles env.fs = .ok P
  named : ∀ p, 2 ≤ p → ∃ id, (src p).id env = .ok id
  updates : ∀ p, 2 ≤ p → ∀ i < p, ((src p).updated env (I0 p) (i + 1)).2 = none
  velocity : ∀ p, 2 ≤ p → ∀ i < p,
    Pointwise R d (((src p).updated env (I0 p) (i + 1)).1.velocity env) (g p i)

/-! ## Helpers -/

theorem refines_period {env : Env ℝ FVal} (he : RealEnv env) {T : ℝ} (hT : T ≠ 0)
    {src : Source ℝ} {p : ℕ} (hp : 2 ≤ p) (h1 : src.numSteps = p)
    (h2 : src.timestep = T / ((p : ℝ) - 1)) : runPeriod env src = |T| := by
  unfold runPeriod
  rw [h1, h2, he.abs]
  push_cast
  exact (fixed_period hT hp).2

/-- The matrix of central differences. -/
noncomputable def diffs2 (X x : Fin 4 → Fin 2 → ℝ) : Matrix (Fin 2) (Fin 2) ℝ :=
  !![(X 1 0 - X 0 0) / (x 1 0 - x 0 0), (X 2 0 - X 3 0) / (x 2 1 - x 3 1);
     (X 1 1 - X 0 1) / (x 1 0 - x 0 0), (X 2 1 - X 3 1) / (x 2 1 - x 3 1)]

noncomputable def diffs3 (X x : Fin 6 → Fin 3 → ℝ) : Matrix (Fin 3) (Fin 3) ℝ :=
  Matrix.of fun r c =>
    match c with
    | 0 => (X 1 r - X 0 r) / (x 1 0 - x 0 0)
    | 1 => (X 2 r - X 3 r) / (x 2 1 - x 3 1)
    | 2 => (X 4 r - X 5 r) / (x 4 2 - x 5 2)

theorem centralDiff2_ok {X x : Fin 4 → Fin 2 → ℝ} {D : Matrix (Fin 2) (Fin 2) ℝ} :
    centralDiff2 X x = .ok D ↔ (x 1 0 - x 0 0 ≠ 0 ∧ x 2 1 - x 3 1 ≠ 0) ∧ D = diffs2 X x := by
  unfold centralDiff2
  split
  · rename_i h
    simp only [reduceCtorEq, false_iff, not_and]
    rintro ⟨h1, h2⟩
    exact absurd h (by tauto)
  · rename_i h
    rw [not_or] at h
    simp only [Except.ok.injEq, diffs2]
    exact ⟨fun e => ⟨h, e.symm⟩, fun e => e.2.symm⟩

theorem centralDiff3_ok {X x : Fin 6 → Fin 3 → ℝ} {D : Matrix (Fin 3) (Fin 3) ℝ} :
    centralDiff3 X x = .ok D ↔
      (x 1 0 - x 0 0 ≠ 0 ∧ x 2 1 - x 3 1 ≠ 0 ∧ x 4 2 - x 5 2 ≠ 0) ∧ D = diffs3 X x := by
  unfold centralDiff3
  split
  · rename_i h
    simp only [reduceCtorEq, false_iff, not_and]
    rintro ⟨h1, h2, h3⟩
    exact absurd h (by tauto)
  · rename_i h
    rw [not_or, not_or] at h
    simp only [Except.ok.injEq, diffs3]
    exact ⟨fun e => ⟨h, e.symm⟩, fun e => e.2.symm⟩

theorem diffs2_tendsto {ι : Type*} {l : Filter ι} {X : ι → Fin 4 → Fin 2 → ℝ}
    {Y : Fin 4 → Fin 2 → ℝ} (h : ∀ b, Tendsto (fun p => X p b) l (𝓝 (Y b)))
    (x : Fin 4 → Fin 2 → ℝ) (a b : Fin 2) :
    Tendsto (fun p => diffs2 (X p) x a b) l (𝓝 (diffs2 Y x a b)) := by
  have h' : ∀ b c, Tendsto (fun p => X p b c) l (𝓝 (Y b c)) := fun b c =>
    (tendsto_pi_nhds.1 (h b)) c
  fin_cases a <;> fin_cases b <;> exact ((h' _ _).sub (h' _ _)).div_const _

theorem diffs3_tendsto {ι : Type*} {l : Filter ι} {X : ι → Fin 6 → Fin 3 → ℝ}
    {Y : Fin 6 → Fin 3 → ℝ} (h : ∀ b, Tendsto (fun p => X p b) l (𝓝 (Y b)))
    (x : Fin 6 → Fin 3 → ℝ) (a b : Fin 3) :
    Tendsto (fun p => diffs3 (X p) x a b) l (𝓝 (diffs3 Y x a b)) := by
  have h' : ∀ b c, Tendsto (fun p => X p b c) l (𝓝 (Y b c)) := fun b c =>
    (tendsto_pi_nhds.1 (h b)) c
  fin_cases b <;> exact ((h' _ _).sub (h' _ _)).div_const _

theorem pyMap_ok_map {α β : Type*} {f : α → Py β} {g : α → β} {l : List α}
    (h : ∀ a ∈ l, f a = .ok (g a)) : pyMap f l = .ok (l.map g) := by
  induction l with
  | nil => rfl
  | cons a l ih =>
    rw [pyMap, h a (by simp), ih fun b hb => h b (by simp [hb])]
    rfl

/-! ## C82 -/

/-- **C82 (2-D).**  For a smooth velocity field `v`, whatever the integrator: if the velocities of
the runs approach `v` near the trajectories of the seeds, all runs succeed from some number of
snapshots on, and the value at every group of seeds tends to `(1/|T|) ln σ`, where `σ` is the
maximal stretching of the central differences `D` of the exact positions after the time `T`. -/
theorem C82_refinement_2d {env : Env ℝ FVal} (he : RealEnv env) (queue : Bool) (k : Kind)
    {v : ℝ → (Fin 2 → ℝ) → Fin 2 → ℝ}
    (hv : ContDiff ℝ 1 fun q : ℝ × (Fin 2 → ℝ) => v q.1 q.2) {t0 T η : ℝ} (hη : 0 < η)
    (hT : T ≠ 0) {N : ℕ} {seed : NDArray ℝ} (hs : seed.shape = [4 * N, 2]) {P : Particles ℝ}
    (hp : mkParticles seed = .ok P) (X : ℕ → Fin 4 → ℝ → Fin 2 → ℝ)
    (hX : ∀ i < N, ∀ b, IsTrajectory v (timesOf t0 T η) (X i b) ∧
      X i b t0 = groupOf seed 4 N 2 i b)
    {src : ℕ → Source ℝ} {I0 : ℕ → AnyInterp ℝ} {g : ℕ → ℕ → (Fin 2 → ℝ) → Fin 2 → ℝ}
    (hR : Refines env P T (4 * N) 2 src I0 g) (hg : ∀ i < N, ∀ b, Approach v t0 T (X i b) g)
    (D : ℕ → Matrix (Fin 2) (Fin 2) ℝ)
    (hD : ∀ i < N, centralDiff2 (fun b => X i b (t0 + T)) (groupOf seed 4 N 2 i) = .ok (D i))
    (σ : ℕ → ℝ) (hσ : ∀ i < N, IsMaxStretch (D i) (σ i) ∧ 0 < σ i) :
    ∃ L : ℕ → ℕ → ℝ,
      (∀ᶠ p in atTop, ((⟨src p, I0 p, .fresh k⟩ : Solver ℝ).run env queue none).result =
        .ok (some ((List.range N).map fun i => .fin (L p i)))) ∧
      ∀ i < N, Tendsto (fun p => L p i) atTop (𝓝 (1 / |T| * Real.log (σ i))) := by
  have hflow : ∀ i < N, ∀ b, Tendsto (fun p : ℕ => flowMap k (g p) (T / ((p : ℝ) - 1)) p
      (groupOf seed 4 N 2 i b)) atTop (𝓝 (X i b (t0 + T))) := by
    intro i hi b
    obtain ⟨h1, h2⟩ := hX i hi b
    obtain ⟨r, hr, hap⟩ := hg i hi b
    rw [← h2]
    exact flowMap_tendsto k hv hη h1 hr hap
  obtain ⟨L, h1, h2⟩ := field_tendsto ftle2_computes (abs_ne_zero.2 hT)
    (fun p i => diffs2 (fun b => flowMap k (g p) (T / ((p : ℝ) - 1)) p (groupOf seed 4 N 2 i b))
      (groupOf seed 4 N 2 i)) D
    (fun i hi a b => by
      rw [(centralDiff2_ok.1 (hD i hi)).2]
      exact diffs2_tendsto (fun b => hflow i hi b) _ a b) σ hσ
  refine ⟨L, ?_, h2⟩
  filter_upwards [h1, eventually_ge_atTop 2] with p hLp hp2
  obtain ⟨id, hid⟩ := hR.named p hp2
  have hn := hR.steps p hp2
  have hd := hR.timestep p hp2
  rw [run_flow_2d env (src p) (hR.unused p) k (g p)
    (fun i hi => hR.updates p hp2 i (by omega)) N (fun i hi => hR.velocity p hp2 i (by omega)) hid
    seed (src p) P queue (by cases src p <;> simp [Source.SameFlow]) hs hp (hR.seeds p hp2)]
  rw [pyMap_ok_map (g := fun i => diffs2 (fun b => flowMap k (g p) (T / ((p : ℝ) - 1)) p
    (groupOf seed 4 N 2 i b)) (groupOf seed 4 N 2 i))]
  · simp only [refines_period he hT hp2 hn hd, he.f2, hLp]
    rfl
  · intro i hi
    rw [hn, hd]
    exact centralDiff2_ok.2 ⟨(centralDiff2_ok.1 (hD i (List.mem_range.1 hi))).1, rfl⟩

/-- **C82 (3-D).** -/
theorem C82_refinement_3d {env : Env ℝ FVal} (he : RealEnv env) (queue : Bool) (k : Kind)
    {v : ℝ → (Fin 3 → ℝ) → Fin 3 → ℝ}
    (hv : ContDiff ℝ 1 fun q : ℝ × (Fin 3 → ℝ) => v q.1 q.2) {t0 T η : ℝ} (hη : 0 < η)
    (hT : T ≠ 0) {N : ℕ} {seed : NDArray ℝ} (hs : seed.shape = [6 * N, 3]) {P : Particles ℝ}
    (hp : mkParticles seed = .ok P) (X : ℕ → Fin 6 → ℝ → Fin 3 → ℝ)
    (hX : ∀ i < N, ∀ b, IsTrajectory v (timesOf t0 T η) (X i b) ∧
      X i b t0 = groupOf seed 6 N 3 i b)
    {src : ℕ → Source ℝ} {I0 : ℕ → AnyInterp ℝ} {g : ℕ → ℕ → (Fin 3 → ℝ) → Fin 3 → ℝ}
    (hR : Refines env P T (6 * N) 3 src I0 g) (hg : ∀ i < N, ∀ b, Approach v t0 T (X i b) g)
    (D : ℕ → Matrix (Fin 3) (Fin 3) ℝ)
    (hD : ∀ i < N, centralDiff3 (fun b => X i b (t0 + T)) (groupOf seed 6 N 3 i) = .ok (D i))
    (σ : ℕ → ℝ) (hσ : ∀ i < N, IsMaxStretch (D i) (σ i) ∧ 0 < σ i) :
    ∃ L : ℕ → ℕ → ℝ,
      (∀ᶠ p in atTop, ((⟨src p, I0 p, .fresh k⟩ : Solver ℝ).run env queue none).result =
        .ok (some ((List.range N).map fun i => .fin (L p i)))) ∧
      ∀ i < N, Tendsto (fun p => L p i) atTop (𝓝 (1 / |T| * Real.log (σ i))) := by
  have hflow : ∀ i < N, ∀ b, Tendsto (fun p : ℕ => flowMap k (g p) (T / ((p : ℝ) - 1)) p
      (groupOf seed 6 N 3 i b)) atTop (𝓝 (X i b (t0 + T))) := by
    intro i hi b
    obtain ⟨h1, h2⟩ := hX i hi b
    obtain ⟨r, hr, hap⟩ := hg i hi b
    rw [← h2]
    exact flowMap_tendsto k hv hη h1 hr hap
  obtain ⟨L, h1, h2⟩ := field_tendsto ftle3_computes (abs_ne_zero.2 hT)
    (fun p i => diffs3 (fun b => flowMap k (g p) (T / ((p : ℝ) - 1)) p (groupOf seed 6 N 3 i b))
      (groupOf seed 6 N 3 i)) D
    (fun i hi a b => by
      rw [(centralDiff3_ok.1 (hD i hi)).2]
      exact diffs3_tendsto (fun b => hflow i hi b) _ a b) σ hσ
  refine ⟨L, ?_, h2⟩
  filter_upwards [h1, eventually_ge_atTop 2] with p hLp hp2
  obtain ⟨id, hid⟩ := hR.named p hp2
  have hn := hR.steps p hp2
  have hd := hR.timestep p hp2
  rw [run_flow_3d env (src p) (hR.unused p) k (g p)
    (fun i hi => hR.updates p hp2 i (by omega)) N (fun i hi => hR.velocity p hp2 i (by omega)) hid
    seed (src p) P queue (by cases src p <;> simp [Source.SameFlow]) hs hp (hR.seeds p hp2)]
  rw [pyMap_ok_map (g := fun i => diffs3 (fun b => flowMap k (g p) (T / ((p : ℝ) - 1)) p
    (groupOf seed 6 N 3 i b)) (groupOf seed 6 N 3 i))]
  · simp only [refines_period he hT hp2 hn hd, he.f3, hLp]
    rfl
  · intro i hi
    rw [hn, hd]
    exact centralDiff3_ok.2 ⟨(centralDiff3_ok.1 (hD i (List.mem_range.1 hi))).1, rfl⟩

/-! ## C83 -/

/-- Central differences along a line through a point of differentiability. -/
theorem central_slope {d : ℕ} {φ : (Fin d → ℝ) → Fin d → ℝ} {c : Fin d → ℝ}
    {J : Matrix (Fin d) (Fin d) ℝ}
    (h : HasFDerivAt φ (LinearMap.toContinuousLinearMap (Matrix.toLin' J)) c) (e : Fin d)
    (i : Fin d) :
    Tendsto (fun δ : ℝ => (φ (c + δ • Pi.single e 1) i - φ (c - δ • Pi.single e 1) i) / (2 * δ))
      (𝓝[>] 0) (𝓝 (J i e)) := by
  have hline : HasDerivAt (fun t : ℝ => c + t • (Pi.single e 1 : Fin d → ℝ)) (Pi.single e 1) 0 := by
    have := ((hasDerivAt_id (0 : ℝ)).smul_const (Pi.single e (1 : ℝ) : Fin d → ℝ)).const_add c
    simpa using this
  have h0 : HasFDerivAt φ (LinearMap.toContinuousLinearMap (Matrix.toLin' J))
      (c + (0 : ℝ) • Pi.single e 1) := by simpa using h
  have hd := h0.comp_hasDerivAt (0 : ℝ) hline
  have hdi := (hasDerivAt_pi.1 hd) i
  have hval : (LinearMap.toContinuousLinearMap (Matrix.toLin' J)) (Pi.single e 1) i = J i e := by
    simp
  rw [hval] at hdi
  rw [hasDerivAt_iff_tendsto_slope_zero] at hdi
  have hp : Tendsto (fun δ : ℝ => δ) (𝓝[>] 0) (𝓝[≠] 0) :=
    tendsto_id.mono_right (nhdsWithin_mono _ fun x (hx : (0 : ℝ) < x) => hx.ne')
  have hn : Tendsto (fun δ : ℝ => -δ) (𝓝[>] 0) (𝓝[≠] 0) := by
    rw [tendsto_nhdsWithin_iff]
    refine ⟨?_, eventually_nhdsWithin_of_forall fun x (hx : (0 : ℝ) < x) => by
      simpa using hx.ne'⟩
    have : Tendsto (fun δ : ℝ => -δ) (𝓝 0) (𝓝 (-0)) := tendsto_id.neg
    rw [neg_zero] at this
    exact this.mono_left nhdsWithin_le_nhds
  have h2 := ((hdi.comp hp).add (hdi.comp hn)).const_mul (1 / 2 : ℝ)
  have e1 : (1 / 2 : ℝ) * (J i e + J i e) = J i e := by ring
  rw [e1] at h2
  refine h2.congr' ?_
  filter_upwards [self_mem_nhdsWithin] with δ hδ
  have hδ : δ ≠ 0 := (show (0 : ℝ) < δ from hδ).ne'
  have e2 : c + -δ • (Pi.single e 1 : Fin d → ℝ) = c - δ • Pi.single e 1 := by
    rw [neg_smul, sub_eq_add_neg]
  simp only [Function.comp, smul_eq_mul, zero_add, zero_smul, add_zero, e2]
  field_simp
  ring

theorem cross2_points (c : Fin 2 → ℝ) (δ : ℝ) :
    cross2 c δ 0 = c - δ • Pi.single 0 1 ∧ cross2 c δ 1 = c + δ • Pi.single 0 1 ∧
      cross2 c δ 2 = c + δ • Pi.single 1 1 ∧ cross2 c δ 3 = c - δ • Pi.single 1 1 := by
  refine ⟨?_, ?_, ?_, ?_⟩ <;> funext i <;> fin_cases i <;> simp [cross2]

theorem cross3_points (c : Fin 3 → ℝ) (δ : ℝ) :
    cross3 c δ 0 = c - δ • Pi.single 0 1 ∧ cross3 c δ 1 = c + δ • Pi.single 0 1 ∧
      cross3 c δ 2 = c + δ • Pi.single 1 1 ∧ cross3 c δ 3 = c - δ • Pi.single 1 1 ∧
      cross3 c δ 4 = c + δ • Pi.single 2 1 ∧ cross3 c δ 5 = c - δ • Pi.single 2 1 := by
  refine ⟨?_, ?_, ?_, ?_, ?_, ?_⟩ <;> funext i <;> fin_cases i <;>
    simp [cross3]

theorem diffs2_cross_tendsto {φ : (Fin 2 → ℝ) → Fin 2 → ℝ} {c : Fin 2 → ℝ}
    {J : Matrix (Fin 2) (Fin 2) ℝ}
    (h : HasFDerivAt φ (LinearMap.toContinuousLinearMap (Matrix.toLin' J)) c) (a b : Fin 2) :
    Tendsto (fun δ : ℝ => diffs2 (fun q => φ (cross2 c δ q)) (cross2 c δ) a b) (𝓝[>] 0)
      (𝓝 (J a b)) := by
  refine (central_slope h b a).congr fun δ => ?_
  obtain ⟨e0, e1, e2, e3⟩ := cross2_points c δ
  have d0 : cross2 c δ 1 0 - cross2 c δ 0 0 = 2 * δ := by
    simp only [cross2]; simp; ring
  have d1 : cross2 c δ 2 1 - cross2 c δ 3 1 = 2 * δ := by
    simp only [cross2]; simp; ring
  unfold diffs2
  simp only [d0, d1]
  rw [e0, e1, e2, e3]
  fin_cases a <;> fin_cases b <;> simp

theorem diffs3_cross_tendsto {φ : (Fin 3 → ℝ) → Fin 3 → ℝ} {c : Fin 3 → ℝ}
    {J : Matrix (Fin 3) (Fin 3) ℝ}
    (h : HasFDerivAt φ (LinearMap.toContinuousLinearMap (Matrix.toLin' J)) c) (a b : Fin 3) :
    Tendsto (fun δ : ℝ => diffs3 (fun q => φ (cross3 c δ q)) (cross3 c δ) a b) (𝓝[>] 0)
      (𝓝 (J a b)) := by
  refine (central_slope h b a).congr fun δ => ?_
  obtain ⟨e0, e1, e2, e3, e4, e5⟩ := cross3_points c δ
  have d0 : cross3 c δ 1 0 - cross3 c δ 0 0 = 2 * δ := by
    simp only [cross3]; simp; ring
  have d1 : cross3 c δ 2 1 - cross3 c δ 3 1 = 2 * δ := by
    simp only [cross3]; simp; ring
  have d2 : cross3 c δ 4 2 - cross3 c δ 5 2 = 2 * δ := by
    simp only [cross3]; simp; ring
  unfold diffs3
  simp only [d0, d1, d2]
  rw [e0, e1, e2, e3, e4, e5]
  fin_cases b <;> simp


theorem cross2_tendsto (c : Fin 2 → ℝ) (b : Fin 4) :
    Tendsto (fun δ : ℝ => cross2 c δ b) (𝓝[>] 0) (𝓝 c) := by
  refine Tendsto.mono_left ?_ nhdsWithin_le_nhds
  rw [tendsto_pi_nhds]
  intro i
  have hp : ∀ x : ℝ, Tendsto (fun δ : ℝ => x + δ) (𝓝 0) (𝓝 x) := fun x => by
    have := (tendsto_id (x := 𝓝 (0 : ℝ))).const_add x
    rwa [add_zero] at this
  have hm : ∀ x : ℝ, Tendsto (fun δ : ℝ => x - δ) (𝓝 0) (𝓝 x) := fun x => by
    have := (tendsto_id (x := 𝓝 (0 : ℝ))).const_sub x
    rwa [sub_zero] at this
  fin_cases b <;> fin_cases i <;> first
    | exact tendsto_const_nhds
    | exact hp _
    | exact hm _

/-- **C83 (2-D).**  `X x` is the trajectory from `x`, `J i` the derivative of the flow map of the
period `T` at the centre `c i`.  For groups of seeds at distance `δ` around the centres, the
values reported come as close as desired to the finite-time Lyapunov exponents
`(1/|T|) ln ‖J i‖`, when first `δ` is small and then the number of snapshots large. -/
theorem C83_true_exponent_2d {env : Env ℝ FVal} (he : RealEnv env) (queue : Bool) (k : Kind)
    {v : ℝ → (Fin 2 → ℝ) → Fin 2 → ℝ}
    (hv : ContDiff ℝ 1 fun q : ℝ × (Fin 2 → ℝ) => v q.1 q.2) {t0 T η : ℝ} (hη : 0 < η)
    (hT : T ≠ 0) {N : ℕ} (c : ℕ → Fin 2 → ℝ) {O : Set (Fin 2 → ℝ)} (hO : IsOpen O)
    (hc : ∀ i < N, c i ∈ O) (X : (Fin 2 → ℝ) → ℝ → Fin 2 → ℝ)
    (hX : ∀ x ∈ O, IsTrajectory v (timesOf t0 T η) (X x) ∧ X x t0 = x)
    (J : ℕ → Matrix (Fin 2) (Fin 2) ℝ)
    (hJ : ∀ i < N, HasFDerivAt (fun x => X x (t0 + T))
      (LinearMap.toContinuousLinearMap (Matrix.toLin' (J i))) (c i))
    (σ : ℕ → ℝ) (hσ : ∀ i < N, IsMaxStretch (J i) (σ i) ∧ 0 < σ i)
    {seed : ℝ → NDArray ℝ} {P : ℝ → Particles ℝ} {src : ℝ → ℕ → Source ℝ}
    {I0 : ℝ → ℕ → AnyInterp ℝ} {g : ℝ → ℕ → ℕ → (Fin 2 → ℝ) → Fin 2 → ℝ}
    (hs : ∀ δ > 0, (seed δ).shape = [4 * N, 2] ∧ mkParticles (seed δ) = .ok (P δ) ∧
      ∀ i < N, groupOf (seed δ) 4 N 2 i = cross2 (c i) δ)
    (hR : ∀ δ > 0, Refines env (P δ) T (4 * N) 2 (src δ) (I0 δ) (g δ))
    (hg : ∀ δ > 0, ∀ x ∈ O, Approach v t0 T (X x) (g δ)) :
    ∀ ε > 0, ∃ δ₀ > 0, ∀ δ, 0 < δ → δ < δ₀ → ∀ᶠ p in atTop, ∃ L : ℕ → ℝ,
      ((⟨src δ p, I0 δ p, .fresh k⟩ : Solver ℝ).run env queue none).result =
        .ok (some ((List.range N).map fun i => .fin (L i))) ∧
      ∀ i < N, |L i - 1 / |T| * Real.log (σ i)| < ε := by
  intro ε hε
  choose S hS using ftle2_computes.exists_stretch
  set D : ℝ → ℕ → Matrix (Fin 2) (Fin 2) ℝ := fun δ i =>
    diffs2 (fun b => X (cross2 (c i) δ b) (t0 + T)) (cross2 (c i) δ) with hDdef
  have ht : ∀ i < N, Tendsto (fun δ => S (D δ i)) (𝓝[>] 0) (𝓝 (σ i)) := fun i hi =>
    maxStretch_tendsto (diffs2_cross_tendsto (hJ i hi)) (fun δ => hS (D δ i)) (hσ i hi).1
  have hlog : ∀ i < N, Tendsto (fun δ => 1 / |T| * Real.log (S (D δ i))) (𝓝[>] 0)
      (𝓝 (1 / |T| * Real.log (σ i))) := fun i hi =>
    ((ht i hi).log (hσ i hi).2.ne').const_mul _
  have hev : ∀ᶠ δ in 𝓝[>] (0 : ℝ), ∀ i ∈ Finset.range N, 0 < S (D δ i) ∧
      |1 / |T| * Real.log (S (D δ i)) - 1 / |T| * Real.log (σ i)| < ε / 2 ∧
      ∀ b, cross2 (c i) δ b ∈ O := by
    rw [eventually_all_finset]
    intro i hi
    have hi := Finset.mem_range.1 hi
    refine ((ht i hi).eventually (lt_mem_nhds (hσ i hi).2)).and
      ((Metric.tendsto_nhds.1 (hlog i hi) (ε / 2) (by linarith)).and ?_)
    rw [eventually_all]
    exact fun b => (cross2_tendsto (c i) b).eventually (hO.mem_nhds (hc i hi))
  obtain ⟨δ₀, hδ₀, hsub⟩ := mem_nhdsGT_iff_exists_Ioo_subset.1 hev
  refine ⟨δ₀, hδ₀, fun δ hδ hlt => ?_⟩
  have hall := hsub ⟨hδ, hlt⟩
  obtain ⟨s1, s2, s3⟩ := hs δ hδ
  obtain ⟨L, h1, h2⟩ := C82_refinement_2d he queue k hv hη hT s1 s2
    (fun i b => X (cross2 (c i) δ b))
    (fun i hi b => by
      rw [s3 i hi]
      exact hX _ ((hall i (Finset.mem_range.2 hi)).2.2 b))
    (hR δ hδ) (fun i hi b => hg δ hδ _ ((hall i (Finset.mem_range.2 hi)).2.2 b)) (D δ)
    (fun i hi => by
      rw [s3 i hi, centralDiff2_ok]
      refine ⟨⟨?_, ?_⟩, rfl⟩ <;> simp only [cross2] <;> simp <;> intro h <;> linarith)
    (fun i => S (D δ i)) (fun i hi => ⟨hS _, (hall i (Finset.mem_range.2 hi)).1⟩)
  have hclose : ∀ᶠ p in atTop, ∀ i ∈ Finset.range N,
      |L p i - 1 / |T| * Real.log (S (D δ i))| < ε / 2 := by
    rw [eventually_all_finset]
    intro i hi
    exact Metric.tendsto_nhds.1 (h2 i (Finset.mem_range.1 hi)) (ε / 2) (by linarith)
  filter_upwards [h1, hclose] with p q1 q2
  refine ⟨L p, q1, fun i hi => ?_⟩
  have a1 := q2 i (Finset.mem_range.2 hi)
  have a2 := (hall i (Finset.mem_range.2 hi)).2.1
  have := abs_sub_le (L p i) (1 / |T| * Real.log (S (D δ i))) (1 / |T| * Real.log (σ i))
  linarith

theorem cross3_tendsto (c : Fin 3 → ℝ) (b : Fin 6) :
    Tendsto (fun δ : ℝ => cross3 c δ b) (𝓝[>] 0) (𝓝 c) := by
  refine Tendsto.mono_left ?_ nhdsWithin_le_nhds
  rw [tendsto_pi_nhds]
  intro i
  have hp : ∀ x : ℝ, Tendsto (fun δ : ℝ => x + δ) (𝓝 0) (𝓝 x) := fun x => by
    have := (tendsto_id (x := 𝓝 (0 : ℝ))).const_add x
    rwa [add_zero] at this
  have hm : ∀ x : ℝ, Tendsto (fun δ : ℝ => x - δ) (𝓝 0) (𝓝 x) := fun x => by
    have := (tendsto_id (x := 𝓝 (0 : ℝ))).const_sub x
    rwa [sub_zero] at this
  fin_cases b <;> fin_cases i <;> first
    | exact tendsto_const_nhds
    | exact hp _
    | exact hm _

/-- **C83 (3-D).** -/
theorem C83_true_exponent_3d {env : Env ℝ FVal} (he : RealEnv env) (queue : Bool) (k : Kind)
    {v : ℝ → (Fin 3 → ℝ) → Fin 3 → ℝ}
    (hv : ContDiff ℝ 1 fun q : ℝ × (Fin 3 → ℝ) => v q.1 q.2) {t0 T η : ℝ} (hη : 0 < η)
    (hT : T ≠ 0) {N : ℕ} (c : ℕ → Fin 3 → ℝ) {O : Set (Fin 3 → ℝ)} (hO : IsOpen O)
    (hc : ∀ i < N, c i ∈ O) (X : (Fin 3 → ℝ) → ℝ → Fin 3 → ℝ)
    (hX : ∀ x ∈ O, IsTrajectory v (timesOf t0 T η) (X x) ∧ X x t0 = x)
    (J : ℕ → Matrix (Fin 3) (Fin 3) ℝ)
    (hJ : ∀ i < N, HasFDerivAt (fun x => X x (t0 + T))
      (LinearMap.toContinuousLinearMap (Matrix.toLin' (J i))) (c i))
    (σ : ℕ → ℝ) (hσ : ∀ i < N, IsMaxStretch (J i) (σ i) ∧ 0 < σ i)
    {seed : ℝ → NDArray ℝ} {P : ℝ → Particles ℝ} {src : ℝ → ℕ → Source ℝ}
    {I0 : ℝ → ℕ → AnyInterp ℝ} {g : ℝ → ℕ → ℕ → (Fin 3 → ℝ) → Fin 3 → ℝ}
    (hs : ∀ δ > 0, (seed δ).shape = [6 * N, 3] ∧ mkParticles (seed δ) = .ok (P δ) ∧
      ∀ i < N, groupOf (seed δ) 6 N 3 i = cross3 (c i) δ)
    (hR : ∀ δ > 0, Refines env (P δ) T (6 * N) 3 (src δ) (I0 δ) (g δ))
    (hg : ∀ δ > 0, ∀ x ∈ O, Approach v t0 T (X x) (g δ)) :
    ∀ ε > 0, ∃ δ₀ > 0, ∀ δ, 0 < δ → δ < δ₀ → ∀ᶠ p in atTop, ∃ L : ℕ → ℝ,
      ((⟨src δ p, I0 δ p, .fresh k⟩ : Solver ℝ).run env queue none).result =
        .ok (some ((List.range N).map fun i => .fin (L i))) ∧
      ∀ i < N, |L i - 1 / |T| * Real.log (σ i)| < ε := by
  intro ε hε
  choose S hS using ftle3_computes.exists_stretch
  set D : ℝ → ℕ → Matrix (Fin 3) (Fin 3) ℝ := fun δ i =>
    diffs3 (fun b => X (cross3 (c i) δ b) (t0 + T)) (cross3 (c i) δ) with hDdef
  have ht : ∀ i < N, Tendsto (fun δ => S (D δ i)) (𝓝[>] 0) (𝓝 (σ i)) := fun i hi =>
    maxStretch_tendsto (diffs3_cross_tendsto (hJ i hi)) (fun δ => hS (D δ i)) (hσ i hi).1
  have hlog : ∀ i < N, Tendsto (fun δ => 1 / |T| * Real.log (S (D δ i))) (𝓝[>] 0)
      (𝓝 (1 / |T| * Real.log (σ i))) := fun i hi =>
    ((ht i hi).log (hσ i hi).2.ne').const_mul _
  have hev : ∀ᶠ δ in 𝓝[>] (0 : ℝ), ∀ i ∈ Finset.range N, 0 < S (D δ i) ∧
      |1 / |T| * Real.log (S (D δ i)) - 1 / |T| * Real.log (σ i)| < ε / 2 ∧
      ∀ b, cross3 (c i) δ b ∈ O := by
    rw [eventually_all_finset]
    intro i hi
    have hi := Finset.mem_range.1 hi
    refine ((ht i hi).eventually (lt_mem_nhds (hσ i hi).2)).and
      ((Metric.tendsto_nhds.1 (hlog i hi) (ε / 2) (by linarith)).and ?_)
    rw [eventually_all]
    exact fun b => (cross3_tendsto (c i) b).eventually (hO.mem_nhds (hc i hi))
  obtain ⟨δ₀, hδ₀, hsub⟩ := mem_nhdsGT_iff_exists_Ioo_subset.1 hev
  refine ⟨δ₀, hδ₀, fun δ hδ hlt => ?_⟩
  have hall := hsub ⟨hδ, hlt⟩
  obtain ⟨s1, s2, s3⟩ := hs δ hδ
  obtain ⟨L, h1, h2⟩ := C82_refinement_3d he queue k hv hη hT s1 s2
    (fun i b => X (cross3 (c i) δ b))
    (fun i hi b => by
      rw [s3 i hi]
      exact hX _ ((hall i (Finset.mem_range.2 hi)).2.2 b))
    (hR δ hδ) (fun i hi b => hg δ hδ _ ((hall i (Finset.mem_range.2 hi)).2.2 b)) (D δ)
    (fun i hi => by
      rw [s3 i hi, centralDiff3_ok]
      refine ⟨⟨?_, ?_, ?_⟩, rfl⟩ <;> simp only [cross3] <;> simp <;> intro h <;> linarith)
    (fun i => S (D δ i)) (fun i hi => ⟨hS _, (hall i (Finset.mem_range.2 hi)).1⟩)
  have hclose : ∀ᶠ p in atTop, ∀ i ∈ Finset.range N,
      |L p i - 1 / |T| * Real.log (S (D δ i))| < ε / 2 := by
    rw [eventually_all_finset]
    intro i hi
    exact Metric.tendsto_nhds.1 (h2 i (Finset.mem_range.1 hi)) (ε / 2) (by linarith)
  filter_upwards [h1, hclose] with p q1 q2
  refine ⟨L p, q1, fun i hi => ?_⟩
  have a1 := q2 i (Finset.mem_range.2 hi)
  have a2 := (hall i (Finset.mem_range.2 hi)).2.1
  have := abs_sub_le (L p i) (1 / |T| * Real.log (S (D δ i))) (1 / |T| * Real.log (σ i))
  linarith

/-! ## Analytical sources -/

/-- Runs of analytical sources are such a family. -/
theorem analytical_refines (env : Env ℝ FVal) (P : Particles ℝ) (T : ℝ) {R d : ℕ}
    (fn : VelocityFn ℝ) {w : (Fin d → ℝ) → Fin d → ℝ} (hw : Pointwise R d (fn 0) w)
    (times : ℕ → List ℝ) (ht : ∀ p, (times p).length = p) :
    Refines env P T R d (fun p => .analytical ⟨P, T / ((p : ℝ) - 1), times p⟩)
      (fun _ => .analytical (.fresh (some fn))) (fun _ _ => w) := by
  have hupd : ∀ (p n : ℕ), (Source.analytical ⟨P, T / ((p : ℝ) - 1), times p⟩ : Source ℝ).updated
      env (.analytical (.fresh (some fn))) n = (.analytical (.fresh (some fn)), none) := by
    intro p n
    induction n with
    | zero => rfl
    | succ n ih => simp only [Source.updated, ih, Source.updateInterp]
  refine ⟨fun _ => trivial, fun p _ => ht p, fun _ _ => rfl, fun _ _ => rfl, fun p hp => ?_,
    fun p _ i _ => by rw [hupd], fun p _ i _ => by rw [hupd]; exact hw⟩
  have := ht p
  cases h : times p with
  | nil => rw [h] at this; simp at this; omega
  | cons t ts => exact ⟨_, rfl⟩

/-- Velocities that are exact approach the flow. -/
theorem approach_steady {d : ℕ} (w : (Fin d → ℝ) → Fin d → ℝ) (t0 T : ℝ) (X : ℝ → Fin d → ℝ) :
    Approach (fun _ => w) t0 T X fun _ _ => w := approach_exact (fun _ => w) t0 T X

/-- **C82 for the analytical API (2-D):** any smooth steady flow, any integrator. -/
theorem C82_analytical_2d {env : Env ℝ FVal} (he : RealEnv env) (queue : Bool) (k : Kind)
    {w : (Fin 2 → ℝ) → Fin 2 → ℝ} (hw : ContDiff ℝ 1 w) (fn : VelocityFn ℝ) {T η : ℝ} (hη : 0 < η)
    (hT : T ≠ 0) {N : ℕ} (hfn : Pointwise (4 * N) 2 (fn 0) w) {seed : NDArray ℝ}
    (hs : seed.shape = [4 * N, 2]) {P : Particles ℝ} (hp : mkParticles seed = .ok P)
    (X : ℕ → Fin 4 → ℝ → Fin 2 → ℝ)
    (hX : ∀ i < N, ∀ b, IsTrajectory (fun _ => w) (timesOf 0 T η) (X i b) ∧
      X i b 0 = groupOf seed 4 N 2 i b)
    (D : ℕ → Matrix (Fin 2) (Fin 2) ℝ)
    (hD : ∀ i < N, centralDiff2 (fun b => X i b T) (groupOf seed 4 N 2 i) = .ok (D i))
    (σ : ℕ → ℝ) (hσ : ∀ i < N, IsMaxStretch (D i) (σ i) ∧ 0 < σ i) (times : ℕ → List ℝ)
    (ht : ∀ p, (times p).length = p) :
    ∃ L : ℕ → ℕ → ℝ,
      (∀ᶠ p : ℕ in atTop, ((⟨.analytical ⟨P, T / ((p : ℝ) - 1), times p⟩,
          .analytical (.fresh (some fn)), .fresh k⟩ : Solver ℝ).run env queue none).result =
        .ok (some ((List.range N).map fun i => .fin (L p i)))) ∧
      ∀ i < N, Tendsto (fun p => L p i) atTop (𝓝 (1 / |T| * Real.log (σ i))) :=
  C82_refinement_2d he queue k (v := fun _ => w) (t0 := 0) (hw.comp contDiff_snd) hη hT hs hp X hX
    (analytical_refines env P T fn hfn times ht)
    (fun i _ b => approach_steady w 0 T (X i b)) D (by simpa using hD) σ hσ

/-! ## A concrete flow

The shear flow `(0, sin x)`: not linear, with trajectories `(x, y + t sin x)`. -/

noncomputable def shear (x : Fin 2 → ℝ) : Fin 2 → ℝ := ![0, Real.sin (x 0)]

noncomputable def shearPath (x : Fin 2 → ℝ) (t : ℝ) : Fin 2 → ℝ := ![x 0, x 1 + t * Real.sin (x 0)]

theorem shear_smooth : ContDiff ℝ 1 shear := by
  rw [contDiff_pi]
  intro i
  fin_cases i
  · exact contDiff_const
  · exact Real.contDiff_sin.comp (contDiff_apply ℝ ℝ (0 : Fin 2))

theorem shear_trajectory (x : Fin 2 → ℝ) (U : Set ℝ) :
    IsTrajectory (fun _ => shear) U (shearPath x) ∧ shearPath x 0 = x := by
  constructor
  · intro t _
    rw [hasDerivWithinAt_pi]
    intro i
    fin_cases i
    · exact hasDerivWithinAt_const _ _ _
    · have := ((hasDerivWithinAt_id t U).mul_const (Real.sin (x 0))).const_add (x 1)
      simpa [shear, shearPath] using this
  · funext i
    fin_cases i <;> simp [shearPath]

/-- Derivative of the flow map. -/
noncomputable def shearJ (T : ℝ) (x : Fin 2 → ℝ) : Matrix (Fin 2) (Fin 2) ℝ :=
  !![1, 0; T * Real.cos (x 0), 1]

theorem shear_deriv (T : ℝ) (c : Fin 2 → ℝ) : HasFDerivAt (fun x => shearPath x T)
    (LinearMap.toContinuousLinearMap (Matrix.toLin' (shearJ T c))) c := by
  rw [hasFDerivAt_pi']
  have h0 : HasFDerivAt (fun x : Fin 2 → ℝ => x 0)
      (ContinuousLinearMap.proj (R := ℝ) (φ := fun _ : Fin 2 => ℝ) 0) c := hasFDerivAt_apply 0 c
  have h1 : HasFDerivAt (fun x : Fin 2 → ℝ => x 1)
      (ContinuousLinearMap.proj (R := ℝ) (φ := fun _ : Fin 2 => ℝ) 1) c := hasFDerivAt_apply 1 c
  intro i
  fin_cases i
  · refine h0.congr_fderiv ?_
    ext x
    simp [shearJ, dotProduct, Fin.sum_univ_two]
  · refine ((h1.add ((h0.sin).const_mul T))).congr_fderiv ?_
    ext x
    simp [shearJ, dotProduct, Fin.sum_univ_two]
    ring

theorem shearJ_stretch (T : ℝ) (x : Fin 2 → ℝ) : ∃ s, IsMaxStretch (shearJ T x) s ∧ 0 < s := by
  obtain ⟨s, hs⟩ := ftle2_computes.exists_stretch (shearJ T x)
  refine ⟨s, hs, lt_of_le_of_ne (maxStretch_nonneg hs) fun h => ?_⟩
  have := congrFun (congrFun ((maxStretch_eq_zero_iff hs).1 h.symm) 0) 0
  simp [shearJ] at this

/-- Seeds at distance `δ` around the origin. -/
noncomputable def crossAt (δ : ℝ) : NDArray ℝ :=
  ⟨[4, 2], fun i => if h : i.getD 0 0 < 4 then
    (if h' : i.getD 1 0 < 2 then cross2 0 δ ⟨i.getD 0 0, h⟩ ⟨i.getD 1 0, h'⟩ else 0) else 0⟩

/-- The hypotheses of C83 and C82 hold for the analytical runs of the shear flow with seeds
around the origin; the limit is the exponent of `shearJ T 0`. -/
example (T : ℝ) (hT : T ≠ 0) (k : Kind) : ∃ (σ : ℝ) (P : ℝ → Particles ℝ), IsMaxStretch (shearJ T 0) σ ∧ 0 < σ ∧
    (∀ δ, mkParticles (crossAt δ) = .ok (P δ)) ∧
    ∀ ε > 0, ∃ δ₀ > 0, ∀ δ, 0 < δ → δ < δ₀ → ∀ᶠ p : ℕ in atTop, ∃ L : ℕ → ℝ,
      ((⟨.analytical ⟨P δ, T / ((p : ℝ) - 1), List.replicate p 0⟩,
        .analytical (.fresh (some fun _ => sourceOf 2 shear)), .fresh k⟩ : Solver ℝ).run realEnv true
        none).result = .ok (some ((List.range 1).map fun i => .fin (L i))) ∧
      ∀ i < 1, |L i - 1 / |T| * Real.log σ| < ε := by
  obtain ⟨σ, h1, h2⟩ := shearJ_stretch T 0
  have hP : ∀ δ, ∃ P, mkParticles (crossAt δ) = .ok P := fun δ => by
    obtain ⟨p, h, -⟩ := mkParticles_2d (show (crossAt δ).shape = [4 * 1, 2] from rfl)
    exact ⟨p, h⟩
  choose P hP using hP
  refine ⟨σ, P, h1, h2, hP, ?_⟩
  exact C83_true_exponent_2d realEnv_ok true k (v := fun _ => shear) (t0 := 0) (η := 1)
    (shear_smooth.comp contDiff_snd) one_pos hT (N := 1) (fun _ => 0) isOpen_univ
    (fun _ _ => Set.mem_univ _) shearPath (fun x _ => shear_trajectory x _) (fun _ => shearJ T 0)
    (fun _ _ => by simpa using shear_deriv T 0) (fun _ => σ) (fun _ _ => ⟨h1, h2⟩)
    (seed := crossAt) (P := P)
    (src := fun δ p => .analytical ⟨P δ, T / ((p : ℝ) - 1), List.replicate p 0⟩)
    (I0 := fun _ _ => .analytical (.fresh (some fun _ => sourceOf 2 shear)))
    (g := fun _ _ _ => shear)
    (fun δ _ => ⟨rfl, hP δ, fun i hi => by
      obtain rfl : i = 0 := by omega
      funext b c
      fin_cases b <;> fin_cases c <;> simp [groupOf, rowOf, crossAt]⟩)
    (fun δ _ => analytical_refines realEnv (P δ) T _ (sourceOf_pointwise _ _ _) _ (by simp))
    (fun δ _ x _ => approach_steady shear 0 T _)

end Verif
