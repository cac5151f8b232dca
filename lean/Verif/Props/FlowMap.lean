import Verif.Lemmas.LocalInterp
import Verif.Lemmas.Swap
import Verif.Lemmas.Api
import Verif.Props.EndToEnd
import Verif.Props.Api
import Verif.Props.Memory

/-!
# C74, C75, C76: a run as a map on groups of seeds

C74: the field of a run is obtained from one map of the space, the same for all seeds.
C75: the value of a group does not depend on the other groups of the run.
C76: opposite neighbours may be exchanged.

The runs compared share the flow (`Source.SameFlow`), the interpolator and the integrator they
start with; seeds, group counts and queues may differ.
-/

set_option linter.unusedSectionVars false

namespace Verif

section
variable {K F : Type} [Zero K] [One K] [Add K] [Sub K] [Mul K] [Div K] [NatCast K] [IntCast K]
  [Min K] [Max K] [NumLits K] [DecidableEq K]

/-- The FTLE kernels evaluate matrices independently: when they accept a batch, they accept every
batch made of its matrices, and equal matrices get equal values. -/
structure Env.Entrywise (env : Env K F) : Prop where
  two : ∀ js js' T v', env.ftle2 js' T = .ok v' → (∀ J ∈ js, J ∈ js') →
    ∃ v, env.ftle2 js T = .ok v ∧ v.length = js.length ∧
      ∀ (i j : ℕ) J, js[i]? = some J → js'[j]? = some J → v[i]? = v'[j]?
  three : ∀ js js' T v', env.ftle3 js' T = .ok v' → (∀ J ∈ js, J ∈ js') →
    ∃ v, env.ftle3 js T = .ok v ∧ v.length = js.length ∧
      ∀ (i j : ℕ) J, js[i]? = some J → js'[j]? = some J → v[i]? = v'[j]?

/-- The period a run of `n` snapshots hands to the FTLE kernels. -/
def runPeriod (env : Env K F) (src : Source K) : K :=
  (((src.numSteps : ℤ) - 1 : ℤ) : K) * env.abs src.timestep

theorem computeFtle_groups2 (env : Env K F) {seed pos : NDArray K} {N : ℕ} {p : Particles K}
    (hs : seed.shape = [4 * N, 2]) (hp : pos.shape = [4 * N, 2]) (h : mkParticles seed = .ok p)
    (n : ℕ) (dt : K) : computeFtle env { p with positions := pos } n dt =
      match pyMap (fun i => centralDiff2 (groupOf pos 4 N 2 i) (groupOf seed 4 N 2 i))
        (List.range N) with
      | .error e => .error e
      | .ok js => env.ftle2 js ((((n : ℤ) - 1 : ℤ) : K) * env.abs dt) := by
  have q2 := (mkParticles_groups (d := 2) (.inl rfl) hs h).2.1
  rw [← jacobian2_groups hs hp h]
  unfold computeFtle
  exact if_pos q2

theorem computeFtle_groups3 (env : Env K F) {seed pos : NDArray K} {N : ℕ} {p : Particles K}
    (hs : seed.shape = [6 * N, 3]) (hp : pos.shape = [6 * N, 3]) (h : mkParticles seed = .ok p)
    (n : ℕ) (dt : K) : computeFtle env { p with positions := pos } n dt =
      match pyMap (fun i => centralDiff3 (groupOf pos 6 N 3 i) (groupOf seed 6 N 3 i))
        (List.range N) with
      | .error e => .error e
      | .ok js => env.ftle3 js ((((n : ℤ) - 1 : ℤ) : K) * env.abs dt) := by
  have q2 := (mkParticles_groups (d := 3) (.inr rfl) hs h).2.1
  rw [← jacobian3_groups hs hp h]
  unfold computeFtle
  exact if_neg (by rw [q2]; decide)

/-! ## C74 -/

/-- One run in a flow that acts on points (2-D). -/
theorem run_flow_2d (env : Env K F) (src : Source K) {I0 : AnyInterp K} (hI : I0.Unused)
    (k : Kind) (g : ℕ → (Fin 2 → K) → Fin 2 → K)
    (hup : ∀ i < src.numSteps, (src.updated env I0 (i + 1)).2 = none) (N : ℕ)
    (hv : ∀ i < src.numSteps,
      Pointwise (4 * N) 2 ((src.updated env I0 (i + 1)).1.velocity env) (g i))
    {id : String} (hid : src.id env = .ok id) (seed : NDArray K) (src' : Source K)
    (p : Particles K) (queue : Bool) (hflow : src'.SameFlow src) (hs : seed.shape = [4 * N, 2])
    (hp : mkParticles seed = .ok p) (hg : src'.getParticles env.fs = .ok p) :
    ((⟨src', I0, .fresh k⟩ : Solver K).run env queue none).result =
      match pyMap (fun i => centralDiff2
          (fun b => flowMap k g src.timestep src.numSteps (groupOf seed 4 N 2 i b))
          (groupOf seed 4 N 2 i)) (List.range N) with
      | .error e => .error e
      | .ok js => (env.ftle2 js (runPeriod env src)).map some := by
  obtain ⟨f1, f2, f3, f4⟩ := hflow.facts (F := F)
  have hupd : ∀ n, src'.updated env I0 n = src.updated env I0 n := by
    intro n
    induction n with
    | zero => rfl
    | succ n ih => simp only [Source.updated, ih, f4]
  obtain ⟨q1, q2, -, -⟩ := mkParticles_groups (d := 2) (.inl rfl) hs hp
  obtain ⟨st, pos, h1, h2, h3, h4⟩ := loop_flow env src' id queue hI k (p := p) (R := 4 * N) (d := 2)
    (by rw [q1, hs]) g src'.numSteps
    (fun i hi => by rw [hupd]; exact hup i (by rw [f1]; exact hi))
    (fun i hi => by rw [hupd]; exact hv i (by rw [f1]; exact hi))
  have hr := (run_of_steps (env := env) (queue := queue) (writer := none)
    (S := ⟨src', I0, .fresh k⟩) hg (by rw [← f3]; exact hid) h1).1
  rw [hr, h2]
  simp only [computeFtle_groups2 env hs h3 hp]
  have hc : ∀ i ∈ List.range N, centralDiff2 (groupOf pos 4 N 2 i) (groupOf seed 4 N 2 i) =
      centralDiff2 (fun b => flowMap k g src.timestep src.numSteps (groupOf seed 4 N 2 i b))
        (groupOf seed 4 N 2 i) := by
    intro i hi
    have hi := List.mem_range.1 hi
    congr 1
    funext b
    have hb : b.1 * N + i < 4 * N := by
      have := b.2
      nlinarith [Nat.mul_le_mul_right N (Nat.le_of_lt_succ (show b.1 < 3 + 1 by omega))]
    simp only [groupOf]
    rw [h4 _ hb, q1, ← f1, ← f2]
  rw [pyMap_congr hc, runPeriod, ← f1, ← f2]
  split <;> rfl

/-- **C74 (2-D).**  For velocities that act on points, there is one map `Φ` of the plane, given by
`flowMap`, such that for *every* set of seeds the run succeeds or fails as, and returns, the FTLE
kernel applied to the central differences of `Φ` over the groups of seeds. -/
theorem C74_flow_map_2d (env : Env K F) (src : Source K) {I0 : AnyInterp K} (hI : I0.Unused)
    (k : Kind) (g : ℕ → (Fin 2 → K) → Fin 2 → K)
    (hup : ∀ i < src.numSteps, (src.updated env I0 (i + 1)).2 = none)
    (hv : ∀ N, ∀ i < src.numSteps,
      Pointwise (4 * N) 2 ((src.updated env I0 (i + 1)).1.velocity env) (g i))
    {id : String} (hid : src.id env = .ok id) :
    ∀ (N : ℕ) (seed : NDArray K) (src' : Source K) (p : Particles K) (queue : Bool),
      src'.SameFlow src → seed.shape = [4 * N, 2] → mkParticles seed = .ok p →
      src'.getParticles env.fs = .ok p →
      ((⟨src', I0, .fresh k⟩ : Solver K).run env queue none).result =
        match pyMap (fun i => centralDiff2
            (fun b => flowMap k g src.timestep src.numSteps (groupOf seed 4 N 2 i b))
            (groupOf seed 4 N 2 i)) (List.range N) with
        | .error e => .error e
        | .ok js => (env.ftle2 js (runPeriod env src)).map some := by
  intro N seed src' p queue hflow hs hp hg
  exact run_flow_2d env src hI k g hup N (hv N) hid seed src' p queue hflow hs hp hg

/-- One run in a flow that acts on points (3-D). -/
theorem run_flow_3d (env : Env K F) (src : Source K) {I0 : AnyInterp K} (hI : I0.Unused)
    (k : Kind) (g : ℕ → (Fin 3 → K) → Fin 3 → K)
    (hup : ∀ i < src.numSteps, (src.updated env I0 (i + 1)).2 = none) (N : ℕ)
    (hv : ∀ i < src.numSteps,
      Pointwise (6 * N) 3 ((src.updated env I0 (i + 1)).1.velocity env) (g i))
    {id : String} (hid : src.id env = .ok id) (seed : NDArray K) (src' : Source K)
    (p : Particles K) (queue : Bool) (hflow : src'.SameFlow src) (hs : seed.shape = [6 * N, 3])
    (hp : mkParticles seed = .ok p) (hg : src'.getParticles env.fs = .ok p) :
    ((⟨src', I0, .fresh k⟩ : Solver K).run env queue none).result =
      match pyMap (fun i => centralDiff3
          (fun b => flowMap k g src.timestep src.numSteps (groupOf seed 6 N 3 i b))
          (groupOf seed 6 N 3 i)) (List.range N) with
      | .error e => .error e
      | .ok js => (env.ftle3 js (runPeriod env src)).map some := by
  obtain ⟨f1, f2, f3, f4⟩ := hflow.facts (F := F)
  have hupd : ∀ n, src'.updated env I0 n = src.updated env I0 n := by
    intro n
    induction n with
    | zero => rfl
    | succ n ih => simp only [Source.updated, ih, f4]
  obtain ⟨q1, q2, -, -⟩ := mkParticles_groups (d := 3) (.inr rfl) hs hp
  obtain ⟨st, pos, h1, h2, h3, h4⟩ := loop_flow env src' id queue hI k (p := p) (R := 6 * N) (d := 3)
    (by rw [q1, hs]) g src'.numSteps
    (fun i hi => by rw [hupd]; exact hup i (by rw [f1]; exact hi))
    (fun i hi => by rw [hupd]; exact hv i (by rw [f1]; exact hi))
  have hr := (run_of_steps (env := env) (queue := queue) (writer := none)
    (S := ⟨src', I0, .fresh k⟩) hg (by rw [← f3]; exact hid) h1).1
  rw [hr, h2]
  simp only [computeFtle_groups3 env hs h3 hp]
  have hc : ∀ i ∈ List.range N, centralDiff3 (groupOf pos 6 N 3 i) (groupOf seed 6 N 3 i) =
      centralDiff3 (fun b => flowMap k g src.timestep src.numSteps (groupOf seed 6 N 3 i b))
        (groupOf seed 6 N 3 i) := by
    intro i hi
    have hi := List.mem_range.1 hi
    congr 1
    funext b
    have hb : b.1 * N + i < 6 * N := by
      have := b.2
      nlinarith [Nat.mul_le_mul_right N (Nat.le_of_lt_succ (show b.1 < 5 + 1 by omega))]
    simp only [groupOf]
    rw [h4 _ hb, q1, ← f1, ← f2]
  rw [pyMap_congr hc, runPeriod, ← f1, ← f2]
  split <;> rfl

/-- **C74 (3-D).** -/
theorem C74_flow_map_3d (env : Env K F) (src : Source K) {I0 : AnyInterp K} (hI : I0.Unused)
    (k : Kind) (g : ℕ → (Fin 3 → K) → Fin 3 → K)
    (hup : ∀ i < src.numSteps, (src.updated env I0 (i + 1)).2 = none)
    (hv : ∀ N, ∀ i < src.numSteps,
      Pointwise (6 * N) 3 ((src.updated env I0 (i + 1)).1.velocity env) (g i))
    {id : String} (hid : src.id env = .ok id) :
    ∀ (N : ℕ) (seed : NDArray K) (src' : Source K) (p : Particles K) (queue : Bool),
      src'.SameFlow src → seed.shape = [6 * N, 3] → mkParticles seed = .ok p →
      src'.getParticles env.fs = .ok p →
      ((⟨src', I0, .fresh k⟩ : Solver K).run env queue none).result =
        match pyMap (fun i => centralDiff3
            (fun b => flowMap k g src.timestep src.numSteps (groupOf seed 6 N 3 i b))
            (groupOf seed 6 N 3 i)) (List.range N) with
        | .error e => .error e
        | .ok js => (env.ftle3 js (runPeriod env src)).map some := by
  intro N seed src' p queue hflow hs hp hg
  exact run_flow_3d env src hI k g hup N (hv N) hid seed src' p queue hflow hs hp hg

/-! ## Runs with matching rows -/

theorem Source.SameFlow.symm {src src' : Source K} (h : src.SameFlow src') :
    src'.SameFlow src := by
  cases src with
  | file s =>
    cases src' with
    | file s' =>
      simp only [Source.SameFlow] at h ⊢
      rw [h]
    | analytical s' => exact h.elim
  | analytical s =>
    cases src' with
    | file s' => exact h.elim
    | analytical s' => exact ⟨h.1.symm, h.2.symm⟩

/-- What C75 and C76 have in common (2-D). -/
theorem run_local_2d {env : Env K F} (he : env.Entrywise) (hsp : env.sp.RowLocal)
    {src src' : Source K} (hflow : src.SameFlow src') {I0 : AnyInterp K} (hI : I0.Independent 2)
    (k : Kind) {N N' : ℕ} {seed seed' : NDArray K} {p p' : Particles K} {σ τ : ℕ → ℕ}
    (hσ : ∀ r < 4 * N, σ r < 4 * N') (hτ : ∀ i < N, τ i < N')
    (hm : RowsMatch (4 * N) (4 * N') 2 σ seed seed')
    (hJ : ∀ pos pos', RowsMatch (4 * N) (4 * N') 2 σ pos pos' → ∀ i < N,
      centralDiff2 (groupOf pos 4 N 2 i) (groupOf seed 4 N 2 i) =
        centralDiff2 (groupOf pos' 4 N' 2 (τ i)) (groupOf seed' 4 N' 2 (τ i)))
    (hp : mkParticles seed = .ok p) (hp' : mkParticles seed' = .ok p')
    (hg : src.getParticles env.fs = .ok p) (hg' : src'.getParticles env.fs = .ok p')
    (queue queue' : Bool) {field' : List F}
    (hrun : ((⟨src', I0, .fresh k⟩ : Solver K).run env queue' none).result = .ok (some field')) :
    ∃ field, ((⟨src, I0, .fresh k⟩ : Solver K).run env queue none).result = .ok (some field) ∧
      field.length = N ∧ ∀ i < N, field[i]? = field'[τ i]? := by
  obtain ⟨f1, f2, f3, f4⟩ := hflow.facts (F := F)
  obtain ⟨q1, q2, -, -⟩ := mkParticles_groups (d := 2) (.inl rfl) hm.left hp
  obtain ⟨q1', q2', -, -⟩ := mkParticles_groups (d := 2) (.inl rfl) hm.right hp'
  cases hid : src'.id env with
  | error e =>
    unfold Solver.run at hrun
    simp only [hg', hid] at hrun
    cases hrun
  | ok id =>
    rcases hst : Loop.steps env src' id queue' (List.range src'.numSteps)
      ⟨I0, .fresh k, p', []⟩ with ⟨st', _ | e⟩
    · have hr' := (run_of_steps (env := env) (queue := queue') (writer := none)
        (S := ⟨src', I0, .fresh k⟩) hg' hid hst).1
      rw [hr'] at hrun
      rw [f1] at hst
      obtain ⟨st, pos, pos', h1, h2, h3, h4⟩ := loop_local hσ env hflow id queue queue'
        hI.unused k (p := p) (p' := p') (by rw [q1, q1']; exact hm) src.numSteps
        (fun i _ h => updated_local hsp hI (fun _ _ _ _ => rfl) hσ (by omega) (by omega) i h) hst
      have hr := (run_of_steps (env := env) (queue := queue) (writer := none)
        (S := ⟨src, I0, .fresh k⟩) hg (by rw [← f3]; exact hid) h1).1
      rw [hr, h2]
      rw [h3] at hrun
      simp only [computeFtle_groups2 env hm.left h4.left hp,
        computeFtle_groups2 env hm.right h4.right hp'] at hrun ⊢
      cases hj' : pyMap (fun i => centralDiff2 (groupOf pos' 4 N' 2 i) (groupOf seed' 4 N' 2 i))
          (List.range N') with
      | error e => rw [hj'] at hrun; cases hrun
      | ok js' =>
        obtain ⟨js, j1, j2, j3⟩ := pyMap_local hτ (hJ pos pos' h4) hj'
        simp only [hj', f1, f2] at hrun
        simp only [j1]
        cases hf : env.ftle2 js' ((((src.numSteps : ℤ) - 1 : ℤ) : K) * env.abs src.timestep) with
        | error e => rw [hf] at hrun; cases hrun
        | ok v' =>
          rw [hf] at hrun
          simp only [Except.map, Except.ok.injEq, Option.some.injEq] at hrun
          subst hrun
          have hlen' := pyMap_ok_length hj'
          obtain ⟨v, v1, v2, v3⟩ := he.two js js' _ v' hf (fun J hJm => by
            obtain ⟨i, hi, rfl⟩ := List.getElem_of_mem hJm
            have := j3 i (by omega)
            rw [List.getElem?_eq_getElem hi] at this
            exact List.mem_of_getElem? this.symm)
          refine ⟨v, by rw [v1]; rfl, by omega, fun i hi => ?_⟩
          have hi' : i < js.length := by omega
          have hji := List.getElem?_eq_getElem hi'
          exact v3 i (τ i) _ hji (by rw [← j3 i hi, hji])
    · unfold Solver.run at hrun
      simp only [hg', hid, hst] at hrun
      cases hrun

/-- What C75 and C76 have in common (3-D). -/
theorem run_local_3d {env : Env K F} (he : env.Entrywise) (hsp : env.sp.RowLocal)
    {src src' : Source K} (hflow : src.SameFlow src') {I0 : AnyInterp K} (hI : I0.Independent 3)
    (hA : ∀ s, src = .analytical s → ∀ g, I0 ≠ .grid g)
    (k : Kind) {N N' : ℕ} {seed seed' : NDArray K} {p p' : Particles K} {σ τ : ℕ → ℕ}
    (hσ : ∀ r < 6 * N, σ r < 6 * N') (hτ : ∀ i < N, τ i < N')
    (hm : RowsMatch (6 * N) (6 * N') 3 σ seed seed')
    (hJ : ∀ pos pos', RowsMatch (6 * N) (6 * N') 3 σ pos pos' → ∀ i < N,
      centralDiff3 (groupOf pos 6 N 3 i) (groupOf seed 6 N 3 i) =
        centralDiff3 (groupOf pos' 6 N' 3 (τ i)) (groupOf seed' 6 N' 3 (τ i)))
    (hp : mkParticles seed = .ok p) (hp' : mkParticles seed' = .ok p')
    (hg : src.getParticles env.fs = .ok p) (hg' : src'.getParticles env.fs = .ok p')
    (queue queue' : Bool) {field' : List F}
    (hrun : ((⟨src', I0, .fresh k⟩ : Solver K).run env queue' none).result = .ok (some field')) :
    ∃ field, ((⟨src, I0, .fresh k⟩ : Solver K).run env queue none).result = .ok (some field) ∧
      field.length = N ∧ ∀ i < N, field[i]? = field'[τ i]? := by
  obtain ⟨f1, f2, f3, f4⟩ := hflow.facts (F := F)
  obtain ⟨q1, q2, -, -⟩ := mkParticles_groups (d := 3) (.inr rfl) hm.left hp
  obtain ⟨q1', q2', -, -⟩ := mkParticles_groups (d := 3) (.inr rfl) hm.right hp'
  cases hid : src'.id env with
  | error e =>
    unfold Solver.run at hrun
    simp only [hg', hid] at hrun
    cases hrun
  | ok id =>
    rcases hst : Loop.steps env src' id queue' (List.range src'.numSteps)
      ⟨I0, .fresh k, p', []⟩ with ⟨st', _ | e⟩
    · have hr' := (run_of_steps (env := env) (queue := queue') (writer := none)
        (S := ⟨src', I0, .fresh k⟩) hg' hid hst).1
      rw [hr'] at hrun
      rw [f1] at hst
      obtain ⟨st, pos, pos', h1, h2, h3, h4⟩ := loop_local hσ env hflow id queue queue'
        hI.unused k (p := p) (p' := p') (by rw [q1, q1']; exact hm) src.numSteps
        (fun i _ h => updated_local hsp hI (fun s hs g hgr => absurd hgr (hA s hs g)) hσ
          (by omega) (by omega) i h) hst
      have hr := (run_of_steps (env := env) (queue := queue) (writer := none)
        (S := ⟨src, I0, .fresh k⟩) hg (by rw [← f3]; exact hid) h1).1
      rw [hr, h2]
      rw [h3] at hrun
      simp only [computeFtle_groups3 env hm.left h4.left hp,
        computeFtle_groups3 env hm.right h4.right hp'] at hrun ⊢
      cases hj' : pyMap (fun i => centralDiff3 (groupOf pos' 6 N' 3 i) (groupOf seed' 6 N' 3 i))
          (List.range N') with
      | error e => rw [hj'] at hrun; cases hrun
      | ok js' =>
        obtain ⟨js, j1, j2, j3⟩ := pyMap_local hτ (hJ pos pos' h4) hj'
        simp only [hj', f1, f2] at hrun
        simp only [j1]
        cases hf : env.ftle3 js' ((((src.numSteps : ℤ) - 1 : ℤ) : K) * env.abs src.timestep) with
        | error e => rw [hf] at hrun; cases hrun
        | ok v' =>
          rw [hf] at hrun
          simp only [Except.map, Except.ok.injEq, Option.some.injEq] at hrun
          subst hrun
          have hlen' := pyMap_ok_length hj'
          obtain ⟨v, v1, v2, v3⟩ := he.three js js' _ v' hf (fun J hJm => by
            obtain ⟨i, hi, rfl⟩ := List.getElem_of_mem hJm
            have := j3 i (by omega)
            rw [List.getElem?_eq_getElem hi] at this
            exact List.mem_of_getElem? this.symm)
          refine ⟨v, by rw [v1]; rfl, by omega, fun i hi => ?_⟩
          have hi' : i < js.length := by omega
          have hji := List.getElem?_eq_getElem hi'
          exact v3 i (τ i) _ hji (by rw [← j3 i hi, hji])
    · unfold Solver.run at hrun
      simp only [hg', hid, hst] at hrun
      cases hrun

/-- Row of point `s b` of group `τ i` for the row of point `b` of group `i`. -/
def regroup (N N' : ℕ) (s τ : ℕ → ℕ) (r : ℕ) : ℕ := s (r / N) * N' + τ (r % N)

theorem regroup_row {N N' m : ℕ} {s τ : ℕ → ℕ} (hs : ∀ b < m, s b < m) (hτ : ∀ i < N, τ i < N')
    {r : ℕ} (hr : r < m * N) : regroup N N' s τ r < m * N' := by
  have hN : 0 < N := by
    rcases Nat.eq_zero_or_pos N with h | h
    · subst h; omega
    · exact h
  have h1 : s (r / N) < m := hs _ (Nat.div_lt_of_lt_mul (by rw [Nat.mul_comm]; exact hr))
  have h2 := hτ _ (Nat.mod_lt r hN)
  calc s (r / N) * N' + τ (r % N) < (s (r / N) + 1) * N' := by rw [Nat.add_mul]; omega
    _ ≤ m * N' := Nat.mul_le_mul_right N' h1

theorem regroup_at {N N' : ℕ} {s τ : ℕ → ℕ} {i : ℕ} (hi : i < N) (b : ℕ) :
    regroup N N' s τ (b * N + i) = s b * N' + τ i := by
  have h1 : (b * N + i) / N = b := by
    rw [Nat.add_comm, Nat.add_mul_div_right _ _ (by omega), Nat.div_eq_of_lt hi, Nat.zero_add]
  have h2 : (b * N + i) % N = i := by
    rw [Nat.add_comm, Nat.add_mul_mod_self_right, Nat.mod_eq_of_lt hi]
  rw [regroup, h1, h2]

/-- Group `i` of `a`, with its points renamed by `s`, is group `τ i` of `a'`: as a statement on
rows. -/
theorem groups_rows {m N N' d : ℕ} {a a' : NDArray K} (ha : a.shape = [m * N, d])
    (ha' : a'.shape = [m * N', d]) {s : Fin m → Fin m} {τ : ℕ → ℕ} (s' : ℕ → ℕ)
    (hs' : ∀ b : Fin m, s' b = (s b).1)
    (h : ∀ i < N, groupOf a m N d i = groupOf a' m N' d (τ i) ∘ s) :
    RowsMatch (m * N) (m * N') d (regroup N N' s' τ) a a' := by
  refine ⟨ha, ha', fun r hr => ?_⟩
  have hN : 0 < N := by
    rcases Nat.eq_zero_or_pos N with h | h
    · subst h; omega
    · exact h
  have hb : r / N < m := Nat.div_lt_of_lt_mul (by rw [Nat.mul_comm]; exact hr)
  have hi := Nat.mod_lt r hN
  have := congrFun (h _ hi) ⟨r / N, hb⟩
  simp only [groupOf, Function.comp] at this
  rw [show r / N * N + r % N = r by rw [Nat.mul_comm]; exact Nat.div_add_mod r N] at this
  rw [this, regroup, ← hs' ⟨r / N, hb⟩]

theorem rows_groups {m N N' d : ℕ} {a a' : NDArray K} {s : Fin m → Fin m} {τ : ℕ → ℕ} {s' : ℕ → ℕ}
    (hs' : ∀ b : Fin m, s' b = (s b).1)
    (h : RowsMatch (m * N) (m * N') d (regroup N N' s' τ) a a') {i : ℕ} (hi : i < N) :
    groupOf a m N d i = groupOf a' m N' d (τ i) ∘ s := by
  funext b
  have hr : b.1 * N + i < m * N := by
    have : (b.1 + 1) * N ≤ m * N := Nat.mul_le_mul_right N b.2
    rw [Nat.add_mul] at this
    omega
  simp only [groupOf, Function.comp]
  rw [h.rows _ hr, regroup_at hi, hs']

/-! ## C75 -/

/-- **C75 (2-D).**  Let a run succeed.  A run of the same flow, with the same interpolator and
integrator, whose groups of seeds all occur among the groups of the first (in any order and
number, repetitions allowed) succeeds as well, and every group gets the value it got there.  All
interpolators, all integrators, any arithmetic. -/
theorem C75_local_2d {env : Env K F} (he : env.Entrywise) (hsp : env.sp.RowLocal)
    {src src' : Source K} (hflow : src.SameFlow src') {I0 : AnyInterp K} (hI : I0.Independent 2)
    (k : Kind) {N N' : ℕ} {seed seed' : NDArray K} {p p' : Particles K}
    (hs : seed.shape = [4 * N, 2]) (hs' : seed'.shape = [4 * N', 2]) {τ : ℕ → ℕ}
    (hτ : ∀ i < N, τ i < N')
    (hgroups : ∀ i < N, groupOf seed 4 N 2 i = groupOf seed' 4 N' 2 (τ i))
    (hp : mkParticles seed = .ok p) (hp' : mkParticles seed' = .ok p')
    (hg : src.getParticles env.fs = .ok p) (hg' : src'.getParticles env.fs = .ok p')
    (queue queue' : Bool) {field' : List F}
    (hrun : ((⟨src', I0, .fresh k⟩ : Solver K).run env queue' none).result = .ok (some field')) :
    ∃ field, ((⟨src, I0, .fresh k⟩ : Solver K).run env queue none).result = .ok (some field) ∧
      field.length = N ∧ ∀ i < N, field[i]? = field'[τ i]? :=
  run_local_2d he hsp hflow hI k (σ := regroup N N' (fun b => b) τ)
    (fun _ hr => regroup_row (fun _ h => h) hτ hr) hτ
    (groups_rows hs hs' (s := fun b => b) _ (fun _ => rfl) hgroups)
    (fun pos pos' hm i hi => by
      rw [hgroups i hi, rows_groups (s := fun b => b) (fun _ => rfl) hm hi]
      rfl)
    hp hp' hg hg' queue queue' hrun

/-- **C75 (3-D).**  The SciPy grid interpolator is used with velocity files. -/
theorem C75_local_3d {env : Env K F} (he : env.Entrywise) (hsp : env.sp.RowLocal)
    {src src' : Source K} (hflow : src.SameFlow src') {I0 : AnyInterp K} (hI : I0.Independent 3)
    (hA : ∀ s, src = .analytical s → ∀ g, I0 ≠ .grid g)
    (k : Kind) {N N' : ℕ} {seed seed' : NDArray K} {p p' : Particles K}
    (hs : seed.shape = [6 * N, 3]) (hs' : seed'.shape = [6 * N', 3]) {τ : ℕ → ℕ}
    (hτ : ∀ i < N, τ i < N')
    (hgroups : ∀ i < N, groupOf seed 6 N 3 i = groupOf seed' 6 N' 3 (τ i))
    (hp : mkParticles seed = .ok p) (hp' : mkParticles seed' = .ok p')
    (hg : src.getParticles env.fs = .ok p) (hg' : src'.getParticles env.fs = .ok p')
    (queue queue' : Bool) {field' : List F}
    (hrun : ((⟨src', I0, .fresh k⟩ : Solver K).run env queue' none).result = .ok (some field')) :
    ∃ field, ((⟨src, I0, .fresh k⟩ : Solver K).run env queue none).result = .ok (some field) ∧
      field.length = N ∧ ∀ i < N, field[i]? = field'[τ i]? :=
  run_local_3d he hsp hflow hI hA k (σ := regroup N N' (fun b => b) τ)
    (fun _ hr => regroup_row (fun _ h => h) hτ hr) hτ
    (groups_rows hs hs' (s := fun b => b) _ (fun _ => rfl) hgroups)
    (fun pos pos' hm i hi => by
      rw [hgroups i hi, rows_groups (s := fun b => b) (fun _ => rfl) hm hi]
      rfl)
    hp hp' hg hg' queue queue' hrun

/-! ## C76 -/

/-- Exchanges of opposite points of a group of four: left/right, top/bottom, or both. -/
def OppSwap4 (s : Fin 4 → Fin 4) : Prop :=
  s = ![1, 0, 2, 3] ∨ s = ![0, 1, 3, 2] ∨ s = ![1, 0, 3, 2]

/-- Exchanges of opposite points of a group of six. -/
def OppSwap6 (s : Fin 6 → Fin 6) : Prop :=
  ∃ a b c : Bool, s = ![if a then 1 else 0, if a then 0 else 1, if b then 3 else 2,
    if b then 2 else 3, if c then 5 else 4, if c then 4 else 5]

theorem OppSwap4.involutive {s : Fin 4 → Fin 4} (h : OppSwap4 s) (b : Fin 4) : s (s b) = b := by
  rcases h with rfl | rfl | rfl <;> fin_cases b <;> rfl

theorem OppSwap6.involutive {s : Fin 6 → Fin 6} (h : OppSwap6 s) (b : Fin 6) : s (s b) = b := by
  obtain ⟨x, y, z, rfl⟩ := h
  cases x <;> cases y <;> cases z <;> fin_cases b <;> rfl

theorem centralDiff2_swap [SwapLaws K] {s : Fin 4 → Fin 4} (h : OppSwap4 s)
    (X x : Fin 4 → Fin 2 → K) : centralDiff2 (X ∘ s) (x ∘ s) = centralDiff2 X x := by
  have q := @SwapLaws.quot K _ _ _ _
  rcases h with rfl | rfl | rfl
  · simp [centralDiff2, SwapLaws.zero (x 0 0) (x 1 0), q (X 0 _) (X 1 _) (x 0 0) (x 1 0)]
  · simp [centralDiff2, SwapLaws.zero (x 3 1) (x 2 1), q (X 3 _) (X 2 _) (x 3 1) (x 2 1)]
  · simp [centralDiff2, SwapLaws.zero (x 0 0) (x 1 0), q (X 0 _) (X 1 _) (x 0 0) (x 1 0),
      SwapLaws.zero (x 3 1) (x 2 1), q (X 3 _) (X 2 _) (x 3 1) (x 2 1)]

theorem centralDiff3_swap [SwapLaws K] {s : Fin 6 → Fin 6} (h : OppSwap6 s)
    (X x : Fin 6 → Fin 3 → K) : centralDiff3 (X ∘ s) (x ∘ s) = centralDiff3 X x := by
  have q := @SwapLaws.quot K _ _ _ _
  obtain ⟨a, b, c, rfl⟩ := h
  have h0 : (x (if a then 0 else 1) 0 - x (if a then 1 else 0) 0 = 0) ↔ x 1 0 - x 0 0 = 0 := by
    cases a
    · rfl
    · exact SwapLaws.zero _ _
  have h1 : (x (if b then 3 else 2) 1 - x (if b then 2 else 3) 1 = 0) ↔ x 2 1 - x 3 1 = 0 := by
    cases b
    · rfl
    · exact SwapLaws.zero _ _
  have h2 : (x (if c then 5 else 4) 2 - x (if c then 4 else 5) 2 = 0) ↔ x 4 2 - x 5 2 = 0 := by
    cases c
    · rfl
    · exact SwapLaws.zero _ _
  have g0 : ∀ r, (X (if a then 0 else 1) r - X (if a then 1 else 0) r) /
      (x (if a then 0 else 1) 0 - x (if a then 1 else 0) 0) =
      (X 1 r - X 0 r) / (x 1 0 - x 0 0) := by
    intro r
    cases a
    · rfl
    · exact q _ _ _ _
  have g1 : ∀ r, (X (if b then 3 else 2) r - X (if b then 2 else 3) r) /
      (x (if b then 3 else 2) 1 - x (if b then 2 else 3) 1) =
      (X 2 r - X 3 r) / (x 2 1 - x 3 1) := by
    intro r
    cases b
    · rfl
    · exact q _ _ _ _
  have g2 : ∀ r, (X (if c then 5 else 4) r - X (if c then 4 else 5) r) /
      (x (if c then 5 else 4) 2 - x (if c then 4 else 5) 2) =
      (X 4 r - X 5 r) / (x 4 2 - x 5 2) := by
    intro r
    cases c
    · rfl
    · exact q _ _ _ _
  unfold centralDiff3
  simp only [Function.comp, Matrix.cons_val, h0, h1, h2]
  congr 2
  ext r k
  fin_cases k
  · exact g0 r
  · exact g1 r
  · exact g2 r

theorem swap_run_2d [SwapLaws K] {env : Env K F} (he : env.Entrywise) (hsp : env.sp.RowLocal)
    {src src' : Source K} (hflow : src.SameFlow src') {I0 : AnyInterp K} (hI : I0.Independent 2)
    (k : Kind) {N : ℕ} {seed seed' : NDArray K} {p p' : Particles K}
    (hs : seed.shape = [4 * N, 2]) (hs' : seed'.shape = [4 * N, 2]) {s : Fin 4 → Fin 4}
    (hsw : OppSwap4 s) (hgroups : ∀ i < N, groupOf seed 4 N 2 i = groupOf seed' 4 N 2 i ∘ s)
    (hp : mkParticles seed = .ok p) (hp' : mkParticles seed' = .ok p')
    (hg : src.getParticles env.fs = .ok p) (hg' : src'.getParticles env.fs = .ok p')
    (queue queue' : Bool) {field : List F}
    (hrun : ((⟨src', I0, .fresh k⟩ : Solver K).run env queue' none).result = .ok (some field)) 
    (hl : field.length = N) :
    ((⟨src, I0, .fresh k⟩ : Solver K).run env queue none).result = .ok (some field) := by
  have hnat : ∀ b : Fin 4, (fun b : ℕ => if h : b < 4 then (s ⟨b, h⟩).1 else b) b = (s b).1 :=
    fun b => by simp
  obtain ⟨f, h1, h2, h3⟩ := run_local_2d he hsp hflow hI k (τ := fun i => i)
    (σ := regroup N N (fun b : ℕ => if h : b < 4 then (s ⟨b, h⟩).1 else b) fun i => i)
    (fun _ hr => regroup_row (fun b hb => by simp [hb]) (fun _ h => h) hr)
    (fun _ h => h)
    (groups_rows hs hs' (s := s) _ hnat hgroups)
    (fun pos pos' hm i hi => by
      rw [hgroups i hi, rows_groups (s := s) hnat hm hi]
      exact centralDiff2_swap hsw _ _)
    hp hp' hg hg' queue queue' hrun
  rw [h1]
  congr 2
  apply List.ext_getElem?
  intro i
  by_cases hi : i < N
  · exact h3 i hi
  · rw [List.getElem?_eq_none (by omega), List.getElem?_eq_none (by omega)]

theorem swap_run_3d [SwapLaws K] {env : Env K F} (he : env.Entrywise) (hsp : env.sp.RowLocal)
    {src src' : Source K} (hflow : src.SameFlow src') {I0 : AnyInterp K} (hI : I0.Independent 3)
    (hA : ∀ s, src = .analytical s → ∀ g, I0 ≠ .grid g)
    (k : Kind) {N : ℕ} {seed seed' : NDArray K} {p p' : Particles K}
    (hs : seed.shape = [6 * N, 3]) (hs' : seed'.shape = [6 * N, 3]) {s : Fin 6 → Fin 6}
    (hsw : OppSwap6 s) (hgroups : ∀ i < N, groupOf seed 6 N 3 i = groupOf seed' 6 N 3 i ∘ s)
    (hp : mkParticles seed = .ok p) (hp' : mkParticles seed' = .ok p')
    (hg : src.getParticles env.fs = .ok p) (hg' : src'.getParticles env.fs = .ok p')
    (queue queue' : Bool) {field : List F}
    (hrun : ((⟨src', I0, .fresh k⟩ : Solver K).run env queue' none).result = .ok (some field))
    (hl : field.length = N) :
    ((⟨src, I0, .fresh k⟩ : Solver K).run env queue none).result = .ok (some field) := by
  have hnat : ∀ b : Fin 6, (fun b : ℕ => if h : b < 6 then (s ⟨b, h⟩).1 else b) b = (s b).1 :=
    fun b => by simp
  obtain ⟨f, h1, h2, h3⟩ := run_local_3d he hsp hflow hI hA k (τ := fun i => i)
    (σ := regroup N N (fun b : ℕ => if h : b < 6 then (s ⟨b, h⟩).1 else b) fun i => i)
    (fun _ hr => regroup_row (fun b hb => by simp [hb]) (fun _ h => h) hr)
    (fun _ h => h)
    (groups_rows hs hs' (s := s) _ hnat hgroups)
    (fun pos pos' hm i hi => by
      rw [hgroups i hi, rows_groups (s := s) hnat hm hi]
      exact centralDiff3_swap hsw _ _)
    hp hp' hg hg' queue queue' hrun
  rw [h1]
  congr 2
  apply List.ext_getElem?
  intro i
  by_cases hi : i < N
  · exact h3 i hi
  · rw [List.getElem?_eq_none (by omega), List.getElem?_eq_none (by omega)]

theorem Env.Entrywise.perMatrix {env : Env K F} (he : env.Entrywise) : env.PerMatrix where
  two js T v h := by
    obtain ⟨w, h1, h2, -⟩ := he.two js js T v h fun _ h => h
    rw [h] at h1
    cases h1
    exact h2
  three js T v h := by
    obtain ⟨w, h1, h2, -⟩ := he.three js js T v h fun _ h => h
    rw [h] at h1
    cases h1
    exact h2

/-- **C76 (2-D).**  Exchange the left and right seed blocks, the top and bottom ones, or both: the
run returns a field iff it did before, and then the same field.  Holds in binary64 arithmetic
(`SwapLaws Fl`). -/
theorem C76_swap_2d [SwapLaws K] {env : Env K F} (he : env.Entrywise) (hsp : env.sp.RowLocal)
    {src src' : Source K} (hflow : src.SameFlow src') {I0 : AnyInterp K} (hI : I0.Independent 2)
    (k : Kind) {N : ℕ} {seed seed' : NDArray K} {p p' : Particles K}
    (hs : seed.shape = [4 * N, 2]) (hs' : seed'.shape = [4 * N, 2]) {s : Fin 4 → Fin 4}
    (hsw : OppSwap4 s) (hgroups : ∀ i < N, groupOf seed 4 N 2 i = groupOf seed' 4 N 2 i ∘ s)
    (hp : mkParticles seed = .ok p) (hp' : mkParticles seed' = .ok p')
    (hg : src.getParticles env.fs = .ok p) (hg' : src'.getParticles env.fs = .ok p')
    (queue queue' : Bool) (field : List F) :
    ((⟨src, I0, .fresh k⟩ : Solver K).run env queue none).result = .ok (some field) ↔
      ((⟨src', I0, .fresh k⟩ : Solver K).run env queue' none).result = .ok (some field) := by
  constructor
  · intro h
    have hl := run_field_length he.perMatrix (.inl rfl) hs hp hg h
    refine swap_run_2d he hsp hflow.symm hI k hs' hs hsw (fun i hi => ?_) hp' hp hg' hg queue' queue
      h hl
    rw [hgroups i hi]
    funext b
    simp only [Function.comp, hsw.involutive]
  · intro h
    have hl := run_field_length he.perMatrix (.inl rfl) hs' hp' hg' h
    exact swap_run_2d he hsp hflow hI k hs hs' hsw hgroups hp hp' hg hg' queue queue' h hl

/-- **C76 (3-D).** -/
theorem C76_swap_3d [SwapLaws K] {env : Env K F} (he : env.Entrywise) (hsp : env.sp.RowLocal)
    {src src' : Source K} (hflow : src.SameFlow src') {I0 : AnyInterp K} (hI : I0.Independent 3)
    (hA : ∀ s, src = .analytical s → ∀ g, I0 ≠ .grid g)
    (k : Kind) {N : ℕ} {seed seed' : NDArray K} {p p' : Particles K}
    (hs : seed.shape = [6 * N, 3]) (hs' : seed'.shape = [6 * N, 3]) {s : Fin 6 → Fin 6}
    (hsw : OppSwap6 s) (hgroups : ∀ i < N, groupOf seed 6 N 3 i = groupOf seed' 6 N 3 i ∘ s)
    (hp : mkParticles seed = .ok p) (hp' : mkParticles seed' = .ok p')
    (hg : src.getParticles env.fs = .ok p) (hg' : src'.getParticles env.fs = .ok p')
    (queue queue' : Bool) (field : List F) :
    ((⟨src, I0, .fresh k⟩ : Solver K).run env queue none).result = .ok (some field) ↔
      ((⟨src', I0, .fresh k⟩ : Solver K).run env queue' none).result = .ok (some field) := by
  have hA' : ∀ s, src' = .analytical s → ∀ g, I0 ≠ .grid g := by
    intro s hs'
    subst hs'
    cases src with
    | file _ => exact hflow.elim
    | analytical s0 => exact hA s0 rfl
  constructor
  · intro h
    have hl := run_field_length he.perMatrix (.inr rfl) hs hp hg h
    refine swap_run_3d he hsp hflow.symm hI hA' k hs' hs hsw (fun i hi => ?_) hp' hp hg' hg queue'
      queue h hl
    rw [hgroups i hi]
    funext b
    simp only [Function.comp, hsw.involutive]
  · intro h
    have hl := run_field_length he.perMatrix (.inr rfl) hs' hp' hg' h
    exact swap_run_3d he hsp hflow hI hA k hs hs' hsw hgroups hp hp' hg hg' queue queue' h hl

end

/-- **C76 (centroids, 2-D).**  The positions stored with the field do not change either (exact
arithmetic). -/
theorem C76_centroid_2d {K : Type} [Field K] {N : ℕ} {seed seed' : NDArray K} {p p' : Particles K}
    (hs : seed.shape = [4 * N, 2]) (hs' : seed'.shape = [4 * N, 2]) {s : Fin 4 → Fin 4}
    (hsw : OppSwap4 s) (hgroups : ∀ i < N, groupOf seed 4 N 2 i = groupOf seed' 4 N 2 i ∘ s)
    (hp : mkParticles seed = .ok p) (hp' : mkParticles seed' = .ok p') :
    p.initialCentroid.shape = p'.initialCentroid.shape ∧
      ∀ i < N, ∀ c < 2, p.initialCentroid.get [i, c] = p'.initialCentroid.get [i, c] := by
  obtain ⟨q, q1, -, -, -, -, q2, -, -, -, q3⟩ := mkParticles_2d hs
  rw [hp] at q1; cases q1
  obtain ⟨q', r1, -, -, -, -, r2, -, -, -, r3⟩ := mkParticles_2d hs'
  rw [hp'] at r1; cases r1
  refine ⟨q2.trans r2.symm, fun i hi c hc => ?_⟩
  have h : ∀ b, groupOf seed 4 N 2 i b ⟨c, hc⟩ = groupOf seed' 4 N 2 i (s b) ⟨c, hc⟩ :=
    fun b => by rw [hgroups i hi]; rfl
  have h0 := h 0
  have h1 := h 1
  have h2 := h 2
  have h3 := h 3
  rw [q3, r3]
  rcases hsw with rfl | rfl | rfl <;>
    simp [groupOf, rowOf] at h0 h1 h2 h3 <;> rw [h0, h1, h2, h3] <;> ring

/-- **C76 (centroids, 3-D).** -/
theorem C76_centroid_3d {K : Type} [Field K] {N : ℕ} {seed seed' : NDArray K} {p p' : Particles K}
    (hs : seed.shape = [6 * N, 3]) (hs' : seed'.shape = [6 * N, 3]) {s : Fin 6 → Fin 6}
    (hsw : OppSwap6 s) (hgroups : ∀ i < N, groupOf seed 6 N 3 i = groupOf seed' 6 N 3 i ∘ s)
    (hp : mkParticles seed = .ok p) (hp' : mkParticles seed' = .ok p') :
    p.initialCentroid.shape = p'.initialCentroid.shape ∧
      ∀ i < N, ∀ c < 3, p.initialCentroid.get [i, c] = p'.initialCentroid.get [i, c] := by
  obtain ⟨q, q1, -, -, -, -, -, q2, -, -, -, q3⟩ := mkParticles_3d hs
  rw [hp] at q1; cases q1
  obtain ⟨q', r1, -, -, -, -, -, r2, -, -, -, r3⟩ := mkParticles_3d hs'
  rw [hp'] at r1; cases r1
  refine ⟨q2.trans r2.symm, fun i hi c hc => ?_⟩
  have h : ∀ b, groupOf seed 6 N 3 i b ⟨c, hc⟩ = groupOf seed' 6 N 3 i (s b) ⟨c, hc⟩ :=
    fun b => by rw [hgroups i hi]; rfl
  have h0 := h 0
  have h1 := h 1
  have h2 := h 2
  have h3 := h 3
  have h4 := h 4
  have h5 := h 5
  rw [q3, r3]
  obtain ⟨x, y, z, rfl⟩ := hsw
  cases x <;> cases y <;> cases z <;>
    simp [groupOf, rowOf] at h0 h1 h2 h3 h4 h5 <;> rw [h0, h1, h2, h3, h4, h5] <;> ring

/-- The kernels of `ftle.py` evaluate matrices independently. -/
theorem RealEnv.entrywise {env : Env ℝ FVal} (he : RealEnv env) : env.Entrywise where
  two js js' T v' h hsub := by
    rw [he.f2] at h ⊢
    have hex : ∃ v, ftle2 js T = .ok v := by
      unfold ftle2 at h ⊢
      cases hr : recipPeriod T with
      | error e => simp [hr] at h
      | ok r => exact ⟨_, rfl⟩
    obtain ⟨v, hv⟩ := hex
    obtain ⟨h1, h2⟩ := C17_independent_2d js js' T v v' hv h
    exact ⟨v, hv, h1, fun i j J hi hj => by
      obtain ⟨w, w1, w2⟩ := h2 i j J hi hj
      rw [w1, w2]⟩
  three js js' T v' h hsub := by
    rw [he.f3] at h ⊢
    have hex : ∃ v, ftle3 js T = .ok v := by
      unfold ftle3 at h ⊢
      cases hm : pyMap maxEig3 (js'.map cauchyGreen3) with
      | error e => simp [hm] at h
      | ok es' =>
        simp only [hm] at h
        have : ∃ es, pyMap maxEig3 (js.map cauchyGreen3) = .ok es := by
          rw [pyMap_map] at hm ⊢
          have hall : ∀ J ∈ js, ∃ b, maxEig3 (cauchyGreen3 J) = .ok b := by
            intro J hJ
            obtain ⟨j, hj, rfl⟩ := List.getElem_of_mem (hsub J hJ)
            obtain ⟨b, -, hb⟩ := pyMap_ok_get hm j hj
            exact ⟨b, hb⟩
          classical
          refine ⟨_, pyMap_ok (g := fun J => if hJ : ∃ b, maxEig3 (cauchyGreen3 J) = .ok b then
            hJ.choose else .nan) fun J hJ => ?_⟩
          have hx := hall J hJ
          simp only [hx, dite_true]
          exact hx.choose_spec
        obtain ⟨es, hes⟩ := this
        rw [hes]
        cases hr : recipPeriod T with
        | error e => simp [hr] at h
        | ok r => exact ⟨_, rfl⟩
    obtain ⟨v, hv⟩ := hex
    obtain ⟨h1, h2⟩ := C17_independent_3d js js' T v v' hv h
    exact ⟨v, hv, h1, fun i j J hi hj => by
      obtain ⟨w, w1, w2⟩ := h2 i j J hi hj
      rw [w1, w2]⟩

/-! ## Concrete cases -/

section examples

/-- Two groups, around `(0, 0)` and around `(3, 1)`; rows left, left, right, right, top, … -/
def exTwo : NDArray ℚ := ⟨[8, 2], fun idx =>
  ((([-1, 0, 2, 1, 1, 0, 4, 1, 0, 1, 3, 2, 0, -1, 3, 0] : List ℚ))[idx.getD 0 0 * 2 +
    idx.getD 1 0]?).getD 0⟩

/-- The second group alone. -/
def exOne : NDArray ℚ := ⟨[4, 2], fun idx =>
  ((([2, 1, 4, 1, 3, 2, 3, 0] : List ℚ))[idx.getD 0 0 * 2 + idx.getD 1 0]?).getD 0⟩

/-- The second group with right before left and bottom before top. -/
def exSwapped : NDArray ℚ := ⟨[4, 2], fun idx =>
  ((([4, 1, 2, 1, 3, 0, 3, 2] : List ℚ))[idx.getD 0 0 * 2 + idx.getD 1 0]?).getD 0⟩

/-- Particles of a seed array. -/
def exOf (a : NDArray ℚ) : Particles ℚ :=
  match mkParticles a with
  | .ok p => p
  | .error _ => exParticles

/-- The nonlinear flow `(x², x y)`. -/
def exQuad : (Fin 2 → ℚ) → Fin 2 → ℚ := fun x => ![x 0 * x 0, x 0 * x 1]

/-- Two snapshots, time step 1. -/
def exFlow (a : NDArray ℚ) : Source ℚ := .analytical ⟨exOf a, 1, [0, 1]⟩

/-- The interpolator. -/
def exQuadInterp : AnyInterp ℚ := .analytical (.fresh (some fun _ => sourceOf 2 exQuad))

theorem exQuadInterp_independent : exQuadInterp.Independent 2 := by
  intro f hf R R' σ hσ
  cases hf
  exact (sourceOf_pointwise R 2 exQuad).rowLocal (sourceOf_pointwise R' 2 exQuad) hσ

theorem exApiEnv_entrywise : exApiEnv.Entrywise := by
  constructor <;> intro js js' T v' h _ <;> simp only [exApiEnv] at h ⊢ <;> split at h
  · cases h
  · rename_i hT
    cases h
    refine ⟨_, if_neg hT, by simp, fun i j J hi hj => by simp [hi, hj]⟩
  · cases h
  · rename_i hT
    cases h
    refine ⟨_, if_neg hT, by simp, fun i j J hi hj => by simp [hi, hj]⟩

/-- Libraries that answer are covered: `exStrict` evaluates rows independently. -/
theorem exStrict_rowLocal : exStrict.RowLocal := by
  refine ⟨fun me p v R R' d σ q q' f' hσ hm h => ?_, fun me p v R R' d σ q q' f' hσ hm h => ?_⟩
  · simp only [exStrict, hm.left, hm.right] at h ⊢
    by_cases hd : d = 2
    · subst hd
      cases h
      refine ⟨_, rfl, fun r hr => ?_⟩
      have := congrFun (hm.rows r hr) 0
      simp only [rowOf, Fin.val_zero] at this
      rw [this]
    · split at h
      · rename_i n hs; simp at hs; omega
      · cases h
  · simp [exStrict] at h

theorem exApiEnv_rowLocal : exApiEnv.sp.RowLocal := by
  refine ⟨fun me p v R R' d σ q q' f' hσ hm h => ?_, fun me p v R R' d σ q q' f' hσ hm h => ?_⟩
  · cases h
  · cases h

theorem exFlow_same (a b : NDArray ℚ) : (exFlow a).SameFlow (exFlow b) := ⟨rfl, rfl⟩

/-- C74: the hypotheses hold for this flow. -/
example : exQuadInterp.Unused ∧
    (∀ i < (exFlow exTwo).numSteps, ((exFlow exTwo).updated exApiEnv exQuadInterp (i + 1)).2 = none) ∧
    (∀ N, ∀ i < (exFlow exTwo).numSteps, Pointwise (4 * N) 2
      (((exFlow exTwo).updated exApiEnv exQuadInterp (i + 1)).1.velocity exApiEnv) exQuad) ∧
    (exFlow exTwo).id exApiEnv = .ok "0" := by
  have h : ∀ i, (exFlow exTwo).updated exApiEnv exQuadInterp i = (exQuadInterp, none) := by
    intro i
    induction i with
    | zero => rfl
    | succ i ih => simp only [Source.updated, ih]; rfl
  refine ⟨trivial, fun i _ => by rw [h], fun N i _ => ?_, by decide +kernel⟩
  rw [h]
  exact sourceOf_pointwise (4 * N) 2 exQuad

/-- C75: the run on both groups succeeds, hence the run on the second group alone does, with the
second value. -/
example : ∃ field', ((⟨exFlow exTwo, exQuadInterp, .fresh .rk4⟩ : Solver ℚ).run exApiEnv false
      none).result = .ok (some field') ∧
    ∃ field, ((⟨exFlow exOne, exQuadInterp, .fresh .rk4⟩ : Solver ℚ).run exApiEnv true
      none).result = .ok (some field) ∧ field.length = 1 ∧ field[0]? = field'[1]? := by
  have h : ((⟨exFlow exTwo, exQuadInterp, .fresh .rk4⟩ : Solver ℚ).run exApiEnv false
      none).result.toOption.join.isSome = true := by decide +kernel
  obtain ⟨field', hf⟩ : ∃ field', ((⟨exFlow exTwo, exQuadInterp, .fresh .rk4⟩ : Solver ℚ).run
      exApiEnv false none).result = .ok (some field') := by
    rcases hr : ((⟨exFlow exTwo, exQuadInterp, .fresh .rk4⟩ : Solver ℚ).run
      exApiEnv false none).result with e | _ | f
    · rw [hr] at h; cases h
    · rw [hr] at h; cases h
    · exact ⟨f, rfl⟩
  obtain ⟨field, f1, f2, f3⟩ := C75_local_2d exApiEnv_entrywise exApiEnv_rowLocal
    (exFlow_same exOne exTwo) exQuadInterp_independent .rk4 (N := 1) (N' := 2) (seed := exOne)
    (seed' := exTwo) (τ := fun _ => 1) rfl rfl (fun _ _ => by omega)
    (fun i hi => by
      obtain rfl : i = 0 := by omega
      decide +kernel)
    (p := exOf exOne) (p' := exOf exTwo) rfl rfl rfl rfl true false hf
  exact ⟨field', hf, field, f1, f2, f3 0 (by omega)⟩

/-- C76: exchanging both pairs of the second group leaves the value. -/
example (field : List ℚ) :
    ((⟨exFlow exOne, exQuadInterp, .fresh .rk4⟩ : Solver ℚ).run exApiEnv false none).result =
      .ok (some field) ↔
    ((⟨exFlow exSwapped, exQuadInterp, .fresh .rk4⟩ : Solver ℚ).run exApiEnv false none).result =
      .ok (some field) :=
  C76_swap_2d exApiEnv_entrywise exApiEnv_rowLocal (exFlow_same exOne exSwapped)
    exQuadInterp_independent .rk4 (N := 1) (seed := exOne) (seed' := exSwapped)
    (s := ![1, 0, 3, 2]) rfl rfl (.inr (.inr rfl))
    (fun i hi => by
      obtain rfl : i = 0 := by omega
      decide +kernel)
    (p := exOf exOne) (p' := exOf exSwapped) rfl rfl rfl rfl false false field

/-- The kernels of `ftle.py` and the compiled interpolators meet the hypotheses in 3-D. -/
example : realEnv.Entrywise ∧ (AnyInterp.highPerf (HighPerf.fresh [4, 4, 4])
    : AnyInterp ℝ).Independent 3 :=
  ⟨realEnv_ok.entrywise, .inr rfl, rfl⟩

end examples

end Verif
