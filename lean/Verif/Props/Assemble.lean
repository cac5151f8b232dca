import Verif.Lemmas.JoiningInterp
import Verif.Props.GridError
import Verif.Props.Run64
import Verif.Props.Run64x3

/-!
# C140: seeds divided among several runs
-/

set_option linter.unusedSectionVars false

namespace Verif

section
variable {K F : Type} [Zero K] [One K] [Add K] [Sub K] [Mul K] [Div K] [NatCast K] [IntCast K]
  [Min K] [Max K] [NumLits K] [DecidableEq K]

/-- The FTLE kernels accept a batch that is not empty when each of its matrices occurs in a batch
they accept. -/
structure Env.Joins (env : Env K F) : Prop where
  two : ∀ js T, js ≠ [] → (∀ J ∈ js, ∃ js' v', J ∈ js' ∧ env.ftle2 js' T = .ok v') →
    ∃ v, env.ftle2 js T = .ok v
  three : ∀ js T, js ≠ [] → (∀ J ∈ js, ∃ js' v', J ∈ js' ∧ env.ftle3 js' T = .ok v') →
    ∃ v, env.ftle3 js T = .ok v

/-- The values of a kernel that evaluates matrices independently. -/
theorem joined_values {n : ℕ} {f : List (Matrix (Fin n) (Fin n) K) → K → Py (List F)}
    (hf : ∀ js js' T v', f js' T = .ok v' → (∀ J ∈ js, J ∈ js') →
      ∃ v, f js T = .ok v ∧ v.length = js.length ∧
        ∀ (i j : ℕ) J, js[i]? = some J → js'[j]? = some J → v[i]? = v'[j]?)
    {js js' : List (Matrix (Fin n) (Fin n) K)} {T : K} {v v' : List F} (h : f js T = .ok v)
    (h' : f js' T = .ok v') {i j : ℕ} {J : Matrix (Fin n) (Fin n) K} (hi : js[i]? = some J)
    (hj : js'[j]? = some J) : v[i]? = v'[j]? := by
  obtain ⟨w, w1, -, w3⟩ := hf [J] js T v h (by simpa using List.mem_of_getElem? hi)
  obtain ⟨w', w1', -, w3'⟩ := hf [J] js' T v' h' (by simpa using List.mem_of_getElem? hj)
  rw [w1] at w1'
  cases w1'
  rw [← w3 0 i J rfl hi, ← w3' 0 j J rfl hj]

/-- Computations that succeed one by one. -/
theorem pyMap_joined {β : Type} {f : ℕ → Py β} {N : ℕ} (h : ∀ i < N, ∃ b, f i = .ok b) :
    ∃ bs, pyMap f (List.range N) = .ok bs ∧ bs.length = N ∧
      ∀ i < N, ∀ b, f i = .ok b → bs[i]? = some b := by
  rcases Nat.eq_zero_or_pos N with rfl | hN
  · exact ⟨[], rfl, rfl, fun i hi => absurd hi (by omega)⟩
  have : Nonempty β := ⟨(h 0 hN).choose⟩
  choose! g hg using h
  refine ⟨_, pyMap_ok (g := g) fun i hi => hg i (List.mem_range.1 hi), by simp, fun i hi b hb => ?_⟩
  rw [hg i hi] at hb
  cases hb
  simp [hi]

theorem Source.SameFlow.analytical {src src' : Source K} (h : src.SameFlow src') {s : AnalyticalSource K}
    (hs : src = .analytical s) : ∃ s', src' = .analytical s' := by
  subst hs
  cases src' with
  | file s' => exact h.elim
  | analytical s' => exact ⟨s', rfl⟩

/-- Regions of the velocities: `Regions src I0 S g` says that in step `j` the velocity is `g j` on
`S j`, and that queries that leave `S j` are not answered. -/
def Regions (env : Env K F) (src : Source K) (I0 : AnyInterp K) {d : ℕ} (S : ℕ → Set (Fin d → K))
    (g : ℕ → (Fin d → K) → Fin d → K) : Prop :=
  ∀ i, (src.updated env I0 (i + 1)).2 = none → ∀ R, 0 < R → R ≠ 3 →
    PointwiseOn (S i) R ((src.updated env I0 (i + 1)).1.velocity env) (g i) ∧
    ∀ q A, q.shape = [R, d] → (src.updated env I0 (i + 1)).1.velocity env q = .ok A →
      ∀ r < R, rowOf q d r ∈ S i

theorem regions {env : Env K F} (hsp : env.sp.RowLocal) (hsj : env.sp.Joining) {src : Source K}
    {d : ℕ} {I0 : AnyInterp K} (hI : I0.Independent d) (hIj : I0.Joins d)
    (hA : ∀ s, src = .analytical s → ∀ g, I0 = .grid g → d = 2) :
    ∃ S g, Regions env src I0 (d := d) S g := by
  have h : ∀ i, ∃ (S : Set (Fin d → K)) (g : (Fin d → K) → Fin d → K),
      (src.updated env I0 (i + 1)).2 = none → ∀ R, 0 < R → R ≠ 3 →
      PointwiseOn S R ((src.updated env I0 (i + 1)).1.velocity env) g ∧
      ∀ q A, q.shape = [R, d] → (src.updated env I0 (i + 1)).1.velocity env q = .ok A →
        ∀ r < R, rowOf q d r ∈ S := by
    intro i
    by_cases hok : (src.updated env I0 (i + 1)).2 = none
    · obtain ⟨S, g, h⟩ := velocity_region
        (fun R R' σ hσ h3 h3' => updated_local hsp hI hA hσ h3 h3' i hok)
        (updated_joining (src := src) hsj hI hIj (i + 1))
      exact ⟨S, g, fun _ => h⟩
    · exact ⟨∅, fun z => z, fun h => absurd h hok⟩
  choose S g h using h
  exact ⟨S, g, h⟩

/-- What a successful run says about the flow (2-D). -/
theorem run_asked_2d {env : Env K F} {src src' : Source K} (hflow : src'.SameFlow src)
    {I0 : AnyInterp K} (hI : I0.Unused) (k : Kind) {S : ℕ → Set (Fin 2 → K)}
    {g : ℕ → (Fin 2 → K) → Fin 2 → K} (hS : Regions env src I0 S g) {N : ℕ} (hN : 0 < N)
    {seed : NDArray K} {p : Particles K} (hs : seed.shape = [4 * N, 2]) (hp : mkParticles seed = .ok p)
    (hg : src'.getParticles env.fs = .ok p) {queue : Bool} {field : List F}
    (hrun : ((⟨src', I0, .fresh k⟩ : Solver K).run env queue none).result = .ok (some field)) :
    (∃ id, src.id env = .ok id) ∧ (∀ i < src.numSteps, (src.updated env I0 (i + 1)).2 = none) ∧
    (∀ i < N, ∀ b, ∀ j < src.numSteps, ∀ z ∈ stages k (g j) src.timestep
      (flowMap k g src.timestep j (groupOf seed 4 N 2 i b)), z ∈ S j) ∧
    ∃ js, pyMap (fun i => centralDiff2
        (fun b => flowMap k g src.timestep src.numSteps (groupOf seed 4 N 2 i b))
        (groupOf seed 4 N 2 i)) (List.range N) = .ok js ∧
      env.ftle2 js (runPeriod env src) = .ok field := by
  obtain ⟨f1, f2, f3, f4⟩ := hflow.facts (F := F)
  have hupd : ∀ n, src'.updated env I0 n = src.updated env I0 n := by
    intro n
    induction n with
    | zero => rfl
    | succ n ih => simp only [Source.updated, ih, f4]
  obtain ⟨q1, q2, -, -⟩ := mkParticles_groups (d := 2) (.inl rfl) hs hp
  cases hid : src'.id env with
  | error e =>
    unfold Solver.run at hrun
    simp only [hg, hid] at hrun
    cases hrun
  | ok id =>
    rcases hst : Loop.steps env src' id queue (List.range src'.numSteps) ⟨I0, .fresh k, p, []⟩
      with ⟨st, _ | e⟩
    · obtain ⟨a1, a2⟩ := loop_asked env src' id queue hI k (p := p) (R := 4 * N) (d := 2)
        (by rw [q1, hs]) g S src'.numSteps
        (fun i hi hok => by rw [hupd] at hok ⊢; exact hS i hok (4 * N) (by omega) (by omega)) hst
      simp only [hupd, ← f1, ← f2, q1] at a1 a2
      have a3 : ∀ i < N, ∀ b, ∀ j < src.numSteps, ∀ z ∈ stages k (g j) src.timestep
          (flowMap k g src.timestep j (groupOf seed 4 N 2 i b)), z ∈ S j := by
        intro i hi b j hj z hz
        have hb : b.1 * N + i < 4 * N := by
          have : (b.1 + 1) * N ≤ 4 * N := Nat.mul_le_mul_right N b.2
          rw [Nat.add_mul] at this
          omega
        exact a2 _ hb j hj z hz
      refine ⟨⟨id, by rw [f3]; exact hid⟩, a1, a3, ?_⟩
      have hr := run_flow_on_2d env src' hI k g S
        (fun i hi => by rw [hupd]; exact a1 i (by rw [f1]; exact hi)) N
        (fun i hi => by
          rw [hupd]
          exact (hS i (a1 i (by rw [f1]; exact hi)) (4 * N) (by omega) (by omega)).1)
        hid seed p queue hs hp hg (fun i hi b j hj z hz => a3 i hi b j (by rw [f1]; exact hj) z
          (by rw [f2]; exact hz))
      rw [hr] at hrun
      simp only [runPeriod, ← f1, ← f2] at hrun ⊢
      cases hj : pyMap (fun i => centralDiff2
          (fun b => flowMap k g src.timestep src.numSteps (groupOf seed 4 N 2 i b))
          (groupOf seed 4 N 2 i)) (List.range N) with
      | error e => rw [hj] at hrun; cases hrun
      | ok js =>
        rw [hj] at hrun
        refine ⟨js, rfl, ?_⟩
        cases hf : env.ftle2 js ((((src.numSteps : ℤ) - 1 : ℤ) : K) * env.abs src.timestep) with
        | error e => simp only [hf] at hrun; cases hrun
        | ok v => simp only [hf, Except.map, Except.ok.injEq, Option.some.injEq] at hrun; rw [hrun]
    · unfold Solver.run at hrun
      simp only [hg, hid, hst] at hrun
      cases hrun

/-- **C140 (2-D).**  Seeds are divided among several runs of one flow, with the same interpolator
and integrator: group `i` of the seeds is group `τ i` of part `π i`.  When the runs of the parts
succeed, the run of all the seeds together succeeds, and its field has the values of the parts at the
places the groups have in them.  All interpolators, all integrators, any arithmetic. -/
theorem C140_assembled_2d {env : Env K F} (he : env.Entrywise) (hj : env.Joins)
    (hsp : env.sp.RowLocal) (hsj : env.sp.Joining) {src : Source K} {I0 : AnyInterp K}
    (hI : I0.Independent 2) (hIj : I0.Joins 2) (k : Kind)
    {ι : Type} {part : ι → Source K} {seeds : ι → NDArray K} {size : ι → ℕ} {ps : ι → Particles K}
    (hflow : ∀ j, (part j).SameFlow src) (hss : ∀ j, (seeds j).shape = [4 * size j, 2])
    (hps : ∀ j, mkParticles (seeds j) = .ok (ps j))
    (hgs : ∀ j, (part j).getParticles env.fs = .ok (ps j)) {N : ℕ} (hN : 0 < N) {seed : NDArray K}
    {p : Particles K} (hs : seed.shape = [4 * N, 2]) (hp : mkParticles seed = .ok p)
    (hg : src.getParticles env.fs = .ok p) {π : ℕ → ι} {τ : ℕ → ℕ}
    (hτ : ∀ i < N, τ i < size (π i))
    (hgroups : ∀ i < N, groupOf seed 4 N 2 i = groupOf (seeds (π i)) 4 (size (π i)) 2 (τ i))
    (queue : Bool) {queues : ι → Bool} {fields : ι → List F}
    (hruns : ∀ i < N, ((⟨part (π i), I0, .fresh k⟩ : Solver K).run env (queues (π i)) none).result =
      .ok (some (fields (π i)))) :
    ∃ field, ((⟨src, I0, .fresh k⟩ : Solver K).run env queue none).result = .ok (some field) ∧
      field.length = N ∧ ∀ i < N, field[i]? = (fields (π i))[τ i]? := by
  obtain ⟨S, g, hS⟩ := regions hsp hsj (src := src) hI hIj (fun _ _ _ _ => rfl)
  have hparts := fun i (hi : i < N) => run_asked_2d (hflow (π i)) hI.unused k hS
    (show 0 < size (π i) from (Nat.zero_le _).trans_lt (hτ i hi)) (hss (π i)) (hps (π i)) (hgs (π i))
    (hruns i hi)
  obtain ⟨⟨id, hid⟩, hup, -, -⟩ := hparts 0 hN
  have hmem : ∀ i < N, ∃ J js', centralDiff2
      (fun b => flowMap k g src.timestep src.numSteps (groupOf seed 4 N 2 i b))
      (groupOf seed 4 N 2 i) = .ok J ∧ js'[τ i]? = some J ∧
      env.ftle2 js' (runPeriod env src) = .ok (fields (π i)) := by
    intro i hi
    obtain ⟨-, -, -, js', h1, h2⟩ := hparts i hi
    obtain ⟨J, j1, j2⟩ := pyMap_ok_get h1 (τ i) (by simpa using hτ i hi)
    simp only [List.getElem_range] at j2
    rw [← hgroups i hi] at j2
    exact ⟨J, js', j2, j1, h2⟩
  obtain ⟨js, h1, h2, h3⟩ := pyMap_joined fun i hi =>
    let ⟨J, _, h, _⟩ := hmem i hi; ⟨J, h⟩
  obtain ⟨v, hv'⟩ := hj.two js (runPeriod env src) (by rintro rfl; simp at h2; omega) fun J hJ => by
    obtain ⟨i, hi, rfl⟩ := List.getElem_of_mem hJ
    obtain ⟨J, js', a1, a2, a3⟩ := hmem i (by omega)
    have := h3 i (by omega) J a1
    rw [List.getElem?_eq_getElem hi, Option.some.injEq] at this
    rw [this]
    exact ⟨js', _, List.mem_of_getElem? a2, a3⟩
  have hrun := run_flow_on_2d env src hI.unused k g S hup N
    (fun i hi => (hS i (hup i hi) (4 * N) (by omega) (by omega)).1) hid seed p queue hs hp hg
    (fun i hi b j hj' z hz => by
      rw [hgroups i hi] at hz
      exact (hparts i hi).2.2.1 (τ i) (hτ i hi) b j hj' z hz)
  rw [h1] at hrun
  simp only [hv'] at hrun
  refine ⟨v, hrun, ?_, fun i hi => ?_⟩
  · obtain ⟨w, w1, w2, -⟩ := he.two js js _ v hv' fun _ h => h
    rw [hv'] at w1
    cases w1
    omega
  · obtain ⟨J, js', a1, a2, a3⟩ := hmem i hi
    exact joined_values he.two hv' a3 (h3 i hi J a1) a2

/-- What a successful run says about the flow (3-D). -/
theorem run_asked_3d {env : Env K F} {src src' : Source K} (hflow : src'.SameFlow src)
    {I0 : AnyInterp K} (hI : I0.Unused) (k : Kind) {S : ℕ → Set (Fin 3 → K)}
    {g : ℕ → (Fin 3 → K) → Fin 3 → K} (hS : Regions env src I0 S g) {N : ℕ} (hN : 0 < N)
    {seed : NDArray K} {p : Particles K} (hs : seed.shape = [6 * N, 3]) (hp : mkParticles seed = .ok p)
    (hg : src'.getParticles env.fs = .ok p) {queue : Bool} {field : List F}
    (hrun : ((⟨src', I0, .fresh k⟩ : Solver K).run env queue none).result = .ok (some field)) :
    (∃ id, src.id env = .ok id) ∧ (∀ i < src.numSteps, (src.updated env I0 (i + 1)).2 = none) ∧
    (∀ i < N, ∀ b, ∀ j < src.numSteps, ∀ z ∈ stages k (g j) src.timestep
      (flowMap k g src.timestep j (groupOf seed 6 N 3 i b)), z ∈ S j) ∧
    ∃ js, pyMap (fun i => centralDiff3
        (fun b => flowMap k g src.timestep src.numSteps (groupOf seed 6 N 3 i b))
        (groupOf seed 6 N 3 i)) (List.range N) = .ok js ∧
      env.ftle3 js (runPeriod env src) = .ok field := by
  obtain ⟨f1, f2, f3, f4⟩ := hflow.facts (F := F)
  have hupd : ∀ n, src'.updated env I0 n = src.updated env I0 n := by
    intro n
    induction n with
    | zero => rfl
    | succ n ih => simp only [Source.updated, ih, f4]
  obtain ⟨q1, q2, -, -⟩ := mkParticles_groups (d := 3) (.inr rfl) hs hp
  cases hid : src'.id env with
  | error e =>
    unfold Solver.run at hrun
    simp only [hg, hid] at hrun
    cases hrun
  | ok id =>
    rcases hst : Loop.steps env src' id queue (List.range src'.numSteps) ⟨I0, .fresh k, p, []⟩
      with ⟨st, _ | e⟩
    · obtain ⟨a1, a2⟩ := loop_asked env src' id queue hI k (p := p) (R := 6 * N) (d := 3)
        (by rw [q1, hs]) g S src'.numSteps
        (fun i hi hok => by rw [hupd] at hok ⊢; exact hS i hok (6 * N) (by omega) (by omega)) hst
      simp only [hupd, ← f1, ← f2, q1] at a1 a2
      have a3 : ∀ i < N, ∀ b, ∀ j < src.numSteps, ∀ z ∈ stages k (g j) src.timestep
          (flowMap k g src.timestep j (groupOf seed 6 N 3 i b)), z ∈ S j := by
        intro i hi b j hj z hz
        have hb : b.1 * N + i < 6 * N := by
          have : (b.1 + 1) * N ≤ 6 * N := Nat.mul_le_mul_right N b.2
          rw [Nat.add_mul] at this
          omega
        exact a2 _ hb j hj z hz
      refine ⟨⟨id, by rw [f3]; exact hid⟩, a1, a3, ?_⟩
      have hr := run_flow_on_3d env src' hI k g S
        (fun i hi => by rw [hupd]; exact a1 i (by rw [f1]; exact hi)) N
        (fun i hi => by
          rw [hupd]
          exact (hS i (a1 i (by rw [f1]; exact hi)) (6 * N) (by omega) (by omega)).1)
        hid seed p queue hs hp hg (fun i hi b j hj z hz => a3 i hi b j (by rw [f1]; exact hj) z
          (by rw [f2]; exact hz))
      rw [hr] at hrun
      simp only [runPeriod, ← f1, ← f2] at hrun ⊢
      cases hj : pyMap (fun i => centralDiff3
          (fun b => flowMap k g src.timestep src.numSteps (groupOf seed 6 N 3 i b))
          (groupOf seed 6 N 3 i)) (List.range N) with
      | error e => rw [hj] at hrun; cases hrun
      | ok js =>
        rw [hj] at hrun
        refine ⟨js, rfl, ?_⟩
        cases hf : env.ftle3 js ((((src.numSteps : ℤ) - 1 : ℤ) : K) * env.abs src.timestep) with
        | error e => simp only [hf] at hrun; cases hrun
        | ok v => simp only [hf, Except.map, Except.ok.injEq, Option.some.injEq] at hrun; rw [hrun]
    · unfold Solver.run at hrun
      simp only [hg, hid, hst] at hrun
      cases hrun

/-- **C140 (3-D).**  Seeds are divided among several runs of one flow, with the same interpolator
and integrator: group `i` of the seeds is group `τ i` of part `π i`.  When the runs of the parts
succeed, the run of all the seeds together succeeds, and its field has the values of the parts at the
places the groups have in them.  The SciPy grid interpolator is used with velocity files. -/
theorem C140_assembled_3d {env : Env K F} (he : env.Entrywise) (hj : env.Joins)
    (hsp : env.sp.RowLocal) (hsj : env.sp.Joining) {src : Source K} {I0 : AnyInterp K}
    (hI : I0.Independent 3) (hIj : I0.Joins 3)
    (hA : ∀ s, src = .analytical s → ∀ g, I0 ≠ .grid g) (k : Kind)
    {ι : Type} {part : ι → Source K} {seeds : ι → NDArray K} {size : ι → ℕ} {ps : ι → Particles K}
    (hflow : ∀ j, (part j).SameFlow src) (hss : ∀ j, (seeds j).shape = [6 * size j, 3])
    (hps : ∀ j, mkParticles (seeds j) = .ok (ps j))
    (hgs : ∀ j, (part j).getParticles env.fs = .ok (ps j)) {N : ℕ} (hN : 0 < N) {seed : NDArray K}
    {p : Particles K} (hs : seed.shape = [6 * N, 3]) (hp : mkParticles seed = .ok p)
    (hg : src.getParticles env.fs = .ok p) {π : ℕ → ι} {τ : ℕ → ℕ}
    (hτ : ∀ i < N, τ i < size (π i))
    (hgroups : ∀ i < N, groupOf seed 6 N 3 i = groupOf (seeds (π i)) 6 (size (π i)) 3 (τ i))
    (queue : Bool) {queues : ι → Bool} {fields : ι → List F}
    (hruns : ∀ i < N, ((⟨part (π i), I0, .fresh k⟩ : Solver K).run env (queues (π i)) none).result =
      .ok (some (fields (π i)))) :
    ∃ field, ((⟨src, I0, .fresh k⟩ : Solver K).run env queue none).result = .ok (some field) ∧
      field.length = N ∧ ∀ i < N, field[i]? = (fields (π i))[τ i]? := by
  obtain ⟨S, g, hS⟩ := regions hsp hsj (src := src) hI hIj 
    (fun s h g hg => absurd hg (hA s h g))
  have hparts := fun i (hi : i < N) => run_asked_3d (hflow (π i)) hI.unused k hS
    (show 0 < size (π i) from (Nat.zero_le _).trans_lt (hτ i hi)) (hss (π i)) (hps (π i)) (hgs (π i))
    (hruns i hi)
  obtain ⟨⟨id, hid⟩, hup, -, -⟩ := hparts 0 hN
  have hmem : ∀ i < N, ∃ J js', centralDiff3
      (fun b => flowMap k g src.timestep src.numSteps (groupOf seed 6 N 3 i b))
      (groupOf seed 6 N 3 i) = .ok J ∧ js'[τ i]? = some J ∧
      env.ftle3 js' (runPeriod env src) = .ok (fields (π i)) := by
    intro i hi
    obtain ⟨-, -, -, js', h1, h2⟩ := hparts i hi
    obtain ⟨J, j1, j2⟩ := pyMap_ok_get h1 (τ i) (by simpa using hτ i hi)
    simp only [List.getElem_range] at j2
    rw [← hgroups i hi] at j2
    exact ⟨J, js', j2, j1, h2⟩
  obtain ⟨js, h1, h2, h3⟩ := pyMap_joined fun i hi =>
    let ⟨J, _, h, _⟩ := hmem i hi; ⟨J, h⟩
  obtain ⟨v, hv'⟩ := hj.three js (runPeriod env src) (by rintro rfl; simp at h2; omega) fun J hJ => by
    obtain ⟨i, hi, rfl⟩ := List.getElem_of_mem hJ
    obtain ⟨J, js', a1, a2, a3⟩ := hmem i (by omega)
    have := h3 i (by omega) J a1
    rw [List.getElem?_eq_getElem hi, Option.some.injEq] at this
    rw [this]
    exact ⟨js', _, List.mem_of_getElem? a2, a3⟩
  have hrun := run_flow_on_3d env src hI.unused k g S hup N
    (fun i hi => (hS i (hup i hi) (6 * N) (by omega) (by omega)).1) hid seed p queue hs hp hg
    (fun i hi b j hj' z hz => by
      rw [hgroups i hi] at hz
      exact (hparts i hi).2.2.1 (τ i) (hτ i hi) b j hj' z hz)
  rw [h1] at hrun
  simp only [hv'] at hrun
  refine ⟨v, hrun, ?_, fun i hi => ?_⟩
  · obtain ⟨w, w1, w2, -⟩ := he.three js js _ v hv' fun _ h => h
    rw [hv'] at w1
    cases w1
    omega
  · obtain ⟨J, js', a1, a2, a3⟩ := hmem i hi
    exact joined_values he.three hv' a3 (h3 i hi J a1) a2

/-- **C140 (2-D), both directions.**  When in addition every group of the parts is a group of the
whole (`ρ` finds it), the run of the whole succeeds exactly if the runs of the parts that are used
do. -/
theorem C140_iff_2d {env : Env K F} (he : env.Entrywise) (hj : env.Joins)
    (hsp : env.sp.RowLocal) (hsj : env.sp.Joining) {src : Source K} {I0 : AnyInterp K}
    (hI : I0.Independent 2) (hIj : I0.Joins 2) (k : Kind)
    {ι : Type} {part : ι → Source K} {seeds : ι → NDArray K} {size : ι → ℕ} {ps : ι → Particles K}
    (hflow : ∀ j, (part j).SameFlow src) (hss : ∀ j, (seeds j).shape = [4 * size j, 2])
    (hps : ∀ j, mkParticles (seeds j) = .ok (ps j))
    (hgs : ∀ j, (part j).getParticles env.fs = .ok (ps j)) {N : ℕ} (hN : 0 < N) {seed : NDArray K}
    {p : Particles K} (hs : seed.shape = [4 * N, 2]) (hp : mkParticles seed = .ok p)
    (hg : src.getParticles env.fs = .ok p) {π : ℕ → ι} {τ : ℕ → ℕ} {ρ : ι → ℕ → ℕ}
    (hτ : ∀ i < N, τ i < size (π i)) (hρ : ∀ j, ∀ l < size j, ρ j l < N)
    (hgroups : ∀ i < N, groupOf seed 4 N 2 i = groupOf (seeds (π i)) 4 (size (π i)) 2 (τ i))
    (hback : ∀ j, ∀ l < size j, groupOf (seeds j) 4 (size j) 2 l = groupOf seed 4 N 2 (ρ j l))
    (queue : Bool) (queues : ι → Bool) :
    (∃ field, ((⟨src, I0, .fresh k⟩ : Solver K).run env queue none).result = .ok (some field)) ↔
      ∀ i < N, ∃ field, ((⟨part (π i), I0, .fresh k⟩ : Solver K).run env (queues (π i)) none).result =
        .ok (some field) := by
  constructor
  · rintro ⟨field, hf⟩ i -
    obtain ⟨field', h, -⟩ := C75_local_2d he hsp (hflow (π i)) hI k (hss (π i)) hs (hρ (π i))
      (hback (π i)) (hps (π i)) hp (hgs (π i)) hg (queues (π i)) queue hf
    exact ⟨field', h⟩
  · intro h
    classical
    let fields : ι → List F := fun j => if hx : ∃ field, ((⟨part j, I0, .fresh k⟩ : Solver K).run env
      (queues j) none).result = .ok (some field) then hx.choose else []
    obtain ⟨field, hf, -⟩ := C140_assembled_2d he hj hsp hsj hI hIj k hflow hss hps hgs hN hs hp hg hτ
      hgroups queue (queues := queues) (fields := fields) (fun i hi => by
        have hx := h i hi
        simp only [fields, hx, dite_true]
        exact hx.choose_spec)
    exact ⟨field, hf⟩

/-- **C140 (3-D), both directions.**  When in addition every group of the parts is a group of the
whole (`ρ` finds it), the run of the whole succeeds exactly if the runs of the parts that are used
do. -/
theorem C140_iff_3d {env : Env K F} (he : env.Entrywise) (hj : env.Joins)
    (hsp : env.sp.RowLocal) (hsj : env.sp.Joining) {src : Source K} {I0 : AnyInterp K}
    (hI : I0.Independent 3) (hIj : I0.Joins 3)
    (hA : ∀ s, src = .analytical s → ∀ g, I0 ≠ .grid g) (k : Kind)
    {ι : Type} {part : ι → Source K} {seeds : ι → NDArray K} {size : ι → ℕ} {ps : ι → Particles K}
    (hflow : ∀ j, (part j).SameFlow src) (hss : ∀ j, (seeds j).shape = [6 * size j, 3])
    (hps : ∀ j, mkParticles (seeds j) = .ok (ps j))
    (hgs : ∀ j, (part j).getParticles env.fs = .ok (ps j)) {N : ℕ} (hN : 0 < N) {seed : NDArray K}
    {p : Particles K} (hs : seed.shape = [6 * N, 3]) (hp : mkParticles seed = .ok p)
    (hg : src.getParticles env.fs = .ok p) {π : ℕ → ι} {τ : ℕ → ℕ} {ρ : ι → ℕ → ℕ}
    (hτ : ∀ i < N, τ i < size (π i)) (hρ : ∀ j, ∀ l < size j, ρ j l < N)
    (hgroups : ∀ i < N, groupOf seed 6 N 3 i = groupOf (seeds (π i)) 6 (size (π i)) 3 (τ i))
    (hback : ∀ j, ∀ l < size j, groupOf (seeds j) 6 (size j) 3 l = groupOf seed 6 N 3 (ρ j l))
    (queue : Bool) (queues : ι → Bool) :
    (∃ field, ((⟨src, I0, .fresh k⟩ : Solver K).run env queue none).result = .ok (some field)) ↔
      ∀ i < N, ∃ field, ((⟨part (π i), I0, .fresh k⟩ : Solver K).run env (queues (π i)) none).result =
        .ok (some field) := by
  constructor
  · rintro ⟨field, hf⟩ i -
    obtain ⟨field', h, -⟩ := C75_local_3d he hsp (hflow (π i)) hI
      (fun s h g hg => (hflow (π i)).analytical h |>.elim fun s' h' => hA s' h' g hg) k (hss (π i)) hs (hρ (π i))
      (hback (π i)) (hps (π i)) hp (hgs (π i)) hg (queues (π i)) queue hf
    exact ⟨field', h⟩
  · intro h
    classical
    let fields : ι → List F := fun j => if hx : ∃ field, ((⟨part j, I0, .fresh k⟩ : Solver K).run env
      (queues j) none).result = .ok (some field) then hx.choose else []
    obtain ⟨field, hf, -⟩ := C140_assembled_3d he hj hsp hsj hI hIj hA k hflow hss hps hgs hN hs hp hg hτ
      hgroups queue (queues := queues) (fields := fields) (fun i hi => by
        have hx := h i hi
        simp only [fields, hx, dite_true]
        exact hx.choose_spec)
    exact ⟨field, hf⟩

end

/-! ## The kernels of `ftle.py` -/

theorem RealEnv.joins {env : Env ℝ FVal} (he : RealEnv env) : env.Joins where
  two js T hne h := by
    rw [he.f2] at h ⊢
    obtain ⟨J, hJ⟩ := List.exists_mem_of_ne_nil js hne
    obtain ⟨js', v', -, h'⟩ := h J hJ
    unfold ftle2 at h' ⊢
    cases hr : recipPeriod T with
    | error e => simp [hr] at h'
    | ok r => exact ⟨_, rfl⟩
  three js T hne h := by
    rw [he.f3] at h ⊢
    have hall : ∃ es, pyMap maxEig3 (js.map cauchyGreen3) = .ok es := by
      refine pyMap_accepts fun A hA => ?_
      obtain ⟨J, hJ, rfl⟩ := List.mem_map.1 hA
      obtain ⟨js', v', hm, h'⟩ := h J hJ
      unfold ftle3 at h'
      cases hm' : pyMap maxEig3 (js'.map cauchyGreen3) with
      | error e => simp [hm'] at h'
      | ok es' =>
        rw [pyMap_map] at hm'
        obtain ⟨j, hj, rfl⟩ := List.getElem_of_mem hm
        obtain ⟨b, -, hb⟩ := pyMap_ok_get hm' j hj
        exact ⟨b, hb⟩
    obtain ⟨es, hes⟩ := hall
    obtain ⟨J, hJ⟩ := List.exists_mem_of_ne_nil js hne
    obtain ⟨js', v', -, h'⟩ := h J hJ
    unfold ftle3 at h' ⊢
    rw [hes]
    cases hm' : pyMap maxEig3 (js'.map cauchyGreen3) with
    | error e => simp [hm'] at h'
    | ok es' =>
      simp only [hm'] at h'
      cases hr : recipPeriod T with
      | error e => simp [hr] at h'
      | ok r => exact ⟨_, rfl⟩

/-! ## The kernels in binary64 -/

theorem entrywise64 {env : Env Fl Val64} {m : Libm} {la : Linalg} (h2 : Env64 env m)
    (h3 : Env64x3 env m la) : env.Entrywise where
  two js js' T v' h hsub := by
    rw [h2.f2] at h ⊢
    simp only [ftle64] at h ⊢
    split at h
    · cases h
    · rename_i hT
      cases h
      refine ⟨_, if_neg hT, by simp, fun i j J hi hj => by simp [hi, hj]⟩
  three js js' T v' h hsub := by
    rw [h3.f3] at h ⊢
    simp only [ftle64x3] at h ⊢
    cases hm : pyMap (maxEig64x3 la) (js'.map fun F => la.mul F F.transpose) with
    | error e => rw [hm] at h; cases h
    | ok es' =>
      rw [pyMap_map] at hm
      obtain ⟨es, hes⟩ : ∃ es, pyMap (fun F => maxEig64x3 la (la.mul F F.transpose)) js = .ok es :=
        pyMap_accepts fun J hJ => by
          obtain ⟨j, hj, rfl⟩ := List.getElem_of_mem (hsub J hJ)
          obtain ⟨b, -, hb⟩ := pyMap_ok_get hm j hj
          exact ⟨b, hb⟩
      rw [pyMap_map] at h
      simp only [hm] at h
      rw [pyMap_map]
      simp only [hes]
      split at h
      · cases h
      · rename_i hT
        cases h
        refine ⟨_, if_neg hT, by simpa using pyMap_ok_length hes, fun i j J hi hj => ?_⟩
        obtain ⟨hi1, hi2⟩ := List.getElem?_eq_some_iff.1 hi
        obtain ⟨hj1, hj2⟩ := List.getElem?_eq_some_iff.1 hj
        obtain ⟨a, a1, a2⟩ := pyMap_ok_get hes i hi1
        obtain ⟨b, b1, b2⟩ := pyMap_ok_get hm j hj1
        rw [hi2] at a2
        rw [hj2, a2] at b2
        cases b2
        simp [a1, b1]

theorem joins64 {env : Env Fl Val64} {m : Libm} {la : Linalg} (h2 : Env64 env m)
    (h3 : Env64x3 env m la) : env.Joins where
  two js T hne h := by
    rw [h2.f2] at h ⊢
    obtain ⟨J, hJ⟩ := List.exists_mem_of_ne_nil js hne
    obtain ⟨js', v', -, h'⟩ := h J hJ
    simp only [ftle64] at h' ⊢
    split at h'
    · cases h'
    · rename_i hT
      exact ⟨_, if_neg hT⟩
  three js T hne h := by
    rw [h3.f3] at h ⊢
    simp only [ftle64x3] at h ⊢
    obtain ⟨es, hes⟩ : ∃ es, pyMap (maxEig64x3 la) (js.map fun F => la.mul F F.transpose) = .ok es := by
      rw [pyMap_map]
      refine pyMap_accepts fun J hJ => ?_
      obtain ⟨js', v', hm, h'⟩ := h J hJ
      cases hm' : pyMap (maxEig64x3 la) (js'.map fun F => la.mul F F.transpose) with
      | error e => rw [hm'] at h'; cases h'
      | ok es' =>
        rw [pyMap_map] at hm'
        obtain ⟨j, hj, rfl⟩ := List.getElem_of_mem hm
        obtain ⟨b, -, hb⟩ := pyMap_ok_get hm' j hj
        exact ⟨b, hb⟩
    obtain ⟨J, hJ⟩ := List.exists_mem_of_ne_nil js hne
    obtain ⟨js', v', -, h'⟩ := h J hJ
    cases hm' : pyMap (maxEig64x3 la) (js'.map fun F => la.mul F F.transpose) with
    | error e => rw [hm'] at h'; cases h'
    | ok es' =>
      simp only [hm'] at h'
      rw [hes]
      split at h'
      · cases h'
      · rename_i hT
        exact ⟨_, if_neg hT⟩

/-! ## Concrete cases -/

section examples

/-- The first group of `exTwo` alone. -/
def exFirst : NDArray ℚ := ⟨[4, 2], fun idx =>
  ((([-1, 0, 1, 0, 0, 1, 0, -1] : List ℚ))[idx.getD 0 0 * 2 + idx.getD 1 0]?).getD 0⟩

theorem exApiEnv_joins : exApiEnv.Joins := by
  constructor
  · intro js T hne h
    obtain ⟨J, hJ⟩ := List.exists_mem_of_ne_nil js hne
    obtain ⟨js', v', -, h'⟩ := h J hJ
    simp only [exApiEnv] at h' ⊢
    split at h'
    · cases h'
    · rename_i hT
      exact ⟨_, if_neg hT⟩
  · intro js T hne h
    obtain ⟨J, hJ⟩ := List.exists_mem_of_ne_nil js hne
    obtain ⟨js', v', -, h'⟩ := h J hJ
    simp only [exApiEnv] at h' ⊢
    split at h'
    · cases h'
    · rename_i hT
      exact ⟨_, if_neg hT⟩

theorem exApiEnv_joining : exApiEnv.sp.Joining := by
  constructor <;> intro me p v d R q hR _ _ ha <;> obtain ⟨_, _, _, _, _, h⟩ := ha.some hR <;> cases h

/-- Libraries that answer are covered: `exStrict` answers all queries of points of the plane. -/
example : exStrict.Joining := by
  constructor
  · intro me p v d R q hR _ hq ha
    obtain ⟨R', q', a', h1, _, h⟩ := ha.some hR
    simp only [exStrict, h1, hq] at h ⊢
    by_cases hd : d = 2
    · subst hd
      exact ⟨_, rfl⟩
    · split at h
      · rename_i n hs; simp at hs; omega
      · cases h
  · intro me p v d R q hR _ hq ha
    obtain ⟨_, _, _, _, _, h⟩ := ha.some hR
    simp [exStrict] at h

theorem exQuadInterp_joins : exQuadInterp.Joins 2 := by
  intro f hf R q _ _ hq _
  cases hf
  obtain ⟨A, h, -⟩ := sourceOf_pointwise R 2 exQuad q hq
  exact ⟨A, h⟩

/-- The two groups of `exTwo` computed by two runs: both succeed, hence the run of `exTwo` does, and
its field is the two fields one after the other. -/
example : ∃ a b, ((⟨exFlow exFirst, exQuadInterp, .fresh .rk4⟩ : Solver ℚ).run exApiEnv true
      none).result = .ok (some [a]) ∧
    ((⟨exFlow exOne, exQuadInterp, .fresh .rk4⟩ : Solver ℚ).run exApiEnv false
      none).result = .ok (some [b]) ∧
    ((⟨exFlow exTwo, exQuadInterp, .fresh .rk4⟩ : Solver ℚ).run exApiEnv false
      none).result = .ok (some [a, b]) := by
  have ok : ∀ (s : Source ℚ) (q : Bool), (((⟨s, exQuadInterp, .fresh .rk4⟩ : Solver ℚ).run exApiEnv q
      none).result.toOption.join.getD []).length = 1 → ∃ a,
      ((⟨s, exQuadInterp, .fresh .rk4⟩ : Solver ℚ).run exApiEnv q none).result = .ok (some [a]) := by
    intro s q h
    rcases hr : ((⟨s, exQuadInterp, .fresh .rk4⟩ : Solver ℚ).run exApiEnv q none).result
      with e | _ | _ | ⟨a, _ | ⟨b, l⟩⟩
    · rw [hr] at h; cases h
    · rw [hr] at h; cases h
    · rw [hr] at h; cases h
    · exact ⟨a, rfl⟩
    · rw [hr] at h; simp [Except.toOption] at h
  obtain ⟨a, ha⟩ := ok (exFlow exFirst) true (by decide +kernel)
  obtain ⟨b, hb⟩ := ok (exFlow exOne) false (by decide +kernel)
  obtain ⟨field, f1, f2, f3⟩ := C140_assembled_2d exApiEnv_entrywise exApiEnv_joins exApiEnv_rowLocal
    exApiEnv_joining (src := exFlow exTwo) exQuadInterp_independent exQuadInterp_joins .rk4 (ι := Bool)
    (part := fun j => exFlow (if j then exOne else exFirst))
    (seeds := fun j => if j then exOne else exFirst) (size := fun _ => 1)
    (ps := fun j => exOf (if j then exOne else exFirst)) (fun j => exFlow_same _ _)
    (by rintro (_ | _) <;> rfl) (by rintro (_ | _) <;> rfl) (fun j => rfl) (N := 2) (by omega)
    (seed := exTwo) (p := exOf exTwo) rfl rfl rfl (π := fun i => decide (i = 1)) (τ := fun _ => 0)
    (fun _ _ => by omega)
    (fun i hi => by interval_cases i <;> decide +kernel) false (queues := fun j => !j)
    (fields := fun j => if j then [b] else [a])
    (fun i hi => by
      interval_cases i
      · exact ha
      · exact hb)
  refine ⟨a, b, ha, hb, ?_⟩
  rw [f1]
  have g0 := f3 0 (by omega)
  have g1 := f3 1 (by omega)
  rcases field with _ | ⟨x, _ | ⟨y, _ | ⟨z, l⟩⟩⟩ <;> simp at f2 g0 g1
  rw [g0, g1]

/-- The kernels of `ftle.py` meet the hypotheses. -/
example : realEnv.Entrywise ∧ realEnv.Joins := ⟨realEnv_ok.entrywise, realEnv_ok.joins⟩

end examples

end Verif
