import Verif.Lemmas.Affine
import Verif.Props.Ab2
import Verif.Props.Turn

/-!
# C125: affine flows

The velocity of an affine flow is a linear function of the position plus a constant, both of which may
change with time.
-/

namespace Verif

open Matrix

/-! ## C125 -/

theorem centralDiff2_affine {M : Matrix (Fin 2) (Fin 2) ℝ} {X x : Fin 4 → Fin 2 → ℝ}
    (hX : ∀ a b, X a - X b = M *ᵥ (x a - x b)) (h1 : x 1 0 ≠ x 0 0) (h2 : x 1 1 = x 0 1)
    (h3 : x 2 1 ≠ x 3 1) (h4 : x 2 0 = x 3 0) : centralDiff2 X x = .ok M := by
  refine centralDiff2_ok.2 ⟨⟨sub_ne_zero.2 h1, sub_ne_zero.2 h3⟩, ?_⟩
  have n1 := sub_ne_zero.2 h1
  have n3 := sub_ne_zero.2 h3
  have e1 : ∀ c, X 1 c - X 0 c = M c 0 * (x 1 0 - x 0 0) := fun c => by
    have := congrFun (hX 1 0) c
    simpa [mulVec, dotProduct, Fin.sum_univ_two, h2] using this
  have e2 : ∀ c, X 2 c - X 3 c = M c 1 * (x 2 1 - x 3 1) := fun c => by
    have := congrFun (hX 2 3) c
    simpa [mulVec, dotProduct, Fin.sum_univ_two, h4] using this
  ext i j
  fin_cases i <;> fin_cases j <;> simp only [diffs2, e1, e2] <;>
    simp [mul_div_assoc, div_self n1, div_self n3]

theorem centralDiff3_affine {M : Matrix (Fin 3) (Fin 3) ℝ} {X x : Fin 6 → Fin 3 → ℝ}
    (hX : ∀ a b, X a - X b = M *ᵥ (x a - x b))
    (h1 : x 1 0 ≠ x 0 0 ∧ x 1 1 = x 0 1 ∧ x 1 2 = x 0 2)
    (h2 : x 2 1 ≠ x 3 1 ∧ x 2 0 = x 3 0 ∧ x 2 2 = x 3 2)
    (h3 : x 4 2 ≠ x 5 2 ∧ x 4 0 = x 5 0 ∧ x 4 1 = x 5 1) : centralDiff3 X x = .ok M := by
  have n1 := sub_ne_zero.2 h1.1
  have n2 := sub_ne_zero.2 h2.1
  have n3 := sub_ne_zero.2 h3.1
  refine centralDiff3_ok.2 ⟨⟨n1, n2, n3⟩, ?_⟩
  have e1 : ∀ c, X 1 c - X 0 c = M c 0 * (x 1 0 - x 0 0) := fun c => by
    have := congrFun (hX 1 0) c
    simpa [mulVec, dotProduct, Fin.sum_univ_three, h1.2.1, h1.2.2] using this
  have e2 : ∀ c, X 2 c - X 3 c = M c 1 * (x 2 1 - x 3 1) := fun c => by
    have := congrFun (hX 2 3) c
    simpa [mulVec, dotProduct, Fin.sum_univ_three, h2.2.1, h2.2.2] using this
  have e3 : ∀ c, X 4 c - X 5 c = M c 2 * (x 4 2 - x 5 2) := fun c => by
    have := congrFun (hX 4 5) c
    simpa [mulVec, dotProduct, Fin.sum_univ_three, h3.2.1, h3.2.2] using this
  ext i j
  fin_cases j <;> simp only [diffs3, e1, e2, e3] <;>
    simp [mul_div_assoc, div_self n1, div_self n2, div_self n3, e1, e2, e3]

/-- **C125 (2-D).**  Any source of data and any interpolator that hands out the velocities of an
affine flow at the points where the method asks for them. -/
theorem C125_affine_2d {env : Env ℝ FVal} (he : RealEnv env) (queue : Bool) (k : Kind)
    {src : Source ℝ} {I0 : AnyInterp ℝ} (hI : I0.Unused)
    (hup : ∀ i < src.numSteps, (src.updated env I0 (i + 1)).2 = none) {N : ℕ}
    {A : ℕ → Matrix (Fin 2) (Fin 2) ℝ} {b : ℕ → Fin 2 → ℝ} {S : ℕ → Set (Fin 2 → ℝ)}
    (hv : ∀ i < src.numSteps, PointwiseOn (S i) (4 * N)
      ((src.updated env I0 (i + 1)).1.velocity env) (fun x => A i *ᵥ x + b i))
    {id : String} (hid : src.id env = .ok id) {seed : NDArray ℝ} {P : Particles ℝ}
    (hs : seed.shape = [4 * N, 2]) (hp : mkParticles seed = .ok P)
    (hP : src.getParticles env.fs = .ok P) (hal : ∀ i < N, AxisAligned2 seed N i)
    (hS : ∀ i < N, ∀ q, ∀ j < src.numSteps, ∀ z ∈ stages k (fun x => A j *ᵥ x + b j) src.timestep
      (flowMap k (fun i x => A i *ᵥ x + b i) src.timestep j (groupOf seed 4 N 2 i q)), z ∈ S j)
    (hn : 2 ≤ src.numSteps) (hh : src.timestep ≠ 0) {M : ℕ → Matrix (Fin 2) (Fin 2) ℝ}
    (hM : RunMatrices k A src.timestep M) :
    ReportsNorm ((⟨src, I0, .fresh k⟩ : Solver ℝ).run env queue none).result N (M src.numSteps)
      ((src.numSteps - 1) * |src.timestep|) := by
  have hT := period_pos hn hh
  refine reportsNorm_of hT ?_
  obtain ⟨σ, h1, h2⟩ := field_replicate ftle2_computes (M src.numSteps) N hT.ne'
  refine ⟨σ, h1, ?_⟩
  rw [run_flow_on_2d env src hI k (fun i x => A i *ᵥ x + b i) S hup N hv hid seed P queue hs hp hP hS,
    pyMap_ok_map (g := fun _ => M src.numSteps)]
  · have e : runPeriod env src = ((src.numSteps : ℝ) - 1) * |src.timestep| := by
      unfold runPeriod
      rw [he.abs]
      push_cast
      rfl
    simp only [e, he.f2, List.map_const', List.length_range, h2]
    rfl
  · intro i hi
    obtain ⟨a1, a2, a3, a4⟩ := hal i (List.mem_range.1 hi)
    exact centralDiff2_affine (x := groupOf seed 4 N 2 i)
      (fun a c => flowMap_affine (fun _ _ _ => rfl) hM _ _) a1 a2 a3 a4

/-- **C125 (3-D).** -/
theorem C125_affine_3d {env : Env ℝ FVal} (he : RealEnv env) (queue : Bool) (k : Kind)
    {src : Source ℝ} {I0 : AnyInterp ℝ} (hI : I0.Unused)
    (hup : ∀ i < src.numSteps, (src.updated env I0 (i + 1)).2 = none) {N : ℕ}
    {A : ℕ → Matrix (Fin 3) (Fin 3) ℝ} {b : ℕ → Fin 3 → ℝ} {S : ℕ → Set (Fin 3 → ℝ)}
    (hv : ∀ i < src.numSteps, PointwiseOn (S i) (6 * N)
      ((src.updated env I0 (i + 1)).1.velocity env) (fun x => A i *ᵥ x + b i))
    {id : String} (hid : src.id env = .ok id) {seed : NDArray ℝ} {P : Particles ℝ}
    (hs : seed.shape = [6 * N, 3]) (hp : mkParticles seed = .ok P)
    (hP : src.getParticles env.fs = .ok P) (hal : ∀ i < N, AxisAligned3 seed N i)
    (hS : ∀ i < N, ∀ q, ∀ j < src.numSteps, ∀ z ∈ stages k (fun x => A j *ᵥ x + b j) src.timestep
      (flowMap k (fun i x => A i *ᵥ x + b i) src.timestep j (groupOf seed 6 N 3 i q)), z ∈ S j)
    (hn : 2 ≤ src.numSteps) (hh : src.timestep ≠ 0) {M : ℕ → Matrix (Fin 3) (Fin 3) ℝ}
    (hM : RunMatrices k A src.timestep M) :
    ReportsNorm ((⟨src, I0, .fresh k⟩ : Solver ℝ).run env queue none).result N (M src.numSteps)
      ((src.numSteps - 1) * |src.timestep|) := by
  have hT := period_pos hn hh
  refine reportsNorm_of hT ?_
  obtain ⟨σ, h1, h2⟩ := field_replicate ftle3_computes (M src.numSteps) N hT.ne'
  refine ⟨σ, h1, ?_⟩
  rw [run_flow_on_3d env src hI k (fun i x => A i *ᵥ x + b i) S hup N hv hid seed P queue hs hp hP hS,
    pyMap_ok_map (g := fun _ => M src.numSteps)]
  · have e : runPeriod env src = ((src.numSteps : ℝ) - 1) * |src.timestep| := by
      unfold runPeriod
      rw [he.abs]
      push_cast
      rfl
    simp only [e, he.f3, List.map_const', List.length_range, h2]
    rfl
  · intro i hi
    obtain ⟨a1, a2, a3⟩ := hal i (List.mem_range.1 hi)
    exact centralDiff3_affine (x := groupOf seed 6 N 3 i)
      (fun a c => flowMap_affine (fun _ _ _ => rfl) hM _ _) a1 a2 a3

/-- **C125 (gridded files, 2-D).**  The files sample an affine flow, whose matrix and constant may
change from snapshot to snapshot, and the method asks for velocities inside the grid only.  The
spacing of the grid and of the seeds, the place of the groups and the constants do not matter. -/
theorem C125_files_2d {env : Env ℝ FVal} (he : RealEnv env) (hm : ExactTarget env.m) (queue : Bool)
    (k : Kind) {v : ℝ → (Fin 2 → ℝ) → Fin 2 → ℝ} {A : ℝ → Matrix (Fin 2) (Fin 2) ℝ}
    {b : ℝ → Fin 2 → ℝ} (hv : IsAffine v A b) {t0 : ℝ} {s : FileSource ℝ} {nx ny : ℕ}
    {x0 dx y0 dy : ℝ} (hd : Samples2 env.fs s v t0 nx ny x0 dx y0 dy) {N : ℕ} {seed : NDArray ℝ}
    {P : Particles ℝ} (hs : seed.shape = [4 * N, 2]) (hp : mkParticles seed = .ok P)
    (hP : readSeedParticles env.fs s.particleFile = .ok P) (hal : ∀ i < N, AxisAligned2 seed N i)
    (hin : ∀ i < N, ∀ q, ∀ j < s.snapshotFiles.length, ∀ z ∈ stages k (v (t0 + j * s.timestep))
      s.timestep (flowMap k (fun j => v (t0 + (j : ℕ) * s.timestep)) s.timestep j
        (groupOf seed 4 N 2 i q)), OnAxis nx x0 dx (z 0) ∧ OnAxis ny y0 dy (z 1))
    (hn : 2 ≤ s.snapshotFiles.length) (hh : s.timestep ≠ 0) {M : ℕ → Matrix (Fin 2) (Fin 2) ℝ}
    (hM : RunMatrices k (fun j => A (t0 + j * s.timestep)) s.timestep M) :
    ReportsNorm ((⟨.file s, .highPerf (HighPerf.fresh [nx, ny]), .fresh k⟩ : Solver ℝ).run env queue
      none).result N (M s.snapshotFiles.length)
      ((s.snapshotFiles.length - 1) * |s.timestep|) := by
  have e : (fun j => v (t0 + (j : ℕ) * s.timestep)) =
      fun j x => A (t0 + (j : ℕ) * s.timestep) *ᵥ x + b (t0 + (j : ℕ) * s.timestep) := by
    funext j x
    exact hv _ _
  refine C125_affine_2d (src := .file s) he queue k
    (by exact (rfl : (HighPerf.fresh (K := ℝ) [nx, ny]).uLen = none))
    (fun i hi => (samples_updated_2d hm hd i hi 0).1) (A := fun j => A (t0 + j * s.timestep))
    (b := fun j => b (t0 + j * s.timestep))
    (S := fun _ => {z | OnAxis nx x0 dx (z 0) ∧ OnAxis ny y0 dy (z 1)}) (fun i hi => ?_) rfl hs hp hP hal
    (fun i hi q j hj z hz => ?_) hn hh hM
  · intro pos h1 h2
    obtain ⟨R, r1, r2, r3⟩ := (samples_updated_2d hm hd i hi (4 * N)).2 pos h1 h2
    refine ⟨R, r1, r2, fun r hr => ?_⟩
    rw [r3 r hr, bilinear_affine hv _ hd.hdx hd.hdy (h2 r hr), hv]
  · refine hin i hi q j hj z ?_
    rw [e]
    exact (congrFun e j) ▸ hz

/-- **C125 (gridded files, 3-D).**  Grids with as many nodes in `x` as in `y` (C30). -/
theorem C125_files_3d {env : Env ℝ FVal} (he : RealEnv env) (hm : ExactTarget env.m) (queue : Bool)
    (k : Kind) {v : ℝ → (Fin 3 → ℝ) → Fin 3 → ℝ} {A : ℝ → Matrix (Fin 3) (Fin 3) ℝ}
    {b : ℝ → Fin 3 → ℝ} (hv : IsAffine v A b) {t0 : ℝ} {s : FileSource ℝ} {m nz : ℕ}
    {x0 dx y0 dy z0 dz : ℝ} (hd : Samples3 env.fs s v t0 m nz x0 dx y0 dy z0 dz) {N : ℕ}
    {seed : NDArray ℝ} {P : Particles ℝ} (hs : seed.shape = [6 * N, 3]) (hp : mkParticles seed = .ok P)
    (hP : readSeedParticles env.fs s.particleFile = .ok P) (hal : ∀ i < N, AxisAligned3 seed N i)
    (hin : ∀ i < N, ∀ q, ∀ j < s.snapshotFiles.length, ∀ z ∈ stages k (v (t0 + j * s.timestep))
      s.timestep (flowMap k (fun j => v (t0 + (j : ℕ) * s.timestep)) s.timestep j
        (groupOf seed 6 N 3 i q)),
      OnAxis m x0 dx (z 0) ∧ OnAxis m y0 dy (z 1) ∧ OnAxis nz z0 dz (z 2))
    (hn : 2 ≤ s.snapshotFiles.length) (hh : s.timestep ≠ 0) {M : ℕ → Matrix (Fin 3) (Fin 3) ℝ}
    (hM : RunMatrices k (fun j => A (t0 + j * s.timestep)) s.timestep M) :
    ReportsNorm ((⟨.file s, .highPerf (HighPerf.fresh [m, m, nz]), .fresh k⟩ : Solver ℝ).run env queue
      none).result N (M s.snapshotFiles.length)
      ((s.snapshotFiles.length - 1) * |s.timestep|) := by
  have e : (fun j => v (t0 + (j : ℕ) * s.timestep)) =
      fun j x => A (t0 + (j : ℕ) * s.timestep) *ᵥ x + b (t0 + (j : ℕ) * s.timestep) := by
    funext j x
    exact hv _ _
  refine C125_affine_3d (src := .file s) he queue k
    (by exact (rfl : (HighPerf.fresh (K := ℝ) [m, m, nz]).uLen = none))
    (fun i hi => (samples_updated_3d hm hd i hi 0).1) (A := fun j => A (t0 + j * s.timestep))
    (b := fun j => b (t0 + j * s.timestep))
    (S := fun _ => {z | OnAxis m x0 dx (z 0) ∧ OnAxis m y0 dy (z 1) ∧ OnAxis nz z0 dz (z 2)})
    (fun i hi => ?_) rfl hs hp hP hal (fun i hi q j hj z hz => ?_) hn hh hM
  · intro pos h1 h2
    obtain ⟨R, r1, r2, r3⟩ := (samples_updated_3d hm hd i hi (6 * N)).2 pos h1 h2
    refine ⟨R, r1, r2, fun r hr => ?_⟩
    rw [r3 r hr, trilinear_affine hv _ hd.hdx hd.hdy hd.hdz (h2 r hr), hv]
  · refine hin i hi q j hj z ?_
    rw [e]
    exact (congrFun e j) ▸ hz

theorem analytical_named (env : Env ℝ FVal) {s : AnalyticalSource ℝ} (h : 2 ≤ s.times.length) :
    ∃ id, (Source.analytical s).id env = .ok id := by
  unfold Source.id
  cases ht : s.times with
  | nil => simp [ht] at h
  | cons t ts => exact ⟨env.timeName t, by simp only [ht]⟩

/-- **C125 (functions, 2-D).**  A velocity function `A x + b`. -/
theorem C125_function_2d {env : Env ℝ FVal} (he : RealEnv env) (queue : Bool) (k : Kind)
    (s : AnalyticalSource ℝ) (fn : VelocityFn ℝ) {seed : NDArray ℝ} {N : ℕ}
    (hs : seed.shape = [4 * N, 2]) (hp : mkParticles seed = .ok s.particles)
    (hal : ∀ i < N, AxisAligned2 seed N i) {A : Matrix (Fin 2) (Fin 2) ℝ} {b : Fin 2 → ℝ}
    (hv : Pointwise (4 * N) 2 (fn 0) (fun x => A *ᵥ x + b)) (hlen : 2 ≤ s.times.length)
    (hh : s.timestep ≠ 0) {M : ℕ → Matrix (Fin 2) (Fin 2) ℝ}
    (hM : RunMatrices k (fun _ => A) s.timestep M) :
    ReportsNorm ((⟨.analytical s, .analytical (.fresh (some fn)), .fresh k⟩ :
        Solver ℝ).run env queue none).result N
      (M s.times.length) ((s.times.length - 1) * |s.timestep|) := by
  obtain ⟨_, hid⟩ := analytical_named env hlen
  exact C125_affine_2d (src := .analytical s) (I0 := .analytical (.fresh (some fn))) he queue k trivial
    (fun i _ => by rw [analytical_updated])
    (A := fun _ => A) (b := fun _ => b) (S := fun _ => Set.univ)
    (fun i _ => by rw [analytical_updated]; exact fun pos h1 _ => hv pos h1) hid hs hp rfl hal
    (fun _ _ _ _ _ _ _ => trivial) hlen hh hM

/-- **C125 (functions, 3-D).** -/
theorem C125_function_3d {env : Env ℝ FVal} (he : RealEnv env) (queue : Bool) (k : Kind)
    (s : AnalyticalSource ℝ) (fn : VelocityFn ℝ) {seed : NDArray ℝ} {N : ℕ}
    (hs : seed.shape = [6 * N, 3]) (hp : mkParticles seed = .ok s.particles)
    (hal : ∀ i < N, AxisAligned3 seed N i) {A : Matrix (Fin 3) (Fin 3) ℝ} {b : Fin 3 → ℝ}
    (hv : Pointwise (6 * N) 3 (fn 0) (fun x => A *ᵥ x + b)) (hlen : 2 ≤ s.times.length)
    (hh : s.timestep ≠ 0) {M : ℕ → Matrix (Fin 3) (Fin 3) ℝ}
    (hM : RunMatrices k (fun _ => A) s.timestep M) :
    ReportsNorm ((⟨.analytical s, .analytical (.fresh (some fn)), .fresh k⟩ :
        Solver ℝ).run env queue none).result N
      (M s.times.length) ((s.times.length - 1) * |s.timestep|) := by
  obtain ⟨_, hid⟩ := analytical_named env hlen
  exact C125_affine_3d (src := .analytical s) (I0 := .analytical (.fresh (some fn))) he queue k trivial
    (fun i _ => by rw [analytical_updated])
    (A := fun _ => A) (b := fun _ => b) (S := fun _ => Set.univ)
    (fun i _ => by rw [analytical_updated]; exact fun pos h1 _ => hv pos h1) hid hs hp rfl hal
    (fun _ _ _ _ _ _ _ => trivial) hlen hh hM

end Verif
