import Verif.Lemmas.Pieces
import Verif.Lemmas.Scattered
import Verif.Props.Affine

/-!
# C129: groups of seeds that are finer than the samples

The values of the single groups of a field, when the velocities handed out to the neighbours of a group
are equal, or come from one affine piece of an interpolant.
-/

namespace Verif

open Matrix

/-! ## Any source of data and any interpolator -/

theorem run_values_2d {env : Env ℝ FVal} (he : RealEnv env) (queue : Bool) (k : Kind)
    {src : Source ℝ} {I0 : AnyInterp ℝ} (hI : I0.Unused)
    (hup : ∀ i < src.numSteps, (src.updated env I0 (i + 1)).2 = none) {N : ℕ}
    {g : ℕ → (Fin 2 → ℝ) → Fin 2 → ℝ} {S : ℕ → Set (Fin 2 → ℝ)}
    (hv : ∀ i < src.numSteps, PointwiseOn (S i) (4 * N)
      ((src.updated env I0 (i + 1)).1.velocity env) (g i))
    {id : String} (hid : src.id env = .ok id) {seed : NDArray ℝ} {P : Particles ℝ}
    (hs : seed.shape = [4 * N, 2]) (hp : mkParticles seed = .ok P)
    (hP : src.getParticles env.fs = .ok P) (hal : ∀ i < N, AxisAligned2 seed N i)
    (hS : ∀ i < N, ∀ q, ∀ j < src.numSteps, ∀ z ∈ stages k (g j) src.timestep
      (flowMap k g src.timestep j (groupOf seed 4 N 2 i q)), z ∈ S j)
    (hn : 2 ≤ src.numSteps) (hh : src.timestep ≠ 0) :
    ∃ vs, ((⟨src, I0, .fresh k⟩ : Solver ℝ).run env queue none).result = .ok (some vs) ∧
      vs.length = N ∧ ∀ i < N, ∀ D,
        centralDiff2 (fun b => flowMap k g src.timestep src.numSteps (groupOf seed 4 N 2 i b))
          (groupOf seed 4 N 2 i) = .ok D →
        ∃ σ, IsMaxStretch D σ ∧
          vs[i]? = some (ftleVal σ ((src.numSteps - 1) * |src.timestep|)) := by
  have hT := period_pos hn hh
  have e : runPeriod env src = ((src.numSteps : ℝ) - 1) * |src.timestep| := by
    unfold runPeriod
    rw [he.abs]
    push_cast
    rfl
  have all : ∀ i < N, ∃ D, centralDiff2
      (fun b => flowMap k g src.timestep src.numSteps (groupOf seed 4 N 2 i b))
      (groupOf seed 4 N 2 i) = .ok D := fun i hi =>
    centralDiff2_some _ (hal i hi).1 (hal i hi).2.2.1
  choose! D hD using all
  obtain ⟨vs, v1, v2, v3⟩ := field_values ftle2_computes (N := N) hT.ne' (D := D)
  refine ⟨vs, ?_, v2, fun i hi D' hD' => ?_⟩
  · rw [run_flow_on_2d env src hI k g S hup N hv hid seed P queue hs hp hP hS,
      pyMap_ok_map (g := D) (fun i hi => hD i (List.mem_range.1 hi))]
    simp only [e, he.f2, v1]
    rfl
  · have := hD i hi
    rw [hD'] at this
    cases this
    exact v3 i hi

theorem run_values_3d {env : Env ℝ FVal} (he : RealEnv env) (queue : Bool) (k : Kind)
    {src : Source ℝ} {I0 : AnyInterp ℝ} (hI : I0.Unused)
    (hup : ∀ i < src.numSteps, (src.updated env I0 (i + 1)).2 = none) {N : ℕ}
    {g : ℕ → (Fin 3 → ℝ) → Fin 3 → ℝ} {S : ℕ → Set (Fin 3 → ℝ)}
    (hv : ∀ i < src.numSteps, PointwiseOn (S i) (6 * N)
      ((src.updated env I0 (i + 1)).1.velocity env) (g i))
    {id : String} (hid : src.id env = .ok id) {seed : NDArray ℝ} {P : Particles ℝ}
    (hs : seed.shape = [6 * N, 3]) (hp : mkParticles seed = .ok P)
    (hP : src.getParticles env.fs = .ok P) (hal : ∀ i < N, AxisAligned3 seed N i)
    (hS : ∀ i < N, ∀ q, ∀ j < src.numSteps, ∀ z ∈ stages k (g j) src.timestep
      (flowMap k g src.timestep j (groupOf seed 6 N 3 i q)), z ∈ S j)
    (hn : 2 ≤ src.numSteps) (hh : src.timestep ≠ 0) :
    ∃ vs, ((⟨src, I0, .fresh k⟩ : Solver ℝ).run env queue none).result = .ok (some vs) ∧
      vs.length = N ∧ ∀ i < N, ∀ D,
        centralDiff3 (fun b => flowMap k g src.timestep src.numSteps (groupOf seed 6 N 3 i b))
          (groupOf seed 6 N 3 i) = .ok D →
        ∃ σ, IsMaxStretch D σ ∧
          vs[i]? = some (ftleVal σ ((src.numSteps - 1) * |src.timestep|)) := by
  have hT := period_pos hn hh
  have e : runPeriod env src = ((src.numSteps : ℝ) - 1) * |src.timestep| := by
    unfold runPeriod
    rw [he.abs]
    push_cast
    rfl
  have all : ∀ i < N, ∃ D, centralDiff3
      (fun b => flowMap k g src.timestep src.numSteps (groupOf seed 6 N 3 i b))
      (groupOf seed 6 N 3 i) = .ok D := fun i hi =>
    centralDiff3_some _ (hal i hi).1.1 (hal i hi).2.1.1 (hal i hi).2.2.1
  choose! D hD using all
  obtain ⟨vs, v1, v2, v3⟩ := field_values ftle3_computes (N := N) hT.ne' (D := D)
  refine ⟨vs, ?_, v2, fun i hi D' hD' => ?_⟩
  · rw [run_flow_on_3d env src hI k g S hup N hv hid seed P queue hs hp hP hS,
      pyMap_ok_map (g := D) (fun i hi => hD i (List.mem_range.1 hi))]
    simp only [e, he.f3, v1]
    rfl
  · have := hD i hi
    rw [hD'] at this
    cases this
    exact v3 i hi

/-- The value of a group that the run maps by the matrix `M` up to a shift. -/
theorem value_of_matrix {d : ℕ} [NeZero d] {vs : List FVal} {i : ℕ} {T : ℝ} (hT : 0 < T)
    {M : Matrix (Fin d) (Fin d) ℝ} (h : ∃ σ, IsMaxStretch M σ ∧ vs[i]? = some (ftleVal σ T)) :
    ∃ σ, IsMaxStretch M σ ∧ (M ≠ 0 → 0 < σ ∧ vs[i]? = some (.fin (1 / T * Real.log σ))) ∧
      (M = 0 → vs[i]? = some .negInf) := by
  obtain ⟨σ, h1, h2⟩ := h
  refine ⟨σ, h1, fun hM => ?_, fun hM => ?_⟩
  · have h0 : 0 < σ := lt_of_le_of_ne (maxStretch_nonneg h1)
      (fun h => hM ((maxStretch_eq_zero_iff h1).1 h.symm))
    exact ⟨h0, by rw [h2, ftleVal_pos h0]⟩
  · rw [h2, (maxStretch_eq_zero_iff h1).2 hM, ftleVal_zero_pos hT]

/-! ## C129 -/

/-- **C129 (2-D).**  The run hands out velocities `g j` at step `j`.  The field has one value per
group.

* A group whose neighbours are handed the same velocities at every step has the value 0.
* A group whose neighbours are, at every step `j`, in one piece where `g j` is `A j x + b j`, has the
  value `ln σ / T`, where `σ` is the largest stretching of the matrix of the run for the matrices `A`.
  The pieces may differ from group to group and from step to step.

Nothing is assumed of the velocities handed out to the other groups, except that there are some. -/
theorem C129_groups_2d {env : Env ℝ FVal} (he : RealEnv env) (queue : Bool) (k : Kind)
    {src : Source ℝ} {I0 : AnyInterp ℝ} (hI : I0.Unused)
    (hup : ∀ i < src.numSteps, (src.updated env I0 (i + 1)).2 = none) {N : ℕ}
    {g : ℕ → (Fin 2 → ℝ) → Fin 2 → ℝ} {S : ℕ → Set (Fin 2 → ℝ)}
    (hv : ∀ i < src.numSteps, PointwiseOn (S i) (4 * N)
      ((src.updated env I0 (i + 1)).1.velocity env) (g i))
    {id : String} (hid : src.id env = .ok id) {seed : NDArray ℝ} {P : Particles ℝ}
    (hs : seed.shape = [4 * N, 2]) (hp : mkParticles seed = .ok P)
    (hP : src.getParticles env.fs = .ok P) (hal : ∀ i < N, AxisAligned2 seed N i)
    (hS : ∀ i < N, ∀ q, ∀ j < src.numSteps, ∀ z ∈ stages k (g j) src.timestep
      (flowMap k g src.timestep j (groupOf seed 4 N 2 i q)), z ∈ S j)
    (hn : 2 ≤ src.numSteps) (hh : src.timestep ≠ 0) :
    ∃ vs, ((⟨src, I0, .fresh k⟩ : Solver ℝ).run env queue none).result = .ok (some vs) ∧
      vs.length = N ∧ ∀ i < N,
        ((∀ q, ∀ j < src.numSteps,
          (stages k (g j) src.timestep
            (flowMap k g src.timestep j (groupOf seed 4 N 2 i q))).map (g j) =
          (stages k (g j) src.timestep
            (flowMap k g src.timestep j (groupOf seed 4 N 2 i 0))).map (g j)) →
          vs[i]? = some (.fin 0)) ∧
        ∀ (A : ℕ → Matrix (Fin 2) (Fin 2) ℝ) (b : ℕ → Fin 2 → ℝ) (M : ℕ → Matrix (Fin 2) (Fin 2) ℝ),
          RunMatrices k A src.timestep M →
          (∀ q, ∀ j < src.numSteps, ∀ z ∈ stages k (g j) src.timestep
            (flowMap k g src.timestep j (groupOf seed 4 N 2 i q)), g j z = A j *ᵥ z + b j) →
          ∃ σ, IsMaxStretch (M src.numSteps) σ ∧
            (M src.numSteps ≠ 0 → 0 < σ ∧
              vs[i]? = some (.fin (1 / ((src.numSteps - 1) * |src.timestep|) * Real.log σ))) ∧
            (M src.numSteps = 0 → vs[i]? = some .negInf) := by
  have hT := period_pos hn hh
  obtain ⟨vs, v1, v2, v3⟩ := run_values_2d he queue k hI hup hv hid hs hp hP hal hS hn hh
  refine ⟨vs, v1, v2, fun i hi => ⟨fun h => ?_, fun A b M hM h => ?_⟩⟩
  · obtain ⟨a1, a2, a3, a4⟩ := hal i hi
    have hd := centralDiff2_affine (M := 1) (x := groupOf seed 4 N 2 i)
      (X := fun b => flowMap k g src.timestep src.numSteps (groupOf seed 4 N 2 i b))
      (fun a c => by
        have ea := (flowMap_together (h a)).1
        have ec := (flowMap_together (h c)).1
        rw [one_mulVec]
        have := congrArg₂ (· - ·) ea ec
        simpa only [sub_sub_sub_cancel_right] using this) a1 a2 a3 a4
    obtain ⟨σ, s1, s2⟩ := v3 i hi 1 hd
    rw [s2, s1.unique maxStretch_one, ftleVal_pos one_pos, Real.log_one, mul_zero]
  · obtain ⟨a1, a2, a3, a4⟩ := hal i hi
    have hd := centralDiff2_affine (M := M src.numSteps) (x := groupOf seed 4 N 2 i)
      (X := fun b => flowMap k g src.timestep src.numSteps (groupOf seed 4 N 2 i b))
      (fun a c => by
        have e : ∀ q, flowMap k g src.timestep src.numSteps (groupOf seed 4 N 2 i q) =
            flowMap k (fun j z => A j *ᵥ z + b j) src.timestep src.numSteps
              (groupOf seed 4 N 2 i q) := fun q => (flowMap_congr (h q)).1
        rw [e, e]
        exact flowMap_affine (fun _ _ _ => rfl) hM _ _) a1 a2 a3 a4
    exact value_of_matrix hT (v3 i hi _ hd)

/-- **C129 (3-D).** -/
theorem C129_groups_3d {env : Env ℝ FVal} (he : RealEnv env) (queue : Bool) (k : Kind)
    {src : Source ℝ} {I0 : AnyInterp ℝ} (hI : I0.Unused)
    (hup : ∀ i < src.numSteps, (src.updated env I0 (i + 1)).2 = none) {N : ℕ}
    {g : ℕ → (Fin 3 → ℝ) → Fin 3 → ℝ} {S : ℕ → Set (Fin 3 → ℝ)}
    (hv : ∀ i < src.numSteps, PointwiseOn (S i) (6 * N)
      ((src.updated env I0 (i + 1)).1.velocity env) (g i))
    {id : String} (hid : src.id env = .ok id) {seed : NDArray ℝ} {P : Particles ℝ}
    (hs : seed.shape = [6 * N, 3]) (hp : mkParticles seed = .ok P)
    (hP : src.getParticles env.fs = .ok P) (hal : ∀ i < N, AxisAligned3 seed N i)
    (hS : ∀ i < N, ∀ q, ∀ j < src.numSteps, ∀ z ∈ stages k (g j) src.timestep
      (flowMap k g src.timestep j (groupOf seed 6 N 3 i q)), z ∈ S j)
    (hn : 2 ≤ src.numSteps) (hh : src.timestep ≠ 0) :
    ∃ vs, ((⟨src, I0, .fresh k⟩ : Solver ℝ).run env queue none).result = .ok (some vs) ∧
      vs.length = N ∧ ∀ i < N,
        ((∀ q, ∀ j < src.numSteps,
          (stages k (g j) src.timestep
            (flowMap k g src.timestep j (groupOf seed 6 N 3 i q))).map (g j) =
          (stages k (g j) src.timestep
            (flowMap k g src.timestep j (groupOf seed 6 N 3 i 0))).map (g j)) →
          vs[i]? = some (.fin 0)) ∧
        ∀ (A : ℕ → Matrix (Fin 3) (Fin 3) ℝ) (b : ℕ → Fin 3 → ℝ) (M : ℕ → Matrix (Fin 3) (Fin 3) ℝ),
          RunMatrices k A src.timestep M →
          (∀ q, ∀ j < src.numSteps, ∀ z ∈ stages k (g j) src.timestep
            (flowMap k g src.timestep j (groupOf seed 6 N 3 i q)), g j z = A j *ᵥ z + b j) →
          ∃ σ, IsMaxStretch (M src.numSteps) σ ∧
            (M src.numSteps ≠ 0 → 0 < σ ∧
              vs[i]? = some (.fin (1 / ((src.numSteps - 1) * |src.timestep|) * Real.log σ))) ∧
            (M src.numSteps = 0 → vs[i]? = some .negInf) := by
  have hT := period_pos hn hh
  obtain ⟨vs, v1, v2, v3⟩ := run_values_3d he queue k hI hup hv hid hs hp hP hal hS hn hh
  refine ⟨vs, v1, v2, fun i hi => ⟨fun h => ?_, fun A b M hM h => ?_⟩⟩
  · obtain ⟨a1, a2, a3⟩ := hal i hi
    have hd := centralDiff3_affine (M := 1) (x := groupOf seed 6 N 3 i)
      (X := fun b => flowMap k g src.timestep src.numSteps (groupOf seed 6 N 3 i b))
      (fun a c => by
        have ea := (flowMap_together (h a)).1
        have ec := (flowMap_together (h c)).1
        rw [one_mulVec]
        have := congrArg₂ (· - ·) ea ec
        simpa only [sub_sub_sub_cancel_right] using this) a1 a2 a3
    obtain ⟨σ, s1, s2⟩ := v3 i hi 1 hd
    rw [s2, s1.unique maxStretch_one, ftleVal_pos one_pos, Real.log_one, mul_zero]
  · obtain ⟨a1, a2, a3⟩ := hal i hi
    have hd := centralDiff3_affine (M := M src.numSteps) (x := groupOf seed 6 N 3 i)
      (X := fun b => flowMap k g src.timestep src.numSteps (groupOf seed 6 N 3 i b))
      (fun a c => by
        have e : ∀ q, flowMap k g src.timestep src.numSteps (groupOf seed 6 N 3 i q) =
            flowMap k (fun j z => A j *ᵥ z + b j) src.timestep src.numSteps
              (groupOf seed 6 N 3 i q) := fun q => (flowMap_congr (h q)).1
        rw [e, e]
        exact flowMap_affine (fun _ _ _ => rfl) hM _ _) a1 a2 a3
    exact value_of_matrix hT (v3 i hi _ hd)

/-! ## Scattered data -/

/-- **C129 (nearest point).**  SciPy's interpolator answers with the value at the sample point
`near j z` for the points `p j`.  Over at least two snapshots, whatever the velocities in the files: the run
succeeds, and a group whose neighbours have the same nearest sample points at every stage of every
step has the value 0. -/
theorem C129_nearest {env : Env ℝ FVal} (he : RealEnv env) (queue : Bool) (k : Kind) {me : Scatter}
    {v : ℝ → (Fin 2 → ℝ) → Fin 2 → ℝ} {t0 : ℝ} {s : FileSource ℝ}
    {p : ℕ → NDArray ℝ} {n : ℕ → ℕ} (hd : ScatterSamples env.fs s v t0 p n)
    {near : ℕ → (Fin 2 → ℝ) → ℕ} (hnear : ∀ j z, near j z < n j)
    (build : ∀ j < s.snapshotFiles.length, ∀ w : NDArray ℝ, w.shape = [n j] →
      env.sp.scatterBuild me (p j) w = none)
    (call : ∀ j < s.snapshotFiles.length, ∀ (w q : NDArray ℝ) (rows : ℕ), w.shape = [n j] →
      q.shape = [rows, 2] → ∃ f, env.sp.scatterCall me (p j) w q = .ok f ∧
        ∀ r < rows, f r = w.get [near j (rowOf q 2 r)])
    {N : ℕ} {seed : NDArray ℝ} {P : Particles ℝ} (hs : seed.shape = [4 * N, 2])
    (hp : mkParticles seed = .ok P) (hP : readSeedParticles env.fs s.particleFile = .ok P)
    (hal : ∀ i < N, AxisAligned2 seed N i)
    (hn : 2 ≤ s.snapshotFiles.length) (hh : s.timestep ≠ 0)
    {g : ℕ → (Fin 2 → ℝ) → Fin 2 → ℝ}
    (hg : ∀ j z, g j z = v (t0 + j * s.timestep) (samplePoint (p j) (near j z))) :
    ∃ vs, ((⟨.file s, .scatter (.fresh me), .fresh k⟩ : Solver ℝ).run env queue none).result =
        .ok (some vs) ∧ vs.length = N ∧
      ∀ i < N, (∀ q, ∀ j < s.snapshotFiles.length,
        (stages k (g j) s.timestep
          (flowMap k g s.timestep j (groupOf seed 4 N 2 i q))).map (near j) =
        (stages k (g j) s.timestep
          (flowMap k g s.timestep j (groupOf seed 4 N 2 i 0))).map (near j)) →
        vs[i]? = some (.fin 0) := by
  have all := fun j (hj : j < s.snapshotFiles.length) =>
    scatter_weights (env := env) (me := me) hd build j hj (rows := 4 * N) (R := Set.univ)
      (W := fun z k => if k = near j z then 1 else 0) (fun w q rows hw hq => by
        obtain ⟨f, f1, f2⟩ := call j hj w q rows hw hq
        refine ⟨f, f1, fun r hr _ => ?_⟩
        rw [f2 r hr]
        simp [hnear]) (by omega)
  obtain ⟨vs, h1, h2, h3⟩ := C129_groups_2d (src := .file s) he queue k
    (I0 := .scatter (.fresh me)) trivial (fun i hi => (all i hi).1) (g := g) (S := fun _ => Set.univ)
    (fun j hj => by
      intro q hq hR
      obtain ⟨A, a1, a2, a3⟩ := (all j hj).2 q hq hR
      refine ⟨A, a1, a2, fun r hr => ?_⟩
      rw [a3 r hr, hg]
      funext c
      simp [hnear]) rfl hs hp hP hal (fun _ _ _ _ _ _ _ => trivial) hn hh
  refine ⟨vs, h1, h2, fun i hi h => (h3 i hi).1 fun q j hj => ?_⟩
  have e : g j = (fun m => v (t0 + j * s.timestep) (samplePoint (p j) m)) ∘ near j := by
    funext z
    rw [hg]
    rfl
  conv_lhs => rw [e, ← List.map_map]
  conv_rhs => rw [e, ← List.map_map]
  have := h q j hj
  rw [e] at this
  exact congrArg _ this

/-- **C129 (triangles).**  SciPy's interpolator is linear on triangles: at step `j`, triangle `a` has
the corners `c j a 0`, `c j a 1`, `c j a 2` among the points `p j`, and a point `z` of the region `R j`
lies in triangle `tri j z` with the barycentric coordinates `bar j z`.  The run succeeds.  Take a
group whose neighbours are, at every step, in triangles where the affine function `A j x + b j` has the
velocities of the files at the corners.  Its value is `ln σ / T`, where `σ` is the largest
stretching of the matrix of the run for the matrices `A`.

When all points of the group are in one triangle at every step, `A j x + b j` is the interpolant on that
triangle; when the files sample an affine flow, it is the flow, and the triangles do not matter. -/
theorem C129_triangles {env : Env ℝ FVal} (he : RealEnv env) (queue : Bool) (k : Kind) {me : Scatter}
    {v : ℝ → (Fin 2 → ℝ) → Fin 2 → ℝ} {t0 : ℝ} {s : FileSource ℝ}
    {p : ℕ → NDArray ℝ} {n : ℕ → ℕ} (hd : ScatterSamples env.fs s v t0 p n)
    {R : ℕ → Set (Fin 2 → ℝ)} {c : ℕ → ℕ → Fin 3 → ℕ} (hc : ∀ j a i, c j a i < n j)
    {tri : ℕ → (Fin 2 → ℝ) → ℕ} {bar : ℕ → (Fin 2 → ℝ) → Fin 3 → ℝ}
    (hbar : ∀ j, ∀ z ∈ R j, ∑ i, bar j z i = 1 ∧
      z = ∑ i, bar j z i • samplePoint (p j) (c j (tri j z) i))
    (build : ∀ j < s.snapshotFiles.length, ∀ w : NDArray ℝ, w.shape = [n j] →
      env.sp.scatterBuild me (p j) w = none)
    (call : ∀ j < s.snapshotFiles.length, ∀ (w q : NDArray ℝ) (rows : ℕ), w.shape = [n j] →
      q.shape = [rows, 2] → ∃ f, env.sp.scatterCall me (p j) w q = .ok f ∧
        ∀ r < rows, rowOf q 2 r ∈ R j →
          f r = ∑ i, bar j (rowOf q 2 r) i * w.get [c j (tri j (rowOf q 2 r)) i])
    {N : ℕ} {seed : NDArray ℝ} {P : Particles ℝ} (hs : seed.shape = [4 * N, 2])
    (hp : mkParticles seed = .ok P) (hP : readSeedParticles env.fs s.particleFile = .ok P)
    (hal : ∀ i < N, AxisAligned2 seed N i)
    (hn : 2 ≤ s.snapshotFiles.length) (hh : s.timestep ≠ 0)
    {g : ℕ → (Fin 2 → ℝ) → Fin 2 → ℝ}
    (hg : ∀ j z, g j z =
      ∑ i, bar j z i • v (t0 + j * s.timestep) (samplePoint (p j) (c j (tri j z) i)))
    (hR : ∀ i < N, ∀ q, ∀ j < s.snapshotFiles.length, ∀ z ∈ stages k (g j) s.timestep
      (flowMap k g s.timestep j (groupOf seed 4 N 2 i q)), z ∈ R j) :
    ∃ vs, ((⟨.file s, .scatter (.fresh me), .fresh k⟩ : Solver ℝ).run env queue none).result =
        .ok (some vs) ∧ vs.length = N ∧
      ∀ i < N, ∀ (A : ℕ → Matrix (Fin 2) (Fin 2) ℝ) (b : ℕ → Fin 2 → ℝ)
        (M : ℕ → Matrix (Fin 2) (Fin 2) ℝ), RunMatrices k A s.timestep M →
        (∀ q, ∀ j < s.snapshotFiles.length, ∀ z ∈ stages k (g j) s.timestep
          (flowMap k g s.timestep j (groupOf seed 4 N 2 i q)), ∀ l,
          v (t0 + j * s.timestep) (samplePoint (p j) (c j (tri j z) l)) =
            A j *ᵥ samplePoint (p j) (c j (tri j z) l) + b j) →
        ∃ σ, IsMaxStretch (M s.snapshotFiles.length) σ ∧
          (M s.snapshotFiles.length ≠ 0 → 0 < σ ∧ vs[i]? =
            some (.fin (1 / ((s.snapshotFiles.length - 1) * |s.timestep|) * Real.log σ))) ∧
          (M s.snapshotFiles.length = 0 → vs[i]? = some .negInf) := by
  have all := fun j (hj : j < s.snapshotFiles.length) =>
    scatter_weights (env := env) (me := me) hd build j hj (rows := 4 * N) (R := R j)
      (W := fun z k => ∑ i, if c j (tri j z) i = k then bar j z i else 0) (fun w q rows hw hq => by
        obtain ⟨f, f1, f2⟩ := call j hj w q rows hw hq
        refine ⟨f, f1, fun r hr hz => ?_⟩
        rw [f2 r hr hz]
        simp only [Finset.sum_mul]
        rw [Finset.sum_comm]
        refine Finset.sum_congr rfl fun i _ => ?_
        simp [hc, ite_mul]) (by omega)
  obtain ⟨vs, h1, h2, h3⟩ := C129_groups_2d (src := .file s) he queue k
    (I0 := .scatter (.fresh me)) trivial (fun i hi => (all i hi).1) (g := g) (S := R)
    (fun j hj => by
      intro q hq hz
      obtain ⟨A, a1, a2, a3⟩ := (all j hj).2 q hq hz
      refine ⟨A, a1, a2, fun r hr => ?_⟩
      rw [a3 r hr, hg]
      funext e
      simp only [Finset.sum_mul]
      rw [Finset.sum_comm, Finset.sum_apply]
      refine Finset.sum_congr rfl fun i _ => ?_
      simp [hc, ite_mul]) rfl hs hp hP hal hR hn hh
  refine ⟨vs, h1, h2, fun i hi A b M hM h => (h3 i hi).2 A b M hM fun q j hj z hz => ?_⟩
  obtain ⟨b1, b2⟩ := hbar j z (hR i hi q j hj z hz)
  rw [hg]
  conv_rhs => rw [b2]
  rw [mulVec_sum]
  simp only [h q j hj z hz, smul_add, Finset.sum_add_distrib, mulVec_smul, ← Finset.sum_smul, b1,
    one_smul]

end Verif
