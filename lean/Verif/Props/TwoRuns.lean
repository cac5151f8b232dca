import Verif.Lemmas.TwoFlows
import Verif.Lemmas.Deviation
import Verif.Props.Strain

/-!
# C143: small changes of the data

Two runs with the same seeds, on data that differ by at most `η`.  Only one of the two sets of data need
have a known strain; the fields are compared to each other, not to a flow.
-/

set_option linter.unusedSectionVars false

namespace Verif

open Matrix

/-- A value `l` with `b < exp (T l)` is changed by at most `b / (exp (T l) - b) / T`; in place of `-∞`
there is `-∞` or a number that is at most `log b / T`. -/
def FieldNear (v v' : FVal) (T b : ℝ) : Prop :=
  (∀ l, v = .fin l → b < Real.exp (T * l) →
    ∃ l', v' = .fin l' ∧ |l' - l| ≤ 1 / T * (b / (Real.exp (T * l) - b))) ∧
  (v = .negInf → v' = .negInf ∨ ∃ l' ≤ 1 / T * Real.log b, v' = .fin l')

theorem fieldNear_of {S S' T b : ℝ} (hT : 0 < T) (h0 : 0 ≤ S) (h0' : 0 ≤ S') (h : |S' - S| ≤ b) :
    FieldNear (ftleVal S T) (ftleVal S' T) T b := by
  have hT' : 0 ≤ 1 / T := by positivity
  refine ⟨fun l hl hb => ?_, fun hl => ?_⟩
  · rcases h0.lt_or_eq with p | p
    · rw [ftleVal_pos p] at hl
      have e : l = 1 / T * Real.log S := by injection hl with hl; exact hl.symm
      have e2 : Real.exp (T * l) = S := by
        rw [e, ← mul_assoc, mul_one_div_cancel hT.ne', one_mul, Real.exp_log p]
      rw [e2] at hb ⊢
      obtain ⟨p', q⟩ := log_error h hb
      refine ⟨_, ftleVal_pos p', ?_⟩
      rw [e, ← mul_sub, abs_mul, abs_of_nonneg hT']
      exact mul_le_mul_of_nonneg_left q hT'
    · rw [← p, ftleVal_zero_pos hT] at hl
      cases hl
  · rcases h0.lt_or_eq with p | p
    · rw [ftleVal_pos p] at hl
      cases hl
    · rcases h0'.lt_or_eq with p' | p'
      · refine .inr ⟨_, ?_, ftleVal_pos p'⟩
        refine mul_le_mul_of_nonneg_left (Real.log_le_log p' ?_) hT'
        rw [← p, sub_zero] at h
        exact (le_abs_self _).trans h
      · exact .inl (by rw [← p']; exact ftleVal_zero_pos hT)

theorem near_of_strained {d : ℕ} {S : Set (Fin d → ℝ)} {g g' : (Fin d → ℝ) → Fin d → ℝ} {L η : ℝ}
    (hL : 0 < L) (hg : Strained S g L) (hη : ∀ z ∈ S, ‖g z - g' z‖ ≤ η) : CloseFields S S g g' L (η / L) := by
  intro x hx y hy
  have := norm_add_le (g x - g y) (g y - g' y)
  rw [sub_add_sub_cancel] at this
  have e : L * (η / L) = η := by field_simp
  have := hg x hx y hy
  have := hη y hy
  linarith

section
variable {env env' : Env ℝ FVal} {k : Kind} {src src' : Source ℝ} {I0 I0' : AnyInterp ℝ} {N n : ℕ}
  {id id' : String} {seed : NDArray ℝ} {P : Particles ℝ} {L η h : ℝ}

/-- **C143 (2-D).**  Two runs whose velocities differ by at most `η` where their particles go; those of
the first run have the strain `L`. -/
theorem C143_runs_2d (he : RealEnv env) (he' : RealEnv env') (queue queue' : Bool) (hI : I0.Unused)
    (hI' : I0'.Unused) (hn : src.numSteps = n) (hn' : src'.numSteps = n) (hh : src.timestep = h)
    (hh' : src'.timestep = h)
    (hup : ∀ i < n, (src.updated env I0 (i + 1)).2 = none)
    (hup' : ∀ i < n, (src'.updated env' I0' (i + 1)).2 = none)
    {g g' : ℕ → (Fin 2 → ℝ) → Fin 2 → ℝ} {S : ℕ → Set (Fin 2 → ℝ)}
    (hv : ∀ i < n, PointwiseOn (S i) (4 * N) ((src.updated env I0 (i + 1)).1.velocity env) (g i))
    (hv' : ∀ i < n, PointwiseOn (S i) (4 * N) ((src'.updated env' I0' (i + 1)).1.velocity env') (g' i))
    (hid : src.id env = .ok id) (hid' : src'.id env' = .ok id')
    (hs : seed.shape = [4 * N, 2]) (hp : mkParticles seed = .ok P)
    (hP : src.getParticles env.fs = .ok P) (hP' : src'.getParticles env'.fs = .ok P)
    (hal : ∀ i < N, AxisAligned2 seed N i)
    (hS : ∀ i < N, ∀ q, ∀ j < n, ∀ z ∈ stages k (g j) h (flowMap k g h j (groupOf seed 4 N 2 i q)),
      z ∈ S j)
    (hS' : ∀ i < N, ∀ q, ∀ j < n, ∀ z ∈ stages k (g' j) h
      (flowMap k g' h j (groupOf seed 4 N 2 i q)), z ∈ S j)
    (hn2 : 2 ≤ n) (hh0 : h ≠ 0) (hL : 0 < L) (hg : ∀ j < n, Strained (S j) (g j) L) (hη0 : 0 ≤ η)
    (hη : ∀ j < n, ∀ z ∈ S j, ‖g j z - g' j z‖ ≤ η) :
    ∃ Λ Λ' : ℕ → FVal,
      ((⟨src, I0, .fresh k⟩ : Solver ℝ).run env queue none).result =
        .ok (some ((List.range N).map Λ)) ∧
      ((⟨src', I0', .fresh k⟩ : Solver ℝ).run env' queue' none).result =
        .ok (some ((List.range N).map Λ')) ∧
      ∀ i < N, FieldNear (Λ i) (Λ' i) ((n - 1) * |h|)
        (4 * ((growth k (|h| * L) ^ n - 1) * (η / L)) *
          (1 / |groupOf seed 4 N 2 i 1 0 - groupOf seed 4 N 2 i 0 0| +
          1 / |groupOf seed 4 N 2 i 2 1 - groupOf seed 4 N 2 i 3 1|)) := by
  subst hn hh
  obtain ⟨V, h1, h2⟩ := strain_run_2d (k := k) he queue hI hup hv hid hs hp hP hal hS hn2 hh0
  obtain ⟨V', h1', h2'⟩ := strain_run_2d (k := k) he' queue' hI' (by rwa [hn']) (by rwa [hn']) hid' hs
    hp hP' hal (by rwa [hn', hh']) (by rwa [hn']) (by rwa [hh'])
  rw [hn', hh'] at h2'
  simp only [hn', hh'] at h1'
  refine ⟨_, _, h2, h2', fun i hi => ?_⟩
  refine fieldNear_of (period_pos hn2 hh0) (maxStretch_nonneg (h1 i)) (maxStretch_nonneg (h1' i)) ?_
  have dist : ∀ b, ‖flowMap k g src.timestep src.numSteps (groupOf seed 4 N 2 i b) -
      flowMap k g' src.timestep src.numSteps (groupOf seed 4 N 2 i b)‖ ≤
      (growth k (|src.timestep| * L) ^ src.numSteps - 1) * (η / L) := fun b => by
    have := flows_near (k := k) hL.le (by positivity) (fun j hj => near_of_strained hL (hg j hj) (hη j hj))
      (hS i hi b) (hS' i hi b)
    linarith
  have up := maxStretch_le_add (h1 i) (h1' i)
  have down := maxStretch_le_add (h1' i) (h1 i)
  have e1 := diffs2_error (x := groupOf seed 4 N 2 i) dist
  have e2 := diffs2_error (x := groupOf seed 4 N 2 i) fun b => (norm_sub_rev _ _).trans_le (dist b)
  rw [abs_le]
  constructor <;> linarith

/-- **C143 (3-D).**  Two runs whose velocities differ by at most `η` where their particles go; those of
the first run have the strain `L`. -/
theorem C143_runs_3d (he : RealEnv env) (he' : RealEnv env') (queue queue' : Bool) (hI : I0.Unused)
    (hI' : I0'.Unused) (hn : src.numSteps = n) (hn' : src'.numSteps = n) (hh : src.timestep = h)
    (hh' : src'.timestep = h)
    (hup : ∀ i < n, (src.updated env I0 (i + 1)).2 = none)
    (hup' : ∀ i < n, (src'.updated env' I0' (i + 1)).2 = none)
    {g g' : ℕ → (Fin 3 → ℝ) → Fin 3 → ℝ} {S : ℕ → Set (Fin 3 → ℝ)}
    (hv : ∀ i < n, PointwiseOn (S i) (6 * N) ((src.updated env I0 (i + 1)).1.velocity env) (g i))
    (hv' : ∀ i < n, PointwiseOn (S i) (6 * N) ((src'.updated env' I0' (i + 1)).1.velocity env') (g' i))
    (hid : src.id env = .ok id) (hid' : src'.id env' = .ok id')
    (hs : seed.shape = [6 * N, 3]) (hp : mkParticles seed = .ok P)
    (hP : src.getParticles env.fs = .ok P) (hP' : src'.getParticles env'.fs = .ok P)
    (hal : ∀ i < N, AxisAligned3 seed N i)
    (hS : ∀ i < N, ∀ q, ∀ j < n, ∀ z ∈ stages k (g j) h (flowMap k g h j (groupOf seed 6 N 3 i q)),
      z ∈ S j)
    (hS' : ∀ i < N, ∀ q, ∀ j < n, ∀ z ∈ stages k (g' j) h
      (flowMap k g' h j (groupOf seed 6 N 3 i q)), z ∈ S j)
    (hn2 : 2 ≤ n) (hh0 : h ≠ 0) (hL : 0 < L) (hg : ∀ j < n, Strained (S j) (g j) L) (hη0 : 0 ≤ η)
    (hη : ∀ j < n, ∀ z ∈ S j, ‖g j z - g' j z‖ ≤ η) :
    ∃ Λ Λ' : ℕ → FVal,
      ((⟨src, I0, .fresh k⟩ : Solver ℝ).run env queue none).result =
        .ok (some ((List.range N).map Λ)) ∧
      ((⟨src', I0', .fresh k⟩ : Solver ℝ).run env' queue' none).result =
        .ok (some ((List.range N).map Λ')) ∧
      ∀ i < N, FieldNear (Λ i) (Λ' i) ((n - 1) * |h|)
        (6 * ((growth k (|h| * L) ^ n - 1) * (η / L)) *
          (1 / |groupOf seed 6 N 3 i 1 0 - groupOf seed 6 N 3 i 0 0| +
          1 / |groupOf seed 6 N 3 i 2 1 - groupOf seed 6 N 3 i 3 1| +
          1 / |groupOf seed 6 N 3 i 4 2 - groupOf seed 6 N 3 i 5 2|)) := by
  subst hn hh
  obtain ⟨V, h1, h2⟩ := strain_run_3d (k := k) he queue hI hup hv hid hs hp hP hal hS hn2 hh0
  obtain ⟨V', h1', h2'⟩ := strain_run_3d (k := k) he' queue' hI' (by rwa [hn']) (by rwa [hn']) hid' hs
    hp hP' hal (by rwa [hn', hh']) (by rwa [hn']) (by rwa [hh'])
  rw [hn', hh'] at h2'
  simp only [hn', hh'] at h1'
  refine ⟨_, _, h2, h2', fun i hi => ?_⟩
  refine fieldNear_of (period_pos hn2 hh0) (maxStretch_nonneg (h1 i)) (maxStretch_nonneg (h1' i)) ?_
  have dist : ∀ b, ‖flowMap k g src.timestep src.numSteps (groupOf seed 6 N 3 i b) -
      flowMap k g' src.timestep src.numSteps (groupOf seed 6 N 3 i b)‖ ≤
      (growth k (|src.timestep| * L) ^ src.numSteps - 1) * (η / L) := fun b => by
    have := flows_near (k := k) hL.le (by positivity) (fun j hj => near_of_strained hL (hg j hj) (hη j hj))
      (hS i hi b) (hS' i hi b)
    linarith
  have up := maxStretch_le_add (h1 i) (h1' i)
  have down := maxStretch_le_add (h1' i) (h1 i)
  have e1 := diffs3_error (x := groupOf seed 6 N 3 i) dist
  have e2 := diffs3_error (x := groupOf seed 6 N 3 i) fun b => (norm_sub_rev _ _).trans_le (dist b)
  rw [abs_le]
  constructor <;> linarith

end

theorem bilinear_speed {u : ℝ → (Fin 2 → ℝ) → Fin 2 → ℝ} {t : ℝ} {nx ny : ℕ} {x0 dx y0 dy B : ℝ}
    (hdx : 0 < dx) (hdy : 0 < dy) (hB0 : 0 ≤ B)
    (hB : ∀ a < nx, ∀ b < ny, ‖u t ![x0 + a * dx, y0 + b * dy]‖ ≤ B) {z : Fin 2 → ℝ}
    (hz : OnAxis nx x0 dx (z 0) ∧ OnAxis ny y0 dy (z 1)) : ‖bilinear u t nx ny x0 dx y0 dy z‖ ≤ B := by
  rw [pi_norm_le_iff_of_nonneg hB0]
  intro c
  have := cellValue2_error (w := 0) (δ := B) (f := fun a b => u t ![x0 + a * dx, y0 + b * dy] c)
    (hz.1.inCells hdx) (hz.2.inCells hdy) fun a b hA hB' _ _ => by
      rw [sub_zero]
      exact (norm_le_pi_norm _ c).trans (hB a hA b hB')
  rwa [sub_zero] at this

theorem bilinear_apart {u u' : ℝ → (Fin 2 → ℝ) → Fin 2 → ℝ} {t t' : ℝ} {nx ny : ℕ}
    {x0 dx y0 dy η : ℝ} (hdx : 0 < dx) (hdy : 0 < dy) (hη0 : 0 ≤ η)
    (hη : ∀ a < nx, ∀ b < ny,
      ‖u t ![x0 + a * dx, y0 + b * dy] - u' t' ![x0 + a * dx, y0 + b * dy]‖ ≤ η) {z : Fin 2 → ℝ}
    (hz : OnAxis nx x0 dx (z 0) ∧ OnAxis ny y0 dy (z 1)) :
    ‖bilinear u t nx ny x0 dx y0 dy z - bilinear u' t' nx ny x0 dx y0 dy z‖ ≤ η := by
  have e : bilinear u t nx ny x0 dx y0 dy z - bilinear u' t' nx ny x0 dx y0 dy z =
      bilinear (fun _ w => u t w - u' t' w) 0 nx ny x0 dx y0 dy z := by
    funext c
    simp only [bilinear, Pi.sub_apply, cellValue2, lerp]
    split_ifs <;> ring
  rw [e]
  exact bilinear_speed hdx hdy hη0 hη hz

/-- **C143 (gridded files, 2-D).**  The samples of the two sets of files differ by at most `η` at every
node of the grid; neighbouring samples of the first set differ by at most `a` times the spacing.  The
speeds are at most `B`, and the seeds keep the distance `2 n |h| B` to the border of the grid. -/
theorem C143_files_2d {env env' : Env ℝ FVal} (he : RealEnv env) (he' : RealEnv env')
    (hm : ExactTarget env.m) (hm' : ExactTarget env'.m) (queue queue' : Bool) (k : Kind)
    {u u' : ℝ → (Fin 2 → ℝ) → Fin 2 → ℝ} {t0 t0' : ℝ} {s s' : FileSource ℝ} {nx ny : ℕ}
    {x0 dx y0 dy : ℝ} (hd : Samples2 env.fs s u t0 nx ny x0 dx y0 dy)
    (hd' : Samples2 env'.fs s' u' t0' nx ny x0 dx y0 dy)
    {n : ℕ} {h : ℝ} (hn : s.snapshotFiles.length = n) (hn' : s'.snapshotFiles.length = n)
    (hh : s.timestep = h) (hh' : s'.timestep = h) {a B η : ℝ} (ha : 0 < a)
    (hsl : ∀ j < n, Slopes2 (u (t0 + j * h)) nx ny x0 dx y0 dy a)
    (hη : ∀ j < n, ∀ a < nx, ∀ b < ny, ‖u (t0 + j * h) ![x0 + a * dx, y0 + b * dy] -
      u' (t0' + j * h) ![x0 + a * dx, y0 + b * dy]‖ ≤ η)
    (hB : ∀ j < n, ∀ a < nx, ∀ b < ny, ‖u (t0 + j * h) ![x0 + a * dx, y0 + b * dy]‖ ≤ B)
    (hB' : ∀ j < n, ∀ a < nx, ∀ b < ny, ‖u' (t0' + j * h) ![x0 + a * dx, y0 + b * dy]‖ ≤ B)
    {N : ℕ} {seed : NDArray ℝ} {P : Particles ℝ} (hs : seed.shape = [4 * N, 2])
    (hp : mkParticles seed = .ok P) (hP : readSeedParticles env.fs s.particleFile = .ok P)
    (hP' : readSeedParticles env'.fs s'.particleFile = .ok P) (hal : ∀ i < N, AxisAligned2 seed N i)
    (hin : ∀ i < N, ∀ b, ∀ z : Fin 2 → ℝ, ‖z - groupOf seed 4 N 2 i b‖ ≤ 2 * n * (|h| * B) →
      OnAxis nx x0 dx (z 0) ∧ OnAxis ny y0 dy (z 1))
    (hn2 : 2 ≤ n) (hh0 : h ≠ 0) :
    ∃ Λ Λ' : ℕ → FVal,
      ((⟨.file s, .highPerf (HighPerf.fresh [nx, ny]), .fresh k⟩ : Solver ℝ).run env queue
        none).result = .ok (some ((List.range N).map Λ)) ∧
      ((⟨.file s', .highPerf (HighPerf.fresh [nx, ny]), .fresh k⟩ : Solver ℝ).run env' queue'
        none).result = .ok (some ((List.range N).map Λ')) ∧
      ∀ i < N, FieldNear (Λ i) (Λ' i) ((n - 1) * |h|)
        (4 * ((growth k (|h| * (2 * a)) ^ n - 1) * (η / (2 * a))) *
          (1 / |groupOf seed 4 N 2 i 1 0 - groupOf seed 4 N 2 i 0 0| +
          1 / |groupOf seed 4 N 2 i 2 1 - groupOf seed 4 N 2 i 3 1|)) := by
  have nx1 : 0 < nx := by have := hd.hnx; omega
  have ny1 : 0 < ny := by have := hd.hny; omega
  have hη0 : 0 ≤ η := (norm_nonneg _).trans (hη 0 (by omega) 0 nx1 0 ny1)
  have hB0 : 0 ≤ B := (norm_nonneg _).trans (hB 0 (by omega) 0 nx1 0 ny1)
  refine C143_runs_2d (src := .file s) (src' := .file s') he he' queue queue'
    (by exact (rfl : (HighPerf.fresh (K := ℝ) [nx, ny]).uLen = none))
    (by exact (rfl : (HighPerf.fresh (K := ℝ) [nx, ny]).uLen = none)) hn hn' hh hh'
    (fun i hi => (samples_updated_2d hm hd i (by omega) 0).1)
    (fun i hi => (samples_updated_2d hm' hd' i (by omega) 0).1)
    (g := fun j => bilinear u (t0 + j * h) nx ny x0 dx y0 dy)
    (g' := fun j => bilinear u' (t0' + j * h) nx ny x0 dx y0 dy)
    (S := fun _ => {z | OnAxis nx x0 dx (z 0) ∧ OnAxis ny y0 dy (z 1)})
    (fun i hi => by rw [← hh]; exact (samples_updated_2d hm hd i (by omega) (4 * N)).2)
    (fun i hi => by rw [← hh']; exact (samples_updated_2d hm' hd' i (by omega) (4 * N)).2)
    rfl rfl hs hp hP hP' hal
    (fun i hi b j hj z hz => hin i hi b z (slow_near k hB0
      (fun j hj z hz => bilinear_speed hd.hdx hd.hdy hB0 (hB j hj) (hin i hi b z hz)) j hj z hz))
    (fun i hi b j hj z hz => hin i hi b z (slow_near k hB0
      (fun j hj z hz => bilinear_speed hd.hdx hd.hdy hB0 (hB' j hj) (hin i hi b z hz)) j hj z hz))
    hn2 hh0 (by positivity) (fun j hj => bilinear_strained hd.hdx hd.hdy ha.le (hsl j hj)) hη0
    (fun j hj z hz => bilinear_apart hd.hdx hd.hdy hη0 (hη j hj) hz)

theorem trilinear_speed {u : ℝ → (Fin 3 → ℝ) → Fin 3 → ℝ} {t : ℝ} {m nz : ℕ}
    {x0 dx y0 dy z0 dz B : ℝ} (hdx : 0 < dx) (hdy : 0 < dy) (hdz : 0 < dz) (hB0 : 0 ≤ B)
    (hB : ∀ a < m, ∀ b < m, ∀ e < nz, ‖u t ![x0 + a * dx, y0 + b * dy, z0 + e * dz]‖ ≤ B)
    {z : Fin 3 → ℝ} (hz : OnAxis m x0 dx (z 0) ∧ OnAxis m y0 dy (z 1) ∧ OnAxis nz z0 dz (z 2)) :
    ‖trilinear u t m nz x0 dx y0 dy z0 dz z‖ ≤ B := by
  rw [pi_norm_le_iff_of_nonneg hB0]
  intro c
  have := cellValue3_error (w := 0) (δ := B)
    (f := fun a b e => u t ![x0 + a * dx, y0 + b * dy, z0 + e * dz] c)
    (hz.1.inCells hdx) (hz.2.1.inCells hdy) (hz.2.2.inCells hdz) fun a b e hA hB' hE _ _ _ => by
      rw [sub_zero]
      exact (norm_le_pi_norm _ c).trans (hB a hA b hB' e hE)
  rwa [sub_zero] at this

theorem trilinear_apart {u u' : ℝ → (Fin 3 → ℝ) → Fin 3 → ℝ} {t t' : ℝ} {m nz : ℕ}
    {x0 dx y0 dy z0 dz η : ℝ} (hdx : 0 < dx) (hdy : 0 < dy) (hdz : 0 < dz) (hη0 : 0 ≤ η)
    (hη : ∀ a < m, ∀ b < m, ∀ e < nz, ‖u t ![x0 + a * dx, y0 + b * dy, z0 + e * dz] -
      u' t' ![x0 + a * dx, y0 + b * dy, z0 + e * dz]‖ ≤ η) {z : Fin 3 → ℝ}
    (hz : OnAxis m x0 dx (z 0) ∧ OnAxis m y0 dy (z 1) ∧ OnAxis nz z0 dz (z 2)) :
    ‖trilinear u t m nz x0 dx y0 dy z0 dz z - trilinear u' t' m nz x0 dx y0 dy z0 dz z‖ ≤ η := by
  have e : trilinear u t m nz x0 dx y0 dy z0 dz z - trilinear u' t' m nz x0 dx y0 dy z0 dz z =
      trilinear (fun _ w => u t w - u' t' w) 0 m nz x0 dx y0 dy z0 dz z := by
    funext c
    simp only [trilinear, Pi.sub_apply, cellValue3, lerp]
    split_ifs <;> ring
  rw [e]
  exact trilinear_speed hdx hdy hdz hη0 hη hz

/-- **C143 (gridded files, 3-D).**  The samples of the two sets of files differ by at most `η` at every
node of the grid; neighbouring samples of the first set differ by at most `a` times the spacing.  The
speeds are at most `B`, and the seeds keep the distance `2 n |h| B` to the border of the grid. -/
theorem C143_files_3d {env env' : Env ℝ FVal} (he : RealEnv env) (he' : RealEnv env')
    (hm : ExactTarget env.m) (hm' : ExactTarget env'.m) (queue queue' : Bool) (k : Kind)
    {u u' : ℝ → (Fin 3 → ℝ) → Fin 3 → ℝ} {t0 t0' : ℝ} {s s' : FileSource ℝ} {m nz : ℕ}
    {x0 dx y0 dy z0 dz : ℝ} (hd : Samples3 env.fs s u t0 m nz x0 dx y0 dy z0 dz)
    (hd' : Samples3 env'.fs s' u' t0' m nz x0 dx y0 dy z0 dz)
    {n : ℕ} {h : ℝ} (hn : s.snapshotFiles.length = n) (hn' : s'.snapshotFiles.length = n)
    (hh : s.timestep = h) (hh' : s'.timestep = h) {a B η : ℝ} (ha : 0 < a)
    (hsl : ∀ j < n, Slopes3 (u (t0 + j * h)) m nz x0 dx y0 dy z0 dz a)
    (hη : ∀ j < n, ∀ a < m, ∀ b < m, ∀ e < nz, ‖u (t0 + j * h) ![x0 + a * dx, y0 + b * dy, z0 + e * dz] -
      u' (t0' + j * h) ![x0 + a * dx, y0 + b * dy, z0 + e * dz]‖ ≤ η)
    (hB : ∀ j < n, ∀ a < m, ∀ b < m, ∀ e < nz, ‖u (t0 + j * h) ![x0 + a * dx, y0 + b * dy, z0 + e * dz]‖ ≤ B)
    (hB' : ∀ j < n, ∀ a < m, ∀ b < m, ∀ e < nz, ‖u' (t0' + j * h) ![x0 + a * dx, y0 + b * dy, z0 + e * dz]‖ ≤ B)
    {N : ℕ} {seed : NDArray ℝ} {P : Particles ℝ} (hs : seed.shape = [6 * N, 3])
    (hp : mkParticles seed = .ok P) (hP : readSeedParticles env.fs s.particleFile = .ok P)
    (hP' : readSeedParticles env'.fs s'.particleFile = .ok P) (hal : ∀ i < N, AxisAligned3 seed N i)
    (hin : ∀ i < N, ∀ b, ∀ z : Fin 3 → ℝ, ‖z - groupOf seed 6 N 3 i b‖ ≤ 2 * n * (|h| * B) →
      OnAxis m x0 dx (z 0) ∧ OnAxis m y0 dy (z 1) ∧ OnAxis nz z0 dz (z 2))
    (hn2 : 2 ≤ n) (hh0 : h ≠ 0) :
    ∃ Λ Λ' : ℕ → FVal,
      ((⟨.file s, .highPerf (HighPerf.fresh [m, m, nz]), .fresh k⟩ : Solver ℝ).run env queue
        none).result = .ok (some ((List.range N).map Λ)) ∧
      ((⟨.file s', .highPerf (HighPerf.fresh [m, m, nz]), .fresh k⟩ : Solver ℝ).run env' queue'
        none).result = .ok (some ((List.range N).map Λ')) ∧
      ∀ i < N, FieldNear (Λ i) (Λ' i) ((n - 1) * |h|)
        (6 * ((growth k (|h| * (3 * a)) ^ n - 1) * (η / (3 * a))) *
          (1 / |groupOf seed 6 N 3 i 1 0 - groupOf seed 6 N 3 i 0 0| +
          1 / |groupOf seed 6 N 3 i 2 1 - groupOf seed 6 N 3 i 3 1| +
          1 / |groupOf seed 6 N 3 i 4 2 - groupOf seed 6 N 3 i 5 2|)) := by
  have m1 : 0 < m := by have := hd.hm; omega
  have nz1 : 0 < nz := by have := hd.hnz; omega
  have hη0 : 0 ≤ η := (norm_nonneg _).trans (hη 0 (by omega) 0 m1 0 m1 0 nz1)
  have hB0 : 0 ≤ B := (norm_nonneg _).trans (hB 0 (by omega) 0 m1 0 m1 0 nz1)
  refine C143_runs_3d (src := .file s) (src' := .file s') he he' queue queue'
    (by exact (rfl : (HighPerf.fresh (K := ℝ) [m, m, nz]).uLen = none))
    (by exact (rfl : (HighPerf.fresh (K := ℝ) [m, m, nz]).uLen = none)) hn hn' hh hh'
    (fun i hi => (samples_updated_3d hm hd i (by omega) 0).1)
    (fun i hi => (samples_updated_3d hm' hd' i (by omega) 0).1)
    (g := fun j => trilinear u (t0 + j * h) m nz x0 dx y0 dy z0 dz)
    (g' := fun j => trilinear u' (t0' + j * h) m nz x0 dx y0 dy z0 dz)
    (S := fun _ => {z | OnAxis m x0 dx (z 0) ∧ OnAxis m y0 dy (z 1) ∧ OnAxis nz z0 dz (z 2)})
    (fun i hi => by rw [← hh]; exact (samples_updated_3d hm hd i (by omega) (6 * N)).2)
    (fun i hi => by rw [← hh']; exact (samples_updated_3d hm' hd' i (by omega) (6 * N)).2)
    rfl rfl hs hp hP hP' hal
    (fun i hi b j hj z hz => hin i hi b z (slow_near k hB0
      (fun j hj z hz => trilinear_speed hd.hdx hd.hdy hd.hdz hB0 (hB j hj) (hin i hi b z hz)) j hj z hz))
    (fun i hi b j hj z hz => hin i hi b z (slow_near k hB0
      (fun j hj z hz => trilinear_speed hd.hdx hd.hdy hd.hdz hB0 (hB' j hj) (hin i hi b z hz)) j hj z hz))
    hn2 hh0 (by positivity) (fun j hj => trilinear_strained hd.hdx hd.hdy hd.hdz ha.le (hsl j hj)) hη0
    (fun j hj z hz => trilinear_apart hd.hdx hd.hdy hd.hdz hη0 (hη j hj) hz)

end Verif
