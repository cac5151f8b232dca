import Verif.Lemmas.SciPyReuse
import Verif.Props.TwoInterpolators

/-!
# C146: one file of coordinates, or a copy of it for every snapshot

When all snapshots have the same coordinate file, `FileBatchSource` reads it once, and `GridInterpolator`
(SciPy, `--interpolator linear` with the shape of the grid) only exchanges the velocities.
-/

namespace Verif

open Matrix

/-- The data listed in both kinds of sources are the same. -/
theorem NodeValues3.steps {fs : MatFS ℝ} {s : FileSource ℝ} {v : ℝ → (Fin 3 → ℝ) → Fin 3 → ℝ}
    {t0 : ℝ} {nx ny nz : ℕ} {x0 dx y0 dy z0 dz : ℝ}
    (hd : NodeValues3 fs { s with reuseCoordinates := false } v t0 nx ny nz x0 dx y0 dy z0 dz) :
    ∀ j < s.snapshotFiles.length, ∃ V P, s.Listed fs j V P ∧
      V.shape = [3, nx * ny * nz] ∧ P.shape = [3, nx * ny * nz] ∧ AxisValues P (nx * ny * nz) 0 nx x0 dx ∧
      AxisValues P (nx * ny * nz) 1 ny y0 dy ∧ AxisValues P (nx * ny * nz) 2 nz z0 dz ∧
      ∀ a < nx, ∀ b < ny, ∀ e < nz, ∀ c : Fin 3, V.get [c, (a * ny + b) * nz + e] =
        v (t0 + j * s.timestep) ![x0 + a * dx, y0 + b * dy, z0 + e * dz] c := hd.data

/-- **C146 (3-D, `_partial`: three dimensions).**  One file of coordinates for all snapshots (`s'`) or
files with the same points for each (`s`): the same field.  Missing for C146: two dimensions, where it is
false (`C146_mixed_2d_fails`, `C146_differs_2d_fails`). -/
theorem C146_space_partial {env env' : Env ℝ FVal} (he : RealEnv env) (he' : RealEnv env')
    (hsp : env.sp.LinearGrid3) (hsp' : env'.sp.LinearGrid3) (queue queue' : Bool) (k : Kind)
    {v : ℝ → (Fin 3 → ℝ) → Fin 3 → ℝ} {t0 : ℝ} {s s' : FileSource ℝ} {nx ny nz : ℕ}
    {x0 dx y0 dy z0 dz : ℝ} (hd : NodeValues3 env.fs s v t0 nx ny nz x0 dx y0 dy z0 dz)
    (hr : s'.reuseCoordinates = true)
    (hd' : NodeValues3 env'.fs { s' with reuseCoordinates := false } v t0 nx ny nz x0 dx y0 dy z0 dz)
    (hn : s'.snapshotFiles.length = s.snapshotFiles.length) (hh : s'.timestep = s.timestep)
    {N : ℕ} {seed : NDArray ℝ} {P : Particles ℝ} (hs : seed.shape = [6 * N, 3])
    (hp : mkParticles seed = .ok P) (hP : readSeedParticles env.fs s.particleFile = .ok P)
    (hP' : readSeedParticles env'.fs s'.particleFile = .ok P)
    (hin : ∀ i < N, ∀ q, ∀ j < s.snapshotFiles.length, ∀ z ∈ stages k
      (inBox v (t0 + j * s.timestep) nx ny nz x0 dx y0 dy z0 dz) s.timestep
      (flowMap k (fun j => inBox v (t0 + (j : ℕ) * s.timestep) nx ny nz x0 dx y0 dy z0 dz) s.timestep j
        (groupOf seed 6 N 3 i q)), OnAxis nx x0 dx (z 0) ∧ OnAxis ny y0 dy (z 1) ∧ OnAxis nz z0 dz (z 2)) :
    ((⟨.file s', .grid (GridState.fresh .linear [nx, ny, nz]), .fresh k⟩ : Solver ℝ).run env' queue'
        none).result =
      ((⟨.file s, .grid (GridState.fresh .linear [nx, ny, nz]), .fresh k⟩ : Solver ℝ).run env queue
        none).result := by
  have up0 := fun R j hj => scipy_fresh_3d hsp hd.fresh hd.hnx hd.hny hd.hnz hd.hdx hd.hdy hd.hdz
    (t := fun j => t0 + (j : ℕ) * s.timestep) hd.data j hj R
  have up := fun R j hj => scipy_reused_3d hsp' hr hd'.hnx hd'.hny hd'.hnz hd'.hdx hd'.hdy hd'.hdz
    (t := fun j => t0 + (j : ℕ) * s'.timestep) hd'.steps j hj R
  rw [run_flow_on_3d env (.file s) (I0 := .grid (GridState.fresh .linear [nx, ny, nz])) trivial k
      (fun j => inBox v (t0 + (j : ℕ) * s.timestep) nx ny nz x0 dx y0 dy z0 dz)
      (fun _ => {z | OnAxis nx x0 dx (z 0) ∧ OnAxis ny y0 dy (z 1) ∧ OnAxis nz z0 dz (z 2)})
      (fun i hi => (up0 0 i hi).1) N
      (fun i hi => (up0 (6 * N) i hi).2) rfl seed P queue hs hp hP hin,
    run_flow_on_3d env' (.file s') (I0 := .grid (GridState.fresh .linear [nx, ny, nz])) trivial k
      (fun j => inBox v (t0 + (j : ℕ) * s.timestep) nx ny nz x0 dx y0 dy z0 dz)
      (fun _ => {z | OnAxis nx x0 dx (z 0) ∧ OnAxis ny y0 dy (z 1) ∧ OnAxis nz z0 dz (z 2)})
      (fun i hi => (up 0 i hi).1) N
      (fun i hi => (up (6 * N) i hi).2.congr (fun z hz => hz) fun z hz => by rw [hh])
      rfl seed P queue' hs hp hP' (fun i hi q j hj => by
        have e1 : (Source.file s').timestep = s.timestep := hh
        have e2 : j < s.snapshotFiles.length := hn ▸ hj
        rw [e1]
        exact hin i hi q j e2),
    sameperiod he he' (show (Source.file s').numSteps = (Source.file s).numSteps from hn) hh, he.f3, he'.f3]
  have e1 : (Source.file s').timestep = (Source.file s).timestep := hh
  have e2 : (Source.file s').numSteps = (Source.file s).numSteps := hn
  rw [e1, e2]

/-- Files for the fast interpolator on a square, read by `GridInterpolator` with one coordinate file. -/
theorem samples_mixed_2d {env : Env ℝ FVal} (hsp : env.sp.LinearGrid2) {s : FileSource ℝ}
    (hr : s.reuseCoordinates = true) {v : ℝ → (Fin 2 → ℝ) → Fin 2 → ℝ} {t0 : ℝ} {n : ℕ} {x0 dx : ℝ}
    (hd : Samples2 env.fs { s with reuseCoordinates := false } v t0 n n x0 dx x0 dx) (j : ℕ)
    (hj : j < s.snapshotFiles.length) (R : ℕ) :
    ((Source.file s).updated env (.grid (GridState.fresh .linear [n, n])) (j + 1)).2 = none ∧
    PointwiseOn {z | OnAxis n x0 dx (z 0) ∧ OnAxis n x0 dx (z 1)} R
      (((Source.file s).updated env (.grid (GridState.fresh .linear [n, n])) (j + 1)).1.velocity env)
      (bilinear (if j = 0 then exchanged2 v else v) (t0 + j * s.timestep) n n x0 dx x0 dx) := by
  refine scipy_reused_2d hsp hr hd.hnx hd.hny hd.hdx hd.hdy
    (w := fun j => if j = 0 then exchanged2 v else v) (t := fun j => t0 + (j : ℕ) * s.timestep) ?_ j hj R
  intro i hi
  obtain ⟨V, P, a1, a2, a3, a4, a5⟩ := hd.data i hi
  have g := listed_grid2 hd.hnx hd.hny hd.lnx hd.lny hd.hdx hd.hdy a2 a3 a4
  refine ⟨V, P, a1, a2, a3, g.hx, g.hy, fun a ha b hb c => ?_⟩
  by_cases h0 : i = 0
  · have hq : b + n * a < n * n := by nlinarith
    have := a5 _ hq c
    rw [(a4 b hb a ha).1, (a4 b hb a ha).2] at this
    rw [if_pos h0, if_pos h0, show a * n + b = b + n * a by ring, this]
    rfl
  · have hq : a + n * b < n * n := by nlinarith
    have := a5 _ hq c
    rw [(a4 a ha b hb).1, (a4 a ha b hb).2] at this
    rw [if_neg h0, if_neg h0, this]

/-- **C146 is false of the code (2-D)**: with one file of coordinates, the samples of the first snapshot
are taken with `x` and `y` exchanged and those of all other snapshots are not.  The field is the one that
the fast interpolator computes from files `s` with samples `v'` of that kind. -/
theorem C146_mixed_2d_fails {env env' : Env ℝ FVal} (he : RealEnv env) (he' : RealEnv env')
    (hm : ExactTarget env.m) (hsp : env'.sp.LinearGrid2) (queue queue' : Bool) (k : Kind)
    {v v' : ℝ → (Fin 2 → ℝ) → Fin 2 → ℝ} {t0 : ℝ} {s s' : FileSource ℝ} {n : ℕ} {x0 dx : ℝ}
    (hd : Samples2 env.fs s v' t0 n n x0 dx x0 dx) (hr : s'.reuseCoordinates = true)
    (hd' : Samples2 env'.fs { s' with reuseCoordinates := false } v t0 n n x0 dx x0 dx)
    (h0 : v' t0 = exchanged2 v t0)
    (hv : ∀ j, 0 < j → v' (t0 + (j : ℕ) * s.timestep) = v (t0 + (j : ℕ) * s.timestep))
    (hn : s'.snapshotFiles.length = s.snapshotFiles.length) (hh : s'.timestep = s.timestep)
    {N : ℕ} {seed : NDArray ℝ} {P : Particles ℝ} (hs : seed.shape = [4 * N, 2])
    (hp : mkParticles seed = .ok P) (hP : readSeedParticles env.fs s.particleFile = .ok P)
    (hP' : readSeedParticles env'.fs s'.particleFile = .ok P)
    (hin : ∀ i < N, ∀ q, ∀ j < s.snapshotFiles.length, ∀ z ∈ stages k
      (bilinear v' (t0 + j * s.timestep) n n x0 dx x0 dx) s.timestep
      (flowMap k (fun j => bilinear v' (t0 + (j : ℕ) * s.timestep) n n x0 dx x0 dx) s.timestep j
        (groupOf seed 4 N 2 i q)), OnAxis n x0 dx (z 0) ∧ OnAxis n x0 dx (z 1)) :
    ((⟨.file s', .grid (GridState.fresh .linear [n, n]), .fresh k⟩ : Solver ℝ).run env' queue'
        none).result =
      ((⟨.file s, .highPerf (HighPerf.fresh [n, n]), .fresh k⟩ : Solver ℝ).run env queue
        none).result := by
  have same : ∀ j : ℕ, bilinear (if j = 0 then exchanged2 v else v) (t0 + j * s.timestep) n n x0 dx x0 dx =
      bilinear v' (t0 + j * s.timestep) n n x0 dx x0 dx := by
    intro j
    funext z c
    rcases Nat.eq_zero_or_pos j with rfl | hj
    · simp only [bilinear, Nat.cast_zero, zero_mul, add_zero, h0, if_true]
    · simp only [bilinear, hv j hj, if_neg hj.ne']
  rw [run_flow_on_2d env (.file s) (by exact (rfl : (HighPerf.fresh (K := ℝ) [n, n]).uLen = none)) k
      (fun j => bilinear v' (t0 + (j : ℕ) * s.timestep) n n x0 dx x0 dx)
      (fun _ => {z | OnAxis n x0 dx (z 0) ∧ OnAxis n x0 dx (z 1)})
      (fun i hi => (samples_updated_2d hm hd i hi 0).1) N
      (fun i hi => (samples_updated_2d hm hd i hi (4 * N)).2) rfl seed P queue hs hp hP hin,
    run_flow_on_2d env' (.file s') (I0 := .grid (GridState.fresh .linear [n, n])) trivial k
      (fun j => bilinear v' (t0 + (j : ℕ) * s.timestep) n n x0 dx x0 dx)
      (fun _ => {z | OnAxis n x0 dx (z 0) ∧ OnAxis n x0 dx (z 1)})
      (fun i hi => (samples_mixed_2d hsp hr hd' i hi 0).1) N
      (fun i hi => (samples_mixed_2d hsp hr hd' i hi (4 * N)).2.congr (fun z hz => hz)
        fun z hz => by rw [hh, same])
      rfl seed P queue' hs hp hP' (fun i hi q j hj => by
        have e1 : (Source.file s').timestep = s.timestep := hh
        have e2 : j < s.snapshotFiles.length := hn ▸ hj
        rw [e1]
        exact hin i hi q j e2),
    sameperiod he he' (show (Source.file s').numSteps = (Source.file s).numSteps from hn) hh, he.f2, he'.f2]
  have e1 : (Source.file s').timestep = (Source.file s).timestep := hh
  have e2 : (Source.file s').numSteps = (Source.file s).numSteps := hn
  rw [e1, e2]

end Verif
