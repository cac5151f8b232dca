import Verif.Props.OneCoordinateFile

/-!
# C145 and C146 for data symmetric in `x` and `y`

The interpolators disagree because the nodes are read with `x` and `y` exchanged.  On a square, for samples
that do not change when the two are exchanged, they agree.
-/

namespace Verif

theorem exchanged2_eq {v : ℝ → (Fin 2 → ℝ) → Fin 2 → ℝ} (hv : ∀ t x y, v t ![y, x] = v t ![x, y]) :
    exchanged2 v = v := by
  funext t z
  rw [exchanged2, hv]
  congr 1
  funext c
  fin_cases c <;> rfl

theorem exchanged3_eq {v : ℝ → (Fin 3 → ℝ) → Fin 3 → ℝ}
    (hv : ∀ t x y z, v t ![y, x, z] = v t ![x, y, z]) : exchanged3 v = v := by
  funext t z
  rw [exchanged3, hv]
  congr 1
  funext c
  fin_cases c <;> rfl

/-- **C145 (2-D, `_partial`: symmetric data).**  One set of files on a square, with velocities that do not
change when `x` and `y` of the point are exchanged: both interpolators yield the same field.  Missing for
C145: all other data (`C145_one_set_2d_fails`). -/
theorem C145_symmetric_2d_partial {env : Env ℝ FVal} (he : RealEnv env) (hm : ExactTarget env.m)
    (hsp : env.sp.LinearGrid2) (queue queue' : Bool) (k : Kind) {v : ℝ → (Fin 2 → ℝ) → Fin 2 → ℝ}
    (hv : ∀ t x y, v t ![y, x] = v t ![x, y]) {t0 : ℝ} {s : FileSource ℝ} {n : ℕ} {x0 dx : ℝ}
    (hd : Samples2 env.fs s v t0 n n x0 dx x0 dx)
    {N : ℕ} {seed : NDArray ℝ} {P : Particles ℝ} (hs : seed.shape = [4 * N, 2])
    (hp : mkParticles seed = .ok P) (hP : readSeedParticles env.fs s.particleFile = .ok P)
    (hin : ∀ i < N, ∀ q, ∀ j < s.snapshotFiles.length, ∀ z ∈ stages k
      (bilinear v (t0 + j * s.timestep) n n x0 dx x0 dx) s.timestep
      (flowMap k (fun j => bilinear v (t0 + (j : ℕ) * s.timestep) n n x0 dx x0 dx) s.timestep j
        (groupOf seed 4 N 2 i q)), OnAxis n x0 dx (z 0) ∧ OnAxis n x0 dx (z 1)) :
    ((⟨.file s, .grid (GridState.fresh .linear [n, n]), .fresh k⟩ : Solver ℝ).run env queue' none).result =
      ((⟨.file s, .highPerf (HighPerf.fresh [n, n]), .fresh k⟩ : Solver ℝ).run env queue none).result := by
  have hd' := samples_exchanged_2d hd
  rw [exchanged2_eq hv] at hd'
  exact C145_own_order_2d_partial he he hm hsp queue queue' k hd hd' rfl rfl hs hp hP hP hin

/-- Three-dimensional version. -/
theorem C145_symmetric_3d_partial {env : Env ℝ FVal} (he : RealEnv env) (hm : ExactTarget env.m)
    (hsp : env.sp.LinearGrid3) (queue queue' : Bool) (k : Kind) {v : ℝ → (Fin 3 → ℝ) → Fin 3 → ℝ}
    (hv : ∀ t x y z, v t ![y, x, z] = v t ![x, y, z]) {t0 : ℝ} {s : FileSource ℝ} {m nz : ℕ}
    {x0 dx z0 dz : ℝ} (hd : Samples3 env.fs s v t0 m nz x0 dx x0 dx z0 dz)
    {N : ℕ} {seed : NDArray ℝ} {P : Particles ℝ} (hs : seed.shape = [6 * N, 3])
    (hp : mkParticles seed = .ok P) (hP : readSeedParticles env.fs s.particleFile = .ok P)
    (hin : ∀ i < N, ∀ q, ∀ j < s.snapshotFiles.length, ∀ z ∈ stages k
      (trilinear v (t0 + j * s.timestep) m nz x0 dx x0 dx z0 dz) s.timestep
      (flowMap k (fun j => trilinear v (t0 + (j : ℕ) * s.timestep) m nz x0 dx x0 dx z0 dz) s.timestep j
        (groupOf seed 6 N 3 i q)), OnAxis m x0 dx (z 0) ∧ OnAxis m x0 dx (z 1) ∧ OnAxis nz z0 dz (z 2)) :
    ((⟨.file s, .grid (GridState.fresh .linear [m, m, nz]), .fresh k⟩ : Solver ℝ).run env queue'
        none).result =
      ((⟨.file s, .highPerf (HighPerf.fresh [m, m, nz]), .fresh k⟩ : Solver ℝ).run env queue
        none).result := by
  have hd' := samples_exchanged_3d hd
  rw [exchanged3_eq hv] at hd'
  exact C145_own_order_3d_partial he he hm hsp queue queue' k hd hd' rfl rfl hs hp hP hP hin

/-- **C146 (2-D, `_partial`: symmetric data).**  With velocities that do not change when `x` and `y` of the
point are exchanged, one coordinate file (`s'`) and copies of it (`s`) yield the same field.  Missing for
C146 in 2-D: all other data (`C146_mixed_2d_fails`). -/
theorem C146_symmetric_2d_partial {env env' : Env ℝ FVal} (he : RealEnv env) (he' : RealEnv env')
    (hsp : env.sp.LinearGrid2) (hsp' : env'.sp.LinearGrid2) (queue queue' : Bool) (k : Kind)
    {v : ℝ → (Fin 2 → ℝ) → Fin 2 → ℝ} (hv : ∀ t x y, v t ![y, x] = v t ![x, y]) {t0 : ℝ}
    {s s' : FileSource ℝ} {n : ℕ} {x0 dx : ℝ} (hd : Samples2 env.fs s v t0 n n x0 dx x0 dx)
    (hr : s'.reuseCoordinates = true)
    (hd' : Samples2 env'.fs { s' with reuseCoordinates := false } v t0 n n x0 dx x0 dx)
    (hn : s'.snapshotFiles.length = s.snapshotFiles.length) (hh : s'.timestep = s.timestep)
    {N : ℕ} {seed : NDArray ℝ} {P : Particles ℝ} (hs : seed.shape = [4 * N, 2])
    (hp : mkParticles seed = .ok P) (hP : readSeedParticles env.fs s.particleFile = .ok P)
    (hP' : readSeedParticles env'.fs s'.particleFile = .ok P)
    (hin : ∀ i < N, ∀ q, ∀ j < s.snapshotFiles.length, ∀ z ∈ stages k
      (bilinear v (t0 + j * s.timestep) n n x0 dx x0 dx) s.timestep
      (flowMap k (fun j => bilinear v (t0 + (j : ℕ) * s.timestep) n n x0 dx x0 dx) s.timestep j
        (groupOf seed 4 N 2 i q)), OnAxis n x0 dx (z 0) ∧ OnAxis n x0 dx (z 1)) :
    ((⟨.file s', .grid (GridState.fresh .linear [n, n]), .fresh k⟩ : Solver ℝ).run env' queue'
        none).result =
      ((⟨.file s, .grid (GridState.fresh .linear [n, n]), .fresh k⟩ : Solver ℝ).run env queue
        none).result := by
  have ex := exchanged2_eq hv
  have fast : RealEnv { env with m := isoCpp Int.floor Int.cast } := ⟨he.abs, he.f2, he.f3⟩
  have hd2 := samples_exchanged_2d hd
  rw [ex] at hd2
  rw [C146_mixed_2d_fails (env := { env with m := isoCpp Int.floor Int.cast }) fast he' (.inl rfl) hsp' false queue' k hd hr
      hd' (by rw [ex]) (fun _ _ => rfl) hn hh hs hp hP hP' hin,
    C145_own_order_2d_partial (env := { env with m := isoCpp Int.floor Int.cast }) fast he (.inl rfl) hsp false queue k hd
      hd2 rfl rfl hs hp hP hP hin]

end Verif
