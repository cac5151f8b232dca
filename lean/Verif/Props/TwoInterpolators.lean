import Verif.Lemmas.SciPyGrid
import Verif.Props.Resample

/-!
# C145: the fast interpolator and the SciPy grid interpolator

`--interpolator grid` and `--interpolator linear` with the shape of the grid both interpolate linearly
between the nodes.  They yield the same field for data listed in the order that each of them expects; the
orders differ, and from the same files the second one reads the data with `x` and `y` exchanged.
-/

namespace Verif

open Matrix

/-- **C145 (2-D, `_partial`: two sets of files).**  The fast interpolator with files that list the nodes
with `x` first, the SciPy interpolator with files that list the same samples with `y` first: the same
field.  Missing for C145: the same with one set of files, which is false (`C145_one_set_2d_fails`). -/
theorem C145_own_order_2d_partial {env env' : Env ℝ FVal} (he : RealEnv env) (he' : RealEnv env')
    (hm : ExactTarget env.m) (hsp : env'.sp.LinearGrid2) (queue queue' : Bool) (k : Kind)
    {v : ℝ → (Fin 2 → ℝ) → Fin 2 → ℝ} {t0 : ℝ} {s s' : FileSource ℝ} {nx ny : ℕ} {x0 dx y0 dy : ℝ}
    (hd : Samples2 env.fs s v t0 nx ny x0 dx y0 dy) (hd' : NodeValues2 env'.fs s' v t0 nx ny x0 dx y0 dy)
    (hn : s'.snapshotFiles.length = s.snapshotFiles.length) (hh : s'.timestep = s.timestep)
    {N : ℕ} {seed : NDArray ℝ} {P : Particles ℝ} (hs : seed.shape = [4 * N, 2])
    (hp : mkParticles seed = .ok P) (hP : readSeedParticles env.fs s.particleFile = .ok P)
    (hP' : readSeedParticles env'.fs s'.particleFile = .ok P)
    (hin : ∀ i < N, ∀ q, ∀ j < s.snapshotFiles.length, ∀ z ∈ stages k
      (bilinear v (t0 + j * s.timestep) nx ny x0 dx y0 dy) s.timestep
      (flowMap k (fun j => bilinear v (t0 + (j : ℕ) * s.timestep) nx ny x0 dx y0 dy) s.timestep j
        (groupOf seed 4 N 2 i q)), OnAxis nx x0 dx (z 0) ∧ OnAxis ny y0 dy (z 1)) :
    ((⟨.file s', .grid (GridState.fresh .linear [nx, ny]), .fresh k⟩ : Solver ℝ).run env' queue'
        none).result =
      ((⟨.file s, .highPerf (HighPerf.fresh [nx, ny]), .fresh k⟩ : Solver ℝ).run env queue
        none).result := by
  rw [run_flow_on_2d env (.file s) (by exact (rfl : (HighPerf.fresh (K := ℝ) [nx, ny]).uLen = none)) k
      (fun j => bilinear v (t0 + (j : ℕ) * s.timestep) nx ny x0 dx y0 dy)
      (fun _ => {z | OnAxis nx x0 dx (z 0) ∧ OnAxis ny y0 dy (z 1)})
      (fun i hi => (samples_updated_2d hm hd i hi 0).1) N
      (fun i hi => (samples_updated_2d hm hd i hi (4 * N)).2) rfl seed P queue hs hp hP hin,
    run_flow_on_2d env' (.file s') (I0 := .grid (GridState.fresh .linear [nx, ny])) trivial k
      (fun j => bilinear v (t0 + (j : ℕ) * s.timestep) nx ny x0 dx y0 dy)
      (fun _ => {z | OnAxis nx x0 dx (z 0) ∧ OnAxis ny y0 dy (z 1)})
      (fun i hi => (scipy_updated_2d hsp hd' i hi 0).1) N
      (fun i hi => (scipy_updated_2d hsp hd' i hi (4 * N)).2.congr (fun z hz => hz)
        fun z hz => by rw [hh])
      rfl seed P queue' hs hp hP' (fun i hi q j hj => by
        have e1 : (Source.file s').timestep = s.timestep := hh
        have e2 : j < s.snapshotFiles.length := hn ▸ hj
        rw [e1]
        exact hin i hi q j e2),
    sameperiod he he' (show (Source.file s').numSteps = (Source.file s).numSteps from hn) hh, he.f2, he'.f2]
  have e1 : (Source.file s').timestep = (Source.file s).timestep := hh
  have e2 : (Source.file s').numSteps = (Source.file s).numSteps := hn
  rw [e1, e2]

/-- Three-dimensional version. -/
theorem C145_own_order_3d_partial {env env' : Env ℝ FVal} (he : RealEnv env) (he' : RealEnv env')
    (hm : ExactTarget env.m) (hsp : env'.sp.LinearGrid3) (queue queue' : Bool) (k : Kind)
    {v : ℝ → (Fin 3 → ℝ) → Fin 3 → ℝ} {t0 : ℝ} {s s' : FileSource ℝ} {m nz : ℕ}
    {x0 dx y0 dy z0 dz : ℝ} (hd : Samples3 env.fs s v t0 m nz x0 dx y0 dy z0 dz)
    (hd' : NodeValues3 env'.fs s' v t0 m m nz x0 dx y0 dy z0 dz)
    (hn : s'.snapshotFiles.length = s.snapshotFiles.length) (hh : s'.timestep = s.timestep)
    {N : ℕ} {seed : NDArray ℝ} {P : Particles ℝ} (hs : seed.shape = [6 * N, 3])
    (hp : mkParticles seed = .ok P) (hP : readSeedParticles env.fs s.particleFile = .ok P)
    (hP' : readSeedParticles env'.fs s'.particleFile = .ok P)
    (hin : ∀ i < N, ∀ q, ∀ j < s.snapshotFiles.length, ∀ z ∈ stages k
      (trilinear v (t0 + j * s.timestep) m nz x0 dx y0 dy z0 dz) s.timestep
      (flowMap k (fun j => trilinear v (t0 + (j : ℕ) * s.timestep) m nz x0 dx y0 dy z0 dz) s.timestep j
        (groupOf seed 6 N 3 i q)), OnAxis m x0 dx (z 0) ∧ OnAxis m y0 dy (z 1) ∧ OnAxis nz z0 dz (z 2)) :
    ((⟨.file s', .grid (GridState.fresh .linear [m, m, nz]), .fresh k⟩ : Solver ℝ).run env' queue'
        none).result =
      ((⟨.file s, .highPerf (HighPerf.fresh [m, m, nz]), .fresh k⟩ : Solver ℝ).run env queue
        none).result := by
  rw [run_flow_on_3d env (.file s) (by exact (rfl : (HighPerf.fresh (K := ℝ) [m, m, nz]).uLen = none)) k
      (fun j => trilinear v (t0 + (j : ℕ) * s.timestep) m nz x0 dx y0 dy z0 dz)
      (fun _ => {z | OnAxis m x0 dx (z 0) ∧ OnAxis m y0 dy (z 1) ∧ OnAxis nz z0 dz (z 2)})
      (fun i hi => (samples_updated_3d hm hd i hi 0).1) N
      (fun i hi => (samples_updated_3d hm hd i hi (6 * N)).2) rfl seed P queue hs hp hP hin,
    run_flow_on_3d env' (.file s') (I0 := .grid (GridState.fresh .linear [m, m, nz])) trivial k
      (fun j => trilinear v (t0 + (j : ℕ) * s.timestep) m nz x0 dx y0 dy z0 dz)
      (fun _ => {z | OnAxis m x0 dx (z 0) ∧ OnAxis m y0 dy (z 1) ∧ OnAxis nz z0 dz (z 2)})
      (fun i hi => (scipy_updated_3d hsp hd' i hi 0).1) N
      (fun i hi => (scipy_updated_3d hsp hd' i hi (6 * N)).2.congr (fun z hz => hz)
        fun z hz => by rw [hh])
      rfl seed P queue' hs hp hP' (fun i hi q j hj => by
        have e1 : (Source.file s').timestep = s.timestep := hh
        have e2 : j < s.snapshotFiles.length := hn ▸ hj
        rw [e1]
        exact hin i hi q j e2),
    sameperiod he he' (show (Source.file s').numSteps = (Source.file s).numSteps from hn) hh, he.f3, he'.f3]
  have e1 : (Source.file s').timestep = (Source.file s).timestep := hh
  have e2 : (Source.file s').numSteps = (Source.file s).numSteps := hn
  rw [e1, e2]

/-! ## One set of files -/

/-- The velocity `v` with the coordinates `x` and `y` of the point exchanged (not its components). -/
def exchanged2 (v : ℝ → (Fin 2 → ℝ) → Fin 2 → ℝ) (t : ℝ) (z : Fin 2 → ℝ) : Fin 2 → ℝ := v t ![z 1, z 0]

def exchanged3 (v : ℝ → (Fin 3 → ℝ) → Fin 3 → ℝ) (t : ℝ) (z : Fin 3 → ℝ) : Fin 3 → ℝ :=
  v t ![z 1, z 0, z 2]

/-- What the SciPy interpolator takes from files written for the fast one, on a square. -/
theorem samples_exchanged_2d {fs : MatFS ℝ} {s : FileSource ℝ} {v : ℝ → (Fin 2 → ℝ) → Fin 2 → ℝ}
    {t0 : ℝ} {n : ℕ} {x0 dx : ℝ} (hd : Samples2 fs s v t0 n n x0 dx x0 dx) :
    NodeValues2 fs s (exchanged2 v) t0 n n x0 dx x0 dx where
  fresh := hd.fresh
  hnx := hd.hnx
  hny := hd.hny
  hdx := hd.hdx
  hdy := hd.hdy
  data := by
    intro j hj
    obtain ⟨V, P, a1, a2, a3, a4, a5⟩ := hd.data j hj
    have g := listed_grid2 hd.hnx hd.hny hd.lnx hd.lny hd.hdx hd.hdy a2 a3 a4
    refine ⟨V, P, a1, a2, a3, g.hx, g.hy, fun a ha b hb c => ?_⟩
    have hq : b + n * a < n * n := by nlinarith
    have := a5 _ hq c
    rw [(a4 b hb a ha).1, (a4 b hb a ha).2] at this
    rw [show a * n + b = b + n * a by ring, this]
    rfl

theorem samples_exchanged_3d {fs : MatFS ℝ} {s : FileSource ℝ} {v : ℝ → (Fin 3 → ℝ) → Fin 3 → ℝ}
    {t0 : ℝ} {m nz : ℕ} {x0 dx z0 dz : ℝ} (hd : Samples3 fs s v t0 m nz x0 dx x0 dx z0 dz) :
    NodeValues3 fs s (exchanged3 v) t0 m m nz x0 dx x0 dx z0 dz where
  fresh := hd.fresh
  hnx := hd.hm
  hny := hd.hm
  hnz := hd.hnz
  hdx := hd.hdx
  hdy := hd.hdy
  hdz := hd.hdz
  data := by
    intro j hj
    obtain ⟨V, P, a1, a2, a3, a4, a5⟩ := hd.data j hj
    have g := listed_grid3 hd.hm hd.hnz hd.lm hd.lnz hd.lmz hd.hdx hd.hdy hd.hdz a2 a3 a4
    refine ⟨V, P, a1, a2, a3, g.hx, g.hy, g.hz, fun a ha b hb e he c => ?_⟩
    have := a5 _ (flat_lt3 hb ha he) c
    rw [(a4 b hb a ha e he).1, (a4 b hb a ha e he).2.1, (a4 b hb a ha e he).2.2] at this
    rw [this]
    rfl

/-- **C145 is false of the code**: from files on a square that list the nodes with `x` first, as the fast
interpolator expects, the SciPy interpolator computes the field of the samples with `x` and `y` exchanged
— the field that the fast interpolator computes from files with those samples. -/
theorem C145_one_set_2d_fails {env env' : Env ℝ FVal} (he : RealEnv env) (he' : RealEnv env')
    (hm : ExactTarget env.m) (hsp : env'.sp.LinearGrid2) (queue queue' : Bool) (k : Kind)
    {v : ℝ → (Fin 2 → ℝ) → Fin 2 → ℝ} {t0 : ℝ} {s s' : FileSource ℝ} {n : ℕ} {x0 dx : ℝ}
    (hd : Samples2 env.fs s (exchanged2 v) t0 n n x0 dx x0 dx)
    (hd' : Samples2 env'.fs s' v t0 n n x0 dx x0 dx)
    (hn : s'.snapshotFiles.length = s.snapshotFiles.length) (hh : s'.timestep = s.timestep)
    {N : ℕ} {seed : NDArray ℝ} {P : Particles ℝ} (hs : seed.shape = [4 * N, 2])
    (hp : mkParticles seed = .ok P) (hP : readSeedParticles env.fs s.particleFile = .ok P)
    (hP' : readSeedParticles env'.fs s'.particleFile = .ok P)
    (hin : ∀ i < N, ∀ q, ∀ j < s.snapshotFiles.length, ∀ z ∈ stages k
      (bilinear (exchanged2 v) (t0 + j * s.timestep) n n x0 dx x0 dx) s.timestep
      (flowMap k (fun j => bilinear (exchanged2 v) (t0 + (j : ℕ) * s.timestep) n n x0 dx x0 dx) s.timestep j
        (groupOf seed 4 N 2 i q)), OnAxis n x0 dx (z 0) ∧ OnAxis n x0 dx (z 1)) :
    ((⟨.file s', .grid (GridState.fresh .linear [n, n]), .fresh k⟩ : Solver ℝ).run env' queue'
        none).result =
      ((⟨.file s, .highPerf (HighPerf.fresh [n, n]), .fresh k⟩ : Solver ℝ).run env queue
        none).result :=
  C145_own_order_2d_partial he he' hm hsp queue queue' k hd (samples_exchanged_2d hd') hn hh hs hp hP hP' hin

theorem C145_one_set_3d_fails {env env' : Env ℝ FVal} (he : RealEnv env) (he' : RealEnv env')
    (hm : ExactTarget env.m) (hsp : env'.sp.LinearGrid3) (queue queue' : Bool) (k : Kind)
    {v : ℝ → (Fin 3 → ℝ) → Fin 3 → ℝ} {t0 : ℝ} {s s' : FileSource ℝ} {m nz : ℕ} {x0 dx z0 dz : ℝ}
    (hd : Samples3 env.fs s (exchanged3 v) t0 m nz x0 dx x0 dx z0 dz)
    (hd' : Samples3 env'.fs s' v t0 m nz x0 dx x0 dx z0 dz)
    (hn : s'.snapshotFiles.length = s.snapshotFiles.length) (hh : s'.timestep = s.timestep)
    {N : ℕ} {seed : NDArray ℝ} {P : Particles ℝ} (hs : seed.shape = [6 * N, 3])
    (hp : mkParticles seed = .ok P) (hP : readSeedParticles env.fs s.particleFile = .ok P)
    (hP' : readSeedParticles env'.fs s'.particleFile = .ok P)
    (hin : ∀ i < N, ∀ q, ∀ j < s.snapshotFiles.length, ∀ z ∈ stages k
      (trilinear (exchanged3 v) (t0 + j * s.timestep) m nz x0 dx x0 dx z0 dz) s.timestep
      (flowMap k (fun j => trilinear (exchanged3 v) (t0 + (j : ℕ) * s.timestep) m nz x0 dx x0 dx z0 dz)
        s.timestep j (groupOf seed 6 N 3 i q)),
      OnAxis m x0 dx (z 0) ∧ OnAxis m x0 dx (z 1) ∧ OnAxis nz z0 dz (z 2)) :
    ((⟨.file s', .grid (GridState.fresh .linear [m, m, nz]), .fresh k⟩ : Solver ℝ).run env' queue'
        none).result =
      ((⟨.file s, .highPerf (HighPerf.fresh [m, m, nz]), .fresh k⟩ : Solver ℝ).run env queue
        none).result :=
  C145_own_order_3d_partial he he' hm hsp queue queue' k hd (samples_exchanged_3d hd') hn hh hs hp hP hP' hin

end Verif
