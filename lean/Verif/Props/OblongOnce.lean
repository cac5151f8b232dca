import Verif.Props.Oblong
import Verif.Props.OneCoordinateFile

/-!
# C146 on rectangles

One coordinate file for all snapshots, for all numbers of nodes along `x` and `y`.
-/

namespace Verif

/-- **C146 is false of the code**, for all grids in two dimensions.  Files that list the nodes with `x` first
and one coordinate file: the samples of the first snapshot are moved to the node `(a, b)` from the node
`((a * ny + b) % nx, (a * ny + b) / nx)`, those of all others are right.  The field is the one that copies of
the coordinates yield for samples `v'` of that kind, listed with `y` first. -/
theorem C146_mixed_rectangle_2d_fails {env env' : Env ℝ FVal} (he : RealEnv env) (he' : RealEnv env')
    (hsp : env.sp.LinearGrid2) (hsp' : env'.sp.LinearGrid2) (queue queue' : Bool) (k : Kind)
    {v v' : ℝ → (Fin 2 → ℝ) → Fin 2 → ℝ} {t0 : ℝ} {s s' : FileSource ℝ} {nx ny : ℕ} {x0 dx y0 dy : ℝ}
    (hd : NodeValues2 env.fs s v' t0 nx ny x0 dx y0 dy) (hr : s'.reuseCoordinates = true)
    (hd' : Samples2 env'.fs { s' with reuseCoordinates := false } v t0 nx ny x0 dx y0 dy)
    (h0 : ∀ a < nx, ∀ b < ny, v' t0 ![x0 + a * dx, y0 + b * dy] =
      v t0 ![x0 + ((a * ny + b) % nx : ℕ) * dx, y0 + ((a * ny + b) / nx : ℕ) * dy])
    (hv : ∀ j, 0 < j → ∀ a < nx, ∀ b < ny,
      v' (t0 + (j : ℕ) * s.timestep) ![x0 + a * dx, y0 + b * dy] =
        v (t0 + (j : ℕ) * s.timestep) ![x0 + a * dx, y0 + b * dy])
    (hn : s'.snapshotFiles.length = s.snapshotFiles.length) (hh : s'.timestep = s.timestep)
    {N : ℕ} {seed : NDArray ℝ} {P : Particles ℝ} (hs : seed.shape = [4 * N, 2])
    (hp : mkParticles seed = .ok P) (hP : readSeedParticles env.fs s.particleFile = .ok P)
    (hP' : readSeedParticles env'.fs s'.particleFile = .ok P)
    (hin : ∀ i < N, ∀ q, ∀ j < s.snapshotFiles.length, ∀ z ∈ stages k
      (bilinear v' (t0 + j * s.timestep) nx ny x0 dx y0 dy) s.timestep
      (flowMap k (fun j => bilinear v' (t0 + (j : ℕ) * s.timestep) nx ny x0 dx y0 dy) s.timestep j
        (groupOf seed 4 N 2 i q)), OnAxis nx x0 dx (z 0) ∧ OnAxis ny y0 dy (z 1)) :
    ((⟨.file s', .grid (GridState.fresh .linear [nx, ny]), .fresh k⟩ : Solver ℝ).run env' queue'
        none).result =
      ((⟨.file s, .grid (GridState.fresh .linear [nx, ny]), .fresh k⟩ : Solver ℝ).run env queue
        none).result := by
  have up := fun R j hj => scipy_reused_2d hsp' hr hd'.hnx hd'.hny hd'.hdx hd'.hdy (w := fun _ => v')
    (t := fun j => t0 + (j : ℕ) * s.timestep) (by
      intro i hi
      obtain ⟨V, P, a1, a2, a3, a4, a5⟩ := hd'.data i hi
      have g := listed_grid2 hd'.hnx hd'.hny hd'.lnx hd'.lny hd'.hdx hd'.hdy a2 a3 a4
      refine ⟨V, P, a1, a2, a3, g.hx, g.hy, fun a ha b hb c => ?_⟩
      have a5 : ∀ q < nx * ny, ∀ c : Fin 2,
        V.get [c, q] = v (t0 + i * s'.timestep) ![P.get [0, q], P.get [1, q]] c := a5
      rw [hh] at a5
      rcases Nat.eq_zero_or_pos i with rfl | h
      · have hnx := hd'.hnx
        have hq : a * ny + b < nx * ny := by nlinarith
        have e1 : (a * ny + b) % nx < nx := Nat.mod_lt _ (by omega)
        have e2 : (a * ny + b) / nx < ny := Nat.div_lt_of_lt_mul hq
        have h := a4 _ e1 _ e2
        rw [Nat.mod_add_div] at h
        rw [if_pos rfl, a5 _ hq c, h.1, h.2]
        simp only [Nat.cast_zero, zero_mul, add_zero]
        rw [h0 a ha b hb]
      · have hq : a + nx * b < nx * ny := by nlinarith
        rw [if_neg h.ne', a5 _ hq c, (a4 a ha b hb).1, (a4 a ha b hb).2, hv i h a ha b hb]) j hj R
  rw [run_flow_on_2d env (.file s) (I0 := .grid (GridState.fresh .linear [nx, ny])) trivial k
      (fun j => bilinear v' (t0 + (j : ℕ) * s.timestep) nx ny x0 dx y0 dy)
      (fun _ => {z | OnAxis nx x0 dx (z 0) ∧ OnAxis ny y0 dy (z 1)})
      (fun i hi => (scipy_updated_2d hsp hd i hi 0).1) N
      (fun i hi => (scipy_updated_2d hsp hd i hi (4 * N)).2) rfl seed P queue hs hp hP hin,
    run_flow_on_2d env' (.file s') (I0 := .grid (GridState.fresh .linear [nx, ny])) trivial k
      (fun j => bilinear v' (t0 + (j : ℕ) * s.timestep) nx ny x0 dx y0 dy)
      (fun _ => {z | OnAxis nx x0 dx (z 0) ∧ OnAxis ny y0 dy (z 1)})
      (fun i hi => (up 0 i hi).1) N (fun i hi => (up (4 * N) i hi).2)
      rfl seed P queue' hs hp hP' (fun i hi q j hj => by
        have e1 : (Source.file s').timestep = s.timestep := hh
        have e2 : j < s.snapshotFiles.length := hn ▸ hj
        rw [e1]
        exact hin i hi q j e2),
    sameperiod he he' (show (Source.file s').numSteps = (Source.file s).numSteps from hn) hh, he.f2, he'.f2]
  have e1 : (Source.file s').timestep = (Source.file s).timestep := hh
  have e2 : (Source.file s').numSteps = (Source.file s).numSteps := hn
  rw [e1, e2]

/-- Files that list the nodes with `y` first, as the first update expects, and one coordinate file: the
samples of the first snapshot are right, those of all others are moved to the node `(a, b)` from the node
`((a + nx * b) / ny, (a + nx * b) % ny)`. -/
theorem C146_own_rectangle_2d_fails {env env' : Env ℝ FVal} (he : RealEnv env) (he' : RealEnv env')
    (hsp : env.sp.LinearGrid2) (hsp' : env'.sp.LinearGrid2) (queue queue' : Bool) (k : Kind)
    {v v' : ℝ → (Fin 2 → ℝ) → Fin 2 → ℝ} {t0 : ℝ} {s s' : FileSource ℝ} {nx ny : ℕ} {x0 dx y0 dy : ℝ}
    (hd : NodeValues2 env.fs s v' t0 nx ny x0 dx y0 dy) (hr : s'.reuseCoordinates = true)
    (hd' : NodeValues2 env'.fs { s' with reuseCoordinates := false } v t0 nx ny x0 dx y0 dy)
    (h0 : ∀ a < nx, ∀ b < ny, v' t0 ![x0 + a * dx, y0 + b * dy] = v t0 ![x0 + a * dx, y0 + b * dy])
    (hv : ∀ j, 0 < j → ∀ a < nx, ∀ b < ny,
      v' (t0 + (j : ℕ) * s.timestep) ![x0 + a * dx, y0 + b * dy] = v (t0 + (j : ℕ) * s.timestep)
        ![x0 + ((a + nx * b) / ny : ℕ) * dx, y0 + ((a + nx * b) % ny : ℕ) * dy])
    (hn : s'.snapshotFiles.length = s.snapshotFiles.length) (hh : s'.timestep = s.timestep)
    {N : ℕ} {seed : NDArray ℝ} {P : Particles ℝ} (hs : seed.shape = [4 * N, 2])
    (hp : mkParticles seed = .ok P) (hP : readSeedParticles env.fs s.particleFile = .ok P)
    (hP' : readSeedParticles env'.fs s'.particleFile = .ok P)
    (hin : ∀ i < N, ∀ q, ∀ j < s.snapshotFiles.length, ∀ z ∈ stages k
      (bilinear v' (t0 + j * s.timestep) nx ny x0 dx y0 dy) s.timestep
      (flowMap k (fun j => bilinear v' (t0 + (j : ℕ) * s.timestep) nx ny x0 dx y0 dy) s.timestep j
        (groupOf seed 4 N 2 i q)), OnAxis nx x0 dx (z 0) ∧ OnAxis ny y0 dy (z 1)) :
    ((⟨.file s', .grid (GridState.fresh .linear [nx, ny]), .fresh k⟩ : Solver ℝ).run env' queue'
        none).result =
      ((⟨.file s, .grid (GridState.fresh .linear [nx, ny]), .fresh k⟩ : Solver ℝ).run env queue
        none).result := by
  have up := fun R j hj => scipy_reused_2d hsp' hr hd'.hnx hd'.hny hd'.hdx hd'.hdy (w := fun _ => v')
    (t := fun j => t0 + (j : ℕ) * s.timestep) (by
      intro i hi
      obtain ⟨V, P, a1, a2, a3, a4, a5, a6⟩ := hd'.data i hi
      refine ⟨V, P, a1, a2, a3, a4, a5, fun a ha b hb c => ?_⟩
      have a6 : ∀ a < nx, ∀ b < ny, ∀ c : Fin 2, V.get [c, a * ny + b] =
        v (t0 + i * s'.timestep) ![x0 + a * dx, y0 + b * dy] c := a6
      rw [hh] at a6
      rcases Nat.eq_zero_or_pos i with rfl | h
      · rw [if_pos rfl, a6 a ha b hb c]
        simp only [Nat.cast_zero, zero_mul, add_zero]
        rw [h0 a ha b hb]
      · have hny := hd'.hny
        have hq : a + nx * b < ny * nx := by nlinarith
        have e1 : (a + nx * b) % ny < ny := Nat.mod_lt _ (by omega)
        have e2 : (a + nx * b) / ny < nx := Nat.div_lt_of_lt_mul hq
        have h6 := a6 _ e2 _ e1 c
        rw [Nat.div_add_mod'] at h6
        rw [if_neg h.ne', h6, hv i h a ha b hb]) j hj R
  rw [run_flow_on_2d env (.file s) (I0 := .grid (GridState.fresh .linear [nx, ny])) trivial k
      (fun j => bilinear v' (t0 + (j : ℕ) * s.timestep) nx ny x0 dx y0 dy)
      (fun _ => {z | OnAxis nx x0 dx (z 0) ∧ OnAxis ny y0 dy (z 1)})
      (fun i hi => (scipy_updated_2d hsp hd i hi 0).1) N
      (fun i hi => (scipy_updated_2d hsp hd i hi (4 * N)).2) rfl seed P queue hs hp hP hin,
    run_flow_on_2d env' (.file s') (I0 := .grid (GridState.fresh .linear [nx, ny])) trivial k
      (fun j => bilinear v' (t0 + (j : ℕ) * s.timestep) nx ny x0 dx y0 dy)
      (fun _ => {z | OnAxis nx x0 dx (z 0) ∧ OnAxis ny y0 dy (z 1)})
      (fun i hi => (up 0 i hi).1) N (fun i hi => (up (4 * N) i hi).2)
      rfl seed P queue' hs hp hP' (fun i hi q j hj => by
        have e1 : (Source.file s').timestep = s.timestep := hh
        have e2 : j < s.snapshotFiles.length := hn ▸ hj
        rw [e1]
        exact hin i hi q j e2),
    sameperiod he he' (show (Source.file s').numSteps = (Source.file s).numSteps from hn) hh, he.f2, he'.f2]
  have e1 : (Source.file s').timestep = (Source.file s).timestep := hh
  have e2 : (Source.file s').numSteps = (Source.file s).numSteps := hn
  rw [e1, e2]

end Verif
