import Verif.Props.TwoInterpolators

/-!
# C145 on rectangles

What `--interpolator linear` computes from files written for `--interpolator grid`, for all numbers of
nodes along `x` and `y`: node `(a, b)` takes the sample with the number `a * ny + b`, which the files list
for the node `((a * ny + b) % nx, (a * ny + b) / nx)`.
-/

namespace Verif

/-- What the SciPy interpolator takes from files written for the fast one. -/
theorem samples_reread_2d {fs : MatFS ℝ} {s : FileSource ℝ} {v v' : ℝ → (Fin 2 → ℝ) → Fin 2 → ℝ}
    {t0 : ℝ} {nx ny : ℕ} {x0 dx y0 dy : ℝ} (hd : Samples2 fs s v t0 nx ny x0 dx y0 dy)
    (hv : ∀ j < s.snapshotFiles.length, ∀ a < nx, ∀ b < ny,
      v' (t0 + j * s.timestep) ![x0 + a * dx, y0 + b * dy] = v (t0 + j * s.timestep)
        ![x0 + ((a * ny + b) % nx : ℕ) * dx, y0 + ((a * ny + b) / nx : ℕ) * dy]) :
    NodeValues2 fs s v' t0 nx ny x0 dx y0 dy where
  fresh := hd.fresh
  hnx := hd.hnx
  hny := hd.hny
  hdx := hd.hdx
  hdy := hd.hdy
  data := by
    intro j hj
    obtain ⟨V, P, a1, a2, a3, a4, a5⟩ := hd.data j hj
    have g := listed_grid2 hd.hnx hd.hny hd.lnx hd.lny hd.hdx hd.hdy a2 a3 a4
    refine ⟨V, P, a1, a2, a3, g.hx, g.hy, fun a ha b hb c => ?_⟩
    have hnx := hd.hnx
    have hq : a * ny + b < nx * ny := by nlinarith
    have e1 : (a * ny + b) % nx < nx := Nat.mod_lt _ (by omega)
    have e2 : (a * ny + b) / nx < ny := Nat.div_lt_of_lt_mul hq
    have h := a4 _ e1 _ e2
    rw [Nat.mod_add_div] at h
    rw [hv j hj a ha b hb, a5 _ hq c, h.1, h.2]

/-- **C145 is false of the code**, for all grids in two dimensions: from files that list the nodes with `x`
first the SciPy interpolator computes the field that the fast one computes from files (`s`) in which the
samples have been moved to the node `(a, b)` from the node `((a * ny + b) % nx, (a * ny + b) / nx)`.  For
`nx = ny` this is the exchange of `C145_one_set_2d_fails`. -/
theorem C145_rectangle_2d_fails {env env' : Env ℝ FVal} (he : RealEnv env) (he' : RealEnv env')
    (hm : ExactTarget env.m) (hsp : env'.sp.LinearGrid2) (queue queue' : Bool) (k : Kind)
    {v v' : ℝ → (Fin 2 → ℝ) → Fin 2 → ℝ} {t0 : ℝ} {s s' : FileSource ℝ} {nx ny : ℕ} {x0 dx y0 dy : ℝ}
    (hd : Samples2 env.fs s v' t0 nx ny x0 dx y0 dy) (hd' : Samples2 env'.fs s' v t0 nx ny x0 dx y0 dy)
    (hv : ∀ j < s.snapshotFiles.length, ∀ a < nx, ∀ b < ny,
      v' (t0 + j * s.timestep) ![x0 + a * dx, y0 + b * dy] = v (t0 + j * s.timestep)
        ![x0 + ((a * ny + b) % nx : ℕ) * dx, y0 + ((a * ny + b) / nx : ℕ) * dy])
    (hn : s'.snapshotFiles.length = s.snapshotFiles.length) (hh : s'.timestep = s.timestep)
    {N : ℕ} {seed : NDArray ℝ} {P : Particles ℝ} (hs : seed.shape = [4 * N, 2])
    (hp : mkParticles seed = .ok P) (hP : readSeedParticles env.fs s.particleFile = .ok P)
    (hP' : readSeedParticles env'.fs s'.particleFile = .ok P)
    (hin : ∀ i < N, ∀ q, ∀ j < s.snapshotFiles.length, ∀ z ∈ stages k
      (bilinear v' (t0 + j * s.timestep) nx ny x0 dx y0 dy) s.timestep
      (flowMap k (fun j => bilinear v' (t0 + (j : ℕ) * s.timestep) nx ny x0 dx y0 dy) s.timestep j
        (groupOf seed 4 N 2 i q)), OnAxis nx x0 dx (z 0) ∧ OnAxis ny y0 dy (z 1)) :
    ((⟨.file s', .grid (GridState.fresh .linear [nx, ny]), .fresh k⟩ : Solver ℝ).run env' queue'
        none).result =
      ((⟨.file s, .highPerf (HighPerf.fresh [nx, ny]), .fresh k⟩ : Solver ℝ).run env queue
        none).result :=
  C145_own_order_2d_partial he he' hm hsp queue queue' k hd
    (samples_reread_2d hd' (by rw [hn, hh]; exact hv)) hn hh hs hp hP hP' hin

end Verif
