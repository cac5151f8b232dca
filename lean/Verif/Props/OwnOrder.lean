import Verif.Props.OneCoordinateFile

/-!
# C146 with the data in the order that SciPy expects

One coordinate file, nodes listed with the last axis fastest, as the first update expects them: from the
second snapshot on the samples are taken with `x` and `y` exchanged.
-/

namespace Verif

/-- Files in the order that `GridInterpolator` expects, on a square, read with one coordinate file. -/
theorem nodes_mixed_2d {env : Env ℝ FVal} (hsp : env.sp.LinearGrid2) {s : FileSource ℝ}
    (hr : s.reuseCoordinates = true) {v : ℝ → (Fin 2 → ℝ) → Fin 2 → ℝ} {t0 : ℝ} {n : ℕ} {x0 dx : ℝ}
    (hd : NodeValues2 env.fs { s with reuseCoordinates := false } v t0 n n x0 dx x0 dx) (j : ℕ)
    (hj : j < s.snapshotFiles.length) (R : ℕ) :
    ((Source.file s).updated env (.grid (GridState.fresh .linear [n, n])) (j + 1)).2 = none ∧
    PointwiseOn {z | OnAxis n x0 dx (z 0) ∧ OnAxis n x0 dx (z 1)} R
      (((Source.file s).updated env (.grid (GridState.fresh .linear [n, n])) (j + 1)).1.velocity env)
      (bilinear (if j = 0 then v else exchanged2 v) (t0 + j * s.timestep) n n x0 dx x0 dx) := by
  refine scipy_reused_2d hsp hr hd.hnx hd.hny hd.hdx hd.hdy
    (w := fun j => if j = 0 then v else exchanged2 v) (t := fun j => t0 + (j : ℕ) * s.timestep) ?_ j hj R
  intro i hi
  obtain ⟨V, P, a1, a2, a3, a4, a5, a6⟩ := hd.data i hi
  refine ⟨V, P, a1, a2, a3, a4, a5, fun a ha b hb c => ?_⟩
  by_cases h0 : i = 0
  · rw [if_pos h0, if_pos h0, a6 a ha b hb c]
  · rw [if_neg h0, if_neg h0, show a + n * b = b * n + a by ring, a6 b hb a ha c]
    rfl

/-- **C146 is false of the code (2-D), data in SciPy's order**: with one file of coordinates the samples of
the first snapshot are right and those of all others have `x` and `y` exchanged.  The field is the one that
copies of the coordinates (`s`) yield for samples `v'` of that kind. -/
theorem C146_own_order_2d_fails {env env' : Env ℝ FVal} (he : RealEnv env) (he' : RealEnv env')
    (hsp : env.sp.LinearGrid2) (hsp' : env'.sp.LinearGrid2) (queue queue' : Bool) (k : Kind)
    {v v' : ℝ → (Fin 2 → ℝ) → Fin 2 → ℝ} {t0 : ℝ} {s s' : FileSource ℝ} {n : ℕ} {x0 dx : ℝ}
    (hd : NodeValues2 env.fs s v' t0 n n x0 dx x0 dx) (hr : s'.reuseCoordinates = true)
    (hd' : NodeValues2 env'.fs { s' with reuseCoordinates := false } v t0 n n x0 dx x0 dx)
    (h0 : v' t0 = v t0)
    (hv : ∀ j, 0 < j → v' (t0 + (j : ℕ) * s.timestep) = exchanged2 v (t0 + (j : ℕ) * s.timestep))
    (hn : s'.snapshotFiles.length = s.snapshotFiles.length) (hh : s'.timestep = s.timestep)
    {N : ℕ} {seed : NDArray ℝ} {P : Particles ℝ} (hs : seed.shape = [4 * N, 2])
    (hp : mkParticles seed = .ok P) (hP : readSeedParticles env.fs s.particleFile = .ok P)
    (hP' : readSeedParticles env'.fs s'.particleFile = .ok P)
    (hin : ∀ i < N, ∀ q, ∀ j < s.snapshotFiles.length, ∀ z ∈ stages k
      (bilinear v' (t0 + j * s.timestep) n n x0 dx x0 dx) s.timestep
      (flowMap k (fun j => bilinear v' (t0 + (j : ℕ) * s.timestep) n n x0 dx x0 dx) s.timestep j
        (groupOf seed 4 N 2 i q)), OnAxis n x0 dx (z 0) ∧ OnAxis n x0 dx (z 1)) :
    ((⟨.file s', .grid (GridState.fresh .linear [n, n]), .fresh k⟩ : Solver ℝ).run env' queue'
        none).result =
      ((⟨.file s, .grid (GridState.fresh .linear [n, n]), .fresh k⟩ : Solver ℝ).run env queue
        none).result := by
  have same : ∀ j : ℕ, bilinear (if j = 0 then v else exchanged2 v) (t0 + j * s.timestep) n n x0 dx x0 dx =
      bilinear v' (t0 + j * s.timestep) n n x0 dx x0 dx := by
    intro j
    funext z c
    rcases Nat.eq_zero_or_pos j with rfl | hj
    · simp only [bilinear, Nat.cast_zero, zero_mul, add_zero, h0, if_true]
    · simp only [bilinear, hv j hj, if_neg hj.ne']
  rw [run_flow_on_2d env (.file s) (I0 := .grid (GridState.fresh .linear [n, n])) trivial k
      (fun j => bilinear v' (t0 + (j : ℕ) * s.timestep) n n x0 dx x0 dx)
      (fun _ => {z | OnAxis n x0 dx (z 0) ∧ OnAxis n x0 dx (z 1)})
      (fun i hi => (scipy_updated_2d hsp hd i hi 0).1) N
      (fun i hi => (scipy_updated_2d hsp hd i hi (4 * N)).2) rfl seed P queue hs hp hP hin,
    run_flow_on_2d env' (.file s') (I0 := .grid (GridState.fresh .linear [n, n])) trivial k
      (fun j => bilinear v' (t0 + (j : ℕ) * s.timestep) n n x0 dx x0 dx)
      (fun _ => {z | OnAxis n x0 dx (z 0) ∧ OnAxis n x0 dx (z 1)})
      (fun i hi => (nodes_mixed_2d hsp' hr hd' i hi 0).1) N
      (fun i hi => (nodes_mixed_2d hsp' hr hd' i hi (4 * N)).2.congr (fun z hz => hz)
        fun z hz => by rw [hh, same])
      rfl seed P queue' hs hp hP' (fun i hi q j hj => by
        have e1 : (Source.file s').timestep = s.timestep := hh
        have e2 : j < s.snapshotFiles.length := hn ▸ hj
        rw [e1]
        exact hin i hi q j e2),
    sameperiod he he' (show (Source.file s').numSteps = (Source.file s).numSteps from hn) hh, he.f2, he'.f2]
  have e1 : (Source.file s').timestep = (Source.file s).timestep := hh
  have e2 : (Source.file s').numSteps = (Source.file s).numSteps := hn
  rw [e1, e2]

end Verif
