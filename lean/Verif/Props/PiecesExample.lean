import Verif.Props.Pieces
import Verif.Props.DualityExample
import Verif.Props.ScatteredExample

/-!
# C129: a case

The flow `(t x, -t y)` sampled at the three points `(-6, -6)`, `(18, -6)`, `(-6, 18)`, at the times 0 and
1; four seeds at distance 1 from the origin.  By linear interpolation the exponent is `log 2`, by the
nearest point it is 0.
-/

namespace Verif

open Matrix Set

noncomputable def sparseX (q : ℕ) : ℝ := if q = 1 then 18 else -6

noncomputable def sparseY (q : ℕ) : ℝ := if q = 2 then 18 else -6

noncomputable def sparseField (t : ℝ) : String → Option (NDArray ℝ) := fun key =>
  if key = "velocity_x" then some (listing 3 fun q => t * sparseX q)
  else if key = "velocity_y" then some (listing 3 fun q => -t * sparseY q)
  else none

noncomputable def sparseFiles : MatFS ℝ := fun path =>
  if path = "c" then some fun key =>
    if key = "coordinate_x" then some (listing 3 sparseX)
    else if key = "coordinate_y" then some (listing 3 sparseY)
    else none
  else if path = "v0" then some (sparseField 0)
  else if path = "v1" then some (sparseField 1)
  else pumpFiles path

noncomputable def sparseSource : FileSource ℝ := ⟨["v0", "v1"], ["c", "c"], "p", 1, "v0", true⟩

theorem sparse_velocity {f : String} {t : ℝ} (hf : f = "v0" ∧ t = 0 ∨ f = "v1" ∧ t = 1) :
    ∃ V, readVelocity sparseFiles f = .ok V ∧ V.shape = [2, 3] ∧
      (∀ q : ℕ, V.get [0, q] = t * sparseX q) ∧ ∀ q : ℕ, V.get [1, q] = -t * sparseY q := by
  obtain ⟨V, h1, h2, h3, h4⟩ := stack_two 3 (fun q => t * sparseX q) (fun q => -t * sparseY q)
  refine ⟨V, ?_, h2, h3, h4⟩
  rw [← h1]
  rcases hf with ⟨rfl, rfl⟩ | ⟨rfl, rfl⟩ <;>
    simp [readVelocity, loadmat, sparseFiles, sparseField, readComponents]

theorem sparse_samples : ∃ C : NDArray ℝ, (∀ q, samplePoint C q = ![sparseX q, sparseY q]) ∧
    ScatterSamples sparseFiles sparseSource pump 0 (fun _ => C) (fun _ => 3) := by
  obtain ⟨C, h1, h2, h3, h4⟩ := stack_two 3 sparseX sparseY
  have hC : readCoordinate sparseFiles "c" = .ok C := by
    rw [← h1]
    simp [readCoordinate, loadmat, sparseFiles, readComponents]
  have hq : ∀ q, samplePoint C q = ![sparseX q, sparseY q] := fun q => by
    simp [samplePoint, h3, h4]
  refine ⟨C, hq, fun _ _ _ => rfl, fun j hj => ?_⟩
  have hj : j < 2 := hj
  obtain ⟨f, f1, f2⟩ : ∃ f, sparseSource.snapshotFiles[j]? = some f ∧
      (f = "v0" ∧ (j : ℝ) = 0 ∨ f = "v1" ∧ (j : ℝ) = 1) := by
    interval_cases j
    · exact ⟨"v0", rfl, .inl ⟨rfl, by simp⟩⟩
    · exact ⟨"v1", rfl, .inr ⟨rfl, by simp⟩⟩
  obtain ⟨V, a1, a2, a3, a4⟩ := sparse_velocity f2
  refine ⟨V, ⟨⟨f, f1, a1⟩, "c", by interval_cases j <;> rfl, hC⟩, a2, h2, fun k hk c => ?_⟩
  rw [hq]
  fin_cases c
  · simpa [pump, sparseSource] using a3 k
  · simpa [pump, sparseSource] using a4 k

theorem sparse_seeds : ∃ seed P, seed.shape = [4 * 1, 2] ∧ mkParticles seed = .ok P ∧
    readSeedParticles sparseFiles "p" = .ok P ∧ ∀ b, groupOf seed 4 1 2 0 b = cross2 0 1 b := by
  obtain ⟨seed, P, s1, s2, s3, s4⟩ := pump_seeds
  refine ⟨seed, P, s1, s2, ?_, s4⟩
  rw [← s3]
  simp [readSeedParticles, loadmat, sparseFiles]

/-- The nearest of the three points. -/
theorem sparse_near {C : NDArray ℝ} (hC : ∀ q, samplePoint C q = ![sparseX q, sparseY q]) (b : Fin 4) :
    nearestTo C 3 (cross2 0 1 b) = 0 := by
  obtain ⟨h1, h2⟩ := nearestTo_spec C (n := 3) (by norm_num) (cross2 0 1 b)
  have h2 := h2 0 (by norm_num)
  have low : ‖samplePoint C 0 - cross2 0 1 b‖ ≤ 7 := by
    rw [hC, pi_norm_le_iff_of_nonneg (by norm_num)]
    intro c
    fin_cases b <;> fin_cases c <;> norm_num [sparseX, sparseY, cross2]
  generalize nearestTo C 3 (cross2 0 1 b) = m at h1 h2
  interval_cases m
  · rfl
  · exfalso
    have := norm_le_pi_norm (samplePoint C 1 - cross2 0 1 b) 0
    rw [hC] at this
    have e : (17 : ℝ) ≤ ‖(![sparseX 1, sparseY 1] - cross2 0 1 b) 0‖ := by
      fin_cases b <;> norm_num [sparseX, sparseY, cross2]
    rw [hC 1] at h2
    linarith
  · exfalso
    have := norm_le_pi_norm (samplePoint C 2 - cross2 0 1 b) 1
    rw [hC] at this
    have e : (17 : ℝ) ≤ ‖(![sparseX 2, sparseY 2] - cross2 0 1 b) 1‖ := by
      fin_cases b <;> norm_num [sparseX, sparseY, cross2]
    rw [hC 2] at h2
    linarith

/-- The files have velocity 0 at the first snapshot, so the seeds are where they were at the second. -/
theorem sparse_step {g : ℕ → (Fin 2 → ℝ) → Fin 2 → ℝ} {x : Fin 2 → ℝ} (h : g 0 x = 0) :
    ∀ j < 2, flowMap .euler g 1 j x = x := by
  intro j hj
  interval_cases j
  · rfl
  · funext c
    simp [flowMap, rowRun, rowStep, h]

noncomputable def sparseNearest : Env ℝ FVal := { realEnv with fs := sparseFiles, sp := nearestSciPy }

/-- The hypotheses of C129 hold for the nearest point. -/
theorem sparse_nearest :
    ((⟨.file sparseSource, .scatter (.fresh .nearest), .fresh .euler⟩ : Solver ℝ).run sparseNearest
      false none).result = .ok (some [.fin 0]) := by
  obtain ⟨C, hC, hd⟩ := sparse_samples
  obtain ⟨seed, P, s1, s2, s3, s4⟩ := sparse_seeds
  obtain ⟨vs, h1, h2, h3⟩ := C129_nearest (env := sparseNearest) ⟨rfl, rfl, rfl⟩ false .euler
    (me := .nearest) hd (near := fun _ => nearestTo C 3)
    (fun _ z => (nearestTo_spec C (by norm_num) z).1)
    (fun _ _ _ _ => rfl) (fun j _ w q rows hw _ => ⟨_, rfl, fun r _ => by rw [hw]; rfl⟩)
    s1 s2 s3 (cross2_aligned s4) le_rfl one_ne_zero
    (g := fun j z => pump (0 + j * sparseSource.timestep) (samplePoint C (nearestTo C 3 z)))
    (fun _ _ => rfl)
  have hv := h3 0 one_pos fun q j hj => by
    have hj : j < 2 := hj
    rw [s4, s4]
    have z : ∀ x, (fun j z => pump (0 + (j : ℕ) * sparseSource.timestep)
        (samplePoint C (nearestTo C 3 z))) 0 x = 0 := fun x => by
      funext c
      fin_cases c <;> simp [pump]
    show List.map _ [_] = List.map _ [_]
    rw [show sparseSource.timestep = 1 from rfl] at z ⊢
    rw [sparse_step (z _) j hj, sparse_step (z _) j hj]
    simp only [List.map_cons, List.map_nil, sparse_near hC]
  rw [h1]
  congr 2
  rw [List.length_eq_one_iff] at h2
  obtain ⟨a, rfl⟩ := h2
  simpa using hv

noncomputable def sparseBar (z : Fin 2 → ℝ) : Fin 3 → ℝ :=
  ![1 - (z 0 + 6) / 24 - (z 1 + 6) / 24, (z 0 + 6) / 24, (z 1 + 6) / 24]

/-- Linear interpolation on the triangle of the three points. -/
noncomputable def triangleSciPy : SciPy ℝ :=
  ⟨fun _ _ _ => none, fun _ _ w q => .ok fun r => ∑ i : Fin 3, sparseBar (rowOf q 2 r) i * w.get [i.1],
    fun _ _ _ => none, fun _ _ _ _ => .error .valueError⟩

noncomputable def sparseLinear : Env ℝ FVal := { realEnv with fs := sparseFiles, sp := triangleSciPy }

/-- The hypotheses of C129 hold for triangles: the exponent is `log 2`, as on the fine grid
(`pump_euler`). -/
theorem sparse_linear :
    ((⟨.file sparseSource, .scatter (.fresh .linear), .fresh .euler⟩ : Solver ℝ).run sparseLinear
      false none).result = .ok (some [.fin (Real.log 2)]) := by
  obtain ⟨C, hC, hd⟩ := sparse_samples
  obtain ⟨seed, P, s1, s2, s3, s4⟩ := sparse_seeds
  have z0 : ∀ x, (fun (j : ℕ) (z : Fin 2 → ℝ) => ∑ i : Fin 3, sparseBar z i •
      pump (0 + (j : ℕ) * sparseSource.timestep) (samplePoint C i.1)) 0 x = 0 := fun x => by
    have : ∀ y, pump 0 y = 0 := fun y => by funext c; fin_cases c <;> simp [pump]
    simp [this]
  obtain ⟨vs, h1, h2, h3⟩ := C129_triangles (env := sparseLinear) ⟨rfl, rfl, rfl⟩ false .euler
    (me := .linear) hd (R := fun _ => {z | -6 ≤ z 0 ∧ -6 ≤ z 1 ∧ z 0 + z 1 ≤ 12})
    (c := fun _ _ i => i.1) (fun _ _ i => i.2) (tri := fun _ _ => 0) (bar := fun _ => sparseBar)
    (fun _ z _ => ⟨by simp [sparseBar, Fin.sum_univ_three]; ring, by
      funext c
      fin_cases c <;> simp [sparseBar, Fin.sum_univ_three, hC, sparseX, sparseY] <;> ring⟩)
    (fun _ _ _ _ => rfl) (fun j _ w q rows hw _ => ⟨_, rfl, fun r _ _ => rfl⟩)
    s1 s2 s3 (cross2_aligned s4) le_rfl one_ne_zero
    (g := fun j z => ∑ i : Fin 3, sparseBar z i •
      pump (0 + (j : ℕ) * sparseSource.timestep) (samplePoint C i.1)) (fun _ _ => rfl)
    (fun i hi q j hj z hz => by
      obtain rfl : i = 0 := by omega
      rw [s4] at hz
      simp only [stages, List.mem_singleton] at hz
      rw [show sparseSource.timestep = 1 from rfl] at z0 hz
      rw [sparse_step (z0 _) j hj] at hz
      subst hz
      fin_cases q <;> norm_num [cross2])
  have hM := runMatrix_ok .euler (fun j : ℕ => pumpMat (0 + j * sparseSource.timestep))
    sparseSource.timestep
  obtain ⟨σ, t1, t2, -⟩ := h3 0 one_pos _ (fun _ => 0) _ hM fun q j hj z hz l => pump_affine _ _
  have e : runMatrix .euler (fun j : ℕ => pumpMat (0 + j * sparseSource.timestep))
      sparseSource.timestep 2 = !![2, 0; 0, 0] := by
    rw [hM.euler rfl, hM.euler rfl, hM.zero]
    ext i j
    fin_cases i <;> fin_cases j <;> norm_num [sparseSource, pumpMat, mul_apply, Fin.sum_univ_two]
  rw [show sparseSource.snapshotFiles.length = 2 from rfl, e] at t1 t2
  obtain ⟨-, t2⟩ := t2 (fun h => by simpa using congrFun (congrFun h 0) 0)
  rw [t1.unique (maxStretch_diag (by norm_num))] at t2
  rw [h1]
  congr 2
  rw [List.length_eq_one_iff] at h2
  obtain ⟨a, rfl⟩ := h2
  norm_num [sparseSource] at t2
  rw [t2]

end Verif
