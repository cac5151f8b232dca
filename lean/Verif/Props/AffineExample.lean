import Verif.Props.Affine
import Verif.Props.DualityExample

/-!
# Functions that meet the hypotheses of C125

The flow `(x + 3, -y + 4)` and the flow `(x + 3, y + 4, -2 z + 5)`, with step 1.
-/

namespace Verif

open Matrix

/-- Two steps of Euler's method: the exponent is `log 4`, whatever the constant. -/
example (queue : Bool) (b : Fin 2 → ℝ) : ∃ P : Particles ℝ, mkParticles crossSeed = .ok P ∧
    ((⟨.analytical ⟨P, 1, [0, 1]⟩,
        .analytical (.fresh (some fun _ => sourceOf 2 fun x => !![1, 0; 0, -1] *ᵥ x + b)),
        .fresh .euler⟩ : Solver ℝ).run realEnv queue none).result = .ok (some [.fin (Real.log 4)]) := by
  obtain ⟨P, hP, -⟩ := mkParticles_2d (show crossSeed.shape = [4 * 1, 2] from rfl)
  refine ⟨P, hP, ?_⟩
  have hM := runMatrix_ok .euler (fun _ : ℕ => !![(1 : ℝ), 0; 0, -1]) 1
  obtain ⟨σ, a1, a2, -⟩ := C125_function_2d (env := realEnv) ⟨rfl, rfl, rfl⟩ queue .euler
    ⟨P, 1, [0, 1]⟩ (fun _ => sourceOf 2 fun x => !![1, 0; 0, -1] *ᵥ x + b) (N := 1) rfl hP
    crossSeed_aligned (sourceOf_pointwise _ _ _) le_rfl one_ne_zero hM
  have e : runMatrix .euler (fun _ : ℕ => !![(1 : ℝ), 0; 0, -1]) 1 2 = !![4, 0; 0, 0] := by
    rw [hM.euler rfl, hM.euler rfl, hM.zero]
    ext i j
    fin_cases i <;> fin_cases j <;> norm_num [mul_apply, Fin.sum_univ_two]
  simp only [List.length_cons, List.length_nil, Nat.reduceAdd, e] at a1 a2
  obtain ⟨-, h⟩ := a2 (fun h => by simpa using congrFun (congrFun h 0) 0)
  rw [h, a1.unique (maxStretch_diag (by norm_num))]
  norm_num

/-- In 3-D, for each method. -/
example (queue : Bool) (k : Kind) : ∃ P : Particles ℝ, mkParticles crossSeed3 = .ok P ∧
    ReportsNorm ((⟨.analytical ⟨P, 1, [0, 1, 2]⟩,
        .analytical (.fresh (some fun _ =>
          sourceOf 3 fun x => diagonal ![1, 1, -2] *ᵥ x + ![3, 4, 5])),
        .fresh k⟩ : Solver ℝ).run realEnv queue none).result 1
      (runMatrix k (fun _ => diagonal ![1, 1, -2]) 1 3) ((3 - 1) * |1|) := by
  obtain ⟨P, hP, -⟩ := mkParticles_3d (show crossSeed3.shape = [6 * 1, 3] from rfl)
  refine ⟨P, hP, ?_⟩
  have := C125_function_3d (env := realEnv) ⟨rfl, rfl, rfl⟩ queue k ⟨P, 1, [0, 1, 2]⟩
    (fun _ => sourceOf 3 fun x => diagonal ![1, 1, -2] *ᵥ x + ![3, 4, 5]) (N := 1) rfl hP
    crossSeed3_aligned (sourceOf_pointwise _ _ _) (by simp) one_ne_zero
    (runMatrix_ok k (fun _ : ℕ => diagonal ![(1 : ℝ), 1, -2]) 1)
  simpa using this

end Verif
