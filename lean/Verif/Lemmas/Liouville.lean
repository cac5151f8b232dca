import Verif.Spec.Divergence
import Mathlib.Analysis.SpecialFunctions.ExpDeriv
import Mathlib.Analysis.Calculus.MeanValue
import Mathlib.LinearAlgebra.Matrix.Determinant.Basic
import Mathlib.LinearAlgebra.Matrix.ToLin
import Mathlib.LinearAlgebra.Matrix.Trace
import Mathlib.Analysis.Calculus.Deriv.Prod
import Mathlib.Analysis.Calculus.Deriv.Pi

/-!
# Liouville's formula

The determinant of the deformation is the exponential of the accumulated divergence.
-/

namespace Verif

open Matrix Set

variable {d : ℕ} {v : ℝ → (Fin d → ℝ) → Fin d → ℝ} {U : Set ℝ} {t0 : ℝ} {X : ℝ → Fin d → ℝ}
  {M : ℝ → Matrix (Fin d) (Fin d) ℝ}

theorem Incompressible.expansion (h : Incompressible v) : IsExpansion v U t0 X fun _ => 0 :=
  ⟨rfl, fun t _ => by rw [h]; exact hasDerivWithinAt_const _ _ _⟩

/-- The entries of the deformation. -/
theorem deformation_entries (hM : IsDeformation v U t0 X M) {t : ℝ} (ht : t ∈ U) :
    ∃ A : Matrix (Fin d) (Fin d) ℝ, A.trace = divergence (v t) (X t) ∧
      ∀ i j, HasDerivWithinAt (fun s => M s i j) ((A * M t) i j) U t := by
  refine ⟨LinearMap.toMatrix' (fderiv ℝ (v t) (X t)).toLinearMap, ?_, fun i j => ?_⟩
  · simp [Matrix.trace, divergence, LinearMap.toMatrix'_apply]
  · have h := (hasDerivWithinAt_pi.1 (hM.2 (Pi.single j 1) t ht)) i
    have e : ∀ s, (M s *ᵥ Pi.single j 1) i = M s i j := fun s => by
      rw [Matrix.mulVec_single_one]
      rfl
    simp only [e] at h
    refine h.congr_deriv ?_
    have : fderiv ℝ (v t) (X t) (M t *ᵥ Pi.single j 1) =
        LinearMap.toMatrix' (fderiv ℝ (v t) (X t)).toLinearMap *ᵥ (M t *ᵥ Pi.single j 1) := by
      rw [LinearMap.toMatrix'_mulVec]
      rfl
    rw [this, Matrix.mulVec_mulVec, Matrix.mulVec_single_one]
    rfl

theorem det_deriv_2 {v : ℝ → (Fin 2 → ℝ) → Fin 2 → ℝ} {X : ℝ → Fin 2 → ℝ}
    {M : ℝ → Matrix (Fin 2) (Fin 2) ℝ} (hM : IsDeformation v U t0 X M) {t : ℝ} (ht : t ∈ U) :
    HasDerivWithinAt (fun s => (M s).det) (divergence (v t) (X t) * (M t).det) U t := by
  obtain ⟨A, hA, h⟩ := deformation_entries hM ht
  rw [← hA, trace_fin_two]
  simp only [det_fin_two]
  refine (((h 0 0).mul (h 1 1)).sub ((h 0 1).mul (h 1 0))).congr_deriv ?_
  simp only [Matrix.mul_apply, Fin.sum_univ_two]
  ring

theorem det_deriv_3 {v : ℝ → (Fin 3 → ℝ) → Fin 3 → ℝ} {X : ℝ → Fin 3 → ℝ}
    {M : ℝ → Matrix (Fin 3) (Fin 3) ℝ} (hM : IsDeformation v U t0 X M) {t : ℝ} (ht : t ∈ U) :
    HasDerivWithinAt (fun s => (M s).det) (divergence (v t) (X t) * (M t).det) U t := by
  obtain ⟨A, hA, h⟩ := deformation_entries hM ht
  rw [← hA, trace_fin_three]
  simp only [det_fin_three]
  refine (((((((h 0 0).mul (h 1 1)).mul (h 2 2)).sub (((h 0 0).mul (h 1 2)).mul (h 2 1))).sub
    (((h 0 1).mul (h 1 0)).mul (h 2 2))).add (((h 0 1).mul (h 1 2)).mul (h 2 0))).add
    (((h 0 2).mul (h 1 0)).mul (h 2 1))).sub (((h 0 2).mul (h 1 1)).mul (h 2 0)) |>.congr_deriv ?_
  simp only [Matrix.mul_apply, Fin.sum_univ_three, Pi.mul_apply]
  ring

/-- A function with `f' = g f`, `f t0 = 1` is the exponential of a function with derivative `g`. -/
theorem exp_of_deriv {f D g : ℝ → ℝ} (hU : Convex ℝ U) (ht0 : t0 ∈ U) (h0 : f t0 = 1)
    (hD0 : D t0 = 0) (hf : ∀ t ∈ U, HasDerivWithinAt f (g t * f t) U t)
    (hD : ∀ t ∈ U, HasDerivWithinAt D (g t) U t) {t : ℝ} (ht : t ∈ U) : f t = Real.exp (D t) := by
  have key : ∀ s ∈ U, HasDerivWithinAt (fun s => f s * Real.exp (-D s)) 0 U s := fun s hs => by
    refine ((hf s hs).mul (hD s hs).neg.exp).congr_deriv ?_
    ring
  have := hU.norm_image_sub_le_of_norm_hasDerivWithin_le (C := 0) key (fun _ _ => by simp) ht0 ht
  rw [zero_mul, norm_le_zero_iff, sub_eq_zero, h0, hD0, neg_zero, Real.exp_zero, mul_one] at this
  rw [Real.exp_neg] at this
  have e := Real.exp_ne_zero (D t)
  field_simp at this
  linarith

theorem det_deformation_2 {v : ℝ → (Fin 2 → ℝ) → Fin 2 → ℝ} {X : ℝ → Fin 2 → ℝ}
    {M : ℝ → Matrix (Fin 2) (Fin 2) ℝ} (hU : Convex ℝ U) (ht0 : t0 ∈ U)
    (hM : IsDeformation v U t0 X M) {D : ℝ → ℝ} (hD : IsExpansion v U t0 X D) {t : ℝ} (ht : t ∈ U) :
    (M t).det = Real.exp (D t) :=
  exp_of_deriv (f := fun s => (M s).det) hU ht0 (by rw [hM.1, det_one]) hD.1
    (fun _ hs => det_deriv_2 hM hs) hD.2 ht

theorem det_deformation_3 {v : ℝ → (Fin 3 → ℝ) → Fin 3 → ℝ} {X : ℝ → Fin 3 → ℝ}
    {M : ℝ → Matrix (Fin 3) (Fin 3) ℝ} (hU : Convex ℝ U) (ht0 : t0 ∈ U)
    (hM : IsDeformation v U t0 X M) {D : ℝ → ℝ} (hD : IsExpansion v U t0 X D) {t : ℝ} (ht : t ∈ U) :
    (M t).det = Real.exp (D t) :=
  exp_of_deriv (f := fun s => (M s).det) hU ht0 (by rw [hM.1, det_one]) hD.1
    (fun _ hs => det_deriv_3 hM hs) hD.2 ht

end Verif
