import Verif.Lemmas.Affine
import Verif.Lemmas.Variation
import Verif.Lemmas.Stretch

/-!
# Products of deformations
-/

namespace Verif

open Matrix Set

variable {d : ℕ}

/-- Stretching factors are submultiplicative. -/
theorem maxStretch_mul_le {A B : Matrix (Fin d) (Fin d) ℝ} {s t r : ℝ} (hs : IsMaxStretch A s)
    (ht : IsMaxStretch B t) (hr : IsMaxStretch (A * B) r) : r ≤ s * t := by
  obtain ⟨⟨u, hu, rfl⟩, -⟩ := hr
  rw [← mulVec_mulVec]
  refine (maxStretch_bound hs _).trans (mul_le_mul_of_nonneg_left ?_ (maxStretch_nonneg hs))
  have := maxStretch_bound ht u
  rwa [hu, mul_one] at this

/-- Without memory, the matrix of a run is the product of those of its two parts. -/
theorem runMatrices_split {k : Kind} (hk : k ≠ .ab2) {A : ℕ → Matrix (Fin d) (Fin d) ℝ} {h : ℝ} {a : ℕ}
    {M L : ℕ → Matrix (Fin d) (Fin d) ℝ} (hM : RunMatrices k A h M)
    (hL : RunMatrices k (fun j => A (a + j)) h L) (n : ℕ) : M (a + n) = L n * M a := by
  induction n with
  | zero => rw [hL.zero, one_mul, add_zero]
  | succ n ih =>
    rw [← add_assoc]
    cases k with
    | ab2 => exact absurd rfl hk
    | euler => rw [hM.euler rfl, hL.euler rfl, ih, Matrix.mul_assoc]
    | rk4 => rw [hM.rk4 rfl, hL.rk4 rfl, ih, Matrix.mul_assoc]

/-- The deformation since a later time. -/
theorem deformation_since {v : ℝ → (Fin d → ℝ) → Fin d → ℝ}
    (hv : ContDiff ℝ 1 fun q : ℝ × (Fin d → ℝ) => v q.1 q.2) {t0 t1 te : ℝ} (h : t0 ≠ te)
    (h1 : t1 ∈ uIcc t0 te) {X : ℝ → Fin d → ℝ} (hX : IsTrajectory v (uIcc t0 te) X)
    {M : ℝ → Matrix (Fin d) (Fin d) ℝ} (hM : IsDeformation v (uIcc t0 te) t0 X M) :
    ∃ L, IsDeformation v (uIcc t0 te) t1 X L ∧ ∀ t, M t = L t * M t1 := by
  have hu : IsUnit (M t1) := by
    rw [← Matrix.mulVec_injective_iff_isUnit]
    intro u w huw
    have : M t1 *ᵥ (u - w) = 0 := by rw [mulVec_sub, sub_eq_zero]; exact huw
    exact sub_eq_zero.1 (deformation_ne_zero hv h hX hM h1 this)
  have hdet := (Matrix.isUnit_iff_isUnit_det _).1 hu
  refine ⟨fun t => M t * (M t1)⁻¹, ⟨Matrix.mul_nonsing_inv _ hdet, fun u t ht => ?_⟩, fun t => ?_⟩
  · simp only [← mulVec_mulVec]
    exact hM.2 _ t ht
  · rw [Matrix.mul_assoc, Matrix.nonsing_inv_mul _ hdet, Matrix.mul_one]

end Verif
