import Verif.Props.GridError
import Mathlib.Analysis.Calculus.ContDiff.RCLike

/-!
# Second-order accuracy of bilinear and trilinear interpolation
-/

namespace Verif

open Set

/-- Interpolation of values near those of an affine function. -/
theorem cellValue2_affine {nx ny : ℕ} {f : ℕ → ℕ → ℝ} {X Y c α β δ : ℝ} (hX : InCells nx X)
    (hY : InCells ny Y) (h : ∀ i j, i < nx → j < ny → |X - i| ≤ 1 → |Y - j| ≤ 1 →
      |f i j - (c + (i - X) * α + (j - Y) * β)| ≤ δ) : |cellValue2 nx ny f X Y - c| ≤ δ := by
  have h1 := cellValue2_error (f := fun i j => f i j - ((c + (i - X) * α + (j - Y) * β))) (w := 0)
    hX hY (fun i j hi hj h1 h2 => by rw [sub_zero]; exact h i j hi hj h1 h2)
  have e : cellValue2 nx ny (fun i j => f i j - (c + (i - X) * α + (j - Y) * β)) X Y - 0 =
      cellValue2 nx ny f X Y - c := by
    unfold cellValue2
    rw [if_pos ⟨hX, hY⟩, if_pos ⟨hX, hY⟩]
    simp only [lerp]
    push_cast
    ring
  rwa [e] at h1

theorem cellValue3_affine {nx ny nz : ℕ} {f : ℕ → ℕ → ℕ → ℝ} {X Y Z c α β γ δ : ℝ}
    (hX : InCells nx X) (hY : InCells ny Y) (hZ : InCells nz Z)
    (h : ∀ i j k, i < nx → j < ny → k < nz → |X - i| ≤ 1 → |Y - j| ≤ 1 → |Z - k| ≤ 1 →
      |f i j k - (c + (i - X) * α + (j - Y) * β + (k - Z) * γ)| ≤ δ) :
    |cellValue3 nx ny nz f X Y Z - c| ≤ δ := by
  have h1 := cellValue3_error
    (f := fun i j k => f i j k - ((c + (i - X) * α + (j - Y) * β + (k - Z) * γ))) (w := 0)
    hX hY hZ (fun i j k hi hj hk h1 h2 h3 => by rw [sub_zero]; exact h i j k hi hj hk h1 h2 h3)
  have e : cellValue3 nx ny nz
      (fun i j k => f i j k - (c + (i - X) * α + (j - Y) * β + (k - Z) * γ)) X Y Z - 0 =
      cellValue3 nx ny nz f X Y Z - c := by
    unfold cellValue3
    rw [if_pos ⟨hX, hY, hZ⟩, if_pos ⟨hX, hY, hZ⟩]
    simp only [lerp]
    push_cast
    ring
  rwa [e] at h1

/-- The velocity near `z` is affine up to `M` times the square of the distance. -/
def NearAffine {d : ℕ} (v : (Fin d → ℝ) → Fin d → ℝ) (z : Fin d → ℝ) (M δ : ℝ) : Prop :=
  ∃ A : (Fin d → ℝ) →L[ℝ] (Fin d → ℝ), ∀ w, ‖w - z‖ ≤ δ → ‖v w - v z - A (w - z)‖ ≤ M * δ ^ 2

theorem bilinear_order {v : ℝ → (Fin 2 → ℝ) → Fin 2 → ℝ} {t : ℝ} {nx ny : ℕ} {x0 dx y0 dy : ℝ}
    (hdx : 0 < dx) (hdy : 0 < dy) {M : ℝ} (hM : 0 ≤ M) {z : Fin 2 → ℝ}
    (hA : NearAffine (v t) z M (max dx dy))
    (hz : OnAxis nx x0 dx (z 0) ∧ OnAxis ny y0 dy (z 1)) :
    ‖bilinear v t nx ny x0 dx y0 dy z - v t z‖ ≤ M * max dx dy ^ 2 := by
  have hm : 0 ≤ max dx dy := hdx.le.trans (le_max_left _ _)
  obtain ⟨A, hA⟩ := hA
  rw [pi_norm_le_iff_of_nonneg (by positivity)]
  intro c
  refine cellValue2_affine (α := dx * A ![1, 0] c) (β := dy * A ![0, 1] c) (hz.1.inCells hdx)
    (hz.2.inCells hdy) fun i j hi hj h1 h2 => ?_
  have n1 := node_near hdx h1
  have n2 := node_near hdy h2
  set w : Fin 2 → ℝ := ![x0 + i * dx, y0 + j * dy] with hw
  have hwz : ‖w - z‖ ≤ max dx dy := by
    rw [pi_norm_le_iff_of_nonneg hm]
    intro c
    fin_cases c
    · exact n1.trans (le_max_left _ _)
    · exact n2.trans (le_max_right _ _)
  have h3 := (norm_le_pi_norm _ c).trans (hA w hwz)
  have e1 : w - z = ((i - (z 0 - x0) / dx) * dx) • ![(1 : ℝ), 0] +
      ((j - (z 1 - y0) / dy) * dy) • ![(0 : ℝ), 1] := by
    funext q
    fin_cases q
    · simp [hw]; field_simp; ring
    · simp [hw]; field_simp; ring
  rw [e1, map_add, map_smul, map_smul] at h3
  simp only [Pi.sub_apply, Pi.add_apply, Pi.smul_apply, smul_eq_mul, Real.norm_eq_abs] at h3
  refine (le_of_eq ?_).trans h3
  congr 1
  ring

theorem trilinear_order {v : ℝ → (Fin 3 → ℝ) → Fin 3 → ℝ} {t : ℝ} {m nz : ℕ}
    {x0 dx y0 dy z0 dz : ℝ} (hdx : 0 < dx) (hdy : 0 < dy) (hdz : 0 < dz) {M : ℝ} (hM : 0 ≤ M)
    {z : Fin 3 → ℝ} (hA : NearAffine (v t) z M (max (max dx dy) dz))
    (hz : OnAxis m x0 dx (z 0) ∧ OnAxis m y0 dy (z 1) ∧ OnAxis nz z0 dz (z 2)) :
    ‖trilinear v t m nz x0 dx y0 dy z0 dz z - v t z‖ ≤ M * max (max dx dy) dz ^ 2 := by
  have hm : 0 ≤ max (max dx dy) dz := hdz.le.trans (le_max_right _ _)
  obtain ⟨A, hA⟩ := hA
  rw [pi_norm_le_iff_of_nonneg (by positivity)]
  intro c
  refine cellValue3_affine (α := dx * A ![1, 0, 0] c) (β := dy * A ![0, 1, 0] c)
    (γ := dz * A ![0, 0, 1] c) (hz.1.inCells hdx) (hz.2.1.inCells hdy) (hz.2.2.inCells hdz)
    fun i j k hi hj hk h1 h2 h3 => ?_
  have n1 := node_near hdx h1
  have n2 := node_near hdy h2
  have n3 := node_near hdz h3
  set w : Fin 3 → ℝ := ![x0 + i * dx, y0 + j * dy, z0 + k * dz] with hw
  have hwz : ‖w - z‖ ≤ max (max dx dy) dz := by
    rw [pi_norm_le_iff_of_nonneg hm]
    intro c
    fin_cases c
    · exact n1.trans ((le_max_left _ _).trans (le_max_left _ _))
    · exact n2.trans ((le_max_right _ _).trans (le_max_left _ _))
    · exact n3.trans (le_max_right _ _)
  have h3 := (norm_le_pi_norm _ c).trans (hA w hwz)
  have e1 : w - z = ((i - (z 0 - x0) / dx) * dx) • ![(1 : ℝ), 0, 0] +
      ((j - (z 1 - y0) / dy) * dy) • ![(0 : ℝ), 1, 0] +
      ((k - (z 2 - z0) / dz) * dz) • ![(0 : ℝ), 0, 1] := by
    funext q
    fin_cases q
    · simp [hw]; field_simp; ring
    · simp [hw]; field_simp; ring
    · simp [hw]; field_simp; ring
  rw [e1, map_add, map_add, map_smul, map_smul, map_smul] at h3
  simp only [Pi.sub_apply, Pi.add_apply, Pi.smul_apply, smul_eq_mul, Real.norm_eq_abs] at h3
  refine (le_of_eq ?_).trans h3
  congr 1
  ring

/-- Twice differentiable velocities are affine up to the square of the distance, uniformly in a
compact region. -/
theorem nearAffine_of_smooth {d : ℕ} {v : ℝ → (Fin d → ℝ) → Fin d → ℝ}
    (hv : ContDiff ℝ 2 fun q : ℝ × (Fin d → ℝ) => v q.1 q.2) {U : Set ℝ} (hUc : IsCompact U)
    (R : ℝ) : ∃ M, 0 ≤ M ∧ ∀ t ∈ U, ∀ z, ‖z‖ ≤ R → ∀ δ, 0 ≤ δ → δ ≤ 1 → NearAffine (v t) z M δ := by
  set V : ℝ × (Fin d → ℝ) → Fin d → ℝ := fun q => v q.1 q.2 with hV
  have hA : ContDiff ℝ 1 (fderiv ℝ V) := hv.fderiv_right (by norm_num)
  set K : Set (ℝ × (Fin d → ℝ)) := U ×ˢ Metric.closedBall 0 (R + 1) with hK
  have hKc : IsCompact K := hUc.prod (isCompact_closedBall _ _)
  obtain ⟨Λ, hΛ⟩ := (hA.locallyLipschitz.locallyLipschitzOn (s := K)).exists_lipschitzOnWith_of_compact
    hKc
  refine ⟨Λ, Λ.2, fun t ht z hz δ hδ0 hδ1 => ?_⟩
  have hd : ∀ w, HasFDerivAt (v t) ((fderiv ℝ V (t, w)).comp (ContinuousLinearMap.inr ℝ ℝ _)) w := by
    intro w
    have h1 : HasFDerivAt V (fderiv ℝ V (t, w)) (t, w) :=
      (hv.differentiable (by norm_num) (t, w)).hasFDerivAt
    exact h1.comp w (hasFDerivAt_prodMk_right t w)
  refine ⟨(fderiv ℝ V (t, z)).comp (ContinuousLinearMap.inr ℝ ℝ _), fun w hw => ?_⟩
  have hmem : ∀ y ∈ Metric.closedBall z δ, (t, y) ∈ K := by
    intro y hy
    refine ⟨ht, ?_⟩
    rw [mem_closedBall_zero_iff]
    rw [mem_closedBall_iff_norm] at hy
    have h1 := norm_add_le z (y - z)
    rw [add_sub_cancel] at h1
    show ‖y‖ ≤ _
    linarith
  have hb : ∀ y ∈ Metric.closedBall z δ,
      ‖(fderiv ℝ V (t, y)).comp (ContinuousLinearMap.inr ℝ ℝ (Fin d → ℝ)) -
        (fderiv ℝ V (t, z)).comp (ContinuousLinearMap.inr ℝ ℝ (Fin d → ℝ))‖ ≤ Λ * δ := by
    intro y hy
    rw [← ContinuousLinearMap.sub_comp]
    refine (ContinuousLinearMap.opNorm_comp_le _ _).trans ?_
    have h1 := hΛ.dist_le_mul _ (hmem y hy) _ (hmem z (Metric.mem_closedBall_self hδ0))
    rw [dist_eq_norm, Prod.dist_eq, dist_self, dist_eq_norm, max_eq_right (norm_nonneg _)] at h1
    rw [mem_closedBall_iff_norm] at hy
    have h2 := ContinuousLinearMap.norm_inr_le_one ℝ ℝ (Fin d → ℝ)
    have h3 : ‖fderiv ℝ V (t, y) - fderiv ℝ V (t, z)‖ ≤ Λ * δ :=
      h1.trans (mul_le_mul_of_nonneg_left hy Λ.2)
    calc _ ≤ Λ * δ * 1 := mul_le_mul h3 h2 (norm_nonneg _) (by positivity)
      _ = _ := mul_one _
  have h1 := (convex_closedBall z δ).norm_image_sub_le_of_norm_hasFDerivWithin_le'
    (fun y _ => (hd y).hasFDerivWithinAt) hb (Metric.mem_closedBall_self hδ0)
    (mem_closedBall_iff_norm.2 hw)
  refine h1.trans ?_
  have h2 := mul_le_mul_of_nonneg_left hw (by positivity : 0 ≤ (Λ : ℝ) * δ)
  refine h2.trans_eq ?_
  ring

end Verif
