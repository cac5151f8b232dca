import Verif.Lemmas.GridOrder
import Verif.Lemmas.GridLipschitz
import Verif.Lemmas.Tangent

/-!
# Interpolated velocities of a smooth flow

The difference between the interpolated velocity and the velocity changes slowly from point to point:
by at most a constant times the spacing times the distance.
-/

namespace Verif

open Set

variable {d : ℕ}

/-- The velocity `v` has a derivative that changes by at most `L` times the distance, in the ball of
radius `ρ`. -/
def SlowSlope (v : (Fin d → ℝ) → Fin d → ℝ) (ρ L : ℝ) : Prop :=
  ∃ D : (Fin d → ℝ) → (Fin d → ℝ) →L[ℝ] (Fin d → ℝ), (∀ w, HasFDerivAt v (D w) w) ∧
    ∀ w ∈ Metric.closedBall (0 : Fin d → ℝ) ρ, ∀ w' ∈ Metric.closedBall (0 : Fin d → ℝ) ρ,
      ‖D w - D w'‖ ≤ L * ‖w - w'‖

theorem slowSlope_of_smooth {v : ℝ → (Fin d → ℝ) → Fin d → ℝ}
    (hv : ContDiff ℝ 2 fun q : ℝ × (Fin d → ℝ) => v q.1 q.2) {U : Set ℝ} (hUc : IsCompact U)
    (ρ : ℝ) : ∃ L, 0 ≤ L ∧ ∀ t ∈ U, SlowSlope (v t) ρ L := by
  set V : ℝ × (Fin d → ℝ) → Fin d → ℝ := fun q => v q.1 q.2 with hV
  have hA : ContDiff ℝ 1 (fderiv ℝ V) := hv.fderiv_right (by norm_num)
  set K : Set (ℝ × (Fin d → ℝ)) := U ×ˢ Metric.closedBall 0 ρ with hK
  have hKc : IsCompact K := hUc.prod (isCompact_closedBall _ _)
  obtain ⟨L, hL⟩ := (hA.locallyLipschitz.locallyLipschitzOn (s := K)).exists_lipschitzOnWith_of_compact
    hKc
  refine ⟨L, L.2, fun t ht =>
    ⟨fun w => (fderiv ℝ V (t, w)).comp (ContinuousLinearMap.inr ℝ ℝ _), fun w => ?_, ?_⟩⟩
  · have h1 : HasFDerivAt V (fderiv ℝ V (t, w)) (t, w) :=
      (hv.differentiable (by norm_num) (t, w)).hasFDerivAt
    exact h1.comp w (hasFDerivAt_prodMk_right t w)
  · intro w hw w' hw'
    rw [← ContinuousLinearMap.sub_comp]
    refine (ContinuousLinearMap.opNorm_comp_le _ _).trans ?_
    have h1 := hL.dist_le_mul _ (show (t, w) ∈ K from ⟨ht, hw⟩) _ (show (t, w') ∈ K from ⟨ht, hw'⟩)
    rw [dist_eq_norm, Prod.dist_eq, dist_self, dist_eq_norm, max_eq_right (norm_nonneg _)] at h1
    have h2 := ContinuousLinearMap.norm_inr_le_one ℝ ℝ (Fin d → ℝ)
    calc _ ≤ L * ‖w - w'‖ * 1 := mul_le_mul h1 h2 (norm_nonneg _) (by positivity)
      _ = _ := mul_one _

/-- Nearly linear along a line. -/
theorem SlowSlope.nearLinear {v : (Fin d → ℝ) → Fin d → ℝ} {ρ L : ℝ} (hv : SlowSlope v ρ L)
    (hL : 0 ≤ L) (P β : Fin d → ℝ) {I : Set ℝ} (hI : ∀ p ∈ I, ‖P + p • β‖ ≤ ρ) (c : Fin d) :
    NearLinear (fun p => v (P + p • β) c) I (2 * L * ‖β‖ ^ 2) := by
  obtain ⟨D, hD, hDL⟩ := hv
  intro x hx s hs t ht hx1 hsx htx
  set b := P + x • β with hb
  have hbm : b ∈ Metric.closedBall (0 : Fin d → ℝ) ρ := by
    rw [mem_closedBall_zero_iff]; exact hI x hx
  have main : ∀ p ∈ I, ∀ q ∈ I, p ∈ Icc x (x + 1) → q ∈ Icc x (x + 1) →
      ‖v (P + p • β) - v (P + q • β) - (p - q) • D b β‖ ≤ L * ‖β‖ * (|p - q| * ‖β‖) := by
    intro p hp q hq hpx hqx
    have mem : ∀ y ∈ I, y ∈ Icc x (x + 1) → P + y • β ∈ Metric.closedBall (0 : Fin d → ℝ) ρ ∩
        Metric.closedBall b ‖β‖ := by
      intro y hy hyx
      refine ⟨by rw [mem_closedBall_zero_iff]; exact hI y hy, ?_⟩
      rw [mem_closedBall_iff_norm, hb]
      have e : P + y • β - (P + x • β) = (y - x) • β := by module
      rw [e, norm_smul, Real.norm_of_nonneg (by linarith [hyx.1])]
      exact mul_le_of_le_one_left (norm_nonneg _) (by linarith [hyx.2])
    have h1 := ((convex_closedBall (0 : Fin d → ℝ) ρ).inter
      (convex_closedBall b ‖β‖)).norm_image_sub_le_of_norm_hasFDerivWithin_le'
      (f := v) (f' := D) (φ := D b) (C := L * ‖β‖) (fun y _ => (hD y).hasFDerivWithinAt)
      (fun y hy => (hDL y hy.1 b hbm).trans
        (mul_le_mul_of_nonneg_left (mem_closedBall_iff_norm.1 hy.2) hL)) (mem q hq hqx) (mem p hp hpx)
    have e : P + p • β - (P + q • β) = (p - q) • β := by module
    rwa [e, map_smul, norm_smul, Real.norm_eq_abs] at h1
  have m1 := (norm_le_pi_norm _ c).trans (main s hs t ht hsx htx)
  have m2 := (norm_le_pi_norm _ c).trans
    (main (x + 1) hx1 x hx ⟨by linarith, le_rfl⟩ ⟨le_rfl, by linarith⟩)
  simp only [Pi.sub_apply, Pi.smul_apply, smul_eq_mul, Real.norm_eq_abs] at m1 m2
  rw [add_sub_cancel_left, one_mul, abs_one, one_mul] at m2
  have m3 := mul_le_mul_of_nonneg_left m2 (abs_nonneg (s - t))
  rw [← abs_mul] at m3
  have m4 := abs_sub (v (P + s • β) c - v (P + t • β) c - (s - t) * D b β c)
    ((s - t) * (v (P + (x + 1) • β) c - v (P + x • β) c - D b β c))
  have e : v (P + s • β) c - v (P + t • β) c - (s - t) * (v (P + (x + 1) • β) c - v (P + x • β) c) =
      v (P + s • β) c - v (P + t • β) c - (s - t) * D b β c -
      (s - t) * (v (P + (x + 1) • β) c - v (P + x • β) c - D b β c) := by ring
  simp only
  rw [e]
  refine m4.trans ((add_le_add m1 m3).trans (le_of_eq ?_))
  ring

/-- The change along one line changes little along another. -/
theorem SlowSlope.smallMixed {v : (Fin d → ℝ) → Fin d → ℝ} {ρ L : ℝ} (hv : SlowSlope v ρ L)
    (P β γ : Fin d → ℝ) {I J : Set ℝ}
    (hIJ : ∀ p ∈ I, ∀ q ∈ J, ‖P + p • β + q • γ‖ ≤ ρ) (c : Fin d) :
    SmallMixed (fun p q => v (P + p • β + q • γ) c) I J (L * ‖β‖ * ‖γ‖) := by
  obtain ⟨D, hD, hDL⟩ := hv
  intro p hp p' hp' q hq q' hq'
  set τ := (q - q') • γ with hτ
  set B : Set (Fin d → ℝ) := {y | y ∈ Metric.closedBall (0 : Fin d → ℝ) ρ ∧
    y + τ ∈ Metric.closedBall (0 : Fin d → ℝ) ρ} with hB
  have hBc : Convex ℝ B := by
    have h1 := (convex_closedBall (0 : Fin d → ℝ) ρ)
    refine h1.inter ?_
    have := h1.translate_preimage_left τ
    exact this
  have mem : ∀ y ∈ I, P + y • β + q' • γ ∈ B := by
    intro y hy
    have e : P + y • β + q' • γ + τ = P + y • β + q • γ := by rw [hτ]; module
    refine ⟨?_, ?_⟩
    · rw [mem_closedBall_zero_iff]; exact hIJ y hy q' hq'
    · rw [e, mem_closedBall_zero_iff]; exact hIJ y hy q hq
  have h1 := hBc.norm_image_sub_le_of_norm_hasFDerivWithin_le
    (f := fun y => v (y + τ) - v y) (f' := fun y => D (y + τ) - D y) (C := L * ‖τ‖)
    (fun y _ => (((hD (y + τ)).comp y ((hasFDerivAt_id y).add_const τ)).sub (hD y)).hasFDerivWithinAt)
    (fun y hy => by
      have := hDL _ hy.2 _ hy.1
      rwa [add_sub_cancel_left] at this) (mem p' hp') (mem p hp)
  have e1 : P + p • β + q' • γ - (P + p' • β + q' • γ) = (p - p') • β := by module
  have e2 : ∀ y : ℝ, P + y • β + q' • γ + τ = P + y • β + q • γ := fun y => by rw [hτ]; module
  simp only [e1, e2] at h1
  have h2 := (norm_le_pi_norm _ c).trans h1
  simp only [Pi.sub_apply, Real.norm_eq_abs] at h2
  rw [hτ, norm_smul, norm_smul, Real.norm_eq_abs, Real.norm_eq_abs] at h2
  refine (le_of_eq ?_).trans (h2.trans (le_of_eq ?_))
  · congr 1
    ring
  · ring

/-- A coordinate between and next to those of two points. -/
theorem around_bound {x0 dx x x' p R : ℝ} (hdx : 0 < dx) (hd1 : dx ≤ 1) (hx : |x| ≤ R) (hx' : |x'| ≤ R)
    (hp : p ∈ Around ((x - x0) / dx) ((x' - x0) / dx)) : |x0 + p * dx| ≤ R + 1 := by
  obtain ⟨h1, h2⟩ := hp
  have m1 : min ((x - x0) / dx) ((x' - x0) / dx) = (min x x' - x0) / dx := by
    rcases le_total x x' with h | h
    · rw [min_eq_left h, min_eq_left]; gcongr
    · rw [min_eq_right h, min_eq_right]; gcongr
  have m2 : max ((x - x0) / dx) ((x' - x0) / dx) = (max x x' - x0) / dx := by
    rcases le_total x x' with h | h
    · rw [max_eq_right h, max_eq_right]; gcongr
    · rw [max_eq_left h, max_eq_left]; gcongr
  rw [m1, sub_le_iff_le_add, div_le_iff₀ hdx] at h1
  rw [m2, ← sub_le_iff_le_add, le_div_iff₀ hdx] at h2
  have a1 := le_min (abs_le.1 hx).1 (abs_le.1 hx').1
  have a2 := max_le (abs_le.1 hx).2 (abs_le.1 hx').2
  rw [abs_le]
  constructor <;> nlinarith

/-- **The error of bilinear interpolation changes slowly.** -/
theorem bilinear_lipschitz {v : ℝ → (Fin 2 → ℝ) → Fin 2 → ℝ} {t : ℝ} {nx ny : ℕ} {x0 dx y0 dy : ℝ}
    (hdx : 0 < dx) (hdy : 0 < dy) (hd1 : max dx dy ≤ 1) {R L : ℝ} (hL : 0 ≤ L)
    (hv : SlowSlope (v t) (R + 1) L) {z z' : Fin 2 → ℝ} (hz : ‖z‖ ≤ R) (hz' : ‖z'‖ ≤ R)
    (ha : OnAxis nx x0 dx (z 0) ∧ OnAxis ny y0 dy (z 1))
    (ha' : OnAxis nx x0 dx (z' 0) ∧ OnAxis ny y0 dy (z' 1)) :
    ‖bilinear v t nx ny x0 dx y0 dy z - v t z - (bilinear v t nx ny x0 dx y0 dy z' - v t z')‖ ≤
      6 * L * max dx dy * ‖z - z'‖ := by
  have hdx1 : dx ≤ 1 := (le_max_left _ _).trans hd1
  have hdy1 : dy ≤ 1 := (le_max_right _ _).trans hd1
  have hm : 0 < max dx dy := hdx.trans_le (le_max_left _ _)
  rw [pi_norm_le_iff_of_nonneg (by positivity)]
  intro c
  set P : Fin 2 → ℝ := ![x0, y0] with hP
  set β : Fin 2 → ℝ := ![dx, 0] with hβ
  set γ : Fin 2 → ℝ := ![0, dy] with hγ
  have nβ : ‖β‖ = dx := by
    rw [hβ, Pi.norm_def]; simp [Fin.univ_succ, abs_of_pos hdx, hdx.le]
  have nγ : ‖γ‖ = dy := by
    rw [hγ, Pi.norm_def]; simp [Fin.univ_succ, abs_of_pos hdy, hdy.le]
  have hnode : ∀ p q : ℝ, ![x0 + p * dx, y0 + q * dy] = P + p • β + q • γ := by
    intro p q
    funext i
    fin_cases i <;> simp [hP, hβ, hγ]
  have hpt : ∀ w : Fin 2 → ℝ, w = P + ((w 0 - x0) / dx) • β + ((w 1 - y0) / dy) • γ := by
    intro w
    funext i
    fin_cases i
    · simp [hP, hβ, hγ]; field_simp; ring
    · simp [hP, hβ, hγ]; field_simp; ring
  have c0 : ∀ i, |z i| ≤ R ∧ |z' i| ≤ R := fun i =>
    ⟨(norm_le_pi_norm z i).trans hz, (norm_le_pi_norm z' i).trans hz'⟩
  have hR : 0 ≤ R + 1 := by linarith [(norm_nonneg z).trans hz]
  have ball : ∀ p ∈ Around ((z 0 - x0) / dx) ((z' 0 - x0) / dx),
      ∀ q ∈ Around ((z 1 - y0) / dy) ((z' 1 - y0) / dy), ‖P + p • β + q • γ‖ ≤ R + 1 := by
    intro p hp q hq
    rw [← hnode, pi_norm_le_iff_of_nonneg hR]
    intro i
    fin_cases i
    · exact around_bound hdx hdx1 (c0 0).1 (c0 0).2 hp
    · exact around_bound hdy hdy1 (c0 1).1 (c0 1).2 hq
  have key := cellValue2_lipschitz (nx := nx) (ny := ny) (G := fun p q => v t (P + p • β + q • γ) c)
    (ha.1.inCells hdx) (ha'.1.inCells hdx) (ha.2.inCells hdy) (ha'.2.inCells hdy)
    (a := 2 * L * dx ^ 2) (b := 2 * L * dy ^ 2) (c := L * dx * dy) (by positivity)
    (fun q hq => by
      have := hv.nearLinear hL (P + q • γ) β (I := Around ((z 0 - x0) / dx) ((z' 0 - x0) / dx))
        (fun p hp => by rw [add_right_comm]; exact ball p hp q hq) c
      simp only [add_right_comm P (q • γ), nβ] at this
      exact this)
    (fun p hp => by
      have := hv.nearLinear hL (P + p • β) γ (fun q hq => ball p hp q hq) c
      rw [nγ] at this
      exact this)
    (by
      have := hv.smallMixed P β γ ball c
      rw [nβ, nγ] at this
      exact this)
  simp only [← hnode] at key
  have e : ∀ w : Fin 2 → ℝ, ![x0 + (w 0 - x0) / dx * dx, y0 + (w 1 - y0) / dy * dy] = w := fun w => by
    rw [hnode, ← hpt]
  rw [e, e] at key
  have f0 := norm_le_pi_norm (z - z') 0
  have f1 := norm_le_pi_norm (z - z') 1
  rw [Pi.sub_apply, Real.norm_eq_abs] at f0 f1
  have g0 : |(z 0 - x0) / dx - (z' 0 - x0) / dx| = |z 0 - z' 0| / dx := by
    rw [← sub_div, sub_sub_sub_cancel_right, abs_div, abs_of_pos hdx]
  have g1 : |(z 1 - y0) / dy - (z' 1 - y0) / dy| = |z 1 - z' 1| / dy := by
    rw [← sub_div, sub_sub_sub_cancel_right, abs_div, abs_of_pos hdy]
  rw [g0, g1] at key
  have k0 : (2 * L * dx ^ 2 + L * dx * dy) * (|z 0 - z' 0| / dx) = L * (2 * dx + dy) * |z 0 - z' 0| := by
    field_simp
  have k1 : (2 * L * dy ^ 2 + L * dx * dy) * (|z 1 - z' 1| / dy) = L * (2 * dy + dx) * |z 1 - z' 1| := by
    field_simp
  rw [k0, k1] at key
  have l0 : L * (2 * dx + dy) * |z 0 - z' 0| ≤ L * (3 * max dx dy) * ‖z - z'‖ := by
    gcongr
    linarith [le_max_left dx dy, le_max_right dx dy]
  have l1 : L * (2 * dy + dx) * |z 1 - z' 1| ≤ L * (3 * max dx dy) * ‖z - z'‖ := by
    gcongr
    linarith [le_max_left dx dy, le_max_right dx dy]
  rw [Pi.sub_apply, Pi.sub_apply, Pi.sub_apply, Real.norm_eq_abs, abs_sub_comm]
  refine (le_of_eq ?_).trans (key.trans ((add_le_add l0 l1).trans (le_of_eq ?_)))
  · congr 1
    unfold bilinear
    ring
  · ring

/-- **The error of trilinear interpolation changes slowly.** -/
theorem trilinear_lipschitz {v : ℝ → (Fin 3 → ℝ) → Fin 3 → ℝ} {t : ℝ} {m nz : ℕ}
    {x0 dx y0 dy z0 dz : ℝ} (hdx : 0 < dx) (hdy : 0 < dy) (hdz : 0 < dz)
    (hd1 : max (max dx dy) dz ≤ 1) {R L : ℝ} (hL : 0 ≤ L)
    (hv : SlowSlope (v t) (R + 1) L) {z z' : Fin 3 → ℝ} (hz : ‖z‖ ≤ R) (hz' : ‖z'‖ ≤ R)
    (ha : OnAxis m x0 dx (z 0) ∧ OnAxis m y0 dy (z 1) ∧ OnAxis nz z0 dz (z 2))
    (ha' : OnAxis m x0 dx (z' 0) ∧ OnAxis m y0 dy (z' 1) ∧ OnAxis nz z0 dz (z' 2)) :
    ‖trilinear v t m nz x0 dx y0 dy z0 dz z - v t z -
      (trilinear v t m nz x0 dx y0 dy z0 dz z' - v t z')‖ ≤
      12 * L * max (max dx dy) dz * ‖z - z'‖ := by
  have bx : dx ≤ max (max dx dy) dz := (le_max_left _ _).trans (le_max_left _ _)
  have by' : dy ≤ max (max dx dy) dz := (le_max_right _ _).trans (le_max_left _ _)
  have bz : dz ≤ max (max dx dy) dz := le_max_right _ _
  generalize max (max dx dy) dz = Δ at *
  have hm : 0 < Δ := hdx.trans_le bx
  rw [pi_norm_le_iff_of_nonneg (by positivity)]
  intro c
  set P : Fin 3 → ℝ := ![x0, y0, z0] with hP
  set β : Fin 3 → ℝ := ![dx, 0, 0] with hβ
  set γ : Fin 3 → ℝ := ![0, dy, 0] with hγ
  set ζ : Fin 3 → ℝ := ![0, 0, dz] with hζ
  have nβ : ‖β‖ = dx := by
    rw [hβ, Pi.norm_def]; simp [Fin.univ_succ, abs_of_pos hdx, hdx.le]
  have nγ : ‖γ‖ = dy := by
    rw [hγ, Pi.norm_def]; simp [Fin.univ_succ, abs_of_pos hdy, hdy.le]
  have nζ : ‖ζ‖ = dz := by
    rw [hζ, Pi.norm_def]; simp [Fin.univ_succ, abs_of_pos hdz, hdz.le]
  have hnode : ∀ p q s : ℝ, ![x0 + p * dx, y0 + q * dy, z0 + s * dz] =
      P + p • β + q • γ + s • ζ := by
    intro p q s
    funext i
    fin_cases i <;> simp [hP, hβ, hγ, hζ]
  have hpt : ∀ w : Fin 3 → ℝ, w = P + ((w 0 - x0) / dx) • β + ((w 1 - y0) / dy) • γ +
      ((w 2 - z0) / dz) • ζ := by
    intro w
    funext i
    fin_cases i
    · simp [hP, hβ, hγ, hζ]; field_simp; ring
    · simp [hP, hβ, hγ, hζ]; field_simp; ring
    · simp [hP, hβ, hγ, hζ]; field_simp; ring
  have c0 : ∀ i, |z i| ≤ R ∧ |z' i| ≤ R := fun i =>
    ⟨(norm_le_pi_norm z i).trans hz, (norm_le_pi_norm z' i).trans hz'⟩
  have hR : 0 ≤ R + 1 := by linarith [(norm_nonneg z).trans hz]
  have ball : ∀ p ∈ Around ((z 0 - x0) / dx) ((z' 0 - x0) / dx),
      ∀ q ∈ Around ((z 1 - y0) / dy) ((z' 1 - y0) / dy),
      ∀ s ∈ Around ((z 2 - z0) / dz) ((z' 2 - z0) / dz),
      ‖P + p • β + q • γ + s • ζ‖ ≤ R + 1 := by
    intro p hp q hq s hs
    rw [← hnode, pi_norm_le_iff_of_nonneg hR]
    intro i
    fin_cases i
    · exact around_bound hdx (bx.trans hd1) (c0 0).1 (c0 0).2 hp
    · exact around_bound hdy (by'.trans hd1) (c0 1).1 (c0 1).2 hq
    · exact around_bound hdz (bz.trans hd1) (c0 2).1 (c0 2).2 hs
  have o1 : ∀ p q s : ℝ, P + q • γ + s • ζ + p • β = P + p • β + q • γ + s • ζ := fun p q s => by
    module
  have o2 : ∀ p q s : ℝ, P + p • β + s • ζ + q • γ = P + p • β + q • γ + s • ζ := fun p q s => by
    module
  have o3 : ∀ p q s : ℝ, P + s • ζ + p • β + q • γ = P + p • β + q • γ + s • ζ := fun p q s => by
    module
  have o4 : ∀ p q s : ℝ, P + q • γ + p • β + s • ζ = P + p • β + q • γ + s • ζ := fun p q s => by
    module
  have key := cellValue3_lipschitz (nx := m) (ny := m) (nz := nz)
    (G := fun p q s => v t (P + p • β + q • γ + s • ζ) c)
    (ha.1.inCells hdx) (ha'.1.inCells hdx) (ha.2.1.inCells hdy) (ha'.2.1.inCells hdy)
    (ha.2.2.inCells hdz) (ha'.2.2.inCells hdz)
    (a := 2 * L * dx ^ 2) (b := 2 * L * dy ^ 2) (e := 2 * L * dz ^ 2) (cxy := L * dx * dy)
    (cxz := L * dx * dz) (cyz := L * dy * dz) (by positivity) (by positivity) (by positivity)
    (fun q hq s hs => by
      have := hv.nearLinear hL (P + q • γ + s • ζ) β
        (I := Around ((z 0 - x0) / dx) ((z' 0 - x0) / dx))
        (fun p hp => by rw [o1]; exact ball p hp q hq s hs) c
      simp only [o1, nβ] at this
      exact this)
    (fun p hp s hs => by
      have := hv.nearLinear hL (P + p • β + s • ζ) γ
        (I := Around ((z 1 - y0) / dy) ((z' 1 - y0) / dy))
        (fun q hq => by rw [o2]; exact ball p hp q hq s hs) c
      simp only [o2, nγ] at this
      exact this)
    (fun p hp q hq => by
      have := hv.nearLinear hL (P + p • β + q • γ) ζ (fun s hs => ball p hp q hq s hs) c
      rw [nζ] at this
      exact this)
    (fun s hs => by
      have := hv.smallMixed (P + s • ζ) β γ (I := Around ((z 0 - x0) / dx) ((z' 0 - x0) / dx))
        (J := Around ((z 1 - y0) / dy) ((z' 1 - y0) / dy))
        (fun p hp q hq => by rw [o3]; exact ball p hp q hq s hs) c
      simp only [o3, nβ, nγ] at this
      exact this)
    (fun q hq => by
      have := hv.smallMixed (P + q • γ) β ζ (I := Around ((z 0 - x0) / dx) ((z' 0 - x0) / dx))
        (J := Around ((z 2 - z0) / dz) ((z' 2 - z0) / dz))
        (fun p hp s hs => by rw [o4]; exact ball p hp q hq s hs) c
      simp only [o4, nβ, nζ] at this
      exact this)
    (fun p hp => by
      have := hv.smallMixed (P + p • β) γ ζ (fun q hq s hs => ball p hp q hq s hs) c
      rw [nγ, nζ] at this
      exact this)
  simp only [← hnode] at key
  have e : ∀ w : Fin 3 → ℝ, ![x0 + (w 0 - x0) / dx * dx, y0 + (w 1 - y0) / dy * dy,
      z0 + (w 2 - z0) / dz * dz] = w := fun w => by
    rw [hnode, ← hpt]
  rw [e, e] at key
  have f0 := norm_le_pi_norm (z - z') 0
  have f1 := norm_le_pi_norm (z - z') 1
  have f2 := norm_le_pi_norm (z - z') 2
  rw [Pi.sub_apply, Real.norm_eq_abs] at f0 f1 f2
  have g0 : |(z 0 - x0) / dx - (z' 0 - x0) / dx| = |z 0 - z' 0| / dx := by
    rw [← sub_div, sub_sub_sub_cancel_right, abs_div, abs_of_pos hdx]
  have g1 : |(z 1 - y0) / dy - (z' 1 - y0) / dy| = |z 1 - z' 1| / dy := by
    rw [← sub_div, sub_sub_sub_cancel_right, abs_div, abs_of_pos hdy]
  have g2 : |(z 2 - z0) / dz - (z' 2 - z0) / dz| = |z 2 - z' 2| / dz := by
    rw [← sub_div, sub_sub_sub_cancel_right, abs_div, abs_of_pos hdz]
  rw [g0, g1, g2] at key
  have k0 : (2 * L * dx ^ 2 + L * dx * dy + L * dx * dz) * (|z 0 - z' 0| / dx) =
      L * (2 * dx + dy + dz) * |z 0 - z' 0| := by
    field_simp
  have k1 : (2 * L * dy ^ 2 + L * dx * dy + L * dy * dz) * (|z 1 - z' 1| / dy) =
      L * (2 * dy + dx + dz) * |z 1 - z' 1| := by
    field_simp
  have k2 : (2 * L * dz ^ 2 + L * dx * dz + L * dy * dz) * (|z 2 - z' 2| / dz) =
      L * (2 * dz + dx + dy) * |z 2 - z' 2| := by
    field_simp
  rw [k0, k1, k2] at key
  have l0 : L * (2 * dx + dy + dz) * |z 0 - z' 0| ≤ L * (4 * Δ) * ‖z - z'‖ := by
    gcongr
    linarith
  have l1 : L * (2 * dy + dx + dz) * |z 1 - z' 1| ≤ L * (4 * Δ) * ‖z - z'‖ := by
    gcongr
    linarith
  have l2 : L * (2 * dz + dx + dy) * |z 2 - z' 2| ≤ L * (4 * Δ) * ‖z - z'‖ := by
    gcongr
    linarith
  rw [Pi.sub_apply, Pi.sub_apply, Pi.sub_apply, Real.norm_eq_abs, abs_sub_comm]
  refine (le_of_eq ?_).trans (key.trans ((add_le_add (add_le_add l0 l1) l2).trans (le_of_eq ?_)))
  · congr 1
    unfold trilinear
    ring
  · ring

/-- Small and slowly changing errors in one constant. -/
theorem nearWith_of_order {d : ℕ} {g w : (Fin d → ℝ) → Fin d → ℝ} {x : Fin d → ℝ} {r δ Δ M L : ℝ}
    (hδ0 : 0 < δ) (hδ1 : δ ≤ 1) (hΔ0 : 0 ≤ Δ) (hΔ1 : Δ ≤ 1) (hM : 0 ≤ M) (hL : 0 ≤ L)
    (h : ∀ z, ‖z - x‖ ≤ r → ‖g z - w z‖ ≤ M * Δ ^ 2)
    (h' : ∀ z, ‖z - x‖ ≤ r → ∀ z', ‖z' - x‖ ≤ r →
      ‖g z - w z - (g z' - w z')‖ ≤ L * Δ * ‖z - z'‖) :
    NearWith g w x r ((2 * M + L) * min Δ (Δ ^ 2 / δ)) δ := by
  have s1 : Δ ^ 2 ≤ Δ := by nlinarith
  have s2 : Δ ^ 2 ≤ Δ ^ 2 / δ := by
    rw [le_div_iff₀ hδ0]
    nlinarith [sq_nonneg Δ]
  have s3 : Δ ^ 2 ≤ min Δ (Δ ^ 2 / δ) := le_min s1 s2
  have s4 : 0 ≤ min Δ (Δ ^ 2 / δ) := (sq_nonneg Δ).trans s3
  refine fun z hz => ⟨(h z hz).trans ?_, fun z' hz' => ?_⟩
  · have := mul_le_mul_of_nonneg_left s3 hM
    nlinarith [mul_nonneg hL s4, mul_nonneg hM s4]
  · have n0 := norm_nonneg (z - z')
    rcases min_choice Δ (Δ ^ 2 / δ) with e | e
    · refine (h' z hz z' hz').trans ?_
      rw [e]
      have t1 : 0 ≤ 2 * M * Δ * (‖z - z'‖ + δ) := by positivity
      have t2 : 0 ≤ L * Δ * δ := by positivity
      nlinarith
    · refine (norm_sub_le _ _).trans ((add_le_add (h z hz) (h z' hz')).trans ?_)
      rw [e]
      have t1 : (2 * M + L) * (Δ ^ 2 / δ) * δ = (2 * M + L) * Δ ^ 2 := by field_simp
      have t2 : 0 ≤ (2 * M + L) * (Δ ^ 2 / δ) * ‖z - z'‖ := by positivity
      have t3 : 0 ≤ L * Δ ^ 2 := by positivity
      nlinarith

end Verif
