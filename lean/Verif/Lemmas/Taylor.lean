import Mathlib.Analysis.Calculus.MeanValue
import Mathlib.Analysis.Calculus.ContDiff.RCLike
import Mathlib.Analysis.Calculus.Deriv.Pow
import Mathlib.Analysis.Calculus.FDeriv.Symmetric
import Mathlib.Topology.MetricSpace.ProperSpace

/-!
# Taylor expansions along trajectories and segments

Nothing about the model.
-/

namespace Verif

open Set

section
variable {E : Type*} [NormedAddCommGroup E] [NormedSpace ℝ E]

/-- A function that is `0` at `0` with a derivative of size `M |s| ^ m`. -/
theorem le_of_deriv_le {G G' : ℝ → E} {h M : ℝ} {m : ℕ} (hM : 0 ≤ M) (h0 : G 0 = 0)
    (hG : ∀ s ∈ uIcc 0 h, HasDerivWithinAt G (G' s) (uIcc 0 h) s)
    (hb : ∀ s ∈ uIcc 0 h, ‖G' s‖ ≤ M * |s| ^ m) : ‖G h‖ ≤ M * |h| ^ (m + 1) := by
  have hb' : ∀ s ∈ uIcc 0 h, ‖G' s‖ ≤ M * |h| ^ m := by
    intro s hs
    refine (hb s hs).trans (mul_le_mul_of_nonneg_left ?_ hM)
    refine pow_le_pow_left₀ (abs_nonneg s) ?_ m
    have := abs_sub_left_of_mem_uIcc hs
    simpa using this
  have := (convex_uIcc 0 h).norm_image_sub_le_of_norm_hasDerivWithin_le hG hb'
    left_mem_uIcc right_mem_uIcc
  rw [h0, sub_zero, sub_zero, Real.norm_eq_abs] at this
  rw [pow_succ, ← mul_assoc]
  exact this

/-- Taylor polynomial of order `m` with the coefficients `c`. -/
noncomputable def taylorSum (c : ℕ → E) (m : ℕ) (s : ℝ) : E :=
  ∑ j ∈ Finset.range (m + 1), (s ^ j / (j.factorial : ℝ)) • c j

theorem taylorSum_succ (c : ℕ → E) (m : ℕ) (s : ℝ) :
    taylorSum c (m + 1) s = c 0 + ∑ j ∈ Finset.range (m + 1),
      (s ^ (j + 1) / ((j + 1).factorial : ℝ)) • c (j + 1) := by
  unfold taylorSum
  rw [Finset.sum_range_succ']
  simp [add_comm]

theorem taylorSum_deriv (c : ℕ → E) (m : ℕ) (s : ℝ) (U : Set ℝ) :
    HasDerivWithinAt (taylorSum c (m + 1)) (taylorSum (fun j => c (j + 1)) m s) U s := by
  have e : taylorSum c (m + 1) = fun s => c 0 + ∑ j ∈ Finset.range (m + 1),
      (s ^ (j + 1) / ((j + 1).factorial : ℝ)) • c (j + 1) := funext (taylorSum_succ c m)
  rw [e]
  refine HasDerivWithinAt.const_add _ ?_
  unfold taylorSum
  refine HasDerivWithinAt.fun_sum fun j _ => HasDerivWithinAt.smul_const ?_ _
  have h := ((hasDerivAt_pow (j + 1) s).div_const ((j + 1).factorial : ℝ)).hasDerivWithinAt (s := U)
  refine h.congr_deriv ?_
  rw [Nat.factorial_succ]
  have : (j.factorial : ℝ) ≠ 0 := by positivity
  have : ((j : ℝ) + 1) ≠ 0 := by positivity
  push_cast
  field_simp

/-- **Taylor.**  `f (j + 1)` is the derivative of `f j` for `j < m`, and `f m` changes by at most
`M` per unit. -/
theorem taylor_chain {U : Set ℝ} (hU : Convex ℝ U) {M : ℝ} (hM0 : 0 ≤ M) (m : ℕ) :
    ∀ f : ℕ → ℝ → E,
    (∀ j < m, ∀ t ∈ U, HasDerivWithinAt (f j) (f (j + 1) t) U t) →
    (∀ s ∈ U, ∀ t ∈ U, ‖f m s - f m t‖ ≤ M * |s - t|) →
    ∀ t ∈ U, ∀ h, t + h ∈ U →
      ‖f 0 (t + h) - taylorSum (fun j => f j t) m h‖ ≤ M * |h| ^ (m + 1) := by
  induction m with
  | zero =>
    intro f _ hM t ht h hth
    have := hM _ hth _ ht
    simpa [taylorSum] using this
  | succ m ih =>
    intro f hf hM t ht h hth
    have hsub : ∀ s ∈ uIcc 0 h, t + s ∈ U := by
      intro s hs
      have : t + s ∈ uIcc t (t + h) := by
        rw [mem_uIcc] at hs ⊢
        rcases hs with ⟨a, b⟩ | ⟨a, b⟩
        · left; constructor <;> linarith
        · right; constructor <;> linarith
      rw [← segment_eq_uIcc] at this
      exact hU.segment_subset ht hth this
    have key := ih (fun j => f (j + 1)) (fun j hj => hf (j + 1) (by omega)) hM t ht
    refine le_of_deriv_le (G := fun s => f 0 (t + s) - taylorSum (fun j => f j t) (m + 1) s)
      (G' := fun s => f 1 (t + s) - taylorSum (fun j => f (j + 1) t) m s) (m := m + 1) hM0 ?_ ?_ ?_
    · rw [taylorSum_succ]
      simp
    · intro s hs
      refine HasDerivWithinAt.sub ?_ (taylorSum_deriv (fun j => f j t) m s _)
      have h1 := hf 0 (by omega) (t + s) (hsub s hs)
      have h2 : HasDerivWithinAt (fun s => t + s) 1 (uIcc 0 h) s :=
        (hasDerivWithinAt_id s _).const_add t
      have := h1.scomp s h2 (fun s hs => hsub s hs)
      rw [one_smul] at this
      exact this
    · intro s hs
      exact key s (hsub s hs)

/-- A smooth function along a curve with bounded speed. -/
theorem smooth_along {F : Type*} [NormedAddCommGroup F] [NormedSpace ℝ F] {U : Set ℝ}
    (hUc : IsCompact U) (hUv : Convex ℝ U) {Y : ℝ → E} {W : E → E} (hW : Continuous W)
    (hY : ∀ t ∈ U, HasDerivWithinAt Y (W (Y t)) U t) {G : E → F} (hG : ContDiff ℝ 1 G) :
    ∃ M, 0 ≤ M ∧ ∀ s ∈ U, ∀ t ∈ U, ‖G (Y s) - G (Y t)‖ ≤ M * |s - t| := by
  have hYc : ContinuousOn Y U := fun t ht => (hY t ht).continuousWithinAt
  have hc : ContinuousOn (fun t => fderiv ℝ G (Y t) (W (Y t))) U := by
    have h1 : Continuous fun x => fderiv ℝ G x (W x) :=
      (hG.continuous_fderiv (by simp)).clm_apply hW
    exact h1.comp_continuousOn hYc
  obtain ⟨M, hM⟩ := (hUc.image_of_continuousOn hc).isBounded.exists_norm_le
  refine ⟨|M|, abs_nonneg M, fun s hs t ht => ?_⟩
  have := hUv.norm_image_sub_le_of_norm_hasDerivWithin_le (f := G ∘ Y)
    (f' := fun t => fderiv ℝ G (Y t) (W (Y t))) (C := |M|)
    (fun t ht => ((hG.differentiable (by simp) (Y t)).hasFDerivAt).comp_hasDerivWithinAt t (hY t ht))
    (fun t ht => (hM _ (mem_image_of_mem _ ht)).trans (le_abs_self M)) ht hs
  rwa [Real.norm_eq_abs] at this

/-- The derivatives of a function along the trajectories of `W`. -/
noncomputable def lieIter {F : Type*} [NormedAddCommGroup F] [NormedSpace ℝ F] (W : E → E)
    (G : E → F) : ℕ → E → F
  | 0 => G
  | j + 1 => fun x => fderiv ℝ (lieIter W G j) x (W x)

theorem lieIter_smooth {F : Type*} [NormedAddCommGroup F] [NormedSpace ℝ F] {W : E → E}
    {G : E → F} {m : ℕ} (hG : ContDiff ℝ (m + 1 : ℕ) G) (hW : ContDiff ℝ m W) :
    ∀ j i : ℕ, j + i = m → ContDiff ℝ (i + 1 : ℕ) (lieIter W G j) := by
  intro j
  induction j with
  | zero =>
    intro i hi
    rw [Nat.zero_add] at hi
    rw [hi]
    exact hG
  | succ j ih =>
    intro i hi
    have h1 := ih (i + 1) (by omega)
    have h2 : ContDiff ℝ (i + 1 : ℕ) (fderiv ℝ (lieIter W G j)) := h1.fderiv_right (by norm_cast)
    exact h2.clm_apply (hW.of_le (by exact_mod_cast (by omega : i + 1 ≤ m)))

/-- **Taylor along a trajectory.** -/
theorem taylor_along {F : Type*} [NormedAddCommGroup F] [NormedSpace ℝ F] {U : Set ℝ}
    (hUc : IsCompact U) (hUv : Convex ℝ U) {Y : ℝ → E} {W : E → E} {m : ℕ}
    (hW : ContDiff ℝ m W) (hY : ∀ t ∈ U, HasDerivWithinAt Y (W (Y t)) U t) {G : E → F}
    (hG : ContDiff ℝ (m + 1 : ℕ) G) :
    ∃ M, 0 ≤ M ∧ ∀ t ∈ U, ∀ h, t + h ∈ U →
      ‖G (Y (t + h)) - taylorSum (fun j => lieIter W G j (Y t)) m h‖ ≤ M * |h| ^ (m + 1) := by
  have hs := lieIter_smooth hG hW
  obtain ⟨M, hM0, hM⟩ := smooth_along hUc hUv hW.continuous hY
    (G := lieIter W G m) (by simpa using hs m 0 (by omega))
  refine ⟨M, hM0, fun t ht h hth => ?_⟩
  refine taylor_chain hUv hM0 m (fun j t => lieIter W G j (Y t)) ?_ hM t ht h hth
  intro j hj t ht
  have h1 := hs j (m - j) (by omega)
  exact ((h1.differentiable (by simp) (Y t)).hasFDerivAt).comp_hasDerivWithinAt t (hY t ht)

end

end Verif
