import Verif.Spec.Trajectory
import Mathlib.Analysis.ODE.ExistUnique
import Mathlib.Analysis.Calculus.MeanValue
import Mathlib.Analysis.Calculus.ContDiff.RCLike
import Mathlib.Analysis.Calculus.Deriv.Comp
import Mathlib.Analysis.Calculus.Deriv.Add
import Mathlib.Topology.Algebra.MetricSpace.Lipschitz

/-!
# Trajectories near a trajectory

Existence of trajectories of smooth fields near a given one, and the derivative of the end point
with respect to the initial point (the variational equation).
-/

namespace Verif

open Set Filter Topology Metric
open scoped NNReal

variable {d : ℕ}

/-! ## Clamping to a box -/

/-- The nearest point in the closed ball (a box in the maximum norm). -/
def clampAt (x : Fin d → ℝ) (R : ℝ) (y : Fin d → ℝ) : Fin d → ℝ :=
  fun i => max (x i - R) (min (x i + R) (y i))

theorem clamp_dist {x : Fin d → ℝ} {R : ℝ} (hR : 0 ≤ R) (y : Fin d → ℝ) :
    ‖clampAt x R y - x‖ ≤ R := by
  rw [pi_norm_le_iff_of_nonneg hR]
  intro i
  show |max (x i - R) (min (x i + R) (y i)) - x i| ≤ R
  rw [abs_le]
  constructor
  · linarith [le_max_left (x i - R) (min (x i + R) (y i))]
  · have : max (x i - R) (min (x i + R) (y i)) ≤ x i + R :=
      max_le (by linarith) (min_le_left _ _)
    linarith

theorem clamp_id {x y : Fin d → ℝ} {R : ℝ} (h : ‖y - x‖ ≤ R) : clampAt x R y = y := by
  funext i
  have := abs_le.1 ((norm_le_pi_norm (y - x) i).trans h)
  rw [Pi.sub_apply] at this
  show max (x i - R) (min (x i + R) (y i)) = y i
  rw [min_eq_right (by linarith [this.2]), max_eq_right (by linarith [this.1])]

theorem clamp_lip (x : Fin d → ℝ) (R : ℝ) (y z : Fin d → ℝ) :
    ‖clampAt x R y - clampAt x R z‖ ≤ ‖y - z‖ := by
  rw [pi_norm_le_iff_of_nonneg (norm_nonneg _)]
  intro i
  refine le_trans ?_ (norm_le_pi_norm (y - z) i)
  show |max (x i - R) (min (x i + R) (y i)) - max (x i - R) (min (x i + R) (z i))| ≤ |y i - z i|
  have h1 := abs_max_sub_max_le_max (x i - R) (min (x i + R) (y i)) (x i - R) (min (x i + R) (z i))
  have h2 := abs_min_sub_min_le_max (x i + R) (y i) (x i + R) (z i)
  rw [sub_self, abs_zero, max_eq_right (a := (0 : ℝ)) (abs_nonneg _)] at h1 h2
  exact h1.trans h2

theorem clamp_closer {x : Fin d → ℝ} {R : ℝ} (hR : 0 ≤ R) (y : Fin d → ℝ) :
    ‖clampAt x R y - x‖ ≤ ‖y - x‖ := by
  have := clamp_lip x R y x
  rwa [clamp_id (x := x) (y := x) (by rw [sub_self, norm_zero]; exact hR)] at this

theorem clamp_continuous (R : ℝ) (y : Fin d → ℝ) : Continuous fun x => clampAt x R y := by
  refine continuous_pi fun i => ?_
  unfold clampAt
  fun_prop

/-! ## The unit time interval -/

/-- A solution on the unit interval. -/
def Solves (f : ℝ → (Fin d → ℝ) → Fin d → ℝ) (α : ℝ → Fin d → ℝ) : Prop :=
  ∀ t ∈ Icc (0 : ℝ) 1, HasDerivWithinAt α (f t (α t)) (Icc 0 1) t

theorem Solves.continuousOn {f : ℝ → (Fin d → ℝ) → Fin d → ℝ} {α : ℝ → Fin d → ℝ}
    (h : Solves f α) : ContinuousOn α (Icc 0 1) := fun t ht => (h t ht).continuousWithinAt

theorem deriv_right {α : ℝ → Fin d → ℝ} {a : Fin d → ℝ} {t : ℝ} (ht : t ∈ Ico (0 : ℝ) 1)
    (h : HasDerivWithinAt α a (Icc 0 1) t) : HasDerivWithinAt α a (Ici t) t :=
  h.mono_of_mem_nhdsWithin (Icc_mem_nhdsGE_of_mem ht)

theorem gronwall_scale (K ε t : ℝ) : gronwallBound 0 K ε t = ε * gronwallBound 0 K 1 t := by
  unfold gronwallBound
  split_ifs
  · ring
  · ring

/-- Solutions of fields with a global Lipschitz constant. -/
theorem exists_solution {f : ℝ → (Fin d → ℝ) → Fin d → ℝ} {K : ℝ≥0}
    (hK : ∀ t ∈ Icc (0 : ℝ) 1, LipschitzWith K (f t))
    (hc : ∀ x, ContinuousOn (fun t => f t x) (Icc 0 1)) (x : Fin d → ℝ) :
    ∃ α, α 0 = x ∧ Solves f α := by
  obtain ⟨C, hC⟩ := isCompact_Icc.exists_bound_of_continuousOn (hc x)
  have h0 : (0 : ℝ) ∈ Icc (0 : ℝ) 1 := ⟨le_rfl, zero_le_one⟩
  have hC0 : 0 ≤ C := (norm_nonneg _).trans (hC 0 h0)
  set R := gronwallBound 0 K C 1 with hR
  have hR0 : 0 ≤ R := by
    have := gronwallBound_mono le_rfl hC0 K.coe_nonneg (zero_le_one (α := ℝ))
    rwa [gronwallBound_x0] at this
  have grow : ∀ t ∈ Icc (0 : ℝ) 1, ∀ y, ‖f t (clampAt x R y)‖ ≤ K * ‖clampAt x R y - x‖ + C := by
    intro t ht y
    have h1 := (hK t ht).dist_le_mul (clampAt x R y) x
    rw [dist_eq_norm, dist_eq_norm] at h1
    have h2 := norm_add_le (f t (clampAt x R y) - f t x) (f t x)
    rw [sub_add_cancel] at h2
    linarith [hC t ht]
  set L : ℝ≥0 := ⟨K * R + C, by positivity⟩ with hL
  have hPL : IsPicardLindelof (fun t y => f t (clampAt x R y)) (⟨0, h0⟩ : Icc (0 : ℝ) 1) x L 0 L K := by
    refine ⟨fun t ht => ?_, fun y _ => hc _, fun t ht y _ => ?_, ?_⟩
    · refine (LipschitzWith.of_dist_le_mul fun y z => ?_).lipschitzOnWith
      have h1 := (hK t ht).dist_le_mul (clampAt x R y) (clampAt x R z)
      refine h1.trans (mul_le_mul_of_nonneg_left ?_ K.coe_nonneg)
      rw [dist_eq_norm, dist_eq_norm]
      exact clamp_lip x R y z
    · refine (grow t ht y).trans ?_
      have := mul_le_mul_of_nonneg_left (clamp_dist hR0 y (x := x)) K.coe_nonneg
      show _ ≤ (K : ℝ) * R + C
      linarith
    · simp
  obtain ⟨α, a1, a2⟩ := hPL.exists_eq_forall_mem_Icc_hasDerivWithinAt₀
  have a1 : α 0 = x := a1
  have hcont : ContinuousOn α (Icc 0 1) := fun t ht => (a2 t ht).continuousWithinAt
  have bound : ∀ t ∈ Icc (0 : ℝ) 1, ‖α t - x‖ ≤ gronwallBound 0 K C (t - 0) := by
    refine norm_le_gronwallBound_of_norm_deriv_right_le (f := fun t => α t - x)
      (f' := fun t => f t (clampAt x R (α t))) (hcont.sub continuousOn_const) ?_ ?_ ?_
    · intro t ht
      exact (deriv_right ht (a2 t (Ico_subset_Icc_self ht))).sub_const x
    · simp [a1]
    · intro t ht
      refine (grow t (Ico_subset_Icc_self ht) _).trans ?_
      have := mul_le_mul_of_nonneg_left (clamp_closer hR0 (α t) (x := x)) K.coe_nonneg
      show _ ≤ (K : ℝ) * ‖α t - x‖ + C
      linarith
  refine ⟨α, a1, fun t ht => ?_⟩
  have := a2 t ht
  rwa [clamp_id ((bound t ht).trans (by
    rw [sub_zero]
    exact gronwallBound_mono le_rfl hC0 K.coe_nonneg ht.2))] at this

/-- Two solutions of a field that is Lipschitz where they are. -/
theorem solves_dist {f : ℝ → (Fin d → ℝ) → Fin d → ℝ} {K : ℝ≥0} {s : ℝ → Set (Fin d → ℝ)}
    (hK : ∀ t ∈ Icc (0 : ℝ) 1, LipschitzOnWith K (f t) (s t)) {α β : ℝ → Fin d → ℝ}
    (ha : Solves f α) (hb : Solves f β) (hα : ∀ t ∈ Icc (0 : ℝ) 1, α t ∈ s t)
    (hβ : ∀ t ∈ Icc (0 : ℝ) 1, β t ∈ s t) :
    ∀ t ∈ Icc (0 : ℝ) 1, ‖α t - β t‖ ≤ ‖α 0 - β 0‖ * Real.exp K := by
  intro t ht
  have h := dist_le_of_trajectories_ODE_of_mem (fun t ht => hK t (Ico_subset_Icc_self ht))
    ha.continuousOn (fun t ht => deriv_right ht (ha t (Ico_subset_Icc_self ht)))
    (fun t ht => hα t (Ico_subset_Icc_self ht)) hb.continuousOn
    (fun t ht => deriv_right ht (hb t (Ico_subset_Icc_self ht)))
    (fun t ht => hβ t (Ico_subset_Icc_self ht)) le_rfl t ht
  rw [dist_eq_norm, dist_eq_norm] at h
  refine h.trans (mul_le_mul_of_nonneg_left (Real.exp_le_exp.2 ?_) (norm_nonneg _))
  have := mul_le_mul_of_nonneg_left ht.2 K.coe_nonneg
  rw [sub_zero]
  simpa using this

/-- The linearisation along a solution. -/
theorem linearised {f : ℝ → (Fin d → ℝ) → Fin d → ℝ} {A : ℝ → (Fin d → ℝ) →L[ℝ] (Fin d → ℝ)}
    {K ε : ℝ} (hA : ∀ t ∈ Icc (0 : ℝ) 1, ‖A t‖ ≤ K) {X Z y : ℝ → Fin d → ℝ} (hX : Solves f X)
    (hZ : Solves f Z) (hy : Solves (fun t u => A t u) y) (h0 : y 0 = Z 0 - X 0)
    (hε : ∀ t ∈ Icc (0 : ℝ) 1, ‖f t (Z t) - f t (X t) - A t (Z t - X t)‖ ≤ ε) :
    ∀ t ∈ Icc (0 : ℝ) 1, ‖Z t - X t - y t‖ ≤ ε * gronwallBound 0 K 1 t := by
  intro t ht
  have := norm_le_gronwallBound_of_norm_deriv_right_le (f := fun t => Z t - X t - y t)
    (f' := fun t => f t (Z t) - f t (X t) - A t (y t)) (δ := 0) (K := K) (ε := ε) (a := 0) (b := 1)
    ((hZ.continuousOn.sub hX.continuousOn).sub hy.continuousOn)
    (fun t ht => deriv_right ht (((hZ t (Ico_subset_Icc_self ht)).sub
      (hX t (Ico_subset_Icc_self ht))).sub (hy t (Ico_subset_Icc_self ht))))
    (by simp [h0]) (fun t ht => by
      have ht := Ico_subset_Icc_self ht
      have e : f t (Z t) - f t (X t) - A t (y t) =
          A t (Z t - X t - y t) + (f t (Z t) - f t (X t) - A t (Z t - X t)) := by
        rw [map_sub (A t) (Z t - X t) (y t)]
        abel
      rw [e]
      refine (norm_add_le _ _).trans (add_le_add ?_ (hε t ht))
      exact ((A t).le_opNorm _).trans (mul_le_mul_of_nonneg_right (hA t ht) (norm_nonneg _))) t ht
  rw [sub_zero, gronwall_scale] at this
  exact this

/-! ## Smooth fields -/

section smooth
variable {f : ℝ → (Fin d → ℝ) → Fin d → ℝ}

/-- Derivative with respect to the point. -/
theorem smooth_fderiv (hf : ContDiff ℝ 1 fun q : ℝ × (Fin d → ℝ) => f q.1 q.2) (t : ℝ)
    (x : Fin d → ℝ) : HasFDerivAt (f t) (fderiv ℝ (f t) x) x ∧
      fderiv ℝ (f t) x = (fderiv ℝ (fun q : ℝ × (Fin d → ℝ) => f q.1 q.2) (t, x)).comp
        (ContinuousLinearMap.inr ℝ ℝ (Fin d → ℝ)) := by
  have h := ((hf.differentiable (by norm_num)) (t, x)).hasFDerivAt.comp x
    (hasFDerivAt_prodMk_right t x)
  have h' : HasFDerivAt (f t) _ x := h
  exact ⟨h'.differentiableAt.hasFDerivAt, h'.fderiv⟩

theorem smooth_fderiv_continuous (hf : ContDiff ℝ 1 fun q : ℝ × (Fin d → ℝ) => f q.1 q.2) :
    Continuous fun q : ℝ × (Fin d → ℝ) => fderiv ℝ (f q.1) q.2 := by
  have h : Continuous fun q : ℝ × (Fin d → ℝ) =>
      (fderiv ℝ (fun q : ℝ × (Fin d → ℝ) => f q.1 q.2) q).comp
        (ContinuousLinearMap.inr ℝ ℝ (Fin d → ℝ)) :=
    (hf.continuous_fderiv (by norm_num)).clm_comp continuous_const
  refine h.congr fun q => ?_
  exact (smooth_fderiv hf q.1 q.2).2.symm

theorem smooth_time (hf : ContDiff ℝ 1 fun q : ℝ × (Fin d → ℝ) => f q.1 q.2) (x : Fin d → ℝ) :
    Continuous fun t => f t x :=
  hf.continuous.comp (continuous_id.prodMk continuous_const)

/-- A Lipschitz constant on a ball. -/
theorem smooth_lipschitz (hf : ContDiff ℝ 1 fun q : ℝ × (Fin d → ℝ) => f q.1 q.2) (R : ℝ) :
    ∃ K : ℝ≥0, ∀ t ∈ Icc (0 : ℝ) 1, LipschitzOnWith K (f t) (closedBall 0 R) := by
  have hc : IsCompact (Icc (0 : ℝ) 1 ×ˢ closedBall (0 : Fin d → ℝ) R) :=
    isCompact_Icc.prod (isCompact_closedBall _ _)
  obtain ⟨K, hK⟩ :=
    (hf.locallyLipschitz.locallyLipschitzOn).exists_lipschitzOnWith_of_compact hc
  refine ⟨K, fun t ht => LipschitzOnWith.of_dist_le_mul fun x hx y hy => ?_⟩
  have := hK.dist_le_mul (t, x) ⟨ht, hx⟩ (t, y) ⟨ht, hy⟩
  rwa [Prod.dist_eq, dist_self, max_eq_right dist_nonneg] at this

theorem bounded_path {X : ℝ → Fin d → ℝ} (h : ContinuousOn X (Icc 0 1)) :
    ∃ R, ∀ t ∈ Icc (0 : ℝ) 1, ‖X t‖ ≤ R := isCompact_Icc.exists_bound_of_continuousOn h

/-- Solutions are unique. -/
theorem solves_unique (hf : ContDiff ℝ 1 fun q : ℝ × (Fin d → ℝ) => f q.1 q.2)
    {α β : ℝ → Fin d → ℝ} (ha : Solves f α) (hb : Solves f β) (h0 : α 0 = β 0) :
    ∀ t ∈ Icc (0 : ℝ) 1, α t = β t := by
  obtain ⟨R, hR⟩ := bounded_path ha.continuousOn
  obtain ⟨R', hR'⟩ := bounded_path hb.continuousOn
  obtain ⟨K, hK⟩ := smooth_lipschitz hf (max R R')
  intro t ht
  have := solves_dist (s := fun _ => closedBall 0 (max R R')) hK ha hb
    (fun t ht => mem_closedBall_zero_iff.2 ((hR t ht).trans (le_max_left _ _)))
    (fun t ht => mem_closedBall_zero_iff.2 ((hR' t ht).trans (le_max_right _ _))) t ht
  rw [h0, sub_self, norm_zero, zero_mul] at this
  exact sub_eq_zero.1 (norm_le_zero_iff.1 this)

/-- Solutions exist near a solution and depend on the initial point in a Lipschitz way. -/
theorem solutions_near (hf : ContDiff ℝ 1 fun q : ℝ × (Fin d → ℝ) => f q.1 q.2)
    {X : ℝ → Fin d → ℝ} (hX : Solves f X) : ∃ C > 0, ∃ ρ > 0, ∀ x, ‖x - X 0‖ ≤ ρ →
      ∃ Z, Z 0 = x ∧ Solves f Z ∧ ∀ t ∈ Icc (0 : ℝ) 1, ‖Z t - X t‖ ≤ C * ‖x - X 0‖ := by
  obtain ⟨R, hR⟩ := bounded_path hX.continuousOn
  obtain ⟨K, hK⟩ := smooth_lipschitz hf (R + 1)
  set g : ℝ → (Fin d → ℝ) → Fin d → ℝ := fun t y => f t (clampAt (X t) 1 y) with hg
  have hin : ∀ t ∈ Icc (0 : ℝ) 1, ∀ y, clampAt (X t) 1 y ∈ closedBall (0 : Fin d → ℝ) (R + 1) := by
    intro t ht y
    rw [mem_closedBall_zero_iff]
    have h1 := clamp_dist zero_le_one y (x := X t)
    have h2 := norm_add_le (clampAt (X t) 1 y - X t) (X t)
    rw [sub_add_cancel] at h2
    linarith [hR t ht]
  have hgK : ∀ t ∈ Icc (0 : ℝ) 1, LipschitzWith K (g t) := by
    intro t ht
    refine LipschitzWith.of_dist_le_mul fun y z => ?_
    refine ((hK t ht).dist_le_mul _ (hin t ht y) _ (hin t ht z)).trans
      (mul_le_mul_of_nonneg_left ?_ K.coe_nonneg)
    rw [dist_eq_norm, dist_eq_norm]
    exact clamp_lip _ _ y z
  have hgc : ∀ y, ContinuousOn (fun t => g t y) (Icc 0 1) := by
    intro y
    have h1 : ContinuousOn (fun t => (t, clampAt (X t) 1 y)) (Icc 0 1) :=
      continuousOn_id.prodMk ((clamp_continuous 1 y).comp_continuousOn hX.continuousOn)
    exact hf.continuous.comp_continuousOn h1
  have hgX : Solves g X := by
    intro t ht
    show HasDerivWithinAt X (f t (clampAt (X t) 1 (X t))) _ _
    rw [clamp_id (by rw [sub_self, norm_zero]; exact zero_le_one)]
    exact hX t ht
  refine ⟨Real.exp K, Real.exp_pos _, (Real.exp K)⁻¹, by positivity, fun x hx => ?_⟩
  obtain ⟨Z, z1, z2⟩ := exists_solution hgK hgc x
  have hd : ∀ t ∈ Icc (0 : ℝ) 1, ‖Z t - X t‖ ≤ Real.exp K * ‖x - X 0‖ := by
    intro t ht
    have := solves_dist (s := fun _ => univ) (fun t ht => (hgK t ht).lipschitzOnWith) z2 hgX
      (fun _ _ => mem_univ _) (fun _ _ => mem_univ _) t ht
    rw [z1, mul_comm] at this
    exact this
  refine ⟨Z, z1, fun t ht => ?_, hd⟩
  have h1 : ‖Z t - X t‖ ≤ 1 := by
    refine (hd t ht).trans ((mul_le_mul_of_nonneg_left hx (Real.exp_pos _).le).trans ?_)
    rw [mul_inv_cancel₀ (Real.exp_pos _).ne']
  have := z2 t ht
  simp only [hg] at this
  rwa [clamp_id h1] at this

/-- The field is uniformly differentiable along a path. -/
theorem uniform_derivative (hf : ContDiff ℝ 1 fun q : ℝ × (Fin d → ℝ) => f q.1 q.2)
    {X : ℝ → Fin d → ℝ} (hX : ContinuousOn X (Icc 0 1)) {ε : ℝ} (hε : 0 < ε) :
    ∃ ρ > 0, ∀ t ∈ Icc (0 : ℝ) 1, ∀ z, ‖z - X t‖ ≤ ρ →
      ‖f t z - f t (X t) - fderiv ℝ (f t) (X t) (z - X t)‖ ≤ ε * ‖z - X t‖ := by
  obtain ⟨R, hR⟩ := bounded_path hX
  have hc : IsCompact (Icc (0 : ℝ) 1 ×ˢ closedBall (0 : Fin d → ℝ) (R + 1)) :=
    isCompact_Icc.prod (isCompact_closedBall _ _)
  have hu := hc.uniformContinuousOn_of_continuous (smooth_fderiv_continuous hf).continuousOn
  obtain ⟨ρ, hρ, h⟩ := Metric.uniformContinuousOn_iff.1 hu ε hε
  refine ⟨min (ρ / 2) 1, by positivity, fun t ht z hz => ?_⟩
  have hz1 := hz.trans (min_le_left _ _)
  have hz2 := hz.trans (min_le_right _ _)
  have key : ∀ y ∈ closedBall (X t) ‖z - X t‖, ‖fderiv ℝ (f t) y - fderiv ℝ (f t) (X t)‖ ≤ ε := by
    intro y hy
    rw [mem_closedBall, dist_eq_norm] at hy
    have hy' : (t, y) ∈ Icc (0 : ℝ) 1 ×ˢ closedBall (0 : Fin d → ℝ) (R + 1) := by
      refine ⟨ht, ?_⟩
      rw [mem_closedBall_zero_iff]
      have h2 := norm_add_le (y - X t) (X t)
      rw [sub_add_cancel] at h2
      show ‖y‖ ≤ _
      linarith [hR t ht]
    have hx' : (t, X t) ∈ Icc (0 : ℝ) 1 ×ˢ closedBall (0 : Fin d → ℝ) (R + 1) := by
      refine ⟨ht, ?_⟩
      rw [mem_closedBall_zero_iff]
      show ‖X t‖ ≤ _
      linarith [hR t ht]
    have := h _ hy' _ hx' (by
      rw [Prod.dist_eq, dist_self, max_eq_right dist_nonneg, dist_eq_norm]
      show ‖y - X t‖ < ρ
      linarith)
    rw [dist_eq_norm] at this
    exact this.le
  have := (convex_closedBall (X t) ‖z - X t‖).norm_image_sub_le_of_norm_hasFDerivWithin_le'
    (f := f t) (f' := fun y => fderiv ℝ (f t) y) (φ := fderiv ℝ (f t) (X t)) (C := ε)
    (fun y _ => (smooth_fderiv hf t y).1.hasFDerivWithinAt) key (x := X t) (y := z)
    (mem_closedBall_self (norm_nonneg _)) (by rw [mem_closedBall, dist_eq_norm])
  exact this

/-- **The derivative of the end point.**  `Φ x` is a solution from `x`, `Y` solves the variational
equation along the solution from `c`. -/
theorem solution_derivative (hf : ContDiff ℝ 1 fun q : ℝ × (Fin d → ℝ) => f q.1 q.2)
    {Φ : (Fin d → ℝ) → ℝ → Fin d → ℝ} {c : Fin d → ℝ}
    (hΦ : ∀ᶠ x in 𝓝 c, Φ x 0 = x ∧ Solves f (Φ x)) {Y : ℝ → (Fin d → ℝ) →L[ℝ] (Fin d → ℝ)}
    (hY0 : ∀ u, Y 0 u = u)
    (hY : ∀ u, Solves (fun t w => fderiv ℝ (f t) (Φ c t) w) fun t => Y t u) {t : ℝ}
    (ht : t ∈ Icc (0 : ℝ) 1) : HasFDerivAt (fun x => Φ x t) (Y t) c := by
  obtain ⟨c0, cS⟩ := hΦ.self_of_nhds
  obtain ⟨C, hC, ρ, hρ, near⟩ := solutions_near hf cS
  rw [c0] at near
  have hA : ContinuousOn (fun t => fderiv ℝ (f t) (Φ c t)) (Icc 0 1) :=
    (smooth_fderiv_continuous hf).comp_continuousOn (continuousOn_id.prodMk cS.continuousOn)
  obtain ⟨K, hK⟩ := isCompact_Icc.exists_bound_of_continuousOn hA
  have hG : 0 ≤ gronwallBound 0 K 1 t := by
    have hK0 : 0 ≤ K := (norm_nonneg _).trans (hK t ht)
    have := gronwallBound_mono le_rfl zero_le_one hK0 ht.1
    rwa [gronwallBound_x0] at this
  rw [hasFDerivAt_iff_isLittleO, Asymptotics.isLittleO_iff]
  intro ε hε
  have hε' : 0 < ε / (C * gronwallBound 0 K 1 t + 1) := by positivity
  obtain ⟨ρ', hρ', hu⟩ := uniform_derivative hf cS.continuousOn hε'
  have hball : ∀ᶠ x in 𝓝 c, ‖x - c‖ ≤ min ρ (ρ' / C) := by
    have : closedBall c (min ρ (ρ' / C)) ∈ 𝓝 c := closedBall_mem_nhds _ (by positivity)
    filter_upwards [this] with x hx
    rwa [mem_closedBall, dist_eq_norm] at hx
  filter_upwards [hΦ, hball] with x hx hxc
  obtain ⟨Z, z0, zS, zd⟩ := near x (hxc.trans (min_le_left _ _))
  have hZΦ := solves_unique hf zS hx.2 (by rw [z0, hx.1])
  have hd : ∀ s ∈ Icc (0 : ℝ) 1, ‖Φ x s - Φ c s‖ ≤ C * ‖x - c‖ := by
    intro s hs
    rw [← hZΦ s hs]
    exact zd s hs
  have hsmall : C * ‖x - c‖ ≤ ρ' := by
    have := mul_le_mul_of_nonneg_left (hxc.trans (min_le_right _ _)) hC.le
    rwa [mul_div_cancel₀ _ hC.ne'] at this
  have := linearised hK cS hx.2 (hY (x - c)) (by rw [hY0, hx.1, c0])
    (ε := ε / (C * gronwallBound 0 K 1 t + 1) * (C * ‖x - c‖))
    (fun s hs => (hu s hs _ ((hd s hs).trans hsmall)).trans
      (mul_le_mul_of_nonneg_left (hd s hs) hε'.le)) t ht
  refine this.trans ?_
  have h1 : 0 < C * gronwallBound 0 K 1 t + 1 := by positivity
  rw [show ε / (C * gronwallBound 0 K 1 t + 1) * (C * ‖x - c‖) * gronwallBound 0 K 1 t =
    ε * ‖x - c‖ * (C * gronwallBound 0 K 1 t / (C * gronwallBound 0 K 1 t + 1)) by ring]
  refine mul_le_of_le_one_right (by positivity) ?_
  rw [div_le_one h1]
  linarith

/-- Solutions of the variational equation exist. -/
theorem variation_exists (hf : ContDiff ℝ 1 fun q : ℝ × (Fin d → ℝ) => f q.1 q.2)
    {X : ℝ → Fin d → ℝ} (hX : ContinuousOn X (Icc 0 1)) (u : Fin d → ℝ) :
    ∃ y, y 0 = u ∧ Solves (fun t w => fderiv ℝ (f t) (X t) w) y := by
  have hA : ContinuousOn (fun t => fderiv ℝ (f t) (X t)) (Icc 0 1) :=
    (smooth_fderiv_continuous hf).comp_continuousOn (continuousOn_id.prodMk hX)
  obtain ⟨K, hK⟩ := isCompact_Icc.exists_bound_of_continuousOn hA
  refine exists_solution (K := K.toNNReal) (fun t ht => ?_) (fun x => hA.clm_apply continuousOn_const) u
  exact (fderiv ℝ (f t) (X t)).lipschitz.weaken
    (NNReal.le_toNNReal_of_coe_le (by simpa using hK t ht))

end smooth

/-! ## Any time interval -/

section times
variable {v : ℝ → (Fin d → ℝ) → Fin d → ℝ} {t0 t1 : ℝ}

/-- The field in units of the interval. -/
def unitField (v : ℝ → (Fin d → ℝ) → Fin d → ℝ) (t0 t1 s : ℝ) (x : Fin d → ℝ) : Fin d → ℝ :=
  (t1 - t0) • v (t0 + s * (t1 - t0)) x

theorem unitField_smooth (hv : ContDiff ℝ 1 fun q : ℝ × (Fin d → ℝ) => v q.1 q.2) :
    ContDiff ℝ 1 fun q : ℝ × (Fin d → ℝ) => unitField v t0 t1 q.1 q.2 := by
  have h : ContDiff ℝ 1 fun q : ℝ × (Fin d → ℝ) => (t0 + q.1 * (t1 - t0), q.2) :=
    (contDiff_const.add (contDiff_fst.mul contDiff_const)).prodMk contDiff_snd
  exact (hv.comp h).const_smul (t1 - t0)

theorem unitField_fderiv (s : ℝ) (x u : Fin d → ℝ) :
    fderiv ℝ (unitField v t0 t1 s) x u = (t1 - t0) • fderiv ℝ (v (t0 + s * (t1 - t0))) x u := by
  have : unitField v t0 t1 s = (t1 - t0) • v (t0 + s * (t1 - t0)) := rfl
  rw [this, fderiv_const_smul_field]
  rfl

theorem unit_mem {s : ℝ} (hs : s ∈ Icc (0 : ℝ) 1) : t0 + s * (t1 - t0) ∈ uIcc t0 t1 := by
  rw [mem_uIcc]
  obtain ⟨h1, h2⟩ := hs
  rcases le_total t0 t1 with h | h
  · left
    constructor <;> nlinarith
  · right
    constructor <;> nlinarith

theorem unit_of_mem (h : t0 ≠ t1) {t : ℝ} (ht : t ∈ uIcc t0 t1) :
    (t - t0) / (t1 - t0) ∈ Icc (0 : ℝ) 1 := by
  rcases mem_uIcc.1 ht with ⟨h1, h2⟩ | ⟨h1, h2⟩
  · have : 0 < t1 - t0 := sub_pos.2 (lt_of_le_of_ne (h1.trans h2) h)
    exact ⟨div_nonneg (by linarith) this.le, (div_le_one this).2 (by linarith)⟩
  · have : t1 - t0 < 0 := sub_neg.2 (lt_of_le_of_ne (h1.trans h2) h.symm)
    exact ⟨div_nonneg_of_nonpos (by linarith) this.le, (div_le_one_of_neg this).2 (by linarith)⟩

theorem unit_back (h : t0 ≠ t1) (t : ℝ) : t0 + (t - t0) / (t1 - t0) * (t1 - t0) = t := by
  rw [div_mul_cancel₀ _ (sub_ne_zero.2 h.symm)]
  ring

theorem unit_forth (h : t0 ≠ t1) (s : ℝ) : (t0 + s * (t1 - t0) - t0) / (t1 - t0) = s := by
  rw [add_sub_cancel_left, mul_div_cancel_right₀ _ (sub_ne_zero.2 h.symm)]

theorem to_unit {X a : ℝ → Fin d → ℝ} (hX : ∀ t ∈ uIcc t0 t1, HasDerivWithinAt X (a t) (uIcc t0 t1) t)
    {s : ℝ} (hs : s ∈ Icc (0 : ℝ) 1) : HasDerivWithinAt (fun s => X (t0 + s * (t1 - t0)))
      ((t1 - t0) • a (t0 + s * (t1 - t0))) (Icc 0 1) s := by
  have h1 : HasDerivWithinAt (fun s => t0 + s * (t1 - t0)) (t1 - t0) (Icc 0 1) s := by
    have := ((hasDerivWithinAt_id s (Icc (0 : ℝ) 1)).mul_const (t1 - t0)).const_add t0
    rwa [one_mul] at this
  exact (hX _ (unit_mem hs)).scomp s h1 fun r hr => unit_mem hr

theorem of_unit (h : t0 ≠ t1) {α b : ℝ → Fin d → ℝ}
    (hα : ∀ s ∈ Icc (0 : ℝ) 1, HasDerivWithinAt α ((t1 - t0) • b s) (Icc 0 1) s) {t : ℝ}
    (ht : t ∈ uIcc t0 t1) : HasDerivWithinAt (fun t => α ((t - t0) / (t1 - t0)))
      (b ((t - t0) / (t1 - t0))) (uIcc t0 t1) t := by
  have h1 : HasDerivWithinAt (fun t => (t - t0) / (t1 - t0)) (1 / (t1 - t0)) (uIcc t0 t1) t :=
    ((hasDerivWithinAt_id t (uIcc t0 t1)).sub_const t0).div_const (t1 - t0)
  have := (hα _ (unit_of_mem h ht)).scomp t h1 fun r hr => unit_of_mem h hr
  rwa [smul_smul, one_div, inv_mul_cancel₀ (sub_ne_zero.2 h.symm), one_smul] at this

theorem trajectory_unit {X : ℝ → Fin d → ℝ} (hX : IsTrajectory v (uIcc t0 t1) X) :
    Solves (unitField v t0 t1) fun s => X (t0 + s * (t1 - t0)) :=
  fun _ hs => to_unit hX hs

theorem unit_trajectory (h : t0 ≠ t1) {α : ℝ → Fin d → ℝ} (hα : Solves (unitField v t0 t1) α) :
    IsTrajectory v (uIcc t0 t1) fun t => α ((t - t0) / (t1 - t0)) := by
  intro t ht
  have := of_unit h (b := fun s => v (t0 + s * (t1 - t0)) (α s)) hα ht
  simp only [unit_back h] at this
  exact this

/-- **Trajectories exist near a trajectory**, and stay near it. -/
theorem trajectories_near (hv : ContDiff ℝ 1 fun q : ℝ × (Fin d → ℝ) => v q.1 q.2) (h : t0 ≠ t1)
    {X : ℝ → Fin d → ℝ} (hX : IsTrajectory v (uIcc t0 t1) X) : ∃ C > 0, ∃ ρ > 0, ∀ x,
      ‖x - X t0‖ ≤ ρ → ∃ Z, IsTrajectory v (uIcc t0 t1) Z ∧ Z t0 = x ∧
        ∀ t ∈ uIcc t0 t1, ‖Z t - X t‖ ≤ C * ‖x - X t0‖ := by
  obtain ⟨C, hC, ρ, hρ, near⟩ := solutions_near (unitField_smooth hv) (trajectory_unit hX)
  simp only [zero_mul, add_zero] at near
  refine ⟨C, hC, ρ, hρ, fun x hx => ?_⟩
  obtain ⟨Z, z1, z2, z3⟩ := near x hx
  refine ⟨_, unit_trajectory h z2, ?_, fun t ht => ?_⟩
  · rw [sub_self, zero_div, z1]
  · have := z3 _ (unit_of_mem h ht)
    rwa [unit_back h] at this

/-- **Trajectories are unique.** -/
theorem trajectory_unique (hv : ContDiff ℝ 1 fun q : ℝ × (Fin d → ℝ) => v q.1 q.2) (h : t0 ≠ t1)
    {X Y : ℝ → Fin d → ℝ} (hX : IsTrajectory v (uIcc t0 t1) X) (hY : IsTrajectory v (uIcc t0 t1) Y)
    (h0 : X t0 = Y t0) {t : ℝ} (ht : t ∈ uIcc t0 t1) : X t = Y t := by
  have := solves_unique (unitField_smooth hv) (trajectory_unit hX) (trajectory_unit hY)
    (by simpa using h0) _ (unit_of_mem h ht)
  simp only [unit_back h] at this
  exact this

/-- **Trajectories of fields with a Lipschitz constant exist.** -/
theorem trajectory_exists (hv : ContDiff ℝ 1 fun q : ℝ × (Fin d → ℝ) => v q.1 q.2) (h : t0 ≠ t1)
    {K : ℝ≥0} (hK : ∀ t ∈ uIcc t0 t1, LipschitzWith K (v t)) (x : Fin d → ℝ) :
    ∃ X, IsTrajectory v (uIcc t0 t1) X ∧ X t0 = x := by
  obtain ⟨α, h1, h2⟩ := exists_solution (f := unitField v t0 t1) (K := ‖t1 - t0‖₊ * K)
    (fun s hs => (lipschitzWith_smul (t1 - t0)).comp (hK _ (unit_mem hs)))
    (fun x => (smooth_time (unitField_smooth hv) x).continuousOn) x
  exact ⟨_, unit_trajectory h h2, by rw [sub_self, zero_div, h1]⟩

open scoped Matrix

/-- **The deformation is the derivative of the flow map.** -/
theorem deformation_derivative (hv : ContDiff ℝ 1 fun q : ℝ × (Fin d → ℝ) => v q.1 q.2)
    (h : t0 ≠ t1) {Φ : (Fin d → ℝ) → ℝ → Fin d → ℝ} {c : Fin d → ℝ}
    (hΦ : ∀ᶠ x in 𝓝 c, IsTrajectory v (uIcc t0 t1) (Φ x) ∧ Φ x t0 = x)
    {M : ℝ → Matrix (Fin d) (Fin d) ℝ} (hM : IsDeformation v (uIcc t0 t1) t0 (Φ c) M) {t : ℝ}
    (ht : t ∈ uIcc t0 t1) : HasFDerivAt (fun x => Φ x t)
      (LinearMap.toContinuousLinearMap (Matrix.toLin' (M t))) c := by
  have := solution_derivative (unitField_smooth (t0 := t0) (t1 := t1) hv)
    (Φ := fun x s => Φ x (t0 + s * (t1 - t0)))
    (c := c) (hΦ.mono fun x hx => ⟨by simpa using hx.2, trajectory_unit hx.1⟩)
    (Y := fun s => LinearMap.toContinuousLinearMap (Matrix.toLin' (M (t0 + s * (t1 - t0)))))
    (fun u => by simp [hM.1])
    (fun u s hs => by
      have := to_unit (hM.2 u) hs
      simp only [unitField_fderiv]
      simpa using this)
    (unit_of_mem h ht)
  simp only [unit_back h] at this
  exact this

/-- **The deformation exists.** -/
theorem deformation_exists (hv : ContDiff ℝ 1 fun q : ℝ × (Fin d → ℝ) => v q.1 q.2)
    (h : t0 ≠ t1) {X : ℝ → Fin d → ℝ} (hX : IsTrajectory v (uIcc t0 t1) X) :
    ∃ M, IsDeformation v (uIcc t0 t1) t0 X M := by
  have hcol : ∀ j : Fin d, ∃ y, y t0 = Pi.single j 1 ∧ ∀ t ∈ uIcc t0 t1,
      HasDerivWithinAt y (fderiv ℝ (v t) (X t) (y t)) (uIcc t0 t1) t := by
    intro j
    obtain ⟨y, h1, h2⟩ := variation_exists (unitField_smooth (t0 := t0) (t1 := t1) hv)
      (trajectory_unit hX).continuousOn (Pi.single j 1)
    refine ⟨fun t => y ((t - t0) / (t1 - t0)), by simpa using h1, fun t ht => ?_⟩
    have := of_unit h (α := y)
      (b := fun s => fderiv ℝ (v (t0 + s * (t1 - t0))) (X (t0 + s * (t1 - t0))) (y s))
      (fun s hs => by
        have := h2 s hs
        simp only [unitField_fderiv] at this
        exact this) ht
    simp only [unit_back h] at this
    exact this
  choose y y0 hy using hcol
  have hmul : ∀ u t, (Matrix.of fun i j => y j t i) *ᵥ u = ∑ j, u j • y j t := by
    intro u t
    funext i
    simp [Matrix.mulVec, dotProduct, Finset.sum_apply, mul_comm]
  refine ⟨fun t => Matrix.of fun i j => y j t i, ?_, fun u t ht => ?_⟩
  · ext i j
    simp [y0, Matrix.one_apply, Pi.single_apply]
  · simp only [hmul, map_sum, map_smul]
    exact HasDerivWithinAt.fun_sum fun j _ => (hy j t ht).const_smul (u j)

/-- **The deformation never vanishes.** -/
theorem deformation_ne_zero (hv : ContDiff ℝ 1 fun q : ℝ × (Fin d → ℝ) => v q.1 q.2)
    (h : t0 ≠ t1) {X : ℝ → Fin d → ℝ} (hX : IsTrajectory v (uIcc t0 t1) X)
    {M : ℝ → Matrix (Fin d) (Fin d) ℝ} (hM : IsDeformation v (uIcc t0 t1) t0 X M) {t : ℝ}
    (ht : t ∈ uIcc t0 t1) {u : Fin d → ℝ} (hu : M t *ᵥ u = 0) : u = 0 := by
  have hA : ContinuousOn (fun s => fderiv ℝ (unitField v t0 t1 s) (X (t0 + s * (t1 - t0))))
      (Icc 0 1) := (smooth_fderiv_continuous (unitField_smooth (t0 := t0) (t1 := t1)
        hv)).comp_continuousOn (continuousOn_id.prodMk (trajectory_unit hX).continuousOn)
  obtain ⟨K, hK⟩ := isCompact_Icc.exists_bound_of_continuousOn hA
  have hy : Solves (fun s w => fderiv ℝ (unitField v t0 t1 s) (X (t0 + s * (t1 - t0))) w)
      fun s => M (t0 + s * (t1 - t0)) *ᵥ u := fun s hs => by
    have := to_unit (hM.2 u) hs
    simp only [unitField_fderiv]
    exact this
  have hs := unit_of_mem h ht
  set s := (t - t0) / (t1 - t0) with hsd
  have hsub : Icc (0 : ℝ) s ⊆ Icc 0 1 := Icc_subset_Icc_right hs.2
  have left : ∀ r ∈ Ioc 0 s, ∀ {β : ℝ → Fin d → ℝ} {b : Fin d → ℝ},
      HasDerivWithinAt β b (Icc 0 1) r → HasDerivWithinAt β b (Iic r) r := fun r hr _ _ hb =>
    hb.mono_of_mem_nhdsWithin (Icc_mem_nhdsLE_of_mem ⟨hr.1, hr.2.trans hs.2⟩)
  have key := ODE_solution_unique_of_mem_Icc_left
    (v := fun s w => fderiv ℝ (unitField v t0 t1 s) (X (t0 + s * (t1 - t0))) w)
    (s := fun _ => univ) (K := K.toNNReal) (a := 0) (b := s)
    (f := fun s => M (t0 + s * (t1 - t0)) *ᵥ u) (g := fun _ => 0)
    (fun r hr => ((fderiv ℝ (unitField v t0 t1 r) (X (t0 + r * (t1 - t0)))).lipschitz.weaken
      (NNReal.le_toNNReal_of_coe_le (by simpa using hK r (hsub (Ioc_subset_Icc_self hr))))).lipschitzOnWith)
    (hy.continuousOn.mono hsub)
    (fun r hr => left r hr (hy r (hsub (Ioc_subset_Icc_self hr)))) (fun _ _ => mem_univ _)
    continuousOn_const
    (fun r hr => by
      rw [map_zero]
      exact hasDerivWithinAt_const _ _ _) (fun _ _ => mem_univ _)
    (by simp only [hsd, unit_back h, hu])
  have := key ⟨le_rfl, hs.1⟩
  simpa [hM.1] using this

end times

end Verif
