import Verif.Lemmas.Rk4Order

/-!
# Local error of the classical Runge-Kutta scheme

Nothing about the model.
-/

set_option linter.unusedSectionVars false

namespace Verif

open Set

section
variable {E : Type*} [NormedAddCommGroup E] [NormedSpace ℝ E]

/-- The mean velocity of one Runge-Kutta step in the steady field `w`. -/
noncomputable def rk4Inc (w : E → E) (h : ℝ) (x : E) : E :=
  let k1 := w x
  let k2 := w (x + (1 / 2 * h) • k1)
  let k3 := w (x + (1 / 2 * h) • k2)
  let k4 := w (x + h • k3)
  (1 / 6 : ℝ) • (k1 + (2 : ℝ) • k2 + (2 : ℝ) • k3 + k4)

/-! ## Derivatives along trajectories -/

theorem lie_one (w : E → E) : lieIter w id 1 = w := by
  funext x
  show fderiv ℝ id x (w x) = w x
  rw [fderiv_id]
  rfl

theorem lie_two (w : E → E) : lieIter w id 2 = fun x => fderiv ℝ w x (w x) := by
  funext x
  show fderiv ℝ (lieIter w id 1) x (w x) = _
  rw [lie_one]

theorem lie_three {w : E → E} (hw : ContDiff ℝ 4 w) : lieIter w id 3 = fun x =>
    fderiv ℝ (fderiv ℝ w) x (w x) (w x) + fderiv ℝ w x (fderiv ℝ w x (w x)) := by
  have hA : ContDiff ℝ 3 (fderiv ℝ w) := hw.fderiv_right (by norm_num)
  funext x
  show fderiv ℝ (lieIter w id 2) x (w x) = _
  rw [lie_two]
  have h1 := ((hA.differentiable (by norm_num) x).hasFDerivAt).clm_apply
    (hw.differentiable (by norm_num) x).hasFDerivAt
  rw [h1.fderiv]
  simp only [add_apply, ContinuousLinearMap.comp_apply, ContinuousLinearMap.flip_apply]
  rw [add_comm]

theorem lie_four {w : E → E} (hw : ContDiff ℝ 4 w) : lieIter w id 4 = fun x =>
    fderiv ℝ (fderiv ℝ (fderiv ℝ w)) x (w x) (w x) (w x) +
    (3 : ℝ) • fderiv ℝ (fderiv ℝ w) x (w x) (fderiv ℝ w x (w x)) +
    fderiv ℝ w x (fderiv ℝ (fderiv ℝ w) x (w x) (w x)) +
    fderiv ℝ w x (fderiv ℝ w x (fderiv ℝ w x (w x))) := by
  have hA : ContDiff ℝ 3 (fderiv ℝ w) := hw.fderiv_right (by norm_num)
  have hB : ContDiff ℝ 2 (fderiv ℝ (fderiv ℝ w)) := hA.fderiv_right (by norm_num)
  funext x
  show fderiv ℝ (lieIter w id 3) x (w x) = _
  rw [lie_three hw]
  have d0 := (hw.differentiable (by norm_num) x).hasFDerivAt
  have d1 := (hA.differentiable (by norm_num) x).hasFDerivAt
  have d2 := (hB.differentiable (by norm_num) x).hasFDerivAt
  have h1 := (d2.clm_apply d0).clm_apply d0
  have h2 := d1.clm_apply (d1.clm_apply d0)
  have sym : fderiv ℝ (fderiv ℝ w) x (fderiv ℝ w x (w x)) (w x) =
      fderiv ℝ (fderiv ℝ w) x (w x) (fderiv ℝ w x (w x)) :=
    (hw.contDiffAt (x := x)).isSymmSndFDerivAt
      (by rw [minSmoothness_of_isRCLikeNormedField]; norm_num) _ _
  rw [(h1.fun_add h2).fderiv]
  simp only [add_apply, ContinuousLinearMap.comp_apply, ContinuousLinearMap.flip_apply, map_add]
  rw [sym]
  module

/-! ## The increment -/

theorem ofOrder_cont {ι : Type*} [TopologicalSpace ι] {V : Type*} [NormedAddCommGroup V] [NormedSpace ℝ V]
    {S : Set ι} (hS : IsCompact S) {h : ι → ℝ} {G : ι → V} (hG : Continuous G) : OfOrder S h 0 G := by
  obtain ⟨C, hC⟩ := hS.exists_bound_of_continuousOn hG.continuousOn
  exact ofOrder_of_bounded hC

theorem OfOrder.pow4 {ι : Type*} {V : Type*} [NormedAddCommGroup V] [NormedSpace ℝ V] {S : Set ι} {h : ι → ℝ}
    {f : ι → E} {g : ι → V} (hf : OfOrder S h 1 f) {M : ℝ} (hM : 0 ≤ M)
    (hg : ∀ q ∈ S, ‖g q‖ ≤ M * ‖f q‖ ^ 4) : OfOrder S h 4 g := by
  obtain ⟨C, hC, h1⟩ := hf
  refine ⟨M * C ^ 4, by positivity, fun q hq => (hg q hq).trans ?_⟩
  rw [mul_assoc]
  refine mul_le_mul_of_nonneg_left ?_ hM
  have := pow_le_pow_left₀ (norm_nonneg _) (h1 q hq) 4
  rwa [pow_one, mul_pow] at this

/-- The field at `x + h α + h² β + h³ γ`, up to fourth order. -/
theorem stage_expand [ProperSpace E] {w : E → E} (hw : ContDiff ℝ 4 w) {S : Set (E × ℝ)}
    (hS : IsCompact S) (h1 : ∀ q ∈ S, |q.2| ≤ 1) {α β γ : E × ℝ → E} (hα : Continuous α)
    (hβ : Continuous β) (hγ : Continuous γ) :
    OfOrder S (fun q => q.2) 4 fun q =>
      w (q.1 + (q.2 • α q + q.2 ^ 2 • β q + q.2 ^ 3 • γ q)) -
        (w q.1 + q.2 • fderiv ℝ w q.1 (α q) + q.2 ^ 2 • fderiv ℝ w q.1 (β q) +
          q.2 ^ 3 • fderiv ℝ w q.1 (γ q) +
          (q.2 ^ 2 * (1 / 2)) • fderiv ℝ (fderiv ℝ w) q.1 (α q) (α q) +
          (q.2 ^ 3 * (1 / 2)) • (fderiv ℝ (fderiv ℝ w) q.1 (α q) (β q) +
            fderiv ℝ (fderiv ℝ w) q.1 (β q) (α q)) +
          (q.2 ^ 3 / 6) • fderiv ℝ (fderiv ℝ (fderiv ℝ w)) q.1 (α q) (α q) (α q)) := by
  have hA : ContDiff ℝ 3 (fderiv ℝ w) := hw.fderiv_right (by norm_num)
  have hB : ContDiff ℝ 2 (fderiv ℝ (fderiv ℝ w)) := hA.fderiv_right (by norm_num)
  have hC : ContDiff ℝ 1 (fderiv ℝ (fderiv ℝ (fderiv ℝ w))) := hB.fderiv_right (by norm_num)
  have hα0 := ofOrder_cont hS (h := fun q => q.2) hα
  have hβ0 := ofOrder_cont hS (h := fun q => q.2) hβ
  have hγ0 := ofOrder_cont hS (h := fun q => q.2) hγ
  obtain ⟨ρ, r1, r2⟩ := taylor3_expand (h := fun q : E × ℝ => q.2) h1 (a := fun q => w q.1)
    (A := fun q => fderiv ℝ w q.1) (B := fun q => fderiv ℝ (fderiv ℝ w) q.1)
    (C := fun q => fderiv ℝ (fderiv ℝ (fderiv ℝ w)) q.1)
    (ofOrder_cont hS (hB.continuous.comp continuous_fst))
    (ofOrder_cont hS (hC.continuous.comp continuous_fst)) hα0 hβ0 hγ0
  have hp : Continuous fun q : E × ℝ => q.2 • α q + q.2 ^ 2 • β q + q.2 ^ 3 • γ q := by fun_prop
  obtain ⟨R1, hR1⟩ := hS.exists_bound_of_continuousOn (f := fun q : E × ℝ => q.1)
    continuous_fst.continuousOn
  obtain ⟨R2, hR2⟩ := hS.exists_bound_of_continuousOn (continuous_fst.add hp).continuousOn
  obtain ⟨M, hM, ht⟩ := field_taylor hw (max R1 R2)
  have hp1 : OfOrder S (fun q => q.2) 1
      fun q : E × ℝ => q.2 • α q + q.2 ^ 2 • β q + q.2 ^ 3 • γ q := by
    have := ((hα0.pow_smul 1).mono h1 (j := 1) (by omega)).add
      ((hβ0.pow_smul 2).mono h1 (j := 1) (by omega)) |>.add
      ((hγ0.pow_smul 3).mono h1 (j := 1) (by omega))
    simpa only [pow_one] using this
  have key := hp1.pow4 hM fun q hq => ht q.1 (by
    rw [mem_closedBall_zero_iff]
    exact (hR1 q hq).trans (le_max_left _ _)) (q.2 • α q + q.2 ^ 2 • β q + q.2 ^ 3 • γ q) (by
    rw [mem_closedBall_zero_iff]
    exact (hR2 q hq).trans (le_max_right _ _))
  refine (key.add r1).congr fun q _ => ?_
  rw [r2 q _ rfl]
  abel

/-- Moving the argument of a smooth field by a small amount. -/
theorem shift_small [ProperSpace E] {w : E → E} (hw : ContDiff ℝ 1 w) {S : Set (E × ℝ)}
    (hS : IsCompact S) {m : ℕ} {f g : E × ℝ → E} (hf : Continuous f) (hg : Continuous g)
    (h : OfOrder S (fun q => q.2) m fun q => f q - g q) :
    OfOrder S (fun q => q.2) m fun q => w (f q) - w (g q) := by
  obtain ⟨R1, hR1⟩ := hS.exists_bound_of_continuousOn hf.continuousOn
  obtain ⟨R2, hR2⟩ := hS.exists_bound_of_continuousOn hg.continuousOn
  obtain ⟨Λ, hΛ⟩ := (hw.locallyLipschitz.locallyLipschitzOn
    (s := Metric.closedBall (0 : E) (max R1 R2))).exists_lipschitzOnWith_of_compact
    (isCompact_closedBall _ _)
  refine h.of_le (C := Λ) fun q hq => ?_
  have := hΛ.dist_le_mul (f q) (by
    rw [mem_closedBall_zero_iff]
    exact (hR1 q hq).trans (le_max_left _ _)) (g q) (by
    rw [mem_closedBall_zero_iff]
    exact (hR2 q hq).trans (le_max_right _ _))
  rwa [dist_eq_norm, dist_eq_norm] at this

/-- **The increment agrees with the Taylor series of the trajectory to fourth order.** -/
theorem rk4Inc_taylor [ProperSpace E] {w : E → E} (hw : ContDiff ℝ 4 w) {Q : Set E}
    (hQ : IsCompact Q) : ∃ C, 0 ≤ C ∧ ∀ x ∈ Q, ∀ h : ℝ, |h| ≤ 1 →
      ‖rk4Inc w h x - (lieIter w id 1 x + (h / 2) • lieIter w id 2 x +
        (h ^ 2 / 6) • lieIter w id 3 x + (h ^ 3 / 24) • lieIter w id 4 x)‖ ≤ C * |h| ^ 4 := by
  have hA : ContDiff ℝ 3 (fderiv ℝ w) := hw.fderiv_right (by norm_num)
  have hB : ContDiff ℝ 2 (fderiv ℝ (fderiv ℝ w)) := hA.fderiv_right (by norm_num)
  have hC : ContDiff ℝ 1 (fderiv ℝ (fderiv ℝ (fderiv ℝ w))) := hB.fderiv_right (by norm_num)
  set S : Set (E × ℝ) := Q ×ˢ Icc (-1) 1 with hSdef
  have hS : IsCompact S := hQ.prod isCompact_Icc
  have h1 : ∀ q ∈ S, |q.2| ≤ 1 := fun q hq => abs_le.2 hq.2
  -- the terms
  set a : E × ℝ → E := fun q => w q.1 with ha
  set Aa : E × ℝ → E := fun q => fderiv ℝ w q.1 (w q.1) with hAa
  set Baa : E × ℝ → E := fun q => fderiv ℝ (fderiv ℝ w) q.1 (w q.1) (w q.1) with hBaa
  set AAa : E × ℝ → E := fun q => fderiv ℝ w q.1 (Aa q) with hAAa
  set ABaa : E × ℝ → E := fun q => fderiv ℝ w q.1 (Baa q) with hABaa
  set AAAa : E × ℝ → E := fun q => fderiv ℝ w q.1 (AAa q) with hAAAa
  set BaA : E × ℝ → E := fun q => fderiv ℝ (fderiv ℝ w) q.1 (w q.1) (Aa q) with hBaA
  set Caaa : E × ℝ → E := fun q =>
    fderiv ℝ (fderiv ℝ (fderiv ℝ w)) q.1 (w q.1) (w q.1) (w q.1) with hCaaa
  have c0 : Continuous a := hw.continuous.comp continuous_fst
  have cA : Continuous fun q : E × ℝ => fderiv ℝ w q.1 := hA.continuous.comp continuous_fst
  have cB : Continuous fun q : E × ℝ => fderiv ℝ (fderiv ℝ w) q.1 :=
    hB.continuous.comp continuous_fst
  have c1 : Continuous Aa := cA.clm_apply c0
  have c2 : Continuous Baa := (cB.clm_apply c0).clm_apply c0
  have c3 : Continuous AAa := cA.clm_apply c1
  have sym : ∀ q : E × ℝ, fderiv ℝ (fderiv ℝ w) q.1 (Aa q) (w q.1) = BaA q := fun q =>
    (hw.contDiffAt (x := q.1)).isSymmSndFDerivAt
      (by rw [minSmoothness_of_isRCLikeNormedField]; norm_num) _ _
  -- the stages
  set k2 : E × ℝ → E := fun q => w (q.1 + (1 / 2 * q.2) • w q.1) with hk2
  set k3 : E × ℝ → E := fun q => w (q.1 + (1 / 2 * q.2) • k2 q) with hk3
  set k4 : E × ℝ → E := fun q => w (q.1 + q.2 • k3 q) with hk4
  have ck2 : Continuous k2 := hw.continuous.comp (by fun_prop)
  have ck3 : Continuous k3 := hw.continuous.comp (by fun_prop)
  have z : Continuous fun _ : E × ℝ => (0 : E) := continuous_const
  have low : ∀ {f g : E × ℝ → E}, OfOrder S (fun q => q.2) 4 f → OfOrder S (fun q => q.2) 0 g →
      OfOrder S (fun q => q.2) 3 fun q => f q + q.2 ^ 3 • g q := by
    intro f g hf hg
    have := (hf.mono h1 (j := 3) (by omega)).add (hg.pow_smul 3)
    simpa using this
  have up : ∀ {f : E × ℝ → E} (c : ℝ), OfOrder S (fun q => q.2) 3 f →
      OfOrder S (fun q => q.2) 4 fun q => (c * q.2) • f q := by
    intro f c hf
    refine ((hf.pow_smul 1).const_smul c).congr fun q _ => ?_
    rw [pow_one, smul_smul]
  -- second stage
  have e2 : OfOrder S (fun q => q.2) 4 fun q => k2 q - (a q + (q.2 / 2) • Aa q +
      (q.2 ^ 2 / 8) • Baa q + (q.2 ^ 3 / 48) • Caaa q) := by
    refine (stage_expand hw hS h1 (α := fun q => (1 / 2 : ℝ) • a q) (by fun_prop) z z).congr ?_
    intro q _
    have e : q.1 + (q.2 • (1 / 2 : ℝ) • a q + q.2 ^ 2 • (0 : E) + q.2 ^ 3 • (0 : E)) =
      q.1 + (1 / 2 * q.2) • w q.1 := by simp only [ha]; module
    rw [e]
    simp only [map_smul, smul_apply, map_zero, zero_apply]
    simp only [ha, hAa, hBaa, hCaaa, hk2]
    module
  have e2' : OfOrder S (fun q => q.2) 3 fun q => k2 q - (a q + (q.2 / 2) • Aa q +
      (q.2 ^ 2 / 8) • Baa q) := by
    refine (low e2 ((ofOrder_cont hS (h := fun q => q.2)
      (show Continuous Caaa from
        ((((hC.continuous.comp continuous_fst).clm_apply c0).clm_apply c0).clm_apply c0))).const_smul
        (1 / 48))).congr fun q _ => ?_
    module
  -- third stage
  have e3 : OfOrder S (fun q => q.2) 4 fun q => k3 q - (a q + (q.2 / 2) • Aa q +
      (q.2 ^ 2 / 4) • AAa q + (q.2 ^ 2 / 8) • Baa q + (q.2 ^ 3 / 16) • ABaa q +
      (q.2 ^ 3 / 8) • BaA q + (q.2 ^ 3 / 48) • Caaa q) := by
    have s1 := stage_expand hw hS h1 (α := fun q => (1 / 2 : ℝ) • a q)
      (β := fun q => (1 / 4 : ℝ) • Aa q) (γ := fun q => (1 / 16 : ℝ) • Baa q) (by fun_prop)
      (by fun_prop) (by fun_prop)
    have s2 := shift_small (hw.of_le (by norm_num)) hS (f := fun q => q.1 + (1 / 2 * q.2) • k2 q)
      (g := fun q => q.1 + (q.2 • (1 / 2 : ℝ) • a q + q.2 ^ 2 • (1 / 4 : ℝ) • Aa q +
        q.2 ^ 3 • (1 / 16 : ℝ) • Baa q)) (by fun_prop) (by fun_prop)
      ((up (1 / 2) e2').congr fun q _ => by module)
    refine (s1.add s2).congr fun q _ => ?_
    simp only [map_smul, smul_apply]
    rw [sym q]
    simp only [hABaa, hAAa, hBaA, hCaaa, hk3]
    generalize w (q.1 + (1 / 2 * q.2) • k2 q) = u1
    generalize w (q.1 + (q.2 • (1 / 2 : ℝ) • a q + q.2 ^ 2 • (1 / 4 : ℝ) • Aa q +
        q.2 ^ 3 • (1 / 16 : ℝ) • Baa q)) = u2
    simp only [ha, hAa, hBaa]
    module
  have cC : Continuous Caaa :=
    ((((hC.continuous.comp continuous_fst).clm_apply c0).clm_apply c0).clm_apply c0)
  have c4 : Continuous ABaa := cA.clm_apply c2
  have c5 : Continuous BaA := (cB.clm_apply c0).clm_apply c1
  have e3' : OfOrder S (fun q => q.2) 3 fun q => k3 q - (a q + (q.2 / 2) • Aa q +
      (q.2 ^ 2 / 4) • AAa q + (q.2 ^ 2 / 8) • Baa q) := by
    refine (low e3 (ofOrder_cont hS (h := fun q => q.2) (G := fun q => (1 / 16 : ℝ) • ABaa q +
      (1 / 8 : ℝ) • BaA q + (1 / 48 : ℝ) • Caaa q) (by fun_prop))).congr fun q _ => ?_
    module
  -- fourth stage
  have e4 : OfOrder S (fun q => q.2) 4 fun q => k4 q - (a q + q.2 • Aa q +
      (q.2 ^ 2 / 2) • AAa q + (q.2 ^ 2 / 2) • Baa q + (q.2 ^ 3 / 4) • AAAa q +
      (q.2 ^ 3 / 8) • ABaa q + (q.2 ^ 3 / 2) • BaA q + (q.2 ^ 3 / 6) • Caaa q) := by
    have s1 := stage_expand hw hS h1 (α := a)
      (β := fun q => (1 / 2 : ℝ) • Aa q) (γ := fun q => (1 / 4 : ℝ) • AAa q + (1 / 8 : ℝ) • Baa q)
      c0 (by fun_prop) (by fun_prop)
    have s2 := shift_small (hw.of_le (by norm_num)) hS (f := fun q => q.1 + q.2 • k3 q)
      (g := fun q => q.1 + (q.2 • a q + q.2 ^ 2 • (1 / 2 : ℝ) • Aa q +
        q.2 ^ 3 • ((1 / 4 : ℝ) • AAa q + (1 / 8 : ℝ) • Baa q))) (by fun_prop) (by fun_prop)
      ((up 1 e3').congr fun q _ => by module)
    refine (s1.add s2).congr fun q _ => ?_
    simp only [map_smul, smul_apply, map_add]
    rw [sym q]
    simp only [hABaa, hAAAa, hBaA, hCaaa, hk4]
    generalize w (q.1 + q.2 • k3 q) = u1
    generalize w (q.1 + (q.2 • a q + q.2 ^ 2 • (1 / 2 : ℝ) • Aa q +
        q.2 ^ 3 • ((1 / 4 : ℝ) • AAa q + (1 / 8 : ℝ) • Baa q))) = u2
    simp only [hAAa]
    simp only [hAa, hBaa]
    simp only [ha]
    module
  -- together
  obtain ⟨C, hC0, hCb⟩ := ((e2.const_smul 2).add (e3.const_smul 2)).add e4 |>.const_smul (1 / 6)
  refine ⟨C, hC0, fun x hx h hh => ?_⟩
  have key := hCb (x, h) ⟨hx, abs_le.1 hh⟩
  refine le_of_eq_of_le (congrArg _ ?_) key
  rw [lie_one, lie_two, lie_three hw, lie_four hw]
  show rk4Inc w h x - (a (x, h) + (h / 2) • Aa (x, h) + (h ^ 2 / 6) • (Baa (x, h) + AAa (x, h)) +
    (h ^ 3 / 24) • (Caaa (x, h) + (3 : ℝ) • BaA (x, h) + ABaa (x, h) + AAAa (x, h))) = _
  have e : rk4Inc w h x = (1 / 6 : ℝ) • (a (x, h) + (2 : ℝ) • k2 (x, h) + (2 : ℝ) • k3 (x, h) +
    k4 (x, h)) := rfl
  rw [e]
  module

end

end Verif
