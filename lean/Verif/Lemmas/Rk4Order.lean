import Verif.Lemmas.Taylor
import Mathlib.Tactic.Module

/-!
# The increment of the classical Runge-Kutta scheme agrees with the Taylor series to fourth order

Nothing about the model.
-/

set_option linter.unusedSectionVars false

namespace Verif

open Set

section
variable {E F : Type*} [NormedAddCommGroup E] [NormedSpace ℝ E] [NormedAddCommGroup F]
  [NormedSpace ℝ F]

/-- Instance search does not find the norm of trilinear maps by itself. -/
noncomputable scoped instance triNormed : NormedAddCommGroup (E →L[ℝ] E →L[ℝ] E →L[ℝ] F) :=
  ContinuousLinearMap.toNormedAddCommGroup (E := E) (F := E →L[ℝ] E →L[ℝ] F) (𝕜 := ℝ) (𝕜₂ := ℝ)
    (σ₁₂ := RingHom.id ℝ)

noncomputable scoped instance triSpace : NormedSpace ℝ (E →L[ℝ] E →L[ℝ] E →L[ℝ] F) :=
  ContinuousLinearMap.toNormedSpace (E := E) (F := E →L[ℝ] E →L[ℝ] F) (𝕜 := ℝ) (𝕜₂ := ℝ)
    (σ₁₂ := RingHom.id ℝ)

end

/-! ## Bounded and small families -/

section
variable {ι : Type*} {E F G : Type*} [NormedAddCommGroup E] [NormedSpace ℝ E]
  [NormedAddCommGroup F] [NormedSpace ℝ F] [NormedAddCommGroup G] [NormedSpace ℝ G]

/-- `f` has size `h ^ m` on `S`. -/
def OfOrder (S : Set ι) (h : ι → ℝ) (m : ℕ) (f : ι → E) : Prop :=
  ∃ C, 0 ≤ C ∧ ∀ q ∈ S, ‖f q‖ ≤ C * |h q| ^ m

variable {S : Set ι} {h : ι → ℝ} {m : ℕ} {f g : ι → E}

theorem OfOrder.add (hf : OfOrder S h m f) (hg : OfOrder S h m g) : OfOrder S h m fun q => f q + g q := by
  obtain ⟨C, hC, h1⟩ := hf
  obtain ⟨D, hD, h2⟩ := hg
  refine ⟨C + D, by positivity, fun q hq => (norm_add_le _ _).trans ?_⟩
  rw [add_mul]
  exact add_le_add (h1 q hq) (h2 q hq)

theorem OfOrder.const_smul (c : ℝ) (hf : OfOrder S h m f) : OfOrder S h m fun q => c • f q := by
  obtain ⟨C, hC, h1⟩ := hf
  refine ⟨|c| * C, by positivity, fun q hq => ?_⟩
  rw [norm_smul, Real.norm_eq_abs, mul_assoc]
  exact mul_le_mul_of_nonneg_left (h1 q hq) (abs_nonneg c)

theorem OfOrder.neg (hf : OfOrder S h m f) : OfOrder S h m fun q => -f q := by
  simpa [OfOrder] using hf

theorem OfOrder.sub (hf : OfOrder S h m f) (hg : OfOrder S h m g) : OfOrder S h m fun q => f q - g q := by
  simpa [sub_eq_add_neg] using hf.add hg.neg

theorem OfOrder.pow_smul (j : ℕ) (hf : OfOrder S h m f) : OfOrder S h (m + j) fun q => h q ^ j • f q := by
  obtain ⟨C, hC, h1⟩ := hf
  refine ⟨C, hC, fun q hq => ?_⟩
  rw [norm_smul, Real.norm_eq_abs, abs_pow, pow_add, ← mul_assoc, mul_comm]
  exact mul_le_mul_of_nonneg_right (h1 q hq) (by positivity)

theorem OfOrder.mono (h1 : ∀ q ∈ S, |h q| ≤ 1) {j : ℕ} (hj : j ≤ m) (hf : OfOrder S h m f) :
    OfOrder S h j f := by
  obtain ⟨C, hC, h2⟩ := hf
  refine ⟨C, hC, fun q hq => (h2 q hq).trans (mul_le_mul_of_nonneg_left ?_ hC)⟩
  exact pow_le_pow_of_le_one (abs_nonneg _) (h1 q hq) hj

theorem OfOrder.apply {A : ι → E →L[ℝ] F} (hA : OfOrder S h 0 A) (hf : OfOrder S h m f) :
    OfOrder S h m fun q => A q (f q) := by
  obtain ⟨C, hC, h1⟩ := hA
  obtain ⟨D, hD, h2⟩ := hf
  refine ⟨C * D, by positivity, fun q hq => ((A q).le_opNorm _).trans ?_⟩
  rw [mul_assoc]
  have := h1 q hq
  rw [pow_zero, mul_one] at this
  exact mul_le_mul this (h2 q hq) (norm_nonneg _) hC

theorem OfOrder.of_le {f' : ι → F} (hf : OfOrder S h m f) {C : ℝ}
    (hC : ∀ q ∈ S, ‖f' q‖ ≤ C * ‖f q‖) : OfOrder S h m f' := by
  obtain ⟨D, hD, h1⟩ := hf
  refine ⟨|C| * D, by positivity, fun q hq => (hC q hq).trans ?_⟩
  rw [mul_assoc]
  exact mul_le_mul (le_abs_self C) (h1 q hq) (norm_nonneg _) (abs_nonneg C)

theorem OfOrder.congr (hf : OfOrder S h m f) (e : ∀ q ∈ S, g q = f q) : OfOrder S h m g := by
  obtain ⟨D, hD, h1⟩ := hf
  exact ⟨D, hD, fun q hq => by rw [e q hq]; exact h1 q hq⟩

theorem ofOrder_of_bounded {C : ℝ} (hC : ∀ q ∈ S, ‖f q‖ ≤ C) : OfOrder S h 0 f :=
  ⟨|C|, abs_nonneg C, fun q hq => by
    rw [pow_zero, mul_one]; exact (hC q hq).trans (le_abs_self C)⟩

theorem bil_expand (B : E →L[ℝ] E →L[ℝ] F) (h : ℝ) (α β γ : E) :
    B (h • α + h ^ 2 • β + h ^ 3 • γ) (h • α + h ^ 2 • β + h ^ 3 • γ) =
      h ^ 2 • B α α + h ^ 3 • (B α β + B β α) +
      h ^ 4 • (B α γ + B γ α + B β β + h ^ 1 • (B β γ + B γ β) + h ^ 2 • B γ γ) := by
  simp only [map_add, map_smul, add_apply, smul_apply]
  module

theorem tri_expand (C : E →L[ℝ] E →L[ℝ] E →L[ℝ] F) (h : ℝ) (α d p : E) (hp : p = α + h ^ 1 • d) :
    C (h • p) (h • p) (h • p) = h ^ 3 • C α α α + h ^ 4 • (C d p p + C α d p + C α α d) := by
  have e : C p p p = C α α α + h • (C d p p + C α d p + C α α d) := by
    have e1 : C p p p = C α p p + h • C d p p := by
      conv_lhs => rw [show C p = C α + h • C d by rw [hp, pow_one, map_add, map_smul]]
      rfl
    have e2 : C α p p = C α α p + h • C α d p := by
      conv_lhs => rw [show C α p = C α α + h • C α d by rw [hp, pow_one, map_add, map_smul]]
      rfl
    have e3 : C α α p = C α α α + h • C α α d := by rw [hp, pow_one, map_add, map_smul]
    rw [e1, e2, e3]
    module
  have e4 : C (h • p) (h • p) (h • p) = h ^ 3 • C p p p := by
    have i1 : C (h • p) = h • C p := map_smul C h p
    have i2 : C p (h • p) = h • C p p := map_smul (C p) h p
    have i3 : C p p (h • p) = h • C p p p := map_smul (C p p) h p
    have i4 : (h • C p) (h • p) = h • C p (h • p) := rfl
    have i5 : (h • h • C p p) (h • p) = h • h • C p p (h • p) := rfl
    rw [i1, i4, i2, i5, i3]
    module
  rw [e4, e]
  module

theorem assemble (h : ℝ) (a a1 a2 a3 b1 b2 c1 b c : F) (s : ℝ) :
    a + (h • a1 + h ^ 2 • a2 + h ^ 3 • a3) + s • (h ^ 2 • b1 + h ^ 3 • b2 + h ^ 4 • b) +
        (1 / 6 : ℝ) • (h ^ 3 • c1 + h ^ 4 • c) =
      a + h • a1 + h ^ 2 • a2 + h ^ 3 • a3 + (h ^ 2 * s) • b1 + (h ^ 3 * s) • b2 + (h ^ 3 / 6) • c1 +
        h ^ 4 • (s • b + (1 / 6 : ℝ) • c) := by
  module

/-- The third-order Taylor polynomial of `w` at `h α + h² β + h³ γ`, up to fourth order. -/
theorem taylor3_expand (h1 : ∀ q ∈ S, |h q| ≤ 1) {A : ι → E →L[ℝ] F} {B : ι → E →L[ℝ] E →L[ℝ] F}
    {C : ι → E →L[ℝ] E →L[ℝ] E →L[ℝ] F} {a : ι → F} {α β γ : ι → E}
    (hB : OfOrder S h 0 B) (hC : OfOrder S h 0 C) (hα : OfOrder S h 0 α) (hβ : OfOrder S h 0 β)
    (hγ : OfOrder S h 0 γ) :
    ∃ ρ : ι → F, OfOrder S h 4 ρ ∧ ∀ q, ∀ p, p = h q • α q + h q ^ 2 • β q + h q ^ 3 • γ q →
      a q + A q p + (1 / 2 : ℝ) • B q p p + (1 / 6 : ℝ) • C q p p p =
        a q + h q • A q (α q) + h q ^ 2 • A q (β q) + h q ^ 3 • A q (γ q) +
        (h q ^ 2 * (1 / 2)) • B q (α q) (α q) +
        (h q ^ 3 * (1 / 2)) • (B q (α q) (β q) + B q (β q) (α q)) +
        (h q ^ 3 / 6) • C q (α q) (α q) (α q) + ρ q := by
  have hd : OfOrder S h 0 fun q => β q + h q ^ 1 • γ q :=
    hβ.add ((hγ.pow_smul 1).mono h1 (by omega))
  have hp : OfOrder S h 0 fun q => α q + h q ^ 1 • (β q + h q ^ 1 • γ q) :=
    hα.add ((hd.pow_smul 1).mono h1 (by omega))
  refine ⟨fun q =>
    h q ^ 4 • ((1 / 2 : ℝ) • (B q (α q) (γ q) + B q (γ q) (α q) + B q (β q) (β q) +
      h q ^ 1 • (B q (β q) (γ q) + B q (γ q) (β q)) + h q ^ 2 • B q (γ q) (γ q)) +
    (1 / 6 : ℝ) • (
      C q (β q + h q ^ 1 • γ q) (α q + h q ^ 1 • (β q + h q ^ 1 • γ q))
        (α q + h q ^ 1 • (β q + h q ^ 1 • γ q)) +
      C q (α q) (β q + h q ^ 1 • γ q) (α q + h q ^ 1 • (β q + h q ^ 1 • γ q)) +
      C q (α q) (α q) (β q + h q ^ 1 • γ q))), ?_, ?_⟩
  · have b := fun {u v : ι → E} (hu : OfOrder S h 0 u) (hv : OfOrder S h 0 v) => (hB.apply hu).apply hv
    have c := fun {u v z : ι → E} (hu : OfOrder S h 0 u) (hv : OfOrder S h 0 v) (hz : OfOrder S h 0 z) =>
      ((hC.apply hu).apply hv).apply hz
    have k := fun {u : ι → F} (j : ℕ) (hu : OfOrder S h 0 u) => (hu.pow_smul j).mono h1 (Nat.zero_le _)
    have := ((((((b hα hγ).add (b hγ hα)).add (b hβ hβ)).add
      (k 1 ((b hβ hγ).add (b hγ hβ)))).add (k 2 (b hγ hγ))).const_smul (1 / 2)).add
      ((((c hd hp hp).add (c hα hd hp)).add (c hα hα hd)).const_smul (1 / 6))
    simpa using this.pow_smul 4
  · rintro q p rfl
    have e : h q • α q + h q ^ 2 • β q + h q ^ 3 • γ q =
        h q • (α q + h q ^ 1 • (β q + h q ^ 1 • γ q)) := by module
    have e2 : A q (h q • α q + h q ^ 2 • β q + h q ^ 3 • γ q) =
        h q • A q (α q) + h q ^ 2 • A q (β q) + h q ^ 3 • A q (γ q) := by
      simp only [map_add, map_smul]
    have e3 := tri_expand (C q) (h q) (α q) (β q + h q ^ 1 • γ q) _ rfl
    rw [← e] at e3
    rw [e2, e3, bil_expand]
    generalize C q (α q) (α q) (α q) = c1
    generalize B q (α q) (α q) = b1
    generalize B q (α q) (β q) + B q (β q) (α q) = b2
    exact assemble (F := F) _ _ _ _ _ _ _ _ _ _ _

end


/-! ## Taylor expansion of a field -/

section
variable {E F : Type*} [NormedAddCommGroup E] [NormedSpace ℝ E] [NormedAddCommGroup F]
  [NormedSpace ℝ F]

theorem deriv_on_line {G : E → F} (hG : Differentiable ℝ G) (x δ : E) (U : Set ℝ) (s : ℝ) :
    HasDerivWithinAt (fun s : ℝ => G (x + s • δ)) (fderiv ℝ G (x + s • δ) δ) U s := by
  have h := ((hasDerivWithinAt_id s U).smul_const δ).const_add x
  rw [one_smul] at h
  exact ((hG (x + s • δ)).hasFDerivAt).comp_hasDerivWithinAt s h

theorem field_taylor [ProperSpace E] {w : E → F} (hw : ContDiff ℝ 4 w) (R : ℝ) :
    ∃ M, 0 ≤ M ∧ ∀ x ∈ Metric.closedBall (0 : E) R, ∀ δ, x + δ ∈ Metric.closedBall (0 : E) R →
      ‖w (x + δ) - (w x + fderiv ℝ w x δ + (1 / 2 : ℝ) • fderiv ℝ (fderiv ℝ w) x δ δ +
        (1 / 6 : ℝ) • fderiv ℝ (fderiv ℝ (fderiv ℝ w)) x δ δ δ)‖ ≤ M * ‖δ‖ ^ 4 := by
  have hA : ContDiff ℝ 3 (fderiv ℝ w) := hw.fderiv_right (by norm_num)
  have hB : ContDiff ℝ 2 (fderiv ℝ (fderiv ℝ w)) := hA.fderiv_right (by norm_num)
  have hC : ContDiff ℝ 1 (fderiv ℝ (fderiv ℝ (fderiv ℝ w))) := hB.fderiv_right (by norm_num)
  obtain ⟨Λ, hΛ⟩ := (hC.locallyLipschitz.locallyLipschitzOn
    (s := Metric.closedBall (0 : E) R)).exists_lipschitzOnWith_of_compact (isCompact_closedBall _ _)
  refine ⟨Λ, Λ.2, fun x hx δ hδ => ?_⟩
  have hline : ∀ s ∈ Icc (0 : ℝ) 1, x + s • δ ∈ Metric.closedBall (0 : E) R := by
    intro s hs
    have := (convex_closedBall (0 : E) R).add_smul_mem hx hδ hs
    exact this
  have dA : ∀ s, HasDerivWithinAt (fun s : ℝ => w (x + s • δ)) (fderiv ℝ w (x + s • δ) δ)
      (Icc 0 1) s := fun s =>
    deriv_on_line (hw.differentiable (by norm_num)) x δ _ s
  have dB : ∀ s, HasDerivWithinAt (fun s : ℝ => fderiv ℝ w (x + s • δ))
      (fderiv ℝ (fderiv ℝ w) (x + s • δ) δ) (Icc 0 1) s := fun s =>
    deriv_on_line (hA.differentiable (by norm_num)) x δ _ s
  have dC : ∀ s, HasDerivWithinAt (fun s : ℝ => fderiv ℝ (fderiv ℝ w) (x + s • δ))
      (fderiv ℝ (fderiv ℝ (fderiv ℝ w)) (x + s • δ) δ) (Icc 0 1) s := fun s =>
    deriv_on_line (hB.differentiable (by norm_num)) x δ _ s
  have dB' : ∀ s, HasDerivWithinAt (fun s : ℝ => fderiv ℝ w (x + s • δ) δ)
      (fderiv ℝ (fderiv ℝ w) (x + s • δ) δ δ) (Icc 0 1) s := by
    intro s
    have := (dB s).clm_apply (hasDerivWithinAt_const s (Icc (0 : ℝ) 1) δ)
    simpa using this
  have dC' : ∀ s, HasDerivWithinAt (fun s : ℝ => fderiv ℝ (fderiv ℝ w) (x + s • δ) δ δ)
      (fderiv ℝ (fderiv ℝ (fderiv ℝ w)) (x + s • δ) δ δ δ) (Icc 0 1) s := by
    intro s
    have := ((dC s).clm_apply (hasDerivWithinAt_const s (Icc (0 : ℝ) 1) δ)).clm_apply
      (hasDerivWithinAt_const s (Icc (0 : ℝ) 1) δ)
    simpa using this
  have key := taylor_chain (convex_Icc (0 : ℝ) 1) (M := Λ * ‖δ‖ ^ 4) (by positivity) 3
    (fun j s => match j with
      | 0 => w (x + s • δ)
      | 1 => fderiv ℝ w (x + s • δ) δ
      | 2 => fderiv ℝ (fderiv ℝ w) (x + s • δ) δ δ
      | _ => fderiv ℝ (fderiv ℝ (fderiv ℝ w)) (x + s • δ) δ δ δ)
    (by
      intro j hj t _
      match j, hj with
      | 0, _ => exact dA t
      | 1, _ => exact dB' t
      | 2, _ => exact dC' t)
    (by
      intro s hs t ht
      have h1 := hΛ.dist_le_mul _ (hline s hs) _ (hline t ht)
      rw [dist_eq_norm, dist_eq_norm] at h1
      have h2 : x + s • δ - (x + t • δ) = (s - t) • δ := by module
      rw [h2, norm_smul, Real.norm_eq_abs] at h1
      set D := fderiv ℝ (fderiv ℝ (fderiv ℝ w)) (x + s • δ) -
        fderiv ℝ (fderiv ℝ (fderiv ℝ w)) (x + t • δ) with hD
      show ‖D δ δ δ‖ ≤ _
      have h3 : ‖D δ δ δ‖ ≤ ‖D‖ * ‖δ‖ * ‖δ‖ * ‖δ‖ :=
        (ContinuousLinearMap.le_opNorm _ _).trans (mul_le_mul_of_nonneg_right
          ((ContinuousLinearMap.le_opNorm _ _).trans (mul_le_mul_of_nonneg_right
            (ContinuousLinearMap.le_opNorm _ _) (norm_nonneg _))) (norm_nonneg _))
      refine h3.trans ?_
      have h4 : 0 ≤ ‖δ‖ := norm_nonneg _
      have h5 := mul_le_mul_of_nonneg_right h1 (by positivity : 0 ≤ ‖δ‖ ^ 3)
      nlinarith)
    0 (by simp) 1 (by simp)
  simpa [taylorSum, Finset.sum_range_succ, Nat.factorial] using key

end

end Verif
