import Verif.Spec.LongRun
import Verif.Spec.Affine
import Verif.Spec.Stretch
import Mathlib.Analysis.Complex.Polynomial.Basic
import Mathlib.Analysis.Matrix.Normed
import Mathlib.Analysis.Normed.Algebra.GelfandFormula
import Mathlib.Analysis.SpecialFunctions.Pow.Continuity
import Mathlib.FieldTheory.IsAlgClosed.Spectrum
import Mathlib.LinearAlgebra.Eigenspace.Matrix
import Mathlib.LinearAlgebra.Eigenspace.Triangularizable

/-!
# Powers of matrices, in the long run
-/

namespace Verif

open Matrix Filter Topology

variable {d : ℕ}

/-- A real matrix with complex entries. -/
noncomputable abbrev overC (A : Matrix (Fin d) (Fin d) ℝ) : Matrix (Fin d) (Fin d) ℂ :=
  A.map (fun x : ℝ => (x : ℂ))

theorem overC_pow (A : Matrix (Fin d) (Fin d) ℝ) (n : ℕ) : overC (A ^ n) = overC A ^ n :=
  map_pow (Complex.ofRealHom.mapMatrix (m := Fin d)) A n

theorem mem_spectrum_matrix {M : Matrix (Fin d) (Fin d) ℂ} {μ : ℂ} :
    μ ∈ spectrum ℂ M ↔ ∃ v : Fin d → ℂ, v ≠ 0 ∧ M *ᵥ v = μ • v := by
  rw [← Matrix.spectrum_toLin', ← Module.End.hasEigenvalue_iff_mem_spectrum]
  constructor
  · intro h
    obtain ⟨v, hv⟩ := h.exists_hasEigenvector
    exact ⟨v, hv.2, by simpa using hv.apply_eq_smul⟩
  · rintro ⟨v, h0, hv⟩
    exact Module.End.hasEigenvalue_of_hasEigenvector (x := v)
      (Module.End.hasEigenvector_iff.2 ⟨Module.End.mem_eigenspace_iff.2 (by simpa using hv), h0⟩)

/-- The matrix of one step. -/
theorem amplified_spectrum {k : Kind} {R : ℂ → ℂ} (hR : Amplifies k R) {A : Matrix (Fin d) (Fin d) ℝ}
    {h : ℝ} {M : ℕ → Matrix (Fin d) (Fin d) ℝ} (hM : RunMatrices k (fun _ => A) h M) (hd : 0 < d) :
    (∀ n, M n = M 1 ^ n) ∧
      spectrum ℂ (overC (M 1)) = (fun μ => R (h * μ)) '' {μ | IsComplexEigenvalue A μ} := by
  have : Nonempty (Fin d) := ⟨⟨0, hd⟩⟩
  have hne : (spectrum ℂ (overC A)).Nonempty :=
    spectrum.nonempty_of_isAlgClosed_of_finiteDimensional ℂ (overC A)
  have hset : spectrum ℂ (overC A) = {μ | IsComplexEigenvalue A μ} := by
    ext μ
    exact mem_spectrum_matrix
  have cadd : ∀ X Y : Matrix (Fin d) (Fin d) ℝ, overC (X + Y) = overC X + overC Y :=
    map_add (Complex.ofRealHom.mapMatrix (m := Fin d))
  have cone : overC (1 : Matrix (Fin d) (Fin d) ℝ) = 1 := map_one (Complex.ofRealHom.mapMatrix (m := Fin d))
  have csmul : ∀ (c : ℝ) (X : Matrix (Fin d) (Fin d) ℝ), overC (c • X) = (c : ℂ) • overC X := by
    intro c X
    ext i j
    simp
  have key : ∀ p : Polynomial ℂ, overC (M 1) = Polynomial.aeval (overC A) p →
      (∀ μ, p.eval μ = R (h * μ)) →
      spectrum ℂ (overC (M 1)) = (fun μ => R (h * μ)) '' {μ | IsComplexEigenvalue A μ} := by
    intro p hp he
    rw [hp, spectrum.map_polynomial_aeval_of_nonempty _ _ hne, hset]
    exact Set.image_congr fun μ _ => he μ
  have pow : ∀ S : Matrix (Fin d) (Fin d) ℝ, (∀ n, M (n + 1) = S * M n) → ∀ n, M n = M 1 ^ n := by
    intro S hS
    have h1 : M 1 = S := by rw [hS 0, hM.zero, mul_one]
    intro n
    induction n with
    | zero => rw [hM.zero, pow_zero]
    | succ n ih => rw [hS n, ih, h1, pow_succ']
  cases hR with
  | euler =>
    have hS := hM.euler rfl
    refine ⟨pow _ hS, key (1 + Polynomial.C (h : ℂ) * Polynomial.X) ?_ ?_⟩
    · rw [hS 0, hM.zero, mul_one, cadd, cone, csmul]
      simp [Algebra.algebraMap_eq_smul_one]
    · intro μ; simp
  | rk4 =>
    have hS := hM.rk4 rfl
    refine ⟨pow _ hS, key (1 + Polynomial.C (h : ℂ) * Polynomial.X + Polynomial.C ((h : ℂ) ^ 2 / 2) *
      Polynomial.X ^ 2 + Polynomial.C ((h : ℂ) ^ 3 / 6) * Polynomial.X ^ 3 +
      Polynomial.C ((h : ℂ) ^ 4 / 24) * Polynomial.X ^ 4) ?_ ?_⟩
    · rw [hS 0, hM.zero, mul_one]
      simp only [cadd, cone, csmul, overC_pow]
      simp [Algebra.algebraMap_eq_smul_one]
    · intro μ
      simp
      ring

section
attribute [local instance] Matrix.linftyOpNormedRing Matrix.linftyOpNormedAlgebra

theorem gelfand_matrix {a : Matrix (Fin d) (Fin d) ℂ} {ρ : ℝ}
    (hρ : IsGreatest ((fun μ : ℂ => ‖μ‖) '' spectrum ℂ a) ρ) :
    Tendsto (fun n : ℕ => ‖a ^ n‖ ^ (1 / n : ℝ)) atTop (𝓝 ρ) := by
  have : CompleteSpace (Matrix (Fin d) (Fin d) ℂ) := FiniteDimensional.complete ℂ _
  have h0 : 0 ≤ ρ := by
    obtain ⟨μ, -, h⟩ := hρ.1
    rw [← h]
    exact norm_nonneg _
  have hs : spectralRadius ℂ a = ENNReal.ofReal ρ := by
    unfold spectralRadius
    apply le_antisymm
    · refine iSup₂_le fun μ hμ => ?_
      rw [← ENNReal.ofReal_coe_nnreal]
      exact ENNReal.ofReal_le_ofReal (hρ.2 ⟨μ, hμ, rfl⟩)
    · obtain ⟨μ, hμ, h⟩ := hρ.1
      refine le_trans ?_ (le_iSup₂ (f := fun (k : ℂ) (_ : k ∈ spectrum ℂ a) => (‖k‖₊ : ENNReal)) μ hμ)
      rw [← ENNReal.ofReal_coe_nnreal, ← h]
      rfl
  have hg := spectrum.pow_norm_pow_one_div_tendsto_nhds_spectralRadius a
  rw [hs] at hg
  have := (ENNReal.tendsto_toReal ENNReal.ofReal_ne_top).comp hg
  rw [ENNReal.toReal_ofReal h0] at this
  refine this.congr fun n => ?_
  exact ENNReal.toReal_ofReal (Real.rpow_nonneg (norm_nonneg _) _)

theorem row_le_norm (F : Matrix (Fin d) (Fin d) ℝ) (i : Fin d) : ∑ j, |F i j| ≤ ‖overC F‖ := by
  rw [Matrix.linfty_opNorm_def]
  have := Finset.le_sup (f := fun i => ∑ j, ‖overC F i j‖₊) (Finset.mem_univ i)
  have h := NNReal.coe_le_coe.2 this
  refine le_trans (le_of_eq ?_) h
  rw [NNReal.coe_sum]
  exact Finset.sum_congr rfl fun j _ => by simp

theorem norm_le_rows (F : Matrix (Fin d) (Fin d) ℝ) {c : ℝ} (hc : 0 ≤ c) (h : ∀ i, ∑ j, |F i j| ≤ c) :
    ‖overC F‖ ≤ c := by
  rw [Matrix.linfty_opNorm_def]
  have : (Finset.univ.sup fun i => ∑ j, ‖overC F i j‖₊) ≤ c.toNNReal := by
    refine Finset.sup_le fun i _ => ?_
    rw [← NNReal.coe_le_coe, Real.coe_toNNReal _ hc, NNReal.coe_sum]
    refine le_trans (le_of_eq ?_) (h i)
    exact Finset.sum_congr rfl fun j _ => by simp
  exact (NNReal.coe_le_coe.2 this).trans (le_of_eq (Real.coe_toNNReal _ hc))

end

theorem abs_le_len (v : Fin d → ℝ) (i : Fin d) : |v i| ≤ len v := by
  unfold len
  rw [← Real.sqrt_sq_eq_abs]
  refine Real.sqrt_le_sqrt ?_
  rw [sq]
  exact Finset.single_le_sum (f := fun j => v j * v j) (fun j _ => mul_self_nonneg _) (Finset.mem_univ i)

theorem len_le_of_le {v : Fin d → ℝ} {c : ℝ} (hc : 0 ≤ c) (h : ∀ i, |v i| ≤ c) : len v ≤ d * c := by
  unfold len
  refine Real.sqrt_le_iff.2 ⟨by positivity, ?_⟩
  have h1 : v ⬝ᵥ v ≤ ∑ _i : Fin d, c ^ 2 := by
    refine Finset.sum_le_sum fun i _ => ?_
    rw [← sq, ← sq_abs]
    exact pow_le_pow_left₀ (abs_nonneg _) (h i) 2
  refine h1.trans ?_
  rw [Finset.sum_const, Finset.card_univ, Fintype.card_fin, nsmul_eq_mul, mul_pow]
  refine mul_le_mul_of_nonneg_right ?_ (by positivity)
  rcases Nat.eq_zero_or_pos d with rfl | hd
  · simp
  · have : (1 : ℝ) ≤ d := by exact_mod_cast hd
    nlinarith

theorem stretch_entry {F : Matrix (Fin d) (Fin d) ℝ} {s : ℝ} (h : IsMaxStretch F s) (i j : Fin d) :
    |F i j| ≤ s := by
  have e : (F *ᵥ Pi.single j 1) i = F i j := by simp
  rw [← e]
  refine (abs_le_len _ i).trans (h.2 ⟨Pi.single j 1, ?_, rfl⟩)
  simp [len]

/-- The greatest stretching and the norm of the rows are comparable. -/
theorem stretch_compare {F : Matrix (Fin d) (Fin d) ℝ} {s c : ℝ} (h : IsMaxStretch F s)
    (hc : ∀ i, ∑ j, |F i j| ≤ c) (h0 : 0 ≤ c) : s ≤ d * c := by
  obtain ⟨u, hu, rfl⟩ := h.1
  refine len_le_of_le h0 fun i => ?_
  refine (Finset.abs_sum_le_sum_abs _ _).trans (le_trans (Finset.sum_le_sum fun j _ => ?_) (hc i))
  rw [abs_mul]
  have := abs_le_len u j
  rw [hu] at this
  exact mul_le_of_le_one_right (abs_nonneg _) this

theorem len_sq' (v : Fin d → ℝ) : len v ^ 2 = ∑ i, v i ^ 2 := by
  unfold len
  rw [Real.sq_sqrt]
  · exact Finset.sum_congr rfl fun i _ => (sq _).symm
  · exact Finset.sum_nonneg fun i _ => mul_self_nonneg _

theorem stretch_bound {F : Matrix (Fin d) (Fin d) ℝ} {s : ℝ} (h : IsMaxStretch F s) (w : Fin d → ℝ) :
    len (F *ᵥ w) ^ 2 ≤ s ^ 2 * len w ^ 2 := by
  by_cases hw : len w = 0
  · have : w = 0 := by
      funext i
      have := abs_le_len w i
      rw [hw] at this
      exact abs_eq_zero.1 (le_antisymm this (abs_nonneg _))
    subst this
    simp [len]
  · have hp : 0 < len w := lt_of_le_of_ne (Real.sqrt_nonneg _) (Ne.symm hw)
    have hl : ∀ (c : ℝ) (v : Fin d → ℝ), len (c • v) ^ 2 = c ^ 2 * len v ^ 2 := by
      intro c v
      rw [len_sq', len_sq', Finset.mul_sum]
      exact Finset.sum_congr rfl fun i _ => by simp [mul_pow]
    have hn : ∀ v : Fin d → ℝ, 0 ≤ len v := fun v => Real.sqrt_nonneg _
    have h1 : len ((len w)⁻¹ • w) = 1 := by
      have : len ((len w)⁻¹ • w) ^ 2 = 1 := by
        rw [hl, inv_pow, inv_mul_cancel₀ (pow_ne_zero _ hw)]
      exact (pow_eq_one_iff_of_nonneg (hn _) two_ne_zero).1 this
    have h2 := h.2 ⟨_, h1, rfl⟩
    have h3 := pow_le_pow_left₀ (hn _) h2 2
    rw [mulVec_smul, hl, inv_pow] at h3
    have : 0 < len w ^ 2 := by positivity
    rwa [inv_mul_le_iff₀ this, mul_comm] at h3

/-- No mode grows more than the greatest stretching. -/
theorem eigenvalue_le_stretch {F : Matrix (Fin d) (Fin d) ℝ} {s : ℝ} (h : IsMaxStretch F s) {μ : ℂ}
    (hμ : IsComplexEigenvalue F μ) : ‖μ‖ ≤ s := by
  have hs : 0 ≤ s := by
    obtain ⟨u, -, rfl⟩ := h.1
    exact Real.sqrt_nonneg _
  obtain ⟨v, h0, hv⟩ := hμ
  have re : ∀ i, ((F *ᵥ fun j => (v j).re) i) = (μ * v i).re := by
    intro i
    have := congrArg Complex.re (congrFun hv i)
    simpa [mulVec, dotProduct] using this
  have im : ∀ i, ((F *ᵥ fun j => (v j).im) i) = (μ * v i).im := by
    intro i
    have := congrArg Complex.im (congrFun hv i)
    simpa [mulVec, dotProduct] using this
  have b1 := stretch_bound h fun j => (v j).re
  have b2 := stretch_bound h fun j => (v j).im
  simp only [len_sq', re, im] at b1 b2
  have hsum : ‖μ‖ ^ 2 * ∑ i, ‖v i‖ ^ 2 ≤ s ^ 2 * ∑ i, ‖v i‖ ^ 2 := by
    have e : ∀ z : ℂ, ‖z‖ ^ 2 = z.re ^ 2 + z.im ^ 2 := fun z => by
      rw [← Complex.normSq_eq_norm_sq, Complex.normSq_apply]; ring
    calc ‖μ‖ ^ 2 * ∑ i, ‖v i‖ ^ 2 = ∑ i, ‖μ * v i‖ ^ 2 := by
          rw [Finset.mul_sum]
          exact Finset.sum_congr rfl fun i _ => by rw [norm_mul, mul_pow]
      _ = ∑ i, (μ * v i).re ^ 2 + ∑ i, (μ * v i).im ^ 2 := by
          rw [← Finset.sum_add_distrib]
          exact Finset.sum_congr rfl fun i _ => e _
      _ ≤ s ^ 2 * ∑ i, (v i).re ^ 2 + s ^ 2 * ∑ i, (v i).im ^ 2 := add_le_add b1 b2
      _ = s ^ 2 * ∑ i, ‖v i‖ ^ 2 := by
          rw [← mul_add, ← Finset.sum_add_distrib]
          congr 1
          exact Finset.sum_congr rfl fun i _ => (e _).symm
  have hpos : 0 < ∑ i, ‖v i‖ ^ 2 := by
    obtain ⟨i, hi⟩ := Function.ne_iff.1 h0
    refine Finset.sum_pos' (fun i _ => by positivity) ⟨i, Finset.mem_univ i, ?_⟩
    have : 0 < ‖v i‖ := norm_pos_iff.2 hi
    positivity
  exact le_of_sq_le_sq (le_of_mul_le_mul_right hsum hpos) hs

/-- In the long run the greatest stretching grows like the greatest amplification. -/
theorem stretch_growth {k : Kind} {R : ℂ → ℂ} (hR : Amplifies k R) {A : Matrix (Fin d) (Fin d) ℝ}
    {h : ℝ} {M : ℕ → Matrix (Fin d) (Fin d) ℝ} (hM : RunMatrices k (fun _ => A) h M) (hd : 0 < d)
    {ρ : ℝ} (hρ : IsGrowth R A h ρ) (h0 : 0 < ρ) {σ : ℕ → ℝ} (hσ : ∀ n, IsMaxStretch (M n) (σ n)) :
    (∀ n, ρ ^ n ≤ σ n) ∧ Tendsto (fun n : ℕ => Real.log (σ n) / n) atTop (𝓝 (Real.log ρ)) := by
  obtain ⟨hpow, hspec⟩ := amplified_spectrum hR hM hd
  have hρ' : IsGreatest ((fun μ : ℂ => ‖μ‖) '' spectrum ℂ (overC (M 1))) ρ := by
    rw [hspec, Set.image_image]
    have e : (fun μ : ℂ => ‖R (h * μ)‖) '' {μ | IsComplexEigenvalue A μ} =
        {x | ∃ μ, IsComplexEigenvalue A μ ∧ x = ‖R (h * μ)‖} := by
      ext x
      constructor
      · rintro ⟨μ, h1, rfl⟩; exact ⟨μ, h1, rfl⟩
      · rintro ⟨μ, h1, rfl⟩; exact ⟨μ, h1, rfl⟩
    rw [e]
    exact hρ
  have low : ∀ n, ρ ^ n ≤ σ n := by
    intro n
    obtain ⟨μ, hμ, e⟩ := hρ'.1
    obtain ⟨v, v0, hv⟩ := mem_spectrum_matrix.1 hμ
    have hn : IsComplexEigenvalue (M n) (μ ^ n) := by
      refine ⟨v, v0, ?_⟩
      rw [hpow n]
      show overC (M 1 ^ n) *ᵥ v = _
      rw [overC_pow]
      induction n with
      | zero => simp
      | succ n ih => rw [pow_succ, ← mulVec_mulVec, hv, mulVec_smul, ih, smul_smul, pow_succ, mul_comm]
    have := eigenvalue_le_stretch (hσ n) hn
    rwa [norm_pow, show ‖μ‖ = ρ from e] at this
  refine ⟨low, ?_⟩
  have hd' : (0 : ℝ) < d := by exact_mod_cast hd
  have hg := gelfand_matrix hρ'
  let _ := Matrix.linftyOpNormedRing (n := Fin d) (α := ℂ)
  have up : ∀ n, σ n ≤ d * ‖overC (M 1) ^ n‖ := by
    intro n
    rw [← overC_pow, ← hpow n]
    exact stretch_compare (hσ n) (row_le_norm (M n)) (norm_nonneg _)
  have up' : ∀ n, ‖overC (M 1) ^ n‖ ≤ d * σ n := by
    intro n
    have hs : 0 ≤ σ n := (pow_pos h0 n).le.trans (low n)
    rw [← overC_pow, ← hpow n]
    refine norm_le_rows (M n) (by positivity) fun i => ?_
    refine (Finset.sum_le_sum fun j _ => stretch_entry (hσ n) i j).trans (le_of_eq ?_)
    simp
  have pos : ∀ n, 0 < σ n := fun n => (pow_pos h0 n).trans_le (low n)
  have npos : ∀ n, 0 < ‖overC (M 1) ^ n‖ := fun n =>
    pos_of_mul_pos_right ((pos n).trans_le (up n)) hd'.le
  have hlog := hg.log h0.ne'
  have hlog' : Tendsto (fun n : ℕ => Real.log ‖overC (M 1) ^ n‖ / n) atTop (𝓝 (Real.log ρ)) := by
    refine hlog.congr fun n => ?_
    rw [Real.log_rpow (npos n)]
    ring
  have hc : Tendsto (fun n : ℕ => Real.log d / (n : ℝ)) atTop (𝓝 0) :=
    tendsto_const_nhds.div_atTop tendsto_natCast_atTop_atTop
  have l1 := hlog'.sub hc
  have l2 := hlog'.add hc
  rw [sub_zero] at l1
  rw [add_zero] at l2
  refine tendsto_of_tendsto_of_tendsto_of_le_of_le l1 l2 (fun n => ?_) fun n => ?_
  · show Real.log ‖overC (M 1) ^ n‖ / n - Real.log d / n ≤ Real.log (σ n) / n
    rw [← sub_div]
    refine div_le_div_of_nonneg_right ?_ (Nat.cast_nonneg n)
    have := Real.log_le_log (npos n) (up' n)
    rw [Real.log_mul hd'.ne' (pos n).ne'] at this
    linarith
  · show Real.log (σ n) / n ≤ Real.log ‖overC (M 1) ^ n‖ / n + Real.log d / n
    rw [← add_div]
    refine div_le_div_of_nonneg_right ?_ (Nat.cast_nonneg n)
    have := Real.log_le_log (pos n) (up n)
    rw [Real.log_mul hd'.ne' (npos n).ne'] at this
    linarith

end Verif
