import Verif.Spec.Stretch
import Mathlib.Analysis.Matrix.PosDef
import Mathlib.Analysis.Matrix.Spectrum
import Mathlib.LinearAlgebra.Matrix.ToLinearEquiv

/-!
# Helper lemmas: Rayleigh quotients and maximal stretching
-/

namespace Verif

open Matrix

variable {d : ℕ}

theorem dot_self_nonneg (v : Fin d → ℝ) : 0 ≤ v ⬝ᵥ v :=
  Finset.sum_nonneg fun i _ => mul_self_nonneg (v i)

theorem len_sq (v : Fin d → ℝ) : len v ^ 2 = v ⬝ᵥ v :=
  Real.sq_sqrt (dot_self_nonneg v)

theorem len_nonneg (v : Fin d → ℝ) : 0 ≤ len v := Real.sqrt_nonneg _

theorem len_eq_zero {v : Fin d → ℝ} : len v = 0 ↔ v = 0 := by
  rw [len, Real.sqrt_eq_zero (dot_self_nonneg v)]
  exact dotProduct_self_eq_zero

theorem len_smul (c : ℝ) (v : Fin d → ℝ) : len (c • v) = |c| * len v := by
  rw [len, len, smul_dotProduct, dotProduct_smul, smul_eq_mul, smul_eq_mul, ← mul_assoc,
    Real.sqrt_mul (mul_self_nonneg c), Real.sqrt_mul_self_eq_abs]

/-- `|F u|² = uᵀ (FᵀF) u`. -/
theorem len_mulVec_sq (F : Matrix (Fin d) (Fin d) ℝ) (u : Fin d → ℝ) :
    len (F *ᵥ u) ^ 2 = u ⬝ᵥ (Fᵀ * F) *ᵥ u := by
  rw [len_sq, ← Matrix.mulVec_mulVec, Matrix.dotProduct_mulVec, Matrix.dotProduct_mulVec,
    Matrix.vecMul_transpose]
  exact (Matrix.dotProduct_mulVec _ _ _).symm

theorem isHermitian_of_symm {C : Matrix (Fin d) (Fin d) ℝ} (h : Cᵀ = C) : C.IsHermitian := by
  rw [Matrix.IsHermitian, Matrix.conjTranspose_eq_transpose_of_trivial, h]

theorem isEigenvalue_iff_root {C : Matrix (Fin d) (Fin d) ℝ} {μ : ℝ} :
    IsEigenvalue C μ ↔ μ ∈ C.charpoly.roots := by
  rw [Polynomial.mem_roots C.charpoly_monic.ne_zero, Polynomial.IsRoot.def, Matrix.eval_charpoly,
    ← Matrix.exists_mulVec_eq_zero_iff]
  constructor
  · rintro ⟨v, hv, h⟩
    exact ⟨v, hv, by rw [Matrix.sub_mulVec, h]; simp⟩
  · rintro ⟨v, hv, h⟩
    refine ⟨v, hv, ?_⟩
    rw [Matrix.sub_mulVec, sub_eq_zero] at h
    rw [← h]; simp

theorem eigenvalue_le_of_rayleigh {C : Matrix (Fin d) (Fin d) ℝ} (hC : Cᵀ = C) {l : ℝ}
    (h : ∀ μ, IsEigenvalue C μ → μ ≤ l) (u : Fin d → ℝ) : u ⬝ᵥ C *ᵥ u ≤ l * (u ⬝ᵥ u) := by
  have hH : (l • (1 : Matrix (Fin d) (Fin d) ℝ) - C).IsHermitian := by
    apply isHermitian_of_symm
    rw [Matrix.transpose_sub, hC, Matrix.transpose_smul, Matrix.transpose_one]
  have hp : (l • (1 : Matrix (Fin d) (Fin d) ℝ) - C).PosSemidef := by
    rw [hH.posSemidef_iff_eigenvalues_nonneg]
    intro i
    have h1 := hH.mulVec_eigenvectorBasis i
    set v : Fin d → ℝ := ⇑(hH.eigenvectorBasis i) with hv
    have hv0 : v ≠ 0 := by
      intro h0
      exact hH.eigenvectorBasis.orthonormal.ne_zero i (by ext j; exact congrFun h0 j)
    have h2 : IsEigenvalue C (l - hH.eigenvalues i) := by
      refine ⟨v, hv0, ?_⟩
      rw [Matrix.sub_mulVec, Matrix.smul_mulVec, Matrix.one_mulVec] at h1
      rw [sub_smul, ← h1]; abel
    have := h _ h2
    show (0 : ℝ) ≤ _
    linarith
  have h3 := hp.dotProduct_mulVec_nonneg u
  simp only [star_trivial, Matrix.sub_mulVec, Matrix.smul_mulVec, Matrix.one_mulVec,
    dotProduct_sub, dotProduct_smul, smul_eq_mul] at h3
  linarith

/-- The greatest eigenvalue of `FᵀF` is the square of the maximal stretching of `F`. -/
theorem maxStretch_of_greatest {F : Matrix (Fin d) (Fin d) ℝ} {l : ℝ}
    (h : IsGreatest {μ | IsEigenvalue (Fᵀ * F) μ} l) :
    0 ≤ l ∧ IsMaxStretch F (Real.sqrt l) := by
  obtain ⟨⟨v, hv, hev⟩, hub⟩ := h
  have hvv : 0 < v ⬝ᵥ v := lt_of_le_of_ne (dot_self_nonneg v)
    (fun h => hv (dotProduct_self_eq_zero.1 h.symm))
  have hl : v ⬝ᵥ (Fᵀ * F) *ᵥ v = l * (v ⬝ᵥ v) := by rw [hev, dotProduct_smul, smul_eq_mul]
  have h0 : 0 ≤ l := by
    rw [← len_mulVec_sq] at hl
    by_contra hneg
    push Not at hneg
    nlinarith [sq_nonneg (len (F *ᵥ v)), mul_pos_of_neg_of_neg hneg (neg_neg_of_pos hvv)]
  refine ⟨h0, ?_, ?_⟩
  · have hlen : 0 < len v := Real.sqrt_pos.2 hvv
    refine ⟨(len v)⁻¹ • v, ?_, ?_⟩
    · rw [len_smul, abs_of_pos (inv_pos.2 hlen), inv_mul_cancel₀ hlen.ne']
    · rw [Matrix.mulVec_smul, len_smul, abs_of_pos (inv_pos.2 hlen)]
      have h1 : len (F *ᵥ v) ^ 2 = l * len v ^ 2 := by rw [len_mulVec_sq, hl, len_sq]
      have h2 : len (F *ᵥ v) = Real.sqrt l * len v := by
        rw [← Real.sqrt_sq (len_nonneg (F *ᵥ v)), h1, Real.sqrt_mul h0, Real.sqrt_sq (len_nonneg v)]
      rw [h2]
      field_simp
  · rintro x ⟨u, hu, rfl⟩
    rw [Real.le_sqrt (len_nonneg _) h0, len_mulVec_sq]
    have hsymm : (Fᵀ * F)ᵀ = Fᵀ * F := by rw [Matrix.transpose_mul, Matrix.transpose_transpose]
    have := eigenvalue_le_of_rayleigh hsymm (fun μ hμ => hub hμ) u
    rwa [← len_sq u, hu, one_pow, mul_one] at this

theorem maxStretch_unique {F : Matrix (Fin d) (Fin d) ℝ} {s t : ℝ} (hs : IsMaxStretch F s)
    (ht : IsMaxStretch F t) : s = t := hs.unique ht

theorem maxStretch_nonneg {F : Matrix (Fin d) (Fin d) ℝ} {s : ℝ} (hs : IsMaxStretch F s) :
    0 ≤ s := by
  obtain ⟨⟨u, -, rfl⟩, -⟩ := hs
  exact len_nonneg _

/-- Stretching of an arbitrary vector is at most `s` times its length. -/
theorem maxStretch_bound {F : Matrix (Fin d) (Fin d) ℝ} {s : ℝ} (hs : IsMaxStretch F s)
    (v : Fin d → ℝ) : len (F *ᵥ v) ≤ s * len v := by
  by_cases hv : v = 0
  · subst hv
    rw [Matrix.mulVec_zero, len_eq_zero.2 rfl, mul_zero]
  · have hpos : 0 < len v := lt_of_le_of_ne (len_nonneg v) (fun h => hv (len_eq_zero.1 h.symm))
    have := hs.2 ⟨(len v)⁻¹ • v, by
      rw [len_smul, abs_of_pos (inv_pos.2 hpos), inv_mul_cancel₀ hpos.ne'], rfl⟩
    rw [Matrix.mulVec_smul, len_smul, abs_of_pos (inv_pos.2 hpos)] at this
    calc len (F *ᵥ v) = ((len v)⁻¹ * len (F *ᵥ v)) * len v := by field_simp
      _ ≤ s * len v := mul_le_mul_of_nonneg_right this hpos.le

theorem maxStretch_eq_zero_iff {F : Matrix (Fin d) (Fin d) ℝ} {s : ℝ} (hs : IsMaxStretch F s) :
    s = 0 ↔ F = 0 := by
  constructor
  · rintro rfl
    have : ∀ v, F *ᵥ v = 0 := by
      intro v
      have h := maxStretch_bound hs v
      rw [zero_mul] at h
      exact len_eq_zero.1 (le_antisymm h (len_nonneg _))
    ext i j
    have := congrFun (this (Pi.single j 1)) i
    simpa using this
  · rintro rfl
    obtain ⟨⟨u, -, rfl⟩, -⟩ := hs
    rw [Matrix.zero_mulVec, len_eq_zero.2 rfl]

theorem len_orthogonal {Q : Matrix (Fin d) (Fin d) ℝ} (hQ : IsOrthogonal Q) (v : Fin d → ℝ) :
    len (Q *ᵥ v) = len v := by
  rw [← Real.sqrt_sq (len_nonneg (Q *ᵥ v)), len_mulVec_sq, hQ, Matrix.one_mulVec]
  rfl

theorem maxStretch_orthogonal_left {Q F : Matrix (Fin d) (Fin d) ℝ} {s : ℝ}
    (hQ : IsOrthogonal Q) (h : IsMaxStretch F s) : IsMaxStretch (Q * F) s := by
  unfold IsMaxStretch at *
  have : {x | ∃ u : Fin d → ℝ, len u = 1 ∧ x = len ((Q * F) *ᵥ u)} =
      {x | ∃ u : Fin d → ℝ, len u = 1 ∧ x = len (F *ᵥ u)} := by
    ext x
    simp only [← Matrix.mulVec_mulVec, len_orthogonal hQ]
  rwa [this]

theorem maxStretch_orthogonal_right {Q F : Matrix (Fin d) (Fin d) ℝ} {s : ℝ}
    (hQ : IsOrthogonal Q) (h : IsMaxStretch F s) : IsMaxStretch (F * Q) s := by
  have hQ' : Q * Qᵀ = 1 := mul_eq_one_comm.1 hQ
  have hT : IsOrthogonal Qᵀ := by rw [IsOrthogonal, Matrix.transpose_transpose, hQ']
  unfold IsMaxStretch at *
  have : {x | ∃ u : Fin d → ℝ, len u = 1 ∧ x = len ((F * Q) *ᵥ u)} =
      {x | ∃ u : Fin d → ℝ, len u = 1 ∧ x = len (F *ᵥ u)} := by
    ext x
    constructor
    · rintro ⟨u, hu, rfl⟩
      exact ⟨Q *ᵥ u, by rw [len_orthogonal hQ, hu], by rw [Matrix.mulVec_mulVec]⟩
    · rintro ⟨u, hu, rfl⟩
      refine ⟨Qᵀ *ᵥ u, by rw [len_orthogonal hT, hu], ?_⟩
      rw [Matrix.mulVec_mulVec, Matrix.mul_assoc, hQ', Matrix.mul_one]
  rwa [this]

theorem maxStretch_smul {F : Matrix (Fin d) (Fin d) ℝ} {s c : ℝ} (h : IsMaxStretch F s) :
    IsMaxStretch (c • F) (|c| * s) := by
  obtain ⟨⟨u, hu, rfl⟩, hub⟩ := h
  refine ⟨⟨u, hu, by rw [Matrix.smul_mulVec, len_smul]⟩, ?_⟩
  rintro x ⟨w, hw, rfl⟩
  rw [Matrix.smul_mulVec, len_smul]
  exact mul_le_mul_of_nonneg_left (hub ⟨w, hw, rfl⟩) (abs_nonneg c)

/-- `|det F| ≤ s^d`. -/
theorem abs_det_le_maxStretch_pow {F : Matrix (Fin d) (Fin d) ℝ} {s : ℝ} (h : IsMaxStretch F s) :
    |F.det| ≤ s ^ d := by
  have hs := maxStretch_nonneg h
  have hsymm : (Fᵀ * F)ᵀ = Fᵀ * F := by rw [Matrix.transpose_mul, Matrix.transpose_transpose]
  have hH := isHermitian_of_symm hsymm
  have hdet : F.det ^ 2 = ∏ i, hH.eigenvalues i := by
    have := hH.det_eq_prod_eigenvalues
    rw [Matrix.det_mul, Matrix.det_transpose] at this
    rw [sq, this]; rfl
  have hev : ∀ i, 0 ≤ hH.eigenvalues i ∧ hH.eigenvalues i ≤ s ^ 2 := by
    intro i
    have h1 := hH.mulVec_eigenvectorBasis i
    set v : Fin d → ℝ := ⇑(hH.eigenvectorBasis i) with hv
    have hv0 : v ≠ 0 := by
      intro h0
      exact hH.eigenvectorBasis.orthonormal.ne_zero i (by ext j; exact congrFun h0 j)
    have hpos : 0 < len v := lt_of_le_of_ne (len_nonneg v) (fun h => hv0 (len_eq_zero.1 h.symm))
    have h2 : len (F *ᵥ v) ^ 2 = hH.eigenvalues i * len v ^ 2 := by
      rw [len_mulVec_sq, h1, dotProduct_smul, smul_eq_mul, len_sq]
    have h3 := maxStretch_bound h v
    have hp2 : 0 < len v ^ 2 := by positivity
    constructor
    · by_contra hneg
      push Not at hneg
      nlinarith [sq_nonneg (len (F *ᵥ v))]
    · have h4 : len (F *ᵥ v) ^ 2 ≤ (s * len v) ^ 2 :=
        pow_le_pow_left₀ (len_nonneg _) h3 2
      rw [h2, mul_pow] at h4
      exact le_of_mul_le_mul_right h4 hp2
  have hle : F.det ^ 2 ≤ (s ^ d) ^ 2 := by
    rw [hdet]
    calc ∏ i, hH.eigenvalues i ≤ ∏ _i : Fin d, s ^ 2 :=
          Finset.prod_le_prod (fun i _ => (hev i).1) (fun i _ => (hev i).2)
      _ = (s ^ d) ^ 2 := by rw [Finset.prod_const, Finset.card_univ, Fintype.card_fin]; ring
  exact abs_le_of_sq_le_sq hle (pow_nonneg hs d)

theorem maxStretch_one [NeZero d] : IsMaxStretch (1 : Matrix (Fin d) (Fin d) ℝ) 1 := by
  constructor
  · refine ⟨Pi.single 0 1, ?_, ?_⟩
    · simp [len]
    · rw [Matrix.one_mulVec]; simp [len]
  · rintro x ⟨u, hu, rfl⟩
    rw [Matrix.one_mulVec, hu]

end Verif
