import Verif.Lemmas.Stretch
import Verif.Props.Integrate
import Mathlib.LinearAlgebra.Matrix.Charpoly.Eigs
import Mathlib.LinearAlgebra.Matrix.ToLinearEquiv
import Mathlib.Analysis.Complex.Polynomial.Basic

/-!
# Lemmas for C122: complex eigenvalues and stretching
-/

open Matrix

namespace Verif

variable {d : ℕ}

/-- A real matrix among the complex ones. -/
noncomputable def cplx (A : Matrix (Fin d) (Fin d) ℝ) : Matrix (Fin d) (Fin d) ℂ :=
  Complex.ofRealHom.mapMatrix A

theorem cplx_mulVec_re (A : Matrix (Fin d) (Fin d) ℝ) (w : Fin d → ℂ) (i : Fin d) :
    ((cplx A *ᵥ w) i).re = (A *ᵥ fun j => (w j).re) i := by
  simp [cplx, Matrix.mulVec, dotProduct]

theorem cplx_mulVec_im (A : Matrix (Fin d) (Fin d) ℝ) (w : Fin d → ℂ) (i : Fin d) :
    ((cplx A *ᵥ w) i).im = (A *ᵥ fun j => (w j).im) i := by
  simp [cplx, Matrix.mulVec, dotProduct]

/-- A matrix stretches at least by the magnitude of each of its eigenvalues. -/
theorem stretch_ge_mode {M : Matrix (Fin d) (Fin d) ℝ} {σ : ℝ} (hσ : IsMaxStretch M σ)
    {w : Fin d → ℂ} (hw : w ≠ 0) {μ : ℂ} (h : cplx M *ᵥ w = μ • w) : ‖μ‖ ≤ σ := by
  have h0 := maxStretch_nonneg hσ
  set u : Fin d → ℝ := fun j => (w j).re with hu
  set v : Fin d → ℝ := fun j => (w j).im with hv
  have norm_sum : ∀ z : Fin d → ℂ, ∑ i, ‖z i‖ ^ 2 =
      len (fun i => (z i).re) ^ 2 + len (fun i => (z i).im) ^ 2 := by
    intro z
    rw [len_sq, len_sq, dotProduct, dotProduct, ← Finset.sum_add_distrib]
    refine Finset.sum_congr rfl fun i _ => ?_
    rw [← Complex.normSq_eq_norm_sq, Complex.normSq_apply]
  have hS : 0 < ∑ i, ‖w i‖ ^ 2 := by
    obtain ⟨i, hi⟩ := Function.ne_iff.1 hw
    exact Finset.sum_pos' (fun i _ => by positivity)
      ⟨i, Finset.mem_univ i, by have := norm_pos_iff.2 hi; positivity⟩
  have e1 : ∑ i, ‖(cplx M *ᵥ w) i‖ ^ 2 = ‖μ‖ ^ 2 * ∑ i, ‖w i‖ ^ 2 := by
    rw [h, Finset.mul_sum]
    refine Finset.sum_congr rfl fun i _ => ?_
    rw [Pi.smul_apply, smul_eq_mul, norm_mul, mul_pow]
  have e2 : ∑ i, ‖(cplx M *ᵥ w) i‖ ^ 2 = len (M *ᵥ u) ^ 2 + len (M *ᵥ v) ^ 2 := by
    rw [norm_sum]
    simp only [cplx_mulVec_re, cplx_mulVec_im]
    rfl
  have b1 := pow_le_pow_left₀ (len_nonneg _) (maxStretch_bound hσ u) 2
  have b2 := pow_le_pow_left₀ (len_nonneg _) (maxStretch_bound hσ v) 2
  have e3 := norm_sum w
  have : ‖μ‖ ^ 2 * ∑ i, ‖w i‖ ^ 2 ≤ σ ^ 2 * ∑ i, ‖w i‖ ^ 2 := by
    rw [← e1, e2, e3]
    calc _ ≤ (σ * len u) ^ 2 + (σ * len v) ^ 2 := add_le_add b1 b2
      _ = _ := by ring
  exact (pow_le_pow_iff_left₀ (norm_nonneg μ) h0 two_ne_zero).1 (le_of_mul_le_mul_right this hS)

/-- Some eigenvalue of a matrix without trace does not have its real part on a given side. -/
theorem exists_mode [NeZero d] {A : Matrix (Fin d) (Fin d) ℝ} (htr : A.trace = 0) (h : ℝ) :
    ∃ (w : Fin d → ℂ) (z : ℂ), w ≠ 0 ∧ cplx A *ᵥ w = z • w ∧ 0 ≤ h * z.re := by
  have hsum : (cplx A).trace = (cplx A).charpoly.roots.sum :=
    Matrix.trace_eq_sum_roots_charpoly _
  have htr' : (cplx A).trace = 0 := by
    have e : (cplx A).trace = ((A.trace : ℝ) : ℂ) := by
      simp [cplx, Matrix.trace]
    rw [e, htr, Complex.ofReal_zero]
  have hcard : Multiset.card (cplx A).charpoly.roots = d := by
    rw [IsAlgClosed.card_roots_eq_natDegree, Matrix.charpoly_natDegree_eq_dim, Fintype.card_fin]
  obtain ⟨z, hz, hre⟩ : ∃ z ∈ (cplx A).charpoly.roots, 0 ≤ h * z.re := by
    by_contra hno
    push Not at hno
    have hne : (cplx A).charpoly.roots ≠ 0 := by
      intro h0
      rw [h0, Multiset.card_zero] at hcard
      exact NeZero.ne d hcard.symm
    have hlt : ((cplx A).charpoly.roots.map fun z => h * z.re).sum < 0 := by
      have := Multiset.sum_lt_sum_of_nonempty (g := fun _ => (0 : ℝ)) hne hno
      simpa using this
    have heq : ((cplx A).charpoly.roots.map fun z => h * z.re).sum = 0 := by
      rw [Multiset.sum_map_mul_left]
      have : ((cplx A).charpoly.roots.map fun z => z.re).sum = (cplx A).charpoly.roots.sum.re :=
        (map_multiset_sum Complex.reAddGroupHom _).symm
      rw [this, ← hsum, htr', Complex.zero_re, mul_zero]
    exact hlt.ne heq
  have hroot := (Polynomial.mem_roots (Matrix.charpoly_monic _).ne_zero).1 hz
  rw [Polynomial.IsRoot, Matrix.eval_charpoly] at hroot
  obtain ⟨w, hw, hw'⟩ := Matrix.exists_mulVec_eq_zero_iff.2 hroot
  refine ⟨w, z, hw, ?_, hre⟩
  rw [Matrix.sub_mulVec, sub_eq_zero] at hw'
  rw [← hw']
  ext i
  simp [Matrix.scalar_apply, Matrix.mulVec_diagonal]

theorem mode_pow {B : Matrix (Fin d) (Fin d) ℂ} {w : Fin d → ℂ} {z : ℂ} (h : B *ᵥ w = z • w)
    (n : ℕ) : B ^ n *ᵥ w = z ^ n • w := by
  induction n with
  | zero => simp
  | succ n ih => rw [pow_succ, ← Matrix.mulVec_mulVec, h, Matrix.mulVec_smul, ih, smul_smul,
      pow_succ, mul_comm]

theorem cplx_pow (A : Matrix (Fin d) (Fin d) ℝ) (n : ℕ) : cplx (A ^ n) = cplx A ^ n :=
  map_pow _ _ _

theorem cplx_smul (h : ℝ) (A : Matrix (Fin d) (Fin d) ℝ) : cplx (h • A) = (h : ℂ) • cplx A := by
  ext i j
  simp [cplx]

theorem mode_smul {A : Matrix (Fin d) (Fin d) ℝ} {w : Fin d → ℂ} {z : ℂ}
    (hz : cplx A *ᵥ w = z • w) (h : ℝ) : cplx (h • A) *ᵥ w = ((h : ℂ) * z) • w := by
  rw [cplx_smul, Matrix.smul_mulVec, hz, smul_smul]

/-- One step of Euler multiplies an eigenvector by `1 + z`. -/
theorem mode_euler {Z : Matrix (Fin d) (Fin d) ℝ} {w : Fin d → ℂ} {z : ℂ}
    (hz : cplx Z *ᵥ w = z • w) (n : ℕ) : cplx ((1 + Z) ^ n) *ᵥ w = (1 + z) ^ n • w := by
  rw [cplx_pow]
  refine mode_pow ?_ n
  have : cplx (1 + Z) = 1 + cplx Z := by simp only [cplx, map_add, map_one]
  rw [this, Matrix.add_mulVec, Matrix.one_mulVec, hz, add_smul, one_smul]

/-- One step of RK4 multiplies an eigenvector by the Taylor polynomial of degree four. -/
theorem mode_taylor4 {Z : Matrix (Fin d) (Fin d) ℝ} {w : Fin d → ℂ} {z : ℂ}
    (hz : cplx Z *ᵥ w = z • w) (n : ℕ) : cplx (taylor4 Z ^ n) *ᵥ w =
      (1 + z + z ^ 2 / 2 + z ^ 3 / 6 + z ^ 4 / 24) ^ n • w := by
  rw [cplx_pow]
  refine mode_pow ?_ n
  have : cplx (taylor4 Z) = 1 + cplx Z + (1 / 2 : ℂ) • cplx Z ^ 2 + (1 / 6 : ℂ) • cplx Z ^ 3 +
      (1 / 24 : ℂ) • cplx Z ^ 4 := by
    have e : ∀ X Y, cplx (X + Y) = cplx X + cplx Y := fun X Y : Matrix (Fin d) (Fin d) ℝ => by
      simp only [cplx, map_add]
    have e1 : cplx (1 : Matrix (Fin d) (Fin d) ℝ) = 1 := by simp only [cplx, map_one]
    rw [taylor4, e, e, e, e, e1, cplx_smul, cplx_smul, cplx_smul, cplx_pow, cplx_pow, cplx_pow]
    push_cast
    rfl
  rw [this]
  simp only [Matrix.add_mulVec, Matrix.one_mulVec, Matrix.smul_mulVec, mode_pow hz, hz, smul_smul]
  module

/-- The eigenvalues of a symmetric matrix are real. -/
theorem mode_symm {A : Matrix (Fin d) (Fin d) ℝ} (hA : Aᵀ = A) {w : Fin d → ℂ} (hw : w ≠ 0)
    {z : ℂ} (h : cplx A *ᵥ w = z • w) : z.im = 0 := by
  set u : Fin d → ℝ := fun j => (w j).re with hu
  set v : Fin d → ℝ := fun j => (w j).im with hv
  have h1 : A *ᵥ u = z.re • u - z.im • v := by
    ext i
    rw [← cplx_mulVec_re, h]
    simp [hu, hv]
  have h2 : A *ᵥ v = z.re • v + z.im • u := by
    ext i
    rw [← cplx_mulVec_im, h]
    simp [hu, hv]
  have h3 : v ⬝ᵥ A *ᵥ u = u ⬝ᵥ A *ᵥ v := by
    rw [Matrix.dotProduct_mulVec, ← Matrix.mulVec_transpose, hA, dotProduct_comm]
  rw [h1, h2, dotProduct_sub, dotProduct_add, dotProduct_smul, dotProduct_smul, dotProduct_smul,
    dotProduct_smul, dotProduct_comm v u] at h3
  have h4 : z.im * (u ⬝ᵥ u + v ⬝ᵥ v) = 0 := by
    simp only [smul_eq_mul] at h3
    linarith
  rcases mul_eq_zero.1 h4 with h5 | h5
  · exact h5
  · exfalso
    rw [← len_sq, ← len_sq] at h5
    have hu0 : u ⬝ᵥ u = 0 := by rw [← len_sq]; nlinarith [sq_nonneg (len u), sq_nonneg (len v)]
    have hv0 : v ⬝ᵥ v = 0 := by rw [← len_sq]; nlinarith [sq_nonneg (len u), sq_nonneg (len v)]
    rw [dotProduct_self_eq_zero] at hu0 hv0
    exact hw (funext fun i => Complex.ext (congrFun hu0 i) (congrFun hv0 i))

/-- In the plane: no trace and a determinant that is not positive. -/
theorem mode_real_2d {A : Matrix (Fin 2) (Fin 2) ℝ} (htr : A.trace = 0) (hdet : A.det ≤ 0)
    {w : Fin 2 → ℂ} (hw : w ≠ 0) {z : ℂ} (h : cplx A *ᵥ w = z • w) : z.im = 0 := by
  have h2 : A ^ 2 = (-A.det) • (1 : Matrix (Fin 2) (Fin 2) ℝ) := by
    rw [Matrix.trace_fin_two] at htr
    rw [Matrix.det_fin_two, pow_two]
    have : A 1 1 = -A 0 0 := by linarith
    ext i j
    fin_cases i <;> fin_cases j <;> simp [Matrix.mul_apply, Fin.sum_univ_two, this] <;> ring
  have h3 : ((-A.det : ℝ) : ℂ) • w = z ^ 2 • w := by
    rw [← mode_pow h 2, ← cplx_pow, h2, cplx_smul]
    have e1 : cplx (1 : Matrix (Fin 2) (Fin 2) ℝ) = 1 := by simp only [cplx, map_one]
    rw [e1, Matrix.smul_mulVec, Matrix.one_mulVec]
  obtain ⟨i, hi⟩ := Function.ne_iff.1 hw
  have h4 : ((-A.det : ℝ) : ℂ) = z ^ 2 := mul_right_cancel₀ hi (congrFun h3 i)
  have hre := congrArg Complex.re h4
  have him := congrArg Complex.im h4
  simp only [pow_two, Complex.mul_re, Complex.mul_im, Complex.ofReal_re, Complex.ofReal_im]
    at hre him
  by_contra hne
  have : z.re = 0 := by
    have : z.re * z.im = 0 := by linarith
    exact (mul_eq_zero.1 this).resolve_right hne
  rw [this] at hre
  nlinarith [mul_self_pos.2 hne]

/-- Where the product of step and eigenvalue is real and not negative RK4 does not contract. -/
theorem poly4_one_le {z : ℂ} {h : ℝ} (him : z.im = 0) (hre : 0 ≤ h * z.re) :
    1 ≤ ‖1 + (h : ℂ) * z + ((h : ℂ) * z) ^ 2 / 2 + ((h : ℂ) * z) ^ 3 / 6 +
      ((h : ℂ) * z) ^ 4 / 24‖ := by
  obtain ⟨x, rfl⟩ : ∃ x : ℝ, z = x := ⟨z.re, Complex.ext rfl him⟩
  rw [Complex.ofReal_re] at hre
  have e : (1 + (h : ℂ) * x + ((h : ℂ) * x) ^ 2 / 2 + ((h : ℂ) * x) ^ 3 / 6 +
      ((h : ℂ) * x) ^ 4 / 24) = ((1 + h * x + (h * x) ^ 2 / 2 + (h * x) ^ 3 / 6 +
        (h * x) ^ 4 / 24 : ℝ) : ℂ) := by
    push_cast; rfl
  rw [e, Complex.norm_real, Real.norm_eq_abs]
  refine le_trans ?_ (le_abs_self _)
  have : 0 ≤ (h * x) ^ 2 / 2 + (h * x) ^ 3 / 6 + (h * x) ^ 4 / 24 := by positivity
  linarith

theorem euler_one_le {z : ℂ} {h : ℝ} (hre : 0 ≤ h * z.re) : 1 ≤ ‖1 + (h : ℂ) * z‖ := by
  refine le_trans ?_ (Complex.re_le_norm _)
  simp
  exact hre

/-- A turn by an angle combined with a change of scale. -/
def turnScale (c s : ℝ) : Matrix (Fin 2) (Fin 2) ℝ := !![c, -s; s, c]

theorem turnScale_mul (a b c s : ℝ) :
    turnScale a b * turnScale c s = turnScale (a * c - b * s) (a * s + b * c) := by
  ext i j
  fin_cases i <;> fin_cases j <;> simp [turnScale, Matrix.mul_apply, Fin.sum_univ_two] <;> ring

theorem len_turnScale (c s : ℝ) (x : Fin 2 → ℝ) :
    len (turnScale c s *ᵥ x) ^ 2 = (c ^ 2 + s ^ 2) * len x ^ 2 := by
  rw [len_sq, len_sq]
  simp [turnScale, Matrix.mulVec, dotProduct, Fin.sum_univ_two]
  ring

theorem len_turnScale_pow (c s : ℝ) (n : ℕ) (x : Fin 2 → ℝ) :
    len (turnScale c s ^ n *ᵥ x) ^ 2 = (c ^ 2 + s ^ 2) ^ n * len x ^ 2 := by
  induction n generalizing x with
  | zero => simp
  | succ n ih => rw [pow_succ (turnScale c s), ← Matrix.mulVec_mulVec, ih, len_turnScale]; ring

/-- Turns with a change of scale stretch all directions alike. -/
theorem maxStretch_turnScale (c s : ℝ) (n : ℕ) :
    IsMaxStretch (turnScale c s ^ n) (Real.sqrt ((c ^ 2 + s ^ 2) ^ n)) := by
  have key : ∀ u : Fin 2 → ℝ, len u = 1 →
      len (turnScale c s ^ n *ᵥ u) = Real.sqrt ((c ^ 2 + s ^ 2) ^ n) := by
    intro u hu
    rw [← Real.sqrt_sq (len_nonneg (turnScale c s ^ n *ᵥ u)), len_turnScale_pow, hu, one_pow,
      mul_one]
  refine ⟨⟨![1, 0], ?_, ?_⟩, ?_⟩
  · rw [← Real.sqrt_sq (len_nonneg _), len_sq]; simp [dotProduct, Fin.sum_univ_two]
  · exact (key _ (by rw [← Real.sqrt_sq (len_nonneg _), len_sq]
                     simp [dotProduct, Fin.sum_univ_two])).symm
  · rintro x ⟨u, hu, rfl⟩
    exact (key u hu).le

theorem euler_rotation (ω h : ℝ) : 1 + h • !![0, -ω; ω, 0] = turnScale 1 (h * ω) := by
  ext i j
  fin_cases i <;> fin_cases j <;> simp [turnScale]

theorem rk4_rotation (ω h : ℝ) : taylor4 (h • !![0, -ω; ω, 0]) =
    turnScale (1 - (h * ω) ^ 2 / 2 + (h * ω) ^ 4 / 24) (h * ω - (h * ω) ^ 3 / 6) := by
  have e : h • !![0, -ω; ω, 0] = turnScale 0 (h * ω) := by
    ext i j
    fin_cases i <;> fin_cases j <;> simp [turnScale]
  rw [e, taylor4, pow_succ _ 3, pow_succ _ 2, pow_two, turnScale_mul, turnScale_mul, turnScale_mul]
  ext i j
  fin_cases i <;> fin_cases j <;> simp [turnScale] <;> ring

end Verif
