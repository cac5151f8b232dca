import Verif.Spec.Ab2
import Verif.Lemmas.Modes
import Verif.Lemmas.EndToEnd

/-!
# Lemmas for the complete runs with AB2 on linear flows (C41, C42, C122)
-/

open Matrix

namespace Verif

/-- The numbers by which AB2 multiplies an eigenvector, `z` being the step times the eigenvalue. -/
def ab2Num {R : Type} [Field R] (z : R) : ℕ → R
  | 0 => 1
  | 1 => 1 + z
  | n + 2 => (1 + 3 / 2 * z) * ab2Num z (n + 1) - 1 / 2 * z * ab2Num z n

variable {d : ℕ}

/-- Such matrices exist. -/
noncomputable def ab2Mat (A : Matrix (Fin d) (Fin d) ℝ) (h : ℝ) : ℕ → Matrix (Fin d) (Fin d) ℝ
  | 0 => 1
  | 1 => 1 + h • A
  | n + 2 => ab2Mat A h (n + 1) + h • A * ((3 / 2 : ℝ) • ab2Mat A h (n + 1) -
      (1 / 2 : ℝ) • ab2Mat A h n)

theorem ab2Mat_ok (A : Matrix (Fin d) (Fin d) ℝ) (h : ℝ) : Ab2Matrices A h (ab2Mat A h) :=
  ⟨rfl, rfl, fun _ => rfl⟩

theorem Ab2Matrices.rows {A : Matrix (Fin d) (Fin d) ℝ} {h : ℝ}
    {M : ℕ → Matrix (Fin d) (Fin d) ℝ} (hM : Ab2Matrices A h M) {x : ℕ → Fin d → ℝ}
    (h1 : x 1 = (1 + h • A) *ᵥ x 0)
    (h2 : ∀ n, x (n + 2) = (1 + (3 / 2 * h) • A) *ᵥ x (n + 1) - ((1 / 2 * h) • A) *ᵥ x n)
    (n : ℕ) : x n = M n *ᵥ x 0 ∧ x (n + 1) = M (n + 1) *ᵥ x 0 := by
  induction n with
  | zero => exact ⟨by rw [hM.zero, Matrix.one_mulVec], by rw [hM.one, h1]⟩
  | succ n ih =>
    refine ⟨ih.2, ?_⟩
    rw [h2, hM.step, ih.1, ih.2]
    simp only [Matrix.add_mulVec, Matrix.one_mulVec, Matrix.smul_mulVec, ← Matrix.mulVec_mulVec,
      Matrix.sub_mulVec, Matrix.mulVec_sub, Matrix.mulVec_smul]
    module

/-- AB2 multiplies an eigenvector by the number `ab2Num`. -/
theorem mode_ab2 {A : Matrix (Fin d) (Fin d) ℝ} {h : ℝ} {M : ℕ → Matrix (Fin d) (Fin d) ℝ}
    (hM : Ab2Matrices A h M) {w : Fin d → ℂ} {z : ℂ} (hz : cplx A *ᵥ w = z • w) (n : ℕ) :
    cplx (M n) *ᵥ w = ab2Num ((h : ℂ) * z) n • w ∧
      cplx (M (n + 1)) *ᵥ w = ab2Num ((h : ℂ) * z) (n + 1) • w := by
  have hadd : ∀ X Y, cplx (X + Y) = cplx X + cplx Y := fun X Y : Matrix (Fin d) (Fin d) ℝ => by
    simp only [cplx, map_add]
  have hsub : ∀ X Y, cplx (X - Y) = cplx X - cplx Y := fun X Y : Matrix (Fin d) (Fin d) ℝ => by
    simp only [cplx, map_sub]
  have hmul : ∀ X Y, cplx (X * Y) = cplx X * cplx Y := fun X Y : Matrix (Fin d) (Fin d) ℝ => by
    simp only [cplx, map_mul]
  have e1 : cplx (1 : Matrix (Fin d) (Fin d) ℝ) = 1 := by simp only [cplx, map_one]
  induction n with
  | zero =>
    constructor
    · rw [hM.zero, e1, Matrix.one_mulVec, ab2Num, one_smul]
    · rw [hM.one, hadd, e1, Matrix.add_mulVec, Matrix.one_mulVec, mode_smul hz, ab2Num, add_smul,
        one_smul]
  | succ n ih =>
    refine ⟨ih.2, ?_⟩
    rw [hM.step, hadd, hmul, hsub, cplx_smul (3 / 2), cplx_smul (1 / 2), Matrix.add_mulVec,
      ← Matrix.mulVec_mulVec, Matrix.sub_mulVec, Matrix.smul_mulVec, Matrix.smul_mulVec, ih.1,
      ih.2, Matrix.mulVec_sub, Matrix.mulVec_smul, Matrix.mulVec_smul, Matrix.mulVec_smul,
      Matrix.mulVec_smul, mode_smul hz, ab2Num]
    push_cast
    module

/-- With a real eigenvalue that stretches the numbers grow. -/
theorem ab2Num_grow {z : ℝ} (hz : 0 ≤ z) (n : ℕ) :
    1 ≤ ab2Num z n ∧ (1 + z) * ab2Num z n ≤ ab2Num z (n + 1) := by
  induction n with
  | zero => simp [ab2Num]
  | succ n ih =>
    have h1 : ab2Num z n ≤ ab2Num z (n + 1) := by nlinarith [ih.1, ih.2]
    refine ⟨ih.1.trans h1, ?_⟩
    rw [ab2Num]
    nlinarith [mul_nonneg hz (sub_nonneg.2 h1)]

theorem ab2Num_lower {z : ℝ} (hz : 0 ≤ z) (n : ℕ) : (1 + z) ^ n ≤ ab2Num z n := by
  induction n with
  | zero => simp [ab2Num]
  | succ n ih =>
    rw [pow_succ, mul_comm]
    exact (mul_le_mul_of_nonneg_left ih (by linarith)).trans (ab2Num_grow hz n).2

/-- ... but little more than they should. -/
theorem ab2Num_ratio {z : ℝ} (hz : 0 ≤ z) (n : ℕ) :
    ab2Num z (n + 1) ≤ (1 + z + 3 / 4 * z ^ 2) * ab2Num z n := by
  have hr : ∀ n, ab2Num z (n + 1) ≤ (1 + 3 / 2 * z) * ab2Num z n := by
    intro n
    cases n with
    | zero => simp [ab2Num]; linarith
    | succ n =>
      rw [ab2Num]
      have := mul_nonneg hz (zero_le_one.trans (ab2Num_grow hz n).1)
      linarith
  cases n with
  | zero => simp [ab2Num]; positivity
  | succ n =>
    have h1 := hr n
    have h0 := zero_le_one.trans (ab2Num_grow hz n).1
    have h2 := zero_le_one.trans (ab2Num_grow hz (n + 1)).1
    rw [ab2Num]
    -- `x n ≥ x (n+1) (1 - 3/2 z)`
    have h3 : (1 - 3 / 2 * z) * ab2Num z (n + 1) ≤ ab2Num z n := by
      rcases le_total (1 - 3 / 2 * z) 0 with h | h
      · exact (mul_nonpos_of_nonpos_of_nonneg h h2).trans h0
      · have := mul_le_mul_of_nonneg_left h1 h
        nlinarith [mul_nonneg (mul_nonneg hz hz) h0]
    nlinarith [mul_le_mul_of_nonneg_left h3 hz]

theorem ab2Num_upper {z : ℝ} (hz : 0 ≤ z) (n : ℕ) :
    ab2Num z n ≤ (1 + z + 3 / 4 * z ^ 2) ^ n := by
  induction n with
  | zero => simp [ab2Num]
  | succ n ih =>
    rw [pow_succ, mul_comm]
    exact (ab2Num_ratio hz n).trans (mul_le_mul_of_nonneg_left ih (by positivity))

/-- A contracting direction is never stretched more than the stretching one. -/
theorem ab2Num_neg {z : ℝ} (hz : 0 ≤ z) (n : ℕ) :
    |ab2Num (-z) n| ≤ ab2Num z n ∧ |ab2Num (-z) (n + 1)| ≤ ab2Num z (n + 1) := by
  induction n with
  | zero =>
    refine ⟨by simp [ab2Num], ?_⟩
    simp only [ab2Num]
    rw [abs_le]; constructor <;> linarith
  | succ n ih =>
    refine ⟨ih.2, ?_⟩
    have h0 := zero_le_one.trans (ab2Num_grow hz n).1
    have hg := (ab2Num_grow hz n).2
    obtain ⟨⟨a1, a2⟩, b1, b2⟩ := ih.imp abs_le.1 abs_le.1
    rw [ab2Num, ab2Num, abs_le]
    rcases le_total z (2 / 3) with h | h
    · constructor <;> nlinarith [mul_le_mul_of_nonneg_left a1 hz, mul_le_mul_of_nonneg_left a2 hz,
        mul_le_mul_of_nonneg_left b1 (show 0 ≤ 1 - 3 / 2 * z by linarith),
        mul_le_mul_of_nonneg_left b2 (show 0 ≤ 1 - 3 / 2 * z by linarith), mul_nonneg hz h0,
        mul_le_mul_of_nonneg_left hg hz, mul_nonneg (mul_nonneg hz hz) h0]
    · constructor <;> nlinarith [mul_le_mul_of_nonneg_left a1 hz, mul_le_mul_of_nonneg_left a2 hz,
        mul_le_mul_of_nonneg_left b1 (show 0 ≤ 3 / 2 * z - 1 by linarith),
        mul_le_mul_of_nonneg_left b2 (show 0 ≤ 3 / 2 * z - 1 by linarith), mul_nonneg hz h0]

theorem ab2_saddle {a h : ℝ} {M : ℕ → Matrix (Fin 2) (Fin 2) ℝ}
    (hM : Ab2Matrices !![a, 0; 0, -a] h M) (n : ℕ) :
    M n = !![ab2Num (h * a) n, 0; 0, ab2Num (-(h * a)) n] ∧
      M (n + 1) = !![ab2Num (h * a) (n + 1), 0; 0, ab2Num (-(h * a)) (n + 1)] := by
  induction n with
  | zero =>
    rw [hM.zero, hM.one]
    constructor <;> ext i j <;> fin_cases i <;> fin_cases j <;> simp [ab2Num]
  | succ n ih =>
    refine ⟨ih.2, ?_⟩
    rw [hM.step, ih.1, ih.2]
    ext i j
    fin_cases i <;> fin_cases j <;> simp [ab2Num] <;> ring

end Verif
