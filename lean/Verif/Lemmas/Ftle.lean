import Verif.Model.Ftle
import Verif.Lemmas.Stretch
import Verif.Lemmas.Jacobian
import Mathlib.LinearAlgebra.Matrix.Charpoly.Coeff

/-!
# Helper lemmas: what the FTLE kernels compute
-/

namespace Verif

open Matrix

theorem disc2_symm (C : Matrix (Fin 2) (Fin 2) ℝ) (h : C 0 1 = C 1 0) :
    disc2 4 C = (C 0 0 - C 1 1) ^ 2 + 4 * C 0 1 ^ 2 := by
  simp only [disc2, trace2, ← h]; ring

theorem maxEig2_symm (C : Matrix (Fin 2) (Fin 2) ℝ) (h : C 0 1 = C 1 0) :
    0 ≤ disc2 4 C ∧
    ∃ l, maxEig2 C = .fin l ∧ IsGreatest {μ | IsEigenvalue C μ} l := by
  have h0 : 0 ≤ disc2 4 C := by rw [disc2_symm C h]; positivity
  refine ⟨h0, 1 / 2 * (trace2 C + Real.sqrt (disc2 4 C)), ?_, ?_, ?_⟩
  · simp only [maxEig2, FVal.sqrt, not_lt.2 h0, if_false]
    rw [max_eq_left]
    have := Real.sqrt_nonneg (disc2 4 C)
    linarith
  · show IsEigenvalue _ _
    rw [isEigenvalue_iff_root, Polynomial.mem_roots C.charpoly_monic.ne_zero, Polynomial.IsRoot.def,
      Matrix.charpoly_fin_two, Matrix.trace_fin_two, Matrix.det_fin_two]
    simp only [Polynomial.eval_add, Polynomial.eval_sub, Polynomial.eval_mul, Polynomial.eval_pow,
      Polynomial.eval_X, Polynomial.eval_C]
    have hs := Real.sq_sqrt h0
    have hd : disc2 4 C = (C 0 0 + C 1 1) ^ 2 - 4 * (C 0 0 * C 1 1 - C 0 1 * C 1 0) := by
      simp only [disc2, trace2]; ring
    simp only [trace2]
    nlinarith [hs, hd]
  · intro μ hμ
    have hμ : IsEigenvalue C μ := hμ
    rw [isEigenvalue_iff_root, Polynomial.mem_roots C.charpoly_monic.ne_zero, Polynomial.IsRoot.def,
      Matrix.charpoly_fin_two, Matrix.trace_fin_two, Matrix.det_fin_two] at hμ
    simp only [Polynomial.eval_add, Polynomial.eval_sub, Polynomial.eval_mul, Polynomial.eval_pow,
      Polynomial.eval_X, Polynomial.eval_C] at hμ
    have h1 : (2 * μ - trace2 C) ^ 2 = disc2 4 C := by
      simp only [disc2, trace2]; linear_combination 4 * hμ
    have h2 : 2 * μ - trace2 C ≤ Real.sqrt (disc2 4 C) := by
      rw [← h1]; exact le_trans (le_abs_self _) (Real.sqrt_sq_eq_abs _).ge
    linarith

theorem cauchyGreen2_eq (F : Matrix (Fin 2) (Fin 2) ℝ) : cauchyGreen2 F = Fᵀ * F := by
  ext i j
  fin_cases i <;> fin_cases j <;>
    simp [cauchyGreen2, Matrix.mul_apply, Fin.sum_univ_two]

theorem cauchyGreen3_charpoly (F : Matrix (Fin 3) (Fin 3) ℝ) :
    (cauchyGreen3 F).charpoly = (Fᵀ * F).charpoly := Matrix.charpoly_mul_comm _ _

theorem entry2 (F : Matrix (Fin 2) (Fin 2) ℝ) :
    ∃ l, maxEig2 (cauchyGreen2 F) = .fin l ∧ 0 ≤ l ∧ IsMaxStretch F (Real.sqrt l) := by
  have hsymm : cauchyGreen2 F 0 1 = cauchyGreen2 F 1 0 := by simp [cauchyGreen2, mul_comm]
  obtain ⟨-, l, h1, h2⟩ := maxEig2_symm _ hsymm
  rw [cauchyGreen2_eq F] at h2
  exact ⟨l, h1, maxStretch_of_greatest h2⟩

theorem greatest_of_max? {d : ℕ} {C : Matrix (Fin d) (Fin d) ℝ} {l : ℝ}
    (h : C.charpoly.roots.toList.max? = some l) : IsGreatest {μ | IsEigenvalue C μ} l := by
  rw [List.max?_eq_some_iff] at h
  refine ⟨isEigenvalue_iff_root.2 (Multiset.mem_toList.1 h.1), ?_⟩
  intro μ hμ
  exact h.2 μ (Multiset.mem_toList.2 (isEigenvalue_iff_root.1 hμ))

theorem entry3 (F : Matrix (Fin 3) (Fin 3) ℝ) :
    ∃ l, maxEig3 (cauchyGreen3 F) = .ok (.fin l) ∧ 0 ≤ l ∧ IsMaxStretch F (Real.sqrt l) := by
  have hH : (cauchyGreen3 F).IsHermitian := by
    apply isHermitian_of_symm
    rw [cauchyGreen3, Matrix.transpose_mul, Matrix.transpose_transpose]
  have hcard : (cauchyGreen3 F).charpoly.roots.card = 3 := by
    rw [hH.roots_charpoly_eq_eigenvalues]; simp
  cases hm : (cauchyGreen3 F).charpoly.roots.toList.max? with
  | none =>
    rw [List.max?_eq_none_iff] at hm
    rw [← Multiset.length_toList, hm] at hcard
    cases hcard
  | some l =>
    refine ⟨l, ?_, ?_⟩
    · simp only [maxEig3, hcard, if_true, hm]
    · rw [cauchyGreen3_charpoly] at hm
      exact maxStretch_of_greatest (greatest_of_max? hm)

/-- The value reported for maximal stretching `s` and period `T`. -/
noncomputable def ftleVal (s T : ℝ) : FVal := FVal.smul (1 / T) (FVal.log (.fin s))

theorem ftleVal_zero_pos {T : ℝ} (hT : 0 < T) : ftleVal 0 T = .negInf := by
  have : 0 < T⁻¹ := inv_pos.2 hT
  simp [ftleVal, FVal.log, FVal.smul, not_lt.2 hT.le, hT.ne']

theorem ftleVal_zero_neg {T : ℝ} (hT : T < 0) : ftleVal 0 T = .posInf := by
  simp [ftleVal, FVal.log, FVal.smul, hT]

theorem ftleVal_pos {s T : ℝ} (hs : 0 < s) : ftleVal s T = .fin (1 / T * Real.log s) := by
  simp [ftleVal, FVal.log, FVal.smul, not_lt.2 hs.le, hs.ne']

/-- What both FTLE functions compute. -/
structure ComputesFtle {d : ℕ} (f : List (Matrix (Fin d) (Fin d) ℝ) → ℝ → Py (List FVal)) :
    Prop where
  zero : ∀ Js, f Js 0 = .error .zeroDivisionError
  value : ∀ Js T, T ≠ 0 → ∃ vs, f Js T = .ok vs ∧
    List.Forall₂ (fun F v => ∃ s, IsMaxStretch F s ∧ v = ftleVal s T) Js vs

theorem ftle_expr (l T : ℝ) (h : 0 ≤ l) :
    FVal.smul (1 / T) (FVal.log (FVal.sqrt (.fin l))) = ftleVal (Real.sqrt l) T := by
  rw [FVal.sqrt, if_neg (not_lt.2 h)]; rfl

theorem ftle2_computes : ComputesFtle ftle2 where
  zero Js := by simp [ftle2, recipPeriod]
  value Js T hT := by
    refine ⟨_, by simp only [ftle2, recipPeriod, hT, if_false]; rfl, ?_⟩
    rw [List.map_map, List.map_map]
    induction Js with
    | nil => exact List.Forall₂.nil
    | cons F Js ih =>
      refine List.Forall₂.cons ?_ ih
      obtain ⟨l, h1, h2, h3⟩ := entry2 F
      refine ⟨_, h3, ?_⟩
      simp only [Function.comp_apply, h1, ftle_expr l T h2]

theorem eigs3 (Js : List (Matrix (Fin 3) (Fin 3) ℝ)) :
    ∃ ls : List ℝ, pyMap maxEig3 (Js.map cauchyGreen3) = .ok (ls.map .fin) ∧
      List.Forall₂ (fun F l => 0 ≤ l ∧ IsMaxStretch F (Real.sqrt l)) Js ls := by
  induction Js with
  | nil => exact ⟨[], rfl, List.Forall₂.nil⟩
  | cons F Js ih =>
    obtain ⟨ls, h1, h2⟩ := ih
    obtain ⟨l, g1, g2⟩ := entry3 F
    exact ⟨l :: ls, by simp only [List.map_cons, pyMap, g1, h1], List.Forall₂.cons g2 h2⟩

theorem ftle3_computes : ComputesFtle ftle3 where
  zero Js := by
    obtain ⟨ls, h1, -⟩ := eigs3 Js
    simp only [ftle3, h1, recipPeriod, if_true]
  value Js T hT := by
    obtain ⟨ls, h1, h2⟩ := eigs3 Js
    refine ⟨_, by simp only [ftle3, h1, recipPeriod, hT, if_false]; rfl, ?_⟩
    clear h1
    induction h2 with
    | nil => exact List.Forall₂.nil
    | cons h hs ih => exact List.Forall₂.cons ⟨_, h.2, ftle_expr _ T h.1⟩ ih

section generic

variable {d : ℕ} {f : List (Matrix (Fin d) (Fin d) ℝ) → ℝ → Py (List FVal)}

theorem ComputesFtle.congr (hf : ComputesFtle f) {Js Js' : List (Matrix (Fin d) (Fin d) ℝ)}
    (h : List.Forall₂ (fun F F' => ∀ s, IsMaxStretch F s → IsMaxStretch F' s) Js Js') (T : ℝ) :
    f Js T = f Js' T := by
  by_cases hT : T = 0
  · subst hT; rw [hf.zero, hf.zero]
  · obtain ⟨vs, h1, h2⟩ := hf.value Js T hT
    obtain ⟨vs', h1', h2'⟩ := hf.value Js' T hT
    rw [h1, h1']
    congr 1
    clear h1 h1'
    induction h generalizing vs vs' with
    | nil => cases h2; cases h2'; rfl
    | cons hF hFs ih =>
      cases h2 with
      | cons a as =>
        cases h2' with
        | cons b bs =>
          obtain ⟨s, s1, rfl⟩ := a
          obtain ⟨t, t1, rfl⟩ := b
          rw [ih _ as _ bs, maxStretch_unique (hF s s1) t1]

end generic

end Verif
