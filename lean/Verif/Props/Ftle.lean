import Verif.Lemmas.Ftle
import Mathlib.Analysis.SpecialFunctions.Pow.Real

/-!
# C10 - C17, C67: the FTLE kernels (exact real arithmetic)

Each statement is given for the 2D and the 3D function; both follow from one proof
about any function that satisfies `ComputesFtle`.
-/

namespace Verif

open Matrix

/-- **C10.**  For a symmetric matrix the number under the square root is non-negative and
the routine returns the greatest eigenvalue. -/
theorem C10_max_eigenvalue (C : Matrix (Fin 2) (Fin 2) ℝ) (h : C 0 1 = C 1 0) :
    0 ≤ (C 0 0 + C 1 1) ^ 2 - 4 * (C 0 0 * C 1 1 - C 0 1 * C 1 0) ∧
    ∃ l, maxEig2 C = .fin l ∧ IsGreatest {μ | IsEigenvalue C μ} l := by
  obtain ⟨h1, h2⟩ := maxEig2_symm C h
  refine ⟨?_, h2⟩
  simp only [disc2, trace2] at h1
  linarith

/-- Non-vacuity of C10, with a value: the eigenvalues of `[[2,1],[1,2]]` are 1 and 3. -/
example : maxEig2 !![2, 1; 1, 2] = .fin 3 := by
  have : Real.sqrt (4 * 4 - 4 * (2 * 2 - 1)) = 2 := by
    rw [show (4 * 4 - 4 * (2 * 2 - 1) : ℝ) = 2 ^ 2 by norm_num, Real.sqrt_sq (by norm_num)]
  norm_num [maxEig2, disc2, trace2, FVal.sqrt]
  rw [show (4 : ℝ) = 2 ^ 2 by norm_num, Real.sqrt_sq (by norm_num)]
  norm_num

/-- A symmetric matrix with non-negative eigenvalues. -/
def SymmNonneg {d : ℕ} (C : Matrix (Fin d) (Fin d) ℝ) : Prop :=
  Cᵀ = C ∧ ∀ μ, IsEigenvalue C μ → 0 ≤ μ

theorem symmNonneg_gram {d : ℕ} (F : Matrix (Fin d) (Fin d) ℝ) : SymmNonneg (Fᵀ * F) := by
  refine ⟨by rw [Matrix.transpose_mul, Matrix.transpose_transpose], ?_⟩
  rintro μ ⟨v, hv, h⟩
  have h1 : len (F *ᵥ v) ^ 2 = μ * (v ⬝ᵥ v) := by
    rw [len_mulVec_sq, h, dotProduct_smul, smul_eq_mul]
  have hvv : 0 < v ⬝ᵥ v := lt_of_le_of_ne (dot_self_nonneg v)
    (fun h => hv (dotProduct_self_eq_zero.1 h.symm))
  by_contra hneg
  push Not at hneg
  nlinarith [sq_nonneg (len (F *ᵥ v))]

/-- **C11 (2D).** -/
theorem C11_cauchy_green_2d (F : Matrix (Fin 2) (Fin 2) ℝ) :
    cauchyGreen2 F = Fᵀ * F ∧ SymmNonneg (cauchyGreen2 F) := by
  refine ⟨cauchyGreen2_eq F, ?_⟩
  rw [cauchyGreen2_eq]
  exact symmNonneg_gram F

/-- **C11 (3D).**  The code forms `F Fᵀ`; its characteristic polynomial and its set of
eigenvalues are those of `Fᵀ F`. -/
theorem C11_cauchy_green_3d (F : Matrix (Fin 3) (Fin 3) ℝ) :
    (cauchyGreen3 F).charpoly = (Fᵀ * F).charpoly ∧
    (∀ μ, IsEigenvalue (cauchyGreen3 F) μ ↔ IsEigenvalue (Fᵀ * F) μ) ∧
    SymmNonneg (cauchyGreen3 F) := by
  refine ⟨cauchyGreen3_charpoly F, ?_, ?_⟩
  · intro μ
    rw [isEigenvalue_iff_root, isEigenvalue_iff_root, cauchyGreen3_charpoly]
  · have := symmNonneg_gram Fᵀ
    rwa [Matrix.transpose_transpose] at this

/-- The 3D tensor differs from `Fᵀ F` in general (only the spectrum agrees). -/
theorem C11_tensor_3d_differs : ∃ F : Matrix (Fin 3) (Fin 3) ℝ, cauchyGreen3 F ≠ Fᵀ * F := by
  refine ⟨!![0, 1, 0; 0, 0, 0; 0, 0, 0], fun h => ?_⟩
  have := congrFun (congrFun h 0) 0
  simp [cauchyGreen3, Matrix.mul_apply, Fin.sum_univ_three] at this

section generic

variable {d : ℕ} {f : List (Matrix (Fin d) (Fin d) ℝ) → ℝ → Py (List FVal)}

theorem c12_max_stretching_gen (hf : ComputesFtle f) (Js : List (Matrix (Fin d) (Fin d) ℝ)) (T : ℝ) (hT : T ≠ 0) :
    ∃ vs, f Js T = .ok vs ∧
      List.Forall₂ (fun F v => F ≠ 0 →
        ∃ s, 0 < s ∧ IsMaxStretch F s ∧ v = .fin (1 / T * Real.log s)) Js vs := by
  obtain ⟨vs, h1, h2⟩ := hf.value Js T hT
  refine ⟨vs, h1, h2.imp ?_⟩
  rintro F v ⟨s, hs, rfl⟩ hF
  have h0 : 0 < s := lt_of_le_of_ne (maxStretch_nonneg hs)
    (fun h => hF ((maxStretch_eq_zero_iff hs).1 h.symm))
  exact ⟨s, h0, hs, ftleVal_pos h0⟩

theorem c13_objective_gen (hf : ComputesFtle f) (Js Js' : List (Matrix (Fin d) (Fin d) ℝ)) (T : ℝ)
    (h : List.Forall₂ (fun F F' => ∃ P Q, IsOrthogonal P ∧ IsOrthogonal Q ∧ F' = P * F * Q) Js Js') :
    f Js' T = f Js T := by
  symm
  apply hf.congr
  refine h.imp ?_
  rintro F F' ⟨P, Q, hP, hQ, rfl⟩ s hs
  exact maxStretch_orthogonal_right hQ (maxStretch_orthogonal_left hP hs)

theorem c14_lower_bound_gen [NeZero d] (hf : ComputesFtle f) (Js : List (Matrix (Fin d) (Fin d) ℝ)) (T : ℝ) (hT : 0 < T) :
    ∃ vs, f Js T = .ok vs ∧
      List.Forall₂ (fun F v =>
        (F.det ≠ 0 → ∃ x, v = .fin x ∧ Real.log |F.det| / (d * T) ≤ x) ∧
        (|F.det| = 1 → ∃ x, v = .fin x ∧ 0 ≤ x) ∧
        (F = 1 → v = .fin 0)) Js vs := by
  obtain ⟨vs, h1, h2⟩ := hf.value Js T hT.ne'
  refine ⟨vs, h1, h2.imp ?_⟩
  rintro F v ⟨s, hs, rfl⟩
  have key : F.det ≠ 0 → ∃ x, ftleVal s T = .fin x ∧ Real.log |F.det| / (d * T) ≤ x := by
    intro hdet
    have hdpos : 0 < d := Nat.pos_of_ne_zero (NeZero.ne d)
    have hF : F ≠ 0 := by
      rintro rfl
      have : Nonempty (Fin d) := ⟨⟨0, hdpos⟩⟩
      exact hdet Matrix.det_zero
    have h0 : 0 < s := lt_of_le_of_ne (maxStretch_nonneg hs)
      (fun h => hF ((maxStretch_eq_zero_iff hs).1 h.symm))
    refine ⟨_, ftleVal_pos h0, ?_⟩
    have hle := abs_det_le_maxStretch_pow hs
    have hlog : Real.log |F.det| ≤ d * Real.log s := by
      rw [← Real.log_pow]
      exact Real.log_le_log (abs_pos.2 hdet) hle
    have hd' : (0 : ℝ) < d := by exact_mod_cast hdpos
    rw [div_le_iff₀ (by positivity)]
    calc Real.log |F.det| ≤ d * Real.log s := hlog
      _ = 1 / T * Real.log s * (d * T) := by field_simp
  refine ⟨key, ?_, ?_⟩
  · intro h
    obtain ⟨x, hx1, hx2⟩ := key (by intro h0; rw [h0] at h; simp at h)
    refine ⟨x, hx1, ?_⟩
    rwa [h, Real.log_one, zero_div] at hx2
  · rintro rfl
    rw [maxStretch_unique hs maxStretch_one, ftleVal_pos one_pos, Real.log_one, mul_zero]

theorem c15_scaling_gen (hf : ComputesFtle f) (Js : List (Matrix (Fin d) (Fin d) ℝ)) (T c k : ℝ) (hT : T ≠ 0) (hc : c ≠ 0)
    (hk : k ≠ 0) (hne : ∀ F ∈ Js, F ≠ 0) :
    ∃ xs : List ℝ, f Js T = .ok (xs.map .fin) ∧
      f (Js.map (c • ·)) T = .ok (xs.map fun x => .fin (x + Real.log |c| / T)) ∧
      f Js (k * T) = .ok (xs.map fun x => .fin (x / k)) := by
  obtain ⟨vs, h1, h2⟩ := hf.value Js T hT
  obtain ⟨vs', h1', h2'⟩ := hf.value (Js.map (c • ·)) T hT
  obtain ⟨vs'', h1'', h2''⟩ := hf.value Js (k * T) (mul_ne_zero hk hT)
  rw [h1, h1', h1'']
  clear h1 h1' h1''
  simp only [Except.ok.injEq]
  induction Js generalizing vs vs' vs'' with
  | nil =>
    cases h2; cases h2''; cases h2'
    exact ⟨[], rfl, rfl, rfl⟩
  | cons F Js ih =>
    cases h2 with
    | cons a as =>
      cases h2'' with
      | cons b bs =>
        cases h2' with
        | cons e es =>
          obtain ⟨xs, i1, i2, i3⟩ := ih (fun G hG => hne G (by simp [hG])) _ as _ es _ bs
          obtain ⟨s, hs, rfl⟩ := a
          obtain ⟨s', hs', rfl⟩ := b
          obtain ⟨t, ht, rfl⟩ := e
          have h0 : 0 < s := lt_of_le_of_ne (maxStretch_nonneg hs)
            (fun h => hne F (by simp) ((maxStretch_eq_zero_iff hs).1 h.symm))
          have es' : s' = s := maxStretch_unique hs' hs
          have et : t = |c| * s := maxStretch_unique ht (maxStretch_smul hs)
          subst es'
          subst et
          refine ⟨1 / T * Real.log s' :: xs, ?_, ?_, ?_⟩
          · rw [i1, ftleVal_pos h0]; rfl
          · rw [i2, ftleVal_pos (mul_pos (abs_pos.2 hc) h0), List.map_cons]
            congr 2
            rw [Real.log_mul (abs_ne_zero.2 hc) h0.ne']
            ring
          · rw [i3, ftleVal_pos h0, List.map_cons]
            congr 2
            field_simp

theorem c16_degenerate_gen (hf : ComputesFtle f) (Js : List (Matrix (Fin d) (Fin d) ℝ)) (T : ℝ) :
    (T = 0 → f Js T = .error .zeroDivisionError) ∧
    (T ≠ 0 → ∃ vs, f Js T = .ok vs ∧
      List.Forall₂ (fun F v => (v.IsFinite ↔ F ≠ 0) ∧ v ≠ .nan ∧
        (F = 0 → 0 < T → v = .negInf) ∧ (F = 0 → T < 0 → v = .posInf)) Js vs) := by
  refine ⟨fun h => h ▸ hf.zero Js, fun hT => ?_⟩
  obtain ⟨vs, h1, h2⟩ := hf.value Js T hT
  refine ⟨vs, h1, h2.imp ?_⟩
  rintro F v ⟨s, hs, rfl⟩
  by_cases hF : F = 0
  · have hs0 := (maxStretch_eq_zero_iff hs).2 hF
    subst hs0
    rcases lt_or_gt_of_ne hT with h | h
    · rw [ftleVal_zero_neg h]
      exact ⟨⟨fun h => h.elim, fun h => absurd hF h⟩, by simp, fun _ h' => absurd h (not_lt.2 h'.le),
        fun _ _ => rfl⟩
    · rw [ftleVal_zero_pos h]
      exact ⟨⟨fun h => h.elim, fun h => absurd hF h⟩, by simp, fun _ _ => rfl,
        fun _ h' => absurd h (not_lt.2 h'.le)⟩
  · have h0 : 0 < s := lt_of_le_of_ne (maxStretch_nonneg hs)
      (fun h => hF ((maxStretch_eq_zero_iff hs).1 h.symm))
    rw [ftleVal_pos h0]
    exact ⟨⟨fun _ => hF, fun _ => trivial⟩, by simp, fun h => absurd h hF, fun h => absurd h hF⟩

theorem c17_independent_gen (hf : ComputesFtle f) (Js Js' : List (Matrix (Fin d) (Fin d) ℝ)) (T : ℝ) (vs vs' : List FVal)
    (h : f Js T = .ok vs) (h' : f Js' T = .ok vs') :
    vs.length = Js.length ∧
    ∀ (i j : ℕ) (F : Matrix (Fin d) (Fin d) ℝ), Js[i]? = some F → Js'[j]? = some F →
      ∃ v, vs[i]? = some v ∧ vs'[j]? = some v := by
  have hT : T ≠ 0 := by rintro rfl; rw [hf.zero] at h; cases h
  obtain ⟨ws, h1, h2⟩ := hf.value Js T hT
  obtain ⟨ws', h1', h2'⟩ := hf.value Js' T hT
  rw [h] at h1; cases h1
  rw [h'] at h1'; cases h1'
  refine ⟨h2.length_eq.symm, ?_⟩
  intro i j F hi hj
  obtain ⟨li, hi'⟩ := List.getElem?_eq_some_iff.1 hi
  obtain ⟨lj, hj'⟩ := List.getElem?_eq_some_iff.1 hj
  rw [List.forall₂_iff_get] at h2 h2'
  have li' : i < vs.length := by omega
  have lj' : j < vs'.length := by omega
  obtain ⟨s, hs, e⟩ := h2.2 i li li'
  obtain ⟨t, ht, e'⟩ := h2'.2 j lj lj'
  simp only [List.get_eq_getElem, hi'] at hs e
  simp only [List.get_eq_getElem, hj'] at ht e'
  refine ⟨vs[i], List.getElem?_eq_getElem li', ?_⟩
  rw [List.getElem?_eq_getElem lj', e, e', maxStretch_unique hs ht]

theorem c67_negative_period_fails_gen (hf : ComputesFtle f) (Js : List (Matrix (Fin d) (Fin d) ℝ)) (T : ℝ) (hT : T < 0) :
    ∃ vs, f Js T = .ok vs ∧
      List.Forall₂ (fun F v => F ≠ 0 →
        ∃ s, 0 < s ∧ IsMaxStretch F s ∧ v = .fin (-(1 / |T| * Real.log s))) Js vs := by
  obtain ⟨vs, h1, h2⟩ := hf.value Js T hT.ne
  refine ⟨vs, h1, h2.imp ?_⟩
  rintro F v ⟨s, hs, rfl⟩ hF
  have h0 : 0 < s := lt_of_le_of_ne (maxStretch_nonneg hs)
    (fun h => hF ((maxStretch_eq_zero_iff hs).1 h.symm))
  refine ⟨s, h0, hs, ?_⟩
  rw [ftleVal_pos h0, abs_of_neg hT]
  congr 1
  field_simp

theorem c67_period_magnitude_partial_gen (hf : ComputesFtle f) (Js : List (Matrix (Fin d) (Fin d) ℝ)) (T : ℝ) (hT : 0 < T) :
    ∃ vs, f Js T = .ok vs ∧
      List.Forall₂ (fun F v => F ≠ 0 →
        ∃ s, 0 < s ∧ IsMaxStretch F s ∧ v = .fin (1 / |T| * Real.log s)) Js vs := by
  obtain ⟨vs, h1, h2⟩ := hf.value Js T hT.ne'
  refine ⟨vs, h1, h2.imp ?_⟩
  rintro F v ⟨s, hs, rfl⟩ hF
  have h0 : 0 < s := lt_of_le_of_ne (maxStretch_nonneg hs)
    (fun h => hF ((maxStretch_eq_zero_iff hs).1 h.symm))
  exact ⟨s, h0, hs, by rw [ftleVal_pos h0, abs_of_pos hT]⟩

end generic

/-- **C12.**  For a non-zero Jacobian and non-zero period `T` the entry is `(1/T) ln s`, where
`s > 0` is the maximal stretching `max |F u|` over unit vectors. (2D.) -/
theorem C12_max_stretching_2d (Js : List (Matrix (Fin 2) (Fin 2) ℝ)) (T : ℝ) (hT : T ≠ 0) :
    ∃ vs, ftle2 Js T = .ok vs ∧
      List.Forall₂ (fun F v => F ≠ 0 →
        ∃ s, 0 < s ∧ IsMaxStretch F s ∧ v = .fin (1 / T * Real.log s)) Js vs :=
  c12_max_stretching_gen ftle2_computes Js T hT

/-- **C12.**  For a non-zero Jacobian and non-zero period `T` the entry is `(1/T) ln s`, where
`s > 0` is the maximal stretching `max |F u|` over unit vectors. (3D.) -/
theorem C12_max_stretching_3d (Js : List (Matrix (Fin 3) (Fin 3) ℝ)) (T : ℝ) (hT : T ≠ 0) :
    ∃ vs, ftle3 Js T = .ok vs ∧
      List.Forall₂ (fun F v => F ≠ 0 →
        ∃ s, 0 < s ∧ IsMaxStretch F s ∧ v = .fin (1 / T * Real.log s)) Js vs :=
  c12_max_stretching_gen ftle3_computes Js T hT

/-- **C13.**  Rotating or reflecting the initial and the final frame (independently for each
group) does not change the field, including the degenerate outcomes. (2D.) -/
theorem C13_objective_2d (Js Js' : List (Matrix (Fin 2) (Fin 2) ℝ)) (T : ℝ)
    (h : List.Forall₂ (fun F F' => ∃ P Q, IsOrthogonal P ∧ IsOrthogonal Q ∧ F' = P * F * Q) Js Js') :
    ftle2 Js' T = ftle2 Js T :=
  c13_objective_gen ftle2_computes Js Js' T h

/-- **C13.**  Rotating or reflecting the initial and the final frame (independently for each
group) does not change the field, including the degenerate outcomes. (3D.) -/
theorem C13_objective_3d (Js Js' : List (Matrix (Fin 3) (Fin 3) ℝ)) (T : ℝ)
    (h : List.Forall₂ (fun F F' => ∃ P Q, IsOrthogonal P ∧ IsOrthogonal Q ∧ F' = P * F * Q) Js Js') :
    ftle3 Js' T = ftle3 Js T :=
  c13_objective_gen ftle3_computes Js Js' T h

/-- **C14.**  Lower bound by the determinant; volume preserving maps have non-negative FTLE and
the identity has FTLE 0. (2D.) -/
theorem C14_lower_bound_2d (Js : List (Matrix (Fin 2) (Fin 2) ℝ)) (T : ℝ) (hT : 0 < T) :
    ∃ vs, ftle2 Js T = .ok vs ∧
      List.Forall₂ (fun F v =>
        (F.det ≠ 0 → ∃ x, v = .fin x ∧ Real.log |F.det| / (2 * T) ≤ x) ∧
        (|F.det| = 1 → ∃ x, v = .fin x ∧ 0 ≤ x) ∧
        (F = 1 → v = .fin 0)) Js vs :=
  c14_lower_bound_gen ftle2_computes Js T hT

/-- **C14.**  Lower bound by the determinant; volume preserving maps have non-negative FTLE and
the identity has FTLE 0. (3D.) -/
theorem C14_lower_bound_3d (Js : List (Matrix (Fin 3) (Fin 3) ℝ)) (T : ℝ) (hT : 0 < T) :
    ∃ vs, ftle3 Js T = .ok vs ∧
      List.Forall₂ (fun F v =>
        (F.det ≠ 0 → ∃ x, v = .fin x ∧ Real.log |F.det| / (3 * T) ≤ x) ∧
        (|F.det| = 1 → ∃ x, v = .fin x ∧ 0 ≤ x) ∧
        (F = 1 → v = .fin 0)) Js vs :=
  c14_lower_bound_gen ftle3_computes Js T hT

/-- **C15.**  Scaling laws: `c • F` adds `ln|c|/T`; a period `k T` divides by `k`. (2D.) -/
theorem C15_scaling_2d (Js : List (Matrix (Fin 2) (Fin 2) ℝ)) (T c k : ℝ) (hT : T ≠ 0) (hc : c ≠ 0)
    (hk : k ≠ 0) (hne : ∀ F ∈ Js, F ≠ 0) :
    ∃ xs : List ℝ, ftle2 Js T = .ok (xs.map .fin) ∧
      ftle2 (Js.map (c • ·)) T = .ok (xs.map fun x => .fin (x + Real.log |c| / T)) ∧
      ftle2 Js (k * T) = .ok (xs.map fun x => .fin (x / k)) :=
  c15_scaling_gen ftle2_computes Js T c k hT hc hk hne

/-- **C15.**  Scaling laws: `c • F` adds `ln|c|/T`; a period `k T` divides by `k`. (3D.) -/
theorem C15_scaling_3d (Js : List (Matrix (Fin 3) (Fin 3) ℝ)) (T c k : ℝ) (hT : T ≠ 0) (hc : c ≠ 0)
    (hk : k ≠ 0) (hne : ∀ F ∈ Js, F ≠ 0) :
    ∃ xs : List ℝ, ftle3 Js T = .ok (xs.map .fin) ∧
      ftle3 (Js.map (c • ·)) T = .ok (xs.map fun x => .fin (x + Real.log |c| / T)) ∧
      ftle3 Js (k * T) = .ok (xs.map fun x => .fin (x / k)) :=
  c15_scaling_gen ftle3_computes Js T c k hT hc hk hne

/-- **C16.**  A zero period always raises; otherwise the call succeeds, an entry is finite iff
its Jacobian is non-zero, and for the zero Jacobian it is `-inf` (`+inf` for a negative
period); it is never NaN. (2D.) -/
theorem C16_degenerate_2d (Js : List (Matrix (Fin 2) (Fin 2) ℝ)) (T : ℝ) :
    (T = 0 → ftle2 Js T = .error .zeroDivisionError) ∧
    (T ≠ 0 → ∃ vs, ftle2 Js T = .ok vs ∧
      List.Forall₂ (fun F v => (v.IsFinite ↔ F ≠ 0) ∧ v ≠ .nan ∧
        (F = 0 → 0 < T → v = .negInf) ∧ (F = 0 → T < 0 → v = .posInf)) Js vs) :=
  c16_degenerate_gen ftle2_computes Js T

/-- **C16.**  A zero period always raises; otherwise the call succeeds, an entry is finite iff
its Jacobian is non-zero, and for the zero Jacobian it is `-inf` (`+inf` for a negative
period); it is never NaN. (3D.) -/
theorem C16_degenerate_3d (Js : List (Matrix (Fin 3) (Fin 3) ℝ)) (T : ℝ) :
    (T = 0 → ftle3 Js T = .error .zeroDivisionError) ∧
    (T ≠ 0 → ∃ vs, ftle3 Js T = .ok vs ∧
      List.Forall₂ (fun F v => (v.IsFinite ↔ F ≠ 0) ∧ v ≠ .nan ∧
        (F = 0 → 0 < T → v = .negInf) ∧ (F = 0 → T < 0 → v = .posInf)) Js vs) :=
  c16_degenerate_gen ftle3_computes Js T

/-- **C17.**  One value per group, and the value of a group is determined by its own Jacobian
(and the period): equal Jacobians anywhere in any two batches get equal values. (2D.) -/
theorem C17_independent_2d (Js Js' : List (Matrix (Fin 2) (Fin 2) ℝ)) (T : ℝ) (vs vs' : List FVal)
    (h : ftle2 Js T = .ok vs) (h' : ftle2 Js' T = .ok vs') :
    vs.length = Js.length ∧
    ∀ (i j : ℕ) (F : Matrix (Fin 2) (Fin 2) ℝ), Js[i]? = some F → Js'[j]? = some F →
      ∃ v, vs[i]? = some v ∧ vs'[j]? = some v :=
  c17_independent_gen ftle2_computes Js Js' T vs vs' h h'

/-- **C17.**  One value per group, and the value of a group is determined by its own Jacobian
(and the period): equal Jacobians anywhere in any two batches get equal values. (3D.) -/
theorem C17_independent_3d (Js Js' : List (Matrix (Fin 3) (Fin 3) ℝ)) (T : ℝ) (vs vs' : List FVal)
    (h : ftle3 Js T = .ok vs) (h' : ftle3 Js' T = .ok vs') :
    vs.length = Js.length ∧
    ∀ (i j : ℕ) (F : Matrix (Fin 3) (Fin 3) ℝ), Js[i]? = some F → Js'[j]? = some F →
      ∃ v, vs[i]? = some v ∧ vs'[j]? = some v :=
  c17_independent_gen ftle3_computes Js Js' T vs vs' h h'

/-- **C67 is false of the code.**  The docstring defines the FTLE with `1/|T|` and allows a
negative `T` for backward time; the code divides by `T`, so for a negative period the
reported value is the *negative* of the documented one. (2D.) -/
theorem C67_negative_period_2d_fails (Js : List (Matrix (Fin 2) (Fin 2) ℝ)) (T : ℝ) (hT : T < 0) :
    ∃ vs, ftle2 Js T = .ok vs ∧
      List.Forall₂ (fun F v => F ≠ 0 →
        ∃ s, 0 < s ∧ IsMaxStretch F s ∧ v = .fin (-(1 / |T| * Real.log s))) Js vs :=
  c67_negative_period_fails_gen ftle2_computes Js T hT

/-- **C67 is false of the code.**  The docstring defines the FTLE with `1/|T|` and allows a
negative `T` for backward time; the code divides by `T`, so for a negative period the
reported value is the *negative* of the documented one. (3D.) -/
theorem C67_negative_period_3d_fails (Js : List (Matrix (Fin 3) (Fin 3) ℝ)) (T : ℝ) (hT : T < 0) :
    ∃ vs, ftle3 Js T = .ok vs ∧
      List.Forall₂ (fun F v => F ≠ 0 →
        ∃ s, 0 < s ∧ IsMaxStretch F s ∧ v = .fin (-(1 / |T| * Real.log s))) Js vs :=
  c67_negative_period_fails_gen ftle3_computes Js T hT

/-- **C67 (the part that holds).**  For a positive period the value is `(1/|T|) ln s`. (2D.) -/
theorem C67_period_magnitude_2d_partial (Js : List (Matrix (Fin 2) (Fin 2) ℝ)) (T : ℝ) (hT : 0 < T) :
    ∃ vs, ftle2 Js T = .ok vs ∧
      List.Forall₂ (fun F v => F ≠ 0 →
        ∃ s, 0 < s ∧ IsMaxStretch F s ∧ v = .fin (1 / |T| * Real.log s)) Js vs :=
  c67_period_magnitude_partial_gen ftle2_computes Js T hT

/-- **C67 (the part that holds).**  For a positive period the value is `(1/|T|) ln s`. (3D.) -/
theorem C67_period_magnitude_3d_partial (Js : List (Matrix (Fin 3) (Fin 3) ℝ)) (T : ℝ) (hT : 0 < T) :
    ∃ vs, ftle3 Js T = .ok vs ∧
      List.Forall₂ (fun F v => F ≠ 0 →
        ∃ s, 0 < s ∧ IsMaxStretch F s ∧ v = .fin (1 / |T| * Real.log s)) Js vs :=
  c67_period_magnitude_partial_gen ftle3_computes Js T hT

/-! ### Non-vacuity -/

/-- Maximal stretching of `diag(2, 1/2)` is 2. -/
theorem exStretch : IsMaxStretch !![(2 : ℝ), 0; 0, 1 / 2] 2 := by
  constructor
  · refine ⟨![1, 0], ?_, ?_⟩
    · simp [len, dotProduct, Fin.sum_univ_two]
    · rw [len]
      symm
      rw [Real.sqrt_eq_iff_mul_self_eq_of_pos (by norm_num)]
      norm_num [dotProduct, Fin.sum_univ_two, Matrix.mulVec]
  · rintro x ⟨u, hu, rfl⟩
    have h1 : u 0 * u 0 + u 1 * u 1 = 1 := by
      have := len_sq u
      rw [hu] at this
      simpa [dotProduct, Fin.sum_univ_two] using this.symm
    rw [len, Real.sqrt_le_iff]
    refine ⟨by norm_num, ?_⟩
    simp only [dotProduct, Fin.sum_univ_two, Matrix.mulVec, Matrix.of_apply, Matrix.cons_val_zero,
      Matrix.cons_val_one]
    simp
    nlinarith [mul_self_nonneg (u 1)]

/-- `C12` on a concrete saddle: `F = diag(2, 1/2)`, `T = 3` gives `(ln 2)/3`. -/
example : ftle2 [!![(2 : ℝ), 0; 0, 1 / 2]] 3 = .ok [.fin (1 / 3 * Real.log 2)] := by
  obtain ⟨vs, h1, h2⟩ := C12_max_stretching_2d [!![(2 : ℝ), 0; 0, 1 / 2]] 3 (by norm_num)
  cases h2 with
  | cons a as =>
    cases as
    obtain ⟨s, -, hs, rfl⟩ := a (by
      intro h; have := congrFun (congrFun h 0) 0; norm_num at this)
    rw [h1, maxStretch_unique hs exStretch]

/-- A non-trivial orthogonal matrix (quarter turn). -/
example : IsOrthogonal !![(0 : ℝ), -1; 1, 0] := by
  ext i j
  fin_cases i <;> fin_cases j <;> simp [Matrix.mul_apply, Fin.sum_univ_two]

/-- `C14`: a shear has determinant 1. -/
example : |(!![(1 : ℝ), 5; 0, 1]).det| = 1 := by simp [Matrix.det_fin_two]

/-- `C17`: the hypotheses are met by any batch and non-zero period. -/
example : ∃ vs, ftle3 [1, 0, 1] 2 = .ok vs := by
  obtain ⟨vs, h, -⟩ := (C16_degenerate_3d [1, 0, 1] 2).2 (by norm_num)
  exact ⟨vs, h⟩

end Verif
