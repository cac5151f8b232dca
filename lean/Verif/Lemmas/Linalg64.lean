import Verif.Model.Linalg64
import Verif.Lemmas.Jac64

/-!
# Rounding errors of the 3-D kernel
-/

namespace Verif

open Matrix

/-- The quadratic form of a matrix is at most the sum of its entries. -/
theorem quadratic_le {d : ℕ} (A : Matrix (Fin d) (Fin d) ℝ) {u : Fin d → ℝ} (hu : len u = 1) :
    u ⬝ᵥ A *ᵥ u ≤ ∑ i, ∑ j, |A i j| := by
  have h1 : ∀ i, |u i| ≤ 1 := fun i => (abs_le_len u i).trans hu.le
  unfold dotProduct mulVec
  refine Finset.sum_le_sum fun i _ => ?_
  unfold dotProduct
  rw [Finset.mul_sum]
  refine Finset.sum_le_sum fun j _ => ?_
  refine (le_abs_self _).trans ?_
  rw [abs_mul, abs_mul]
  have h2 : |A i j| * |u j| ≤ |A i j| * 1 := mul_le_mul_of_nonneg_left (h1 j) (abs_nonneg _)
  have h3 : |u i| * (|A i j| * |u j|) ≤ 1 * (|A i j| * |u j|) :=
    mul_le_mul_of_nonneg_right (h1 i) (by positivity)
  linarith

/-- Largest eigenvalues of nearby symmetric matrices are near. -/
theorem eigenvalue_le_add {d : ℕ} {A B : Matrix (Fin d) (Fin d) ℝ} {a b : ℝ} (hB : Bᵀ = B)
    (ha : IsGreatest {x | IsEigenvalue A x} a) (hb : IsGreatest {x | IsEigenvalue B x} b) :
    a ≤ b + ∑ i, ∑ j, |A i j - B i j| := by
  obtain ⟨v, hv, hev⟩ := ha.1
  have hpos : 0 < len v := lt_of_le_of_ne (len_nonneg v) (fun h => hv (len_eq_zero.1 h.symm))
  set u := (len v)⁻¹ • v with hu
  have hu1 : len u = 1 := by
    rw [hu, len_smul, abs_of_pos (inv_pos.2 hpos), inv_mul_cancel₀ hpos.ne']
  have huu : u ⬝ᵥ u = 1 := by rw [← len_sq, hu1, one_pow]
  have e1 : u ⬝ᵥ A *ᵥ u = a := by
    rw [hu, mulVec_smul, hev, smul_comm, ← hu, dotProduct_smul, huu, smul_eq_mul, mul_one]
  have e2 := eigenvalue_le_of_rayleigh hB (fun μ hμ => hb.2 hμ) u
  have e3 := quadratic_le (A - B) hu1
  rw [sub_mulVec, dotProduct_sub, e1] at e3
  rw [huu, mul_one] at e2
  have e4 : ∑ i, ∑ j, |(A - B) i j| = ∑ i, ∑ j, |A i j - B i j| := rfl
  linarith

/-- A symmetric matrix has a largest eigenvalue. -/
theorem exists_greatest_eigenvalue {d : ℕ} [NeZero d] {C : Matrix (Fin d) (Fin d) ℝ} (hC : Cᵀ = C) :
    ∃ l, IsGreatest {x | IsEigenvalue C x} l := by
  have hH := isHermitian_of_symm hC
  have hfin : {x | IsEigenvalue C x}.Finite := by
    refine (C.charpoly.roots.toFinset.finite_toSet).subset fun x hx => ?_
    simp only [Finset.mem_coe, Multiset.mem_toFinset]
    exact isEigenvalue_iff_root.1 hx
  have hne : {x | IsEigenvalue C x}.Nonempty := by
    have h1 := hH.mulVec_eigenvectorBasis 0
    refine ⟨hH.eigenvalues 0, ⇑(hH.eigenvectorBasis 0), ?_, h1⟩
    intro h0
    exact hH.eigenvectorBasis.orthonormal.ne_zero 0 (by ext j; exact congrFun h0 j)
  obtain ⟨l, h1, h2⟩ := hfin.exists_maximal hne
  exact ⟨l, h1, fun x hx => (le_total l x).elim (fun h => h2 hx h) id⟩

/-- The largest eigenvalue of `F F^T` is the square of the maximal stretching. -/
theorem greatest_of_maxStretch {d : ℕ} [NeZero d] {F : Matrix (Fin d) (Fin d) ℝ} {σ : ℝ}
    (h : IsMaxStretch F σ) : IsGreatest {x | IsEigenvalue (F * Fᵀ) x} (σ ^ 2) := by
  have hs : (F * Fᵀ)ᵀ = F * Fᵀ := by rw [transpose_mul, transpose_transpose]
  obtain ⟨l, hl⟩ := exists_greatest_eigenvalue hs
  have e : {x | IsEigenvalue (F * Fᵀ) x} = {x | IsEigenvalue (Fᵀ * F) x} := by
    ext x
    show IsEigenvalue _ _ ↔ IsEigenvalue _ _
    rw [isEigenvalue_iff_root, isEigenvalue_iff_root, Matrix.charpoly_mul_comm]
  have hl' := hl
  rw [e] at hl'
  obtain ⟨h0, h1⟩ := maxStretch_of_greatest hl'
  rw [maxStretch_unique h h1, Real.sq_sqrt h0]
  exact hl

/-- The products of the rows of a matrix, against its stretching. -/
theorem products_le {F : Matrix (Fin 3) (Fin 3) ℝ} {σ : ℝ} (h : IsMaxStretch F σ) :
    ∑ i, ∑ j, ∑ k, |F i k| * |F j k| ≤ 9 * σ ^ 2 := by
  have hcol : ∀ k, F 0 k ^ 2 + F 1 k ^ 2 + F 2 k ^ 2 ≤ σ ^ 2 := by
    intro k
    have h1 := maxStretch_bound h (Pi.single k 1)
    have h2 : len (Pi.single k (1 : ℝ) : Fin 3 → ℝ) = 1 := by unfold len; simp
    rw [h2, mul_one] at h1
    have h3 := pow_le_pow_left₀ (len_nonneg _) h1 2
    rw [len_sq] at h3
    simpa [dotProduct, Fin.sum_univ_three, sq] using h3
  have hk : ∀ k, (|F 0 k| + |F 1 k| + |F 2 k|) ^ 2 ≤ 3 * σ ^ 2 := by
    intro k
    have := hcol k
    have e0 := sq_abs (F 0 k)
    have e1 := sq_abs (F 1 k)
    have e2 := sq_abs (F 2 k)
    nlinarith [sq_nonneg (|F 0 k| - |F 1 k|), sq_nonneg (|F 0 k| - |F 2 k|),
      sq_nonneg (|F 1 k| - |F 2 k|)]
  have e : ∑ i, ∑ j, ∑ k, |F i k| * |F j k| = (|F 0 0| + |F 1 0| + |F 2 0|) ^ 2 +
      (|F 0 1| + |F 1 1| + |F 2 1|) ^ 2 + (|F 0 2| + |F 1 2| + |F 2 2|) ^ 2 := by
    simp only [Fin.sum_univ_three]
    ring
  rw [e]
  linarith [hk 0, hk 1, hk 2]

/-- The computed tensor against the exact one. -/
theorem tensor64x3 {la : Linalg} {μ : ℝ} (ha : la.Accurate μ) (F : Matrix (Fin 3) (Fin 3) Fl) {σ : ℝ}
    (h : IsMaxStretch (reMat F) σ) (hσ : 2 ^ (-200 : ℤ) ≤ σ) :
    ∑ i, ∑ j, |(la.mul F Fᵀ i j).re - (reMat F * (reMat F)ᵀ) i j| ≤ 37 * uR * σ ^ 2 ∧
    ∑ i, ∑ j, |(la.mul F Fᵀ i j).re| ≤ 10 * σ ^ 2 := by
  have hp := products_le h
  have hη : 9 * (2 : ℝ) ^ (-1070 : ℤ) ≤ uR * σ ^ 2 := by
    have h1 : (2 : ℝ) ^ (-200 : ℤ) * 2 ^ (-200 : ℤ) ≤ σ ^ 2 := by
      rw [sq]
      exact mul_le_mul hσ hσ (by positivity) (le_trans (by positivity) hσ)
    have h2 := mul_le_mul_of_nonneg_left h1 uR_pos.le
    refine le_trans ?_ h2
    have h3 : uR * ((2 : ℝ) ^ (-200 : ℤ) * 2 ^ (-200 : ℤ)) = 2 ^ (-453 : ℤ) := by
      unfold uR
      rw [← zpow_add₀ (by norm_num), ← zpow_add₀ (by norm_num)]
      norm_num
    have h4 : 9 * (2 : ℝ) ^ (-1070 : ℤ) ≤ 2 ^ (4 : ℤ) * 2 ^ (-1070 : ℤ) :=
      mul_le_mul_of_nonneg_right (by norm_num) (by positivity)
    rw [h3]
    refine h4.trans ?_
    rw [← zpow_add₀ (by norm_num)]
    exact zpow_le_zpow_right₀ (by norm_num) (by norm_num)
  have hu := uR_pos
  have hu1 := uR_le
  have key : ∀ i j, |(la.mul F Fᵀ i j).re - (reMat F * (reMat F)ᵀ) i j| ≤
      4 * uR * ∑ k, |reMat F i k| * |reMat F j k| + 2 ^ (-1070 : ℤ) := fun i j => ha.mul F Fᵀ i j
  have h1 : ∑ i, ∑ j, |(la.mul F Fᵀ i j).re - (reMat F * (reMat F)ᵀ) i j| ≤ 37 * uR * σ ^ 2 := by
    refine (Finset.sum_le_sum fun i _ => Finset.sum_le_sum fun j _ => key i j).trans ?_
    have e : ∑ i, ∑ j, (4 * uR * (∑ k, |reMat F i k| * |reMat F j k|) + (2 : ℝ) ^ (-1070 : ℤ)) =
        4 * uR * (∑ i, ∑ j, ∑ k, |reMat F i k| * |reMat F j k|) + 9 * 2 ^ (-1070 : ℤ) := by
      simp only [Fin.sum_univ_three]
      ring
    rw [e]
    have := mul_le_mul_of_nonneg_left hp (by positivity : 0 ≤ 4 * uR)
    linarith
  refine ⟨h1, ?_⟩
  have h2 : ∑ i, ∑ j, |(la.mul F Fᵀ i j).re| ≤
      (∑ i, ∑ j, |(la.mul F Fᵀ i j).re - (reMat F * (reMat F)ᵀ) i j|) +
        ∑ i, ∑ j, ∑ k, |reMat F i k| * |reMat F j k| := by
    rw [← Finset.sum_add_distrib]
    refine Finset.sum_le_sum fun i _ => ?_
    rw [← Finset.sum_add_distrib]
    refine Finset.sum_le_sum fun j _ => ?_
    have h3 : |(reMat F * (reMat F)ᵀ) i j| ≤ ∑ k, |reMat F i k| * |reMat F j k| := by
      rw [Matrix.mul_apply]
      refine (Finset.abs_sum_le_sum_abs _ _).trans (Finset.sum_le_sum fun k _ => ?_)
      rw [abs_mul, transpose_apply]
    have := abs_sub_abs_le_abs_sub (la.mul F Fᵀ i j).re ((reMat F * (reMat F)ᵀ) i j)
    linarith
  have h4 : uR * σ ^ 2 ≤ 1 / 10 ^ 15 * σ ^ 2 := mul_le_mul_of_nonneg_right hu1 (by positivity)
  nlinarith [sq_nonneg σ]

/-- The largest eigenvalue returned, and its square root. -/
theorem root64x3 {m : Libm} {κ : ℝ} (hm : m.Accurate κ) {la : Linalg} {μ : ℝ} (ha : la.Accurate μ)
    (hμ0 : 0 ≤ μ) (hμ : μ ≤ 1 / 10 ^ 6) (F : Matrix (Fin 3) (Fin 3) Fl) {σ : ℝ}
    (h : IsMaxStretch (reMat F) σ) (hσ : 2 ^ (-200 : ℤ) ≤ σ) :
    ∃ l S : Fl, maxEig64x3 la (la.mul F Fᵀ) = .ok (.fin l) ∧ Val64.sqrt m (.fin l) = .fin S ∧
      |S.re - σ| ≤ (10 * μ + 40 * uR) * σ := by
  have hσ0 : 0 < σ := lt_of_lt_of_le (by positivity) hσ
  have hu := uR_pos
  have hu1 := uR_le
  obtain ⟨t1, t2⟩ := tensor64x3 ha F h hσ
  have hsym := ha.symm F
  have hsym' : (Linalg.real (la.mul F Fᵀ))ᵀ = Linalg.real (la.mul F Fᵀ) := by
    ext i j
    exact congrArg Fl.re (congrFun (congrFun hsym i) j)
  have hs2 : (reMat F * (reMat F)ᵀ)ᵀ = reMat F * (reMat F)ᵀ := by
    rw [transpose_mul, transpose_transpose]
  obtain ⟨w, w1, w2⟩ := ha.eig _ hsym
  obtain ⟨l, hl⟩ := exists_greatest_eigenvalue hsym'
  have hg := greatest_of_maxStretch h
  have a1 := eigenvalue_le_add hs2 hl hg
  have a2 := eigenvalue_le_add hsym' hg hl
  have a3 : ∑ i, ∑ j, |(reMat F * (reMat F)ᵀ) i j - Linalg.real (la.mul F Fᵀ) i j| =
      ∑ i, ∑ j, |(la.mul F Fᵀ i j).re - (reMat F * (reMat F)ᵀ) i j| :=
    Finset.sum_congr rfl fun i _ => Finset.sum_congr rfl fun j _ => abs_sub_comm _ _
  have a4 : ∑ i, ∑ j, |Linalg.real (la.mul F Fᵀ) i j - (reMat F * (reMat F)ᵀ) i j| =
      ∑ i, ∑ j, |(la.mul F Fᵀ i j).re - (reMat F * (reMat F)ᵀ) i j| := rfl
  rw [a3] at a2
  rw [a4] at a1
  have w3 := w2 l hl
  have w4 := mul_le_mul_of_nonneg_left t2 hμ0
  set L := max (max (w 0) (w 1)) (w 2) with hL
  have eL : L.re = max (max (w 0).re (w 1).re) (w 2).re := by rw [hL, Fl.re_max, Fl.re_max]
  rw [← eL] at w3
  have near : |L.re - σ ^ 2| ≤ (10 * μ + 37 * uR) * σ ^ 2 := by
    have := abs_le.1 w3
    rw [abs_le]
    constructor <;> nlinarith
  have hb : 10 * μ + 37 * uR ≤ 1 / 10 ^ 4 := by
    norm_num at hu1 hμ ⊢
    linarith
  have hbσ := mul_le_mul_of_nonneg_right hb (sq_nonneg σ)
  have hL0 : 0 < L.re := by
    have := (abs_le.1 near).1
    nlinarith [sq_pos_of_pos hσ0]
  have hn : ¬ L.val < 0 := by rw [Fl.re_lt_zero]; linarith
  refine ⟨L, m.sqrt L, by rw [maxEig64x3, w1], by rw [Val64.sqrt, if_neg hn], ?_⟩
  have s1 := hm.sqrt L hL0.le
  have s2 : |√L.re - σ| ≤ (10 * μ + 37 * uR) * σ := by
    have h1 := sqrt_near' (a := L.re) (b := σ ^ 2) hL0.le (by positivity)
    rw [Real.sqrt_sq hσ0.le] at h1
    refine h1.trans ?_
    rw [div_le_iff₀ hσ0]
    nlinarith
  have s3 : √L.re ≤ 2 * σ := by
    have := (abs_le.1 s2).2
    have := mul_le_mul_of_nonneg_right hb hσ0.le
    linarith
  have s4 : (2 : ℝ) ^ (-53 : ℤ) = uR := rfl
  rw [s4] at s1
  have s5 := mul_le_mul_of_nonneg_left s3 hu.le
  have s6 := abs_sub_le (m.sqrt L).re (√L.re) σ
  have s7 : 0 < uR * σ := by positivity
  nlinarith

/-- One matrix of the batch. -/
theorem entry64x3 {m : Libm} {κ : ℝ} (hm : m.Accurate κ) (hκ0 : 0 ≤ κ) (hκ : κ ≤ 1 / 100)
    {la : Linalg} {μ : ℝ} (ha : la.Accurate μ) (hμ0 : 0 ≤ μ) (hμ : μ ≤ 1 / 10 ^ 6)
    (F : Matrix (Fin 3) (Fin 3) Fl) {T : Fl} (hT : T.re ≠ 0) (hT' : |T.re| ≤ 2 ^ 1000) {σ : ℝ}
    (h : IsMaxStretch (reMat F) σ) (hσ : 2 ^ (-200 : ℤ) ≤ σ) :
    ∃ l, maxEig64x3 la (la.mul F Fᵀ) = .ok l ∧
      (Val64.smul (1 / T) (Val64.log m (Val64.sqrt m l))).Within (1 / T.re * Real.log σ)
        (1 / |T.re| * (11 * μ + 2 ^ (-47 : ℤ) + (κ + 2 ^ (-51 : ℤ)) * |Real.log σ|)) := by
  have hσ0 : 0 < σ := lt_of_lt_of_le (by positivity) hσ
  have hu := uR_pos
  have hu1 := uR_le
  obtain ⟨u1, -, u3⟩ := uR_values
  obtain ⟨l, S, h1, h2, h3⟩ := root64x3 hm ha hμ0 hμ F h hσ
  refine ⟨.fin l, h1, ?_⟩
  rw [h2]
  obtain ⟨x, x1, x2⟩ := period_near hm hκ0 hκ hσ0 (b := 10 * μ + 40 * uR) (by linarith) (by
    norm_num at hu1 hμ ⊢
    linarith) h3 hT hT'
  refine ⟨x, x1, x2.trans (mul_le_mul_of_nonneg_left ?_ (by positivity))⟩
  rw [← u1, u3]
  nlinarith

/-- The computed Jacobian against exact differences of exact positions. -/
theorem jac64x3_near {X x : Fin 6 → Fin 3 → Fl} {Y : Fin 6 → Fin 3 → ℝ} {E σ : ℝ}
    (h : ∀ b, ‖reVec (X b) - Y b‖ ≤ E)
    (h1 : 2 ^ (-500 : ℤ) ≤ |(x 1 0).re - (x 0 0).re|)
    (h2 : 2 ^ (-500 : ℤ) ≤ |(x 2 1).re - (x 3 1).re|)
    (h3 : 2 ^ (-500 : ℤ) ≤ |(x 4 2).re - (x 5 2).re|)
    (hσ : IsMaxStretch (diffs3 Y fun b => reVec (x b)) σ) :
    ∃ J, centralDiff3 X x = .ok J ∧
      ∑ r, ∑ c, |reMat J r c - diffs3 Y (fun b => reVec (x b)) r c| ≤
        62 / 10 * E * (1 / |(x 1 0).re - (x 0 0).re| + 1 / |(x 2 1).re - (x 3 1).re| +
          1 / |(x 4 2).re - (x 5 2).re|) + uR * (1 + 36 * σ) := by
  have h' : ∀ b c, |(X b c).re - Y b c| ≤ E := fun b c =>
    (norm_le_pi_norm (reVec (X b) - Y b) c).trans (h b)
  have hE : 0 ≤ E := (abs_nonneg _).trans (h' 0 0)
  have q1 := fun r => quot64 (h' 1 r) (h' 0 r) h1
  have q2 := fun r => quot64 (h' 2 r) (h' 3 r) h2
  have q3 := fun r => quot64 (h' 4 r) (h' 5 r) h3
  refine ⟨_, by
    rw [centralDiff3, if_neg]
    rintro (e | e | e)
    · exact (q1 0).1 (by rw [e, Fl.re_zero])
    · exact (q2 0).1 (by rw [e, Fl.re_zero])
    · exact (q3 0).1 (by rw [e, Fl.re_zero]), ?_⟩
  have hu := uR_pos
  set a := 1 / |(x 1 0).re - (x 0 0).re|
  set b := 1 / |(x 2 1).re - (x 3 1).re|
  set c := 1 / |(x 4 2).re - (x 5 2).re|
  have ha : 0 ≤ E * a := by positivity
  have hb : 0 ≤ E * b := by positivity
  have hc : 0 ≤ E * c := by positivity
  have r1 : ∀ r, |((X 1 r - X 0 r) / (x 1 0 - x 0 0)).re -
      (Y 1 r - Y 0 r) / ((x 1 0).re - (x 0 0).re)| ≤
      205 / 100 * (E * a) + 4 * (uR * σ) + 1 / 10 * uR := fun r => by
    have s : |(Y 1 r - Y 0 r) / ((x 1 0).re - (x 0 0).re)| ≤ σ := entry_le_stretch hσ r 0
    have := mul_le_mul_of_nonneg_left s hu.le
    linarith [(q1 r).2]
  have r2 : ∀ r, |((X 2 r - X 3 r) / (x 2 1 - x 3 1)).re -
      (Y 2 r - Y 3 r) / ((x 2 1).re - (x 3 1).re)| ≤
      205 / 100 * (E * b) + 4 * (uR * σ) + 1 / 10 * uR := fun r => by
    have s : |(Y 2 r - Y 3 r) / ((x 2 1).re - (x 3 1).re)| ≤ σ := entry_le_stretch hσ r 1
    have := mul_le_mul_of_nonneg_left s hu.le
    linarith [(q2 r).2]
  have r3 : ∀ r, |((X 4 r - X 5 r) / (x 4 2 - x 5 2)).re -
      (Y 4 r - Y 5 r) / ((x 4 2).re - (x 5 2).re)| ≤
      205 / 100 * (E * c) + 4 * (uR * σ) + 1 / 10 * uR := fun r => by
    have s : |(Y 4 r - Y 5 r) / ((x 4 2).re - (x 5 2).re)| ≤ σ := entry_le_stretch hσ r 2
    have := mul_le_mul_of_nonneg_left s hu.le
    linarith [(q3 r).2]
  have row : ∀ r, |((X 1 r - X 0 r) / (x 1 0 - x 0 0)).re -
      (Y 1 r - Y 0 r) / ((x 1 0).re - (x 0 0).re)| +
      |((X 2 r - X 3 r) / (x 2 1 - x 3 1)).re - (Y 2 r - Y 3 r) / ((x 2 1).re - (x 3 1).re)| +
      |((X 4 r - X 5 r) / (x 4 2 - x 5 2)).re - (Y 4 r - Y 5 r) / ((x 4 2).re - (x 5 2).re)| ≤
      205 / 100 * (E * (a + b + c)) + 12 * (uR * σ) + 3 / 10 * uR := fun r => by
    have := r1 r
    have := r2 r
    have := r3 r
    linarith
  rw [Fin.sum_univ_three, Fin.sum_univ_three, Fin.sum_univ_three, Fin.sum_univ_three]
  have e0 := row 0
  have e1 := row 1
  have e2 := row 2
  refine (add_le_add (add_le_add e0 e1) e2).trans ?_
  nlinarith

/-- One group: Jacobian near `D`, period near `T`. -/
theorem group64x3 {m : Libm} {κ : ℝ} (hm : m.Accurate κ) (hκ0 : 0 ≤ κ) (hκ : κ ≤ 1 / 100)
    {la : Linalg} {μ : ℝ} (ha : la.Accurate μ) (hμ0 : 0 ≤ μ) (hμ : μ ≤ 1 / 10 ^ 6)
    {J : Matrix (Fin 3) (Fin 3) Fl} {D : Matrix (Fin 3) (Fin 3) ℝ} {σ b T : ℝ} {τ : Fl}
    (hD : IsMaxStretch D σ) (hJ : ∑ r, ∑ c, |reMat J r c - D r c| ≤ b)
    (hb : b + 2 ^ (-200 : ℤ) ≤ σ) (hT : 0 < T) (hT' : T ≤ 2 ^ 999)
    (hτ : |τ.re - T| ≤ 21 / 10 * (uR * T)) :
    ∃ l, maxEig64x3 la (la.mul J Jᵀ) = .ok l ∧
      (Val64.smul (1 / τ) (Val64.log m (Val64.sqrt m l))).Within (1 / T * Real.log σ)
        (1 / T * (12 * μ + 2 ^ (-46 : ℤ) + 102 / 100 * (b / (σ - b)) +
          (κ + 2 ^ (-50 : ℤ)) * |Real.log σ|)) := by
  obtain ⟨l, -, -, hs⟩ := entry3 (reMat J)
  set s := √l with hsd
  have hp : (0 : ℝ) < 2 ^ (-200 : ℤ) := by positivity
  have near : |s - σ| ≤ b := by
    have h1 := maxStretch_le_add hs hD
    have h2 := maxStretch_le_add hD hs
    simp only [abs_sub_comm (D _ _)] at h2
    rw [abs_le]
    constructor <;> linarith
  have hs0 : 2 ^ (-200 : ℤ) ≤ s := by linarith [(abs_le.1 near).1]
  obtain ⟨hspos, hlog⟩ := log_error near (by linarith)
  have huT : uR * T ≤ 1 / 1000 * T :=
    mul_le_mul_of_nonneg_right (uR_le.trans (by norm_num)) hT.le
  have hτ0 : 0 < τ.re := by linarith [(abs_le.1 hτ).1]
  have hτ1 : |τ.re| ≤ 2 ^ 1000 := by
    rw [abs_of_pos hτ0]
    have h1 : τ.re ≤ 2 * T := by linarith [(abs_le.1 hτ).2]
    calc τ.re ≤ 2 * T := h1
      _ ≤ 2 * 2 ^ 999 := by linarith
      _ = 2 ^ 1000 := (pow_succ' 2 999).symm
  obtain ⟨l', e1, x, x1, x2⟩ := entry64x3 hm hκ0 hκ ha hμ0 hμ J hτ0.ne' hτ1 hs hs0
  refine ⟨l', e1, x, x1, (exponent64 hT hτ hκ0 hκ (by positivity) hlog x2).trans ?_⟩
  refine mul_le_mul_of_nonneg_left ?_ (by positivity)
  have : 101 / 100 * (11 * μ + (2 : ℝ) ^ (-47 : ℤ)) ≤ 12 * μ + 2 ^ (-46 : ℤ) := by
    norm_num
    linarith
  linarith

end Verif
