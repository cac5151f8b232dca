import Verif.Model.Ftle
import Verif.Spec.Binary64

/-!
# C66: the 2x2 eigenvalue routine in binary64

The model of `ftle.py` is polymorphic in the scalar type; here it is run in binary64 (`Fl`:
every operation is rounded to nearest, ties to even).  `np.sqrt` of a negative number is NaN.
-/

namespace Verif

/-- The number under the square root of `max_eigenvalue_2x2`, in binary64. -/
def disc64 (F : Matrix (Fin 2) (Fin 2) Fl) : ℚ := (disc2 (⟨4⟩ : Fl) (cauchyGreen2 F)).val

/-- A diagonal matrix of two stretches. -/
def stretch64 (a d : ℚ) : Matrix (Fin 2) (Fin 2) Fl := !![⟨a⟩, ⟨0⟩; ⟨0⟩, ⟨d⟩]

/-- **C66 is false of the code**: for the two stretches `1 + 2^-26` and `1 + 2^-27`, both
binary64 numbers, the number under the square root is negative, so the FTLE is NaN, although the
exact eigenvalues are these stretches squared. -/
theorem C66_fails : ∃ a d : ℚ, IsB64 a ∧ IsB64 d ∧ 1 ≤ a ∧ a ≤ 2 ∧ 1 ≤ d ∧ d ≤ 2 ∧
    disc64 (stretch64 a d) < 0 := by
  refine ⟨1 + 2 / 2 ^ 27, 1 + 1 / 2 ^ 27,
    ⟨2 ^ 27 + 2, -27, by norm_num, by norm_num, by norm_num, by norm_num⟩,
    ⟨2 ^ 27 + 1, -27, by norm_num, by norm_num, by norm_num, by norm_num⟩,
    by norm_num, by norm_num, by norm_num, by norm_num, ?_⟩
  decide +kernel

theorem rne_nonneg {x : ℚ} (hx : 0 ≤ x) : 0 ≤ rne x := by
  have hp : (0 : ℚ) < (2 : ℚ) ^ ulpExp x := by positivity
  have hq : 0 ≤ x / (2 : ℚ) ^ ulpExp x := by positivity
  have : 0 ≤ roundEven (x / (2 : ℚ) ^ ulpExp x) := by
    have := Int.floor_nonneg.2 hq
    unfold roundEven
    dsimp only
    split_ifs <;> omega
  unfold rne
  have : (0 : ℚ) ≤ roundEven (x / (2 : ℚ) ^ ulpExp x) := by exact_mod_cast this
  positivity

/-- Error of one operation, including underflow. -/
theorem rne_err (x : ℚ) : |rne x - x| ≤ |x| * (2 : ℚ) ^ (-53 : ℤ) + (2 : ℚ) ^ (-1075 : ℤ) := by
  by_cases hx0 : x = 0
  · subst hx0
    rw [rne_zero]
    simp
  by_cases hx : (2 : ℚ) ^ (-1022 : ℤ) ≤ |x|
  · have := rne_rel hx
    have h0 : (0 : ℚ) < (2 : ℚ) ^ (-1075 : ℤ) := by positivity
    linarith
  · rw [not_le] at hx
    have hu : ulpExp x = -1074 := by
      have := (Int.lt_zpow_iff_log_lt (b := 2) (by norm_num) (abs_pos.2 hx0) (x := -1022)).1
        (by exact_mod_cast hx)
      unfold ulpExp
      omega
    have := rne_near x
    rw [hu] at this
    have e : (2 : ℚ) ^ (-1074 : ℤ) / 2 = (2 : ℚ) ^ (-1075 : ℤ) := by
      rw [show (-1074 : ℤ) = -1075 + 1 by norm_num, zpow_add₀ (by norm_num), zpow_one]
      ring
    rw [e] at this
    have h0 : 0 ≤ |x| * (2 : ℚ) ^ (-53 : ℤ) := by positivity
    linarith

/-- Multiplication by four is exact (no overflow in this model). -/
theorem rne_four {x : ℚ} (hx : OnGrid x) : rne (4 * x) = 4 * x := by
  obtain ⟨m, e, hm, he, rfl⟩ := hx
  refine rne_onGrid ⟨m, e + 2, hm, by omega, ?_⟩
  rw [zpow_add₀ (by norm_num)]
  norm_num
  ring

/-- The discriminant step by step. -/
theorem disc64_eq (C : Matrix (Fin 2) (Fin 2) Fl) :
    (disc2 (⟨4⟩ : Fl) C).val =
      rne (rne (rne ((C 0 0).val + (C 1 1).val) * rne ((C 0 0).val + (C 1 1).val)) -
        4 * rne (rne ((C 0 0).val * (C 1 1).val) - rne ((C 0 1).val * (C 1 0).val))) := by
  rw [← rne_four (onGrid_rne _)]
  rfl

/-- The computed tensor is exactly symmetric with non-negative diagonal. -/
theorem cauchyGreen64 (F : Matrix (Fin 2) (Fin 2) Fl) :
    cauchyGreen2 F 0 1 = cauchyGreen2 F 1 0 ∧ 0 ≤ (cauchyGreen2 F 0 0).val ∧
      0 ≤ (cauchyGreen2 F 1 1).val := by
  have hc : ∀ a b : Fl, a * b = b * a := fun a b => by
    change Fl.mk (rne (a.val * b.val)) = Fl.mk (rne (b.val * a.val))
    rw [mul_comm]
  have hs : ∀ a : Fl, 0 ≤ (a * a).val := fun a => rne_nonneg (mul_self_nonneg _)
  have ha : ∀ a b : Fl, 0 ≤ a.val → 0 ≤ b.val → 0 ≤ (a + b).val :=
    fun a b h1 h2 => rne_nonneg (add_nonneg h1 h2)
  refine ⟨?_, ?_, ?_⟩
  · simp [cauchyGreen2, hc (F 0 1), hc (F 1 1)]
  · simpa [cauchyGreen2] using ha _ _ (hs _) (hs _)
  · simpa [cauchyGreen2] using ha _ _ (hs _) (hs _)

/-- The estimate behind `C66_gap_partial`, with `u` the relative and `η` the absolute error of an
operation. -/
theorem disc_estimate {u η s t q X Y P Q d : ℚ} (hu : 0 < u) (hu1 : u ≤ 1 / 100) (hη : 0 ≤ η)
    (hs : 0 < s) (hXs : X ≤ s * s)
    (hgap : 7 * u * (s * s) ≤ s * s - X + Y) (hsm : 16 * η ≤ u * (s * s) / 2)
    (ht : s * (1 - u) ≤ t) (hq : t * t * (1 - u) ≤ q)
    (hP : 4 * P ≤ X * (1 + u) + 4 * η) (hQ : Y * (1 - u) - 4 * η ≤ 4 * Q)
    (hd : d ≤ P - Q + |P - Q| * u + η) : 4 * d ≤ q := by
  have hS : 0 < s * s := by positivity
  have h1 : s * s * ((1 - u) * (1 - u)) ≤ t * t := by
    have : 0 ≤ s * (1 - u) := by nlinarith
    nlinarith
  have h2 : s * s * ((1 - u) * (1 - u) * (1 - u)) ≤ q := by
    have : 0 ≤ 1 - u := by linarith
    nlinarith
  have h2' : s * s * (1 - 3 * u) ≤ q := by
    have : (1 - 3 * u) ≤ (1 - u) * (1 - u) * (1 - u) := by
      have : 0 ≤ u * u * (3 - u) := mul_nonneg (by positivity) (by linarith)
      nlinarith
    have := mul_le_mul_of_nonneg_left this hS.le
    linarith
  rcases le_total 0 (P - Q) with h | h
  · rw [abs_of_nonneg h] at hd
    have h3 : 4 * d ≤ 4 * (P - Q) * (1 + u) + 4 * η := by linarith
    have h4 : 4 * (P - Q) ≤ X * (1 + u) - Y * (1 - u) + 8 * η := by linarith
    have h5 : 4 * (P - Q) * (1 + u) ≤ (X * (1 + u) - Y * (1 - u) + 8 * η) * (1 + u) :=
      mul_le_mul_of_nonneg_right h4 (by linarith)
    have h6 : 8 * η * (1 + u) ≤ 9 * η := by nlinarith
    have h7 : (s * s - X + Y - 7 * u * (s * s)) * (1 - u * u) ≥ 0 := by
      apply mul_nonneg <;> nlinarith
    have h8 : X * (1 + u) * (1 + u) - Y * (1 - u) * (1 + u) ≤
        (s * s) * (1 - u * u) - 7 * u * (s * s) * (1 - u * u) + X * (2 * u + 2 * (u * u)) := by
      nlinarith
    have h9 : X * (2 * u + 2 * (u * u)) ≤ (s * s) * (2 * u + 2 * (u * u)) :=
      mul_le_mul_of_nonneg_right hXs (by positivity)
    have h10 : (s * s) * (1 - u * u) - 7 * u * (s * s) * (1 - u * u) +
        (s * s) * (2 * u + 2 * (u * u)) ≤ s * s * (1 - 3 * u) - u * (s * s) := by
      have : (1 - u * u) - 7 * u * (1 - u * u) + (2 * u + 2 * (u * u)) ≤ 1 - 3 * u - u := by
        nlinarith [mul_pos hu hu, mul_pos hu (mul_pos hu hu)]
      nlinarith
    linarith
  · rw [abs_of_nonpos h] at hd
    have : 4 * d ≤ 4 * η := by nlinarith
    nlinarith

/-- **C66** (what holds).  If the two eigenvalues of the computed tensor are separated by more
than rounding level — their squared difference `(A - D)² + 4 B²` is at least `7 · 2^-53` of the
squared trace — and the trace is at least `2^-500`, the number under the square root is
non-negative.  Missing: nearly equal stretches, for which it may be negative (`C66_fails`). -/
theorem C66_gap_partial (F : Matrix (Fin 2) (Fin 2) Fl) {A B D : ℚ}
    (hA : (cauchyGreen2 F 0 0).val = A) (hB : (cauchyGreen2 F 0 1).val = B)
    (hD : (cauchyGreen2 F 1 1).val = D) (hsize : (2 : ℚ) ^ (-500 : ℤ) ≤ A + D)
    (hgap : 7 * (2 : ℚ) ^ (-53 : ℤ) * (A + D) ^ 2 ≤ (A - D) ^ 2 + 4 * B ^ 2) :
    0 ≤ disc64 F := by
  obtain ⟨h1, h2, h3⟩ := cauchyGreen64 F
  rw [hA] at h2
  rw [hD] at h3
  have hC : (cauchyGreen2 F 1 0).val = B := by rw [← h1, hB]
  rw [disc64, disc64_eq, hA, hD, hB, hC]
  apply rne_nonneg
  rw [sub_nonneg]
  have hs : 0 < A + D := lt_of_lt_of_le (by positivity) hsize
  have hAD : 0 ≤ A * D := mul_nonneg h2 h3
  have hBB : 0 ≤ B * B := mul_self_nonneg B
  have hn : (2 : ℚ) ^ (-1022 : ℤ) ≤ (2 : ℚ) ^ (-500 : ℤ) :=
    zpow_le_zpow_right₀ (by norm_num) (by norm_num)
  have ht := rne_rel (x := A + D) (by rw [abs_of_pos hs]; linarith)
  rw [abs_of_pos hs, abs_le] at ht
  have hu : (0 : ℚ) < (2 : ℚ) ^ (-53 : ℤ) := by positivity
  have hu1 : (2 : ℚ) ^ (-53 : ℤ) ≤ 1 / 100 := by norm_num
  have ht' : (A + D) * (1 - (2 : ℚ) ^ (-53 : ℤ)) ≤ rne (A + D) := by linarith [ht.1]
  have htt : (2 : ℚ) ^ (-1022 : ℤ) ≤ rne (A + D) * rne (A + D) := by
    have h5 : (2 : ℚ) ^ (-501 : ℤ) ≤ rne (A + D) := by
      have : (2 : ℚ) ^ (-501 : ℤ) = (2 : ℚ) ^ (-500 : ℤ) / 2 := by
        rw [show (-501 : ℤ) = -500 + -1 by norm_num, zpow_add₀ (by norm_num), zpow_neg_one,
          div_eq_mul_inv]
      rw [this]
      have h6 : (A + D) * (1 / 2) ≤ (A + D) * (1 - (2 : ℚ) ^ (-53 : ℤ)) :=
        mul_le_mul_of_nonneg_left (by linarith) hs.le
      rw [div_eq_mul_one_div]
      exact ((mul_le_mul_of_nonneg_right hsize (by norm_num)).trans h6).trans ht'
    have h6 : (2 : ℚ) ^ (-1022 : ℤ) ≤ (2 : ℚ) ^ (-501 : ℤ) * (2 : ℚ) ^ (-501 : ℤ) := by
      rw [← zpow_add₀ (by norm_num)]
      exact zpow_le_zpow_right₀ (by norm_num) (by norm_num)
    have h7 : (0 : ℚ) < (2 : ℚ) ^ (-501 : ℤ) := by positivity
    exact h6.trans (mul_le_mul h5 h5 h7.le (h7.le.trans h5))
  have hpos : 0 ≤ rne (A + D) * rne (A + D) := mul_self_nonneg _
  have hq := rne_rel (x := rne (A + D) * rne (A + D)) (by rw [abs_of_nonneg hpos]; exact htt)
  rw [abs_of_nonneg hpos, abs_le] at hq
  have hP := (abs_le.1 (rne_err (A * D))).2
  rw [abs_of_nonneg hAD] at hP
  have hQ := (abs_le.1 (rne_err (B * B))).1
  rw [abs_of_nonneg hBB] at hQ
  have hd := (abs_le.1 (rne_err (rne (A * D) - rne (B * B)))).2
  refine disc_estimate (u := (2 : ℚ) ^ (-53 : ℤ)) (η := (2 : ℚ) ^ (-1075 : ℤ)) (s := A + D)
    (t := rne (A + D)) (X := 4 * (A * D)) (Y := 4 * (B * B)) (P := rne (A * D))
    (Q := rne (B * B)) hu hu1 (by positivity) hs ?_ ?_ ?_ ht'
    (by linarith [hq.1]) (by linarith) (by linarith) (by linarith)
  · nlinarith [sq_nonneg (A - D)]
  · nlinarith
  · have h5 : (2 : ℚ) ^ (-500 : ℤ) * (2 : ℚ) ^ (-500 : ℤ) ≤ (A + D) * (A + D) :=
      mul_le_mul hsize hsize (by positivity) hs.le
    have h6 : 16 * (2 : ℚ) ^ (-1075 : ℤ) ≤
        (2 : ℚ) ^ (-53 : ℤ) * ((2 : ℚ) ^ (-500 : ℤ) * (2 : ℚ) ^ (-500 : ℤ)) / 2 := by
      have e1 : (2 : ℚ) ^ (-53 : ℤ) * ((2 : ℚ) ^ (-500 : ℤ) * (2 : ℚ) ^ (-500 : ℤ)) / 2 =
          (2 : ℚ) ^ (-1054 : ℤ) := by
        rw [← zpow_add₀ (by norm_num), ← zpow_add₀ (by norm_num),
          show (-1054 : ℤ) = -53 + (-500 + -500) + -1 by norm_num, zpow_add₀ (by norm_num) _ (-1),
          zpow_neg_one, div_eq_mul_inv]
      have e2 : 16 * (2 : ℚ) ^ (-1075 : ℤ) = (2 : ℚ) ^ (-1071 : ℤ) := by
        rw [show (-1071 : ℤ) = 4 + -1075 by norm_num, zpow_add₀ (by norm_num)]
        congr 1
      rw [e1, e2]
      exact zpow_le_zpow_right₀ (by norm_num) (by norm_num)
    have h7 := mul_le_mul_of_nonneg_left h5 hu.le
    linarith

/-- The hypotheses hold for a shear. -/
example : 0 ≤ disc64 !![⟨1⟩, ⟨1⟩; ⟨0⟩, ⟨1⟩] := by
  refine C66_gap_partial _ (A := 1) (B := 1) (D := 2) (by decide +kernel) (by decide +kernel)
    (by decide +kernel) ?_ ?_
  · have : (2 : ℚ) ^ (-500 : ℤ) ≤ 2 ^ (0 : ℤ) := zpow_le_zpow_right₀ (by norm_num) (by norm_num)
    rw [zpow_zero] at this
    linarith
  · norm_num

theorem rne_mul_four {x : ℚ} (hx : (2 : ℚ) ^ (-1022 : ℤ) ≤ |x|) : rne (4 * x) = 4 * rne x := by
  have h0 : 0 < |x| := lt_of_lt_of_le (by positivity) hx
  have h1 : (2 : ℚ) ^ (Int.log 2 |x|) ≤ |x| := by
    have := Int.zpow_log_le_self (b := 2) (by norm_num) h0
    exact_mod_cast this
  have h2 : |x| < (2 : ℚ) ^ (Int.log 2 |x| + 1) := by
    have := Int.lt_zpow_succ_log_self (b := 2) (by norm_num) |x|
    exact_mod_cast this
  have hm : -1022 ≤ Int.log 2 |x| :=
    (Int.zpow_le_iff_le_log (b := 2) (by norm_num) h0).1 (by exact_mod_cast hx)
  have h4 : |4 * x| = 4 * |x| := by rw [abs_mul]; norm_num
  have e4 : ∀ k : ℤ, (2 : ℚ) ^ (k + 2) = 4 * (2 : ℚ) ^ k := fun k => by
    rw [zpow_add₀ (by norm_num)]
    norm_num
    ring
  rw [rne_eval h1 h2 hm, rne_eval (x := 4 * x) (e := Int.log 2 |x| + 2)
    (by rw [h4, e4]; linarith)
    (by rw [h4, show Int.log 2 |x| + 2 + 1 = (Int.log 2 |x| + 1) + 2 by ring, e4]; linarith)
    (by omega)]
  rw [show Int.log 2 |x| + 2 - 52 = (Int.log 2 |x| - 52) + 2 by ring, e4,
    mul_div_mul_left _ _ (by norm_num)]
  ring

/-- **C66** (what holds): equal stretches without shear are no problem; the number under the root
is exactly zero. -/
theorem C66_isotropic_partial (F : Matrix (Fin 2) (Fin 2) Fl) {A : ℚ}
    (hA : (cauchyGreen2 F 0 0).val = A) (hB : (cauchyGreen2 F 0 1).val = 0)
    (hD : (cauchyGreen2 F 1 1).val = A) (hsize : (2 : ℚ) ^ (-500 : ℤ) ≤ A) :
    disc64 F = 0 := by
  obtain ⟨h1, h2, h3⟩ := cauchyGreen64 F
  have hC : (cauchyGreen2 F 1 0).val = 0 := by rw [← h1, hB]
  have hg : OnGrid A := by
    rw [← hA]
    exact onGrid_rne _
  have hg2 : rne (A + A) = 2 * A := by
    obtain ⟨m, e, hm, he, rfl⟩ := hg
    have : (m : ℚ) * 2 ^ e + m * 2 ^ e = m * 2 ^ (e + 1) := by
      rw [zpow_add₀ (by norm_num), zpow_one]
      ring
    rw [this, rne_onGrid ⟨m, e + 1, hm, by omega, rfl⟩, ← this]
    ring
  have hAA : (2 : ℚ) ^ (-1022 : ℤ) ≤ |A * A| := by
    rw [abs_mul_self]
    have h5 : (2 : ℚ) ^ (-500 : ℤ) * (2 : ℚ) ^ (-500 : ℤ) ≤ A * A :=
      mul_le_mul hsize hsize (by positivity) ((by positivity : (0 : ℚ) ≤ _).trans hsize)
    refine le_trans ?_ h5
    rw [← zpow_add₀ (by norm_num)]
    exact zpow_le_zpow_right₀ (by norm_num) (by norm_num)
  rw [disc64, disc64_eq, hA, hD, hB, hC, hg2, mul_zero, rne_zero, sub_zero, rne_rne,
    show 2 * A * (2 * A) = 4 * (A * A) by ring, rne_mul_four hAA, sub_self, rne_zero]

/-- A rotation by 90 degrees with stretch 3. -/
example : disc64 !![⟨0⟩, ⟨-3⟩; ⟨3⟩, ⟨0⟩] = 0 := by
  refine C66_isotropic_partial _ (A := 9) (by decide +kernel) (by decide +kernel)
    (by decide +kernel) ?_
  have : (2 : ℚ) ^ (-500 : ℤ) ≤ 2 ^ (0 : ℤ) := zpow_le_zpow_right₀ (by norm_num) (by norm_num)
  rw [zpow_zero] at this
  linarith

end Verif
