import Verif.Model.Ftle64
import Verif.Props.Rounding

/-!
# Rounding errors as real inequalities

`uR` is the relative, `ηR` the absolute (underflow) error of one operation.
-/

namespace Verif

noncomputable def uR : ℝ := 2 ^ (-53 : ℤ)
noncomputable def ηR : ℝ := 2 ^ (-1075 : ℤ)

theorem uR_pos : 0 < uR := by unfold uR; positivity
theorem ηR_pos : 0 < ηR := by unfold ηR; positivity
theorem uR_le : uR ≤ 1 / 10 ^ 15 := by unfold uR; norm_num

theorem ηR_le : ηR ≤ 1 / 10 ^ 15 := by
  have : ηR ≤ uR := by
    unfold ηR uR
    exact zpow_le_zpow_right₀ (by norm_num) (by norm_num)
  exact this.trans uR_le

theorem rne_real (x : ℚ) : |((rne x : ℚ) : ℝ) - (x : ℝ)| ≤ uR * |(x : ℝ)| + ηR := by
  have h := rne_err x
  have h' : ((|rne x - x| : ℚ) : ℝ) ≤ ((|x| * (2 : ℚ) ^ (-53 : ℤ) + (2 : ℚ) ^ (-1075 : ℤ) : ℚ) : ℝ) :=
    by exact_mod_cast h
  have e1 : (((2 : ℚ) ^ (-53 : ℤ) : ℚ) : ℝ) = uR := by
    unfold uR; push_cast; rfl
  have e2 : (((2 : ℚ) ^ (-1075 : ℤ) : ℚ) : ℝ) = ηR := by
    unfold ηR; rw [Rat.cast_zpow, Rat.cast_ofNat]
  rw [Rat.cast_add, Rat.cast_mul, e1, e2, Rat.cast_abs, Rat.cast_abs, Rat.cast_sub] at h'
  linarith [mul_comm uR |(x : ℝ)|]

namespace Fl

theorem re_add (a b : Fl) : |(a + b).re - (a.re + b.re)| ≤ uR * |a.re + b.re| + ηR := by
  have := rne_real (a.val + b.val)
  push_cast at this
  exact this

theorem re_sub (a b : Fl) : |(a - b).re - (a.re - b.re)| ≤ uR * |a.re - b.re| + ηR := by
  have := rne_real (a.val - b.val)
  push_cast at this
  exact this

theorem re_mul (a b : Fl) : |(a * b).re - a.re * b.re| ≤ uR * |a.re * b.re| + ηR := by
  have := rne_real (a.val * b.val)
  push_cast at this
  exact this

theorem re_div (a b : Fl) : |(a / b).re - a.re / b.re| ≤ uR * |a.re / b.re| + ηR := by
  have := rne_real (a.val / b.val)
  push_cast at this
  exact this

theorem re_max (a b : Fl) : (max a b).re = max a.re b.re := by
  show (if a.val ≤ b.val then b else a).re = _
  by_cases h : a.val ≤ b.val
  · rw [if_pos h, max_eq_right]
    unfold re; exact_mod_cast h
  · rw [if_neg h, max_eq_left]
    unfold re; exact_mod_cast (not_le.1 h).le

theorem re_lt_zero {a : Fl} : a.val < 0 ↔ a.re < 0 := by
  unfold re; exact_mod_cast Iff.rfl

theorem re_eq_zero {a : Fl} : a.val = 0 ↔ a.re = 0 := by
  unfold re; exact_mod_cast Iff.rfl

@[simp] theorem re_one : (1 : Fl).re = 1 := by show ((1 : ℚ) : ℝ) = 1; norm_num
@[simp] theorem re_zero : (0 : Fl).re = 0 := by show ((0 : ℚ) : ℝ) = 0; norm_num
theorem re_half : (NumLits.half : Fl).re = 1 / 2 := by show ((1 / 2 : ℚ) : ℝ) = _; norm_num
theorem re_three_half : (NumLits.onePointFive : Fl).re = 3 / 2 := by
  show ((3 / 2 : ℚ) : ℝ) = _; norm_num
theorem re_two : (NumLits.two : Fl).re = 2 := by show ((2 : ℚ) : ℝ) = _; norm_num
theorem re_six : (NumLits.six : Fl).re = 6 := by show ((6 : ℚ) : ℝ) = _; norm_num
theorem re_four : (⟨4⟩ : Fl).re = 4 := by show ((4 : ℚ) : ℝ) = _; norm_num

end Fl

/-- Rounding of a number known up to an error. -/
theorem round_near {x y y' E Y : ℝ} (h : |x - y| ≤ uR * |y| + ηR) (hy : |y - y'| ≤ E)
    (hY : |y'| ≤ Y) : |x - y'| ≤ E + uR * (Y + E) + ηR := by
  have h1 : |y| ≤ Y + E := by
    have := abs_sub_abs_le_abs_sub y y'
    linarith
  have h2 := mul_le_mul_of_nonneg_left h1 uR_pos.le
  have h3 := abs_sub_le x y y'
  linarith

theorem mul_near {x y x' y' X Y a b : ℝ} (hx : |x - x'| ≤ a) (hy : |y - y'| ≤ b)
    (hX : |x'| ≤ X) (hY : |y'| ≤ Y) : |x * y - x' * y'| ≤ X * b + Y * a + a * b := by
  have e : x * y - x' * y' = x' * (y - y') + y' * (x - x') + (x - x') * (y - y') := by ring
  rw [e]
  have ha : 0 ≤ a := (abs_nonneg _).trans hx
  have hX0 : 0 ≤ X := (abs_nonneg _).trans hX
  have hY0 : 0 ≤ Y := (abs_nonneg _).trans hY
  have h1 : |x' * (y - y')| ≤ X * b := by
    rw [abs_mul]; exact mul_le_mul hX hy (abs_nonneg _) hX0
  have h2 : |y' * (x - x')| ≤ Y * a := by
    rw [abs_mul]; exact mul_le_mul hY hx (abs_nonneg _) hY0
  have h3 : |(x - x') * (y - y')| ≤ a * b := by
    rw [abs_mul]; exact mul_le_mul hx hy (abs_nonneg _) ha
  have := abs_add_le (x' * (y - y') + y' * (x - x')) ((x - x') * (y - y'))
  have := abs_add_le (x' * (y - y')) (y' * (x - x'))
  linarith

theorem add_near {x y x' y' a b : ℝ} (hx : |x - x'| ≤ a) (hy : |y - y'| ≤ b) :
    |x + y - (x' + y')| ≤ a + b := by
  rw [show x + y - (x' + y') = (x - x') + (y - y') by ring]
  exact (abs_add_le _ _).trans (add_le_add hx hy)

theorem sub_near {x y x' y' a b : ℝ} (hx : |x - x'| ≤ a) (hy : |y - y'| ≤ b) :
    |x - y - (x' - y')| ≤ a + b := by
  rw [show x - y - (x' - y') = (x - x') - (y - y') by ring]
  exact (abs_sub _ _).trans (add_le_add hx hy)

end Verif
