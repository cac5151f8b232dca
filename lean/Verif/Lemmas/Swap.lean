import Verif.Spec.Binary64
import Mathlib.Tactic.Linarith
import Mathlib.Algebra.Order.Floor.Ring

/-!
# Exchanging both operands of two subtractions

`SwapLaws` is what the Jacobian needs to be indifferent to the order of opposite neighbours.
It holds in every field and in binary64 arithmetic.
-/

namespace Verif

/-- `(a - b) / (c - d) = (b - a) / (d - c)`, and differences vanish together. -/
class SwapLaws (K : Type*) [Sub K] [Div K] [Zero K] : Prop where
  quot : ∀ a b c d : K, (a - b) / (c - d) = (b - a) / (d - c)
  zero : ∀ a b : K, a - b = 0 ↔ b - a = 0

instance {K : Type*} [Field K] : SwapLaws K where
  quot a b c d := by rw [← neg_sub b a, ← neg_sub d c, neg_div_neg_eq]
  zero a b := by rw [sub_eq_zero, sub_eq_zero, eq_comm]

/-- Rounding to the nearest integer, ties to even, is odd. -/
theorem roundEven_neg (q : ℚ) : roundEven (-q) = -roundEven q := by
  by_cases hz : (⌊q⌋ : ℚ) = q
  · rw [← hz, ← Int.cast_neg, roundEven_int, roundEven_int]
  · have h1 := Int.floor_le q
    have h2 := Int.lt_floor_add_one q
    have h3 : (⌊q⌋ : ℚ) < q := lt_of_le_of_ne h1 hz
    have hf : ⌊-q⌋ = -⌊q⌋ - 1 := by
      rw [Int.floor_eq_iff]
      push_cast
      constructor <;> linarith
    unfold roundEven
    simp only [hf]
    push_cast
    split_ifs <;> first | omega | (exfalso; linarith)

theorem ulpExp_neg (x : ℚ) : ulpExp (-x) = ulpExp x := by simp [ulpExp]

theorem rne_neg (x : ℚ) : rne (-x) = -rne x := by
  unfold rne
  rw [ulpExp_neg, neg_div, roundEven_neg]
  push_cast
  ring

instance : Zero Fl := ⟨⟨0⟩⟩

theorem Fl.sub_swap (a b : Fl) : (a - b).val = -(b - a).val := by
  show rne (a.val - b.val) = -rne (b.val - a.val)
  rw [← rne_neg, neg_sub]

instance : SwapLaws Fl where
  quot a b c d := by
    show (⟨rne ((a - b).val / (c - d).val)⟩ : Fl) = ⟨rne ((b - a).val / (d - c).val)⟩
    rw [Fl.sub_swap a b, Fl.sub_swap c d, neg_div_neg_eq]
  zero a b := by
    have h : ∀ x : Fl, x = 0 ↔ x.val = 0 := fun x => by
      constructor
      · rintro rfl; rfl
      · intro h; cases x; simp only at h; subst h; rfl
    rw [h, h, Fl.sub_swap, neg_eq_zero]

end Verif
