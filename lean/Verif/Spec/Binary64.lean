import Mathlib.Algebra.Order.Field.Power
import Mathlib.Data.Int.Log
import Mathlib.Data.Rat.Floor
import Mathlib.Tactic.Linarith
import Mathlib.Tactic.Positivity
import Mathlib.Tactic.FieldSimp
import Mathlib.Tactic.Ring
import Mathlib.Tactic.NormNum

/-!
# Specification: IEEE-754 binary64

Finite binary64 numbers are rational numbers `m · 2^e` with `|m| < 2^53` and
`-1074 ≤ e ≤ 971`.  An arithmetic operation returns the rounding (to nearest, ties to even)
of its exact result.  Signed zeros are identified; a result whose rounding exceeds the largest
finite number is an infinity, `none`.
-/

namespace Verif

/-- `x` is a finite binary64 number. -/
def IsB64 (x : ℚ) : Prop :=
  ∃ m e : ℤ, |m| < 2 ^ 53 ∧ -1074 ≤ e ∧ e ≤ 971 ∧ x = m * (2 : ℚ) ^ e

/-- Nearest integer, ties to even. -/
def roundEven (q : ℚ) : ℤ :=
  let f := ⌊q⌋
  if q - f < 1 / 2 then f
  else if 1 / 2 < q - f then f + 1
  else if f % 2 = 0 then f else f + 1

/-- Exponent of the unit in the last place of numbers of the magnitude of `x`. -/
def ulpExp (x : ℚ) : ℤ := max (Int.log 2 |x| - 52) (-1074)

/-- Rounding to the binary64 grid without the upper bound on the exponent. -/
def rne (x : ℚ) : ℚ := roundEven (x / (2 : ℚ) ^ ulpExp x) * (2 : ℚ) ^ ulpExp x

/-- The result of an operation whose exact result is `x`; `none` is an infinity. -/
def b64 (x : ℚ) : Option ℚ := if |rne x| < (2 : ℚ) ^ 1024 then some (rne x) else none

theorem roundEven_int (n : ℤ) : roundEven n = n := by
  simp [roundEven]

theorem roundEven_near (q : ℚ) : |(roundEven q : ℚ) - q| ≤ 1 / 2 := by
  have h1 := Int.floor_le q
  have h2 := Int.lt_floor_add_one q
  unfold roundEven
  dsimp only
  split
  · rw [abs_le]; constructor <;> linarith
  · split
    · rw [abs_le]; constructor <;> push_cast at * <;> linarith
    · have : q - ⌊q⌋ = 1 / 2 := le_antisymm (not_lt.1 ‹_›) (not_lt.1 ‹_›)
      split
      · rw [abs_le]; constructor <;> linarith
      · rw [abs_le]; constructor <;> push_cast at * <;> linarith

/-- Rounding moves a number by at most half a unit in the last place. -/
theorem rne_near (x : ℚ) : |rne x - x| ≤ (2 : ℚ) ^ ulpExp x / 2 := by
  have hp : (0 : ℚ) < (2 : ℚ) ^ ulpExp x := by positivity
  have h := roundEven_near (x / (2 : ℚ) ^ ulpExp x)
  have e : rne x - x = ((roundEven (x / (2 : ℚ) ^ ulpExp x) : ℚ) - x / (2 : ℚ) ^ ulpExp x) *
      (2 : ℚ) ^ ulpExp x := by
    unfold rne
    field_simp
  rw [e, abs_mul, abs_of_pos hp]
  nlinarith

theorem ulpExp_eq {x : ℚ} {e : ℤ} (h1 : (2 : ℚ) ^ e ≤ |x|) (h2 : |x| < (2 : ℚ) ^ (e + 1)) :
    ulpExp x = max (e - 52) (-1074) := by
  have h0 : 0 < |x| := lt_of_lt_of_le (by positivity) h1
  have : Int.log 2 |x| = e := by
    apply le_antisymm
    · have := (Int.lt_zpow_iff_log_lt (b := 2) (by norm_num) h0 (x := e + 1)).1 (by exact_mod_cast h2)
      omega
    · exact (Int.zpow_le_iff_le_log (b := 2) (by norm_num) h0).1 (by exact_mod_cast h1)
  rw [ulpExp, this]

/-- Relative error in the normal range. -/
theorem rne_rel {x : ℚ} (hx : (2 : ℚ) ^ (-1022 : ℤ) ≤ |x|) :
    |rne x - x| ≤ |x| * (2 : ℚ) ^ (-53 : ℤ) := by
  have h0 : 0 < |x| := lt_of_lt_of_le (by positivity) hx
  have hl : (2 : ℚ) ^ (Int.log 2 |x|) ≤ |x| := by
    have := Int.zpow_log_le_self (b := 2) (by norm_num) h0
    exact_mod_cast this
  have hm : -1022 ≤ Int.log 2 |x| :=
    (Int.zpow_le_iff_le_log (b := 2) (by norm_num) h0).1 (by exact_mod_cast hx)
  refine (rne_near x).trans ?_
  have : ulpExp x = Int.log 2 |x| - 52 := by unfold ulpExp; omega
  rw [this]
  have e : (2 : ℚ) ^ (Int.log 2 |x| - 52) / 2 = (2 : ℚ) ^ (Int.log 2 |x|) * 2 ^ (-53 : ℤ) := by
    rw [show Int.log 2 |x| - 52 = Int.log 2 |x| + (-53) + 1 by ring,
      zpow_add₀ (by norm_num), zpow_add₀ (by norm_num), zpow_one]
    ring
  rw [e]
  exact mul_le_mul_of_nonneg_right hl (by positivity)

/-- The binary64 grid without the upper bound on the exponent. -/
def OnGrid (x : ℚ) : Prop := ∃ m e : ℤ, |m| < 2 ^ 53 ∧ -1074 ≤ e ∧ x = m * (2 : ℚ) ^ e

theorem rne_onGrid {x : ℚ} (hx : OnGrid x) : rne x = x := by
  obtain ⟨m, e, hm, he, rfl⟩ := hx
  set x : ℚ := m * (2 : ℚ) ^ e with hxd
  -- the ulp exponent does not exceed `e`
  have hle : ulpExp x ≤ e ∨ m = 0 := by
    by_cases h0 : m = 0
    · exact Or.inr h0
    · left
      have hpos : 0 < |x| := by
        rw [hxd, abs_mul]
        have : 0 < |(m : ℚ)| := abs_pos.2 (by exact_mod_cast h0)
        positivity
      have hlt : |x| < (2 : ℚ) ^ (e + 53) := by
        rw [hxd, abs_mul, abs_of_pos (show (0 : ℚ) < 2 ^ e by positivity), zpow_add₀ (by norm_num),
          mul_comm]
        apply mul_lt_mul_of_pos_left _ (by positivity)
        exact_mod_cast hm
      have := (Int.lt_zpow_iff_log_lt (b := 2) (by norm_num) hpos (x := e + 53)).1
        (by exact_mod_cast hlt)
      unfold ulpExp
      omega
  rcases hle with h | h
  · have : x / (2 : ℚ) ^ ulpExp x = ((m * 2 ^ (e - ulpExp x).toNat : ℤ) : ℚ) := by
      have e1 : e = ulpExp x + ((e - ulpExp x).toNat : ℤ) := by omega
      rw [div_eq_iff (by positivity), hxd]
      conv_lhs => rw [e1]
      rw [zpow_add₀ (by norm_num), zpow_natCast]
      push_cast
      ring
    unfold rne
    rw [this, roundEven_int, ← this]
    field_simp
  · have : x = 0 := by rw [hxd, h]; simp
    rw [this]
    simp [rne, roundEven]

/-- A binary64 number is its own rounding. -/
theorem rne_self {x : ℚ} (hx : IsB64 x) : rne x = x := by
  obtain ⟨m, e, hm, he, -, h⟩ := hx
  exact rne_onGrid ⟨m, e, hm, he, h⟩

/-- The rounding lies on the grid. -/
theorem onGrid_rne (x : ℚ) : OnGrid (rne x) := by
  have hE : -1074 ≤ ulpExp x := le_max_right _ _
  set n := roundEven (x / (2 : ℚ) ^ ulpExp x) with hn
  have hle : |n| ≤ 2 ^ 53 := by
    have hq : |x / (2 : ℚ) ^ ulpExp x| < 2 ^ 53 := by
      rw [abs_div, abs_of_pos (show (0 : ℚ) < 2 ^ ulpExp x by positivity),
        div_lt_iff₀ (by positivity)]
      by_cases h0 : x = 0
      · rw [h0]; simp; positivity
      · have h1 := Int.lt_zpow_succ_log_self (b := 2) (by norm_num) |x|
        have h2 : (2 : ℚ) ^ (Int.log 2 |x| + 1) ≤ 2 ^ (53 + ulpExp x) := by
          apply zpow_le_zpow_right₀ (by norm_num)
          unfold ulpExp
          omega
        rw [zpow_add₀ (by norm_num) 53] at h2
        refine lt_of_lt_of_le ?_ h2
        exact_mod_cast h1
    have h3 := roundEven_near (x / (2 : ℚ) ^ ulpExp x)
    rw [← hn] at h3
    have h4 : |(n : ℚ)| < 2 ^ 53 + 1 := by
      have := abs_sub_abs_le_abs_sub (n : ℚ) (x / (2 : ℚ) ^ ulpExp x)
      linarith
    have h5 : |n| < 2 ^ 53 + 1 := by exact_mod_cast h4
    omega
  rcases lt_or_eq_of_le hle with h | h
  · exact ⟨n, ulpExp x, h, hE, rfl⟩
  · obtain ⟨s, hs, hns⟩ : ∃ s : ℤ, |s| = 1 ∧ n = s * 2 ^ 53 := by
      rcases abs_choice n with hc | hc
      · exact ⟨1, by norm_num, by omega⟩
      · exact ⟨-1, by norm_num, by omega⟩
    refine ⟨s * 2 ^ 52, ulpExp x + 1, ?_, by omega, ?_⟩
    · rw [abs_mul, hs]; norm_num
    · unfold rne
      rw [← hn, hns, zpow_add₀ (by norm_num), zpow_one]
      push_cast
      ring

/-- Rounding is idempotent. -/
theorem rne_rne (x : ℚ) : rne (rne x) = rne x := rne_onGrid (onGrid_rne x)

theorem rne_nat {k : ℕ} (hk : k < 2 ^ 53) : rne k = k :=
  rne_onGrid ⟨k, 0, by rw [Nat.abs_cast]; exact_mod_cast hk, by norm_num, by simp⟩

theorem rne_zero : rne 0 = 0 := by simpa using rne_nat (k := 0) (by norm_num)

/-- Evaluation with a known exponent. -/
theorem rne_eval {x : ℚ} {e : ℤ} (h1 : (2 : ℚ) ^ e ≤ |x|) (h2 : |x| < (2 : ℚ) ^ (e + 1))
    (he : -1022 ≤ e) :
    rne x = roundEven (x / (2 : ℚ) ^ (e - 52)) * (2 : ℚ) ^ (e - 52) := by
  have : ulpExp x = e - 52 := by rw [ulpExp_eq h1 h2]; omega
  rw [rne, this]

example : IsB64 (1 / 4) := ⟨1, -2, by norm_num, by norm_num, by norm_num, by norm_num⟩

/-- Binary64 arithmetic on rational values (results that do not overflow; signed zeros are
identified). -/
structure Fl where
  val : ℚ
  deriving DecidableEq

instance : Add Fl := ⟨fun a b => ⟨rne (a.val + b.val)⟩⟩
instance : Sub Fl := ⟨fun a b => ⟨rne (a.val - b.val)⟩⟩
instance : Mul Fl := ⟨fun a b => ⟨rne (a.val * b.val)⟩⟩
instance : Div Fl := ⟨fun a b => ⟨rne (a.val / b.val)⟩⟩
instance : NatCast Fl := ⟨fun n => ⟨rne n⟩⟩

end Verif
