import Verif.Spec.Binary64

/-!
# Helper lemmas: rounding is to nearest and monotone
-/

namespace Verif

theorem roundEven_nearest (q : ℚ) (n : ℤ) : |(roundEven q : ℚ) - q| ≤ |(n : ℚ) - q| := by
  have h1 := Int.floor_le q
  have h2 := Int.lt_floor_add_one q
  rcases le_or_gt n ⌊q⌋ with h | h
  · have h3 : (n : ℚ) ≤ ⌊q⌋ := by exact_mod_cast h
    rw [abs_of_nonpos (by linarith : (n : ℚ) - q ≤ 0)]
    unfold roundEven
    dsimp only
    split
    · rw [abs_of_nonpos (by linarith)]; linarith
    · split
      · rw [abs_of_nonneg (by push_cast; linarith)]; push_cast; linarith
      · have : q - ⌊q⌋ = 1 / 2 := le_antisymm (not_lt.1 ‹_›) (not_lt.1 ‹_›)
        split
        · rw [abs_of_nonpos (by linarith)]; linarith
        · rw [abs_of_nonneg (by push_cast; linarith)]; push_cast; linarith
  · have h3 : (⌊q⌋ : ℚ) + 1 ≤ n := by exact_mod_cast h
    rw [abs_of_nonneg (by linarith : 0 ≤ (n : ℚ) - q)]
    unfold roundEven
    dsimp only
    split
    · rw [abs_of_nonpos (by linarith)]; linarith
    · split
      · rw [abs_of_nonneg (by push_cast; linarith)]; push_cast; linarith
      · have : q - ⌊q⌋ = 1 / 2 := le_antisymm (not_lt.1 ‹_›) (not_lt.1 ‹_›)
        split
        · rw [abs_of_nonpos (by linarith)]; linarith
        · rw [abs_of_nonneg (by push_cast; linarith)]; push_cast; linarith

/-- No number of the grid is closer to `x` than its rounding. -/
theorem rne_nearest (x : ℚ) {g : ℚ} (hg : OnGrid g) : |rne x - x| ≤ |g - x| := by
  by_cases hx0 : x = 0
  · rw [hx0, rne_zero]
    simp
  have hp : (0 : ℚ) < (2 : ℚ) ^ ulpExp x := by positivity
  set E := ulpExp x with hE
  set q := x / (2 : ℚ) ^ E with hq
  have hx : x = q * 2 ^ E := by rw [hq]; field_simp
  have hr : |rne x - x| = |(roundEven q : ℚ) - q| * 2 ^ E := by
    have : rne x - x = ((roundEven q : ℚ) - q) * 2 ^ E := by
      unfold rne
      rw [← hE, ← hq, sub_mul, ← hx]
    rw [this, abs_mul, abs_of_pos hp]
  have key : ∀ n : ℤ, |(n : ℚ) - q| * 2 ^ E ≤ |g - x| → |rne x - x| ≤ |g - x| := fun n hn => by
    rw [hr]
    exact (mul_le_mul_of_nonneg_right (roundEven_nearest q n) hp.le).trans hn
  have hk : ∀ n : ℤ, |(n : ℚ) - q| * 2 ^ E = |(n : ℚ) * 2 ^ E - x| := fun n => by
    have : (n : ℚ) * 2 ^ E - x = ((n : ℚ) - q) * 2 ^ E := by rw [sub_mul, ← hx]
    rw [this, abs_mul, abs_of_pos hp]
  obtain ⟨m, e, hm, he, rfl⟩ := hg
  by_cases hle : E ≤ e
  · refine key (m * 2 ^ (e - E).toNat) (le_of_eq ?_)
    have : (m : ℚ) * 2 ^ e = ((m * 2 ^ (e - E).toNat : ℤ) : ℚ) * 2 ^ E := by
      have e1 : e = ((e - E).toNat : ℤ) + E := by omega
      conv_lhs => rw [e1]
      rw [zpow_add₀ (by norm_num), zpow_natCast]
      push_cast
      ring
    rw [this, hk]
  · -- `x` is normal and `g` lies below its binade
    have hE' : E = Int.log 2 |x| - 52 := by
      rw [hE]
      unfold ulpExp at hE ⊢
      omega
    have hbig : (2 : ℚ) ^ (52 : ℕ) * 2 ^ E ≤ |x| := by
      have := Int.zpow_log_le_self (b := 2) (by norm_num) (abs_pos.2 hx0)
      rw [← zpow_natCast, ← zpow_add₀ (by norm_num), hE']
      push_cast at this ⊢
      rw [show (52 : ℤ) + (Int.log 2 |x| - 52) = Int.log 2 |x| by ring]
      exact this
    have hsmall : |(m : ℚ) * 2 ^ e| ≤ (2 : ℚ) ^ (52 : ℕ) * 2 ^ E := by
      rw [abs_mul, abs_of_pos (show (0 : ℚ) < 2 ^ e by positivity)]
      have h1 : |(m : ℚ)| ≤ 2 ^ 53 := by
        have : |m| ≤ 2 ^ 53 := hm.le
        exact_mod_cast this
      have h2 : (2 : ℚ) ^ e ≤ 2 ^ (E - 1) := zpow_le_zpow_right₀ (by norm_num) (by omega)
      calc |(m : ℚ)| * 2 ^ e ≤ 2 ^ 53 * 2 ^ (E - 1) := mul_le_mul h1 h2 (by positivity) (by positivity)
        _ = _ := by rw [zpow_sub₀ (by norm_num), zpow_one]; ring
    rcases lt_or_gt_of_ne hx0 with hneg | hpos
    · refine key (-2 ^ 52) ?_
      rw [hk]
      rw [abs_of_neg hneg] at hbig
      have h3 := (abs_le.1 hsmall).1
      push_cast
      rw [abs_of_nonneg (by linarith), abs_of_nonneg (by linarith)]
      linarith
    · refine key (2 ^ 52) ?_
      rw [hk]
      rw [abs_of_pos hpos] at hbig
      have h3 := (abs_le.1 hsmall).2
      push_cast
      rw [abs_of_nonpos (by linarith), abs_of_nonpos (by linarith)]
      linarith

/-- Rounding is monotone. -/
theorem rne_mono {x y : ℚ} (h : x ≤ y) : rne x ≤ rne y := by
  by_contra hc
  rw [not_le] at hc
  have h1 := rne_nearest x (onGrid_rne y)
  have h2 := rne_nearest y (onGrid_rne x)
  have hxy : x < y := lt_of_le_of_ne h (fun e => by rw [e] at hc; exact lt_irrefl _ hc)
  rcases abs_cases (rne x - x) with ⟨a, b⟩ | ⟨a, b⟩ <;>
  rcases abs_cases (rne y - x) with ⟨c, d⟩ | ⟨c, d⟩ <;>
  rcases abs_cases (rne x - y) with ⟨e, f⟩ | ⟨e, f⟩ <;>
  rcases abs_cases (rne y - y) with ⟨g, i⟩ | ⟨g, i⟩ <;>
  rw [a, c] at h1 <;> rw [e, g] at h2 <;> linarith

/-- The rounding of a number between two numbers of the grid lies between them. -/
theorem rne_le {x g : ℚ} (hg : OnGrid g) (h : x ≤ g) : rne x ≤ g :=
  (rne_mono h).trans_eq (rne_onGrid hg)

theorem le_rne {x g : ℚ} (hg : OnGrid g) (h : g ≤ x) : g ≤ rne x :=
  (rne_onGrid hg).symm.trans_le (rne_mono h)

/-- Two different numbers of the grid differ by at least the smallest positive one. -/
theorem grid_gap {x y : ℚ} (hx : OnGrid x) (hy : OnGrid y) (h : x < y) :
    (2 : ℚ) ^ (-1074 : ℤ) ≤ y - x := by
  obtain ⟨m, e, -, he, rfl⟩ := hx
  obtain ⟨m', e', -, he', rfl⟩ := hy
  have e1 : ∀ (m e : ℤ), -1074 ≤ e → (m : ℚ) * 2 ^ e =
      ((m * 2 ^ (e + 1074).toNat : ℤ) : ℚ) * 2 ^ (-1074 : ℤ) := fun m e he => by
    have e1 : e = ((e + 1074).toNat : ℤ) + (-1074) := by omega
    conv_lhs => rw [e1]
    rw [zpow_add₀ (by norm_num), zpow_natCast]
    push_cast
    ring
  rw [e1 m e he, e1 m' e' he'] at h ⊢
  have hp : (0 : ℚ) < 2 ^ (-1074 : ℤ) := by positivity
  rw [← sub_mul]
  have h2 : (m * 2 ^ (e + 1074).toNat : ℤ) < (m' * 2 ^ (e' + 1074).toNat : ℤ) := by
    exact_mod_cast lt_of_mul_lt_mul_right h hp.le
  have h3 : (1 : ℚ) ≤ ((m' * 2 ^ (e' + 1074).toNat : ℤ) : ℚ) - ((m * 2 ^ (e + 1074).toNat : ℤ) : ℚ) := by
    exact_mod_cast (by omega : (1 : ℤ) ≤ m' * 2 ^ (e' + 1074).toNat - m * 2 ^ (e + 1074).toNat)
  nlinarith

/-- Powers of two are on the grid. -/
theorem onGrid_two_zpow {k : ℤ} (h : -1074 ≤ k) : OnGrid ((2 : ℚ) ^ k) :=
  ⟨1, k, by norm_num, h, by rw [Int.cast_one, one_mul]⟩

/-- The rounded difference of two different numbers of the grid is at least half the difference. -/
theorem rne_sub_half {x y : ℚ} (hx : OnGrid x) (hy : OnGrid y) (h : x < y) :
    (y - x) / 2 ≤ rne (y - x) := by
  have h0 : 0 < y - x := by linarith
  have h1 := grid_gap hx hy h
  have h2 : (2 : ℚ) ^ Int.log 2 (y - x) ≤ y - x := by
    exact_mod_cast Int.zpow_log_le_self (b := 2) (by norm_num) h0
  have h3 : y - x < (2 : ℚ) ^ (Int.log 2 (y - x) + 1) := by
    exact_mod_cast Int.lt_zpow_succ_log_self (b := 2) (by norm_num) (y - x)
  have h4 : -1074 ≤ Int.log 2 (y - x) :=
    (Int.zpow_le_iff_le_log (b := 2) (by norm_num) h0).1 (by exact_mod_cast h1)
  have h5 := le_rne (onGrid_two_zpow h4) h2
  rw [zpow_add₀ (by norm_num), zpow_one] at h3
  linarith

end Verif
