import Verif.Lemmas.Flow64
import Verif.Props.Ftle64
import Verif.Props.GridError

/-!
# Rounding errors of the flow map Jacobian and of the exponent of a run
-/

namespace Verif

open Matrix

/-- Large against underflow. -/
theorem eta_le {a : ℝ} (h : 2 ^ (-500 : ℤ) ≤ |a|) : ηR ≤ 1 / 1000 * (uR * |a|) := by
  have e1 : ηR ≤ 1 / 1000 * (uR * 2 ^ (-500 : ℤ)) := by
    have e : (2 : ℝ) ^ (-10 : ℤ) ≤ 1 / 1000 := by norm_num
    have e2 : (2 : ℝ) ^ (-10 : ℤ) * (uR * 2 ^ (-500 : ℤ)) ≤ 1 / 1000 * (uR * 2 ^ (-500 : ℤ)) :=
      mul_le_mul_of_nonneg_right e (by have := uR_pos; positivity)
    refine le_trans ?_ e2
    unfold ηR uR
    rw [← zpow_add₀ (by norm_num), ← zpow_add₀ (by norm_num)]
    exact zpow_le_zpow_right₀ (by norm_num) (by norm_num)
  exact e1.trans (mul_le_mul_of_nonneg_left (mul_le_mul_of_nonneg_left h uR_pos.le) (by norm_num))

theorem eta_le_u : ηR ≤ 1 / 1000 * uR := by
  have := eta_le (a := 1) (by
    rw [abs_one]; exact zpow_le_one_of_nonpos₀ (by norm_num) (by norm_num))
  rwa [abs_one, mul_one] at this

/-- One entry of the Jacobian: the quotient of two differences. -/
theorem quot64 {a b c d : Fl} {a' b' E : ℝ} (ha : |a.re - a'| ≤ E) (hb : |b.re - b'| ≤ E)
    (hΔ : 2 ^ (-500 : ℤ) ≤ |c.re - d.re|) :
    (c - d).re ≠ 0 ∧
    |((a - b) / (c - d)).re - (a' - b') / (c.re - d.re)| ≤
      205 / 100 * (E * (1 / |c.re - d.re|)) + 4 * (uR * |(a' - b') / (c.re - d.re)|) +
        1 / 10 * uR := by
  have hη := eta_le hΔ
  have hη1 := eta_le_u
  have hη0 := ηR_pos
  have hu := uR_pos
  have hu1 : uR ≤ 1 / 1000 := uR_le.trans (by norm_num)
  have hE : 0 ≤ E := (abs_nonneg _).trans ha
  have hN := Fl.re_sub a b
  have hD := Fl.re_sub c d
  set Δ := c.re - d.re with hΔd
  set n := a' - b' with hn
  set N := (a - b).re with hNd
  set Z := (c - d).re with hZ
  have hp : (0 : ℝ) < 2 ^ (-500 : ℤ) := by positivity
  have hΔ0 : 0 < |Δ| := hp.trans_le hΔ
  have hΔne : Δ ≠ 0 := abs_pos.1 hΔ0
  have hZΔ : |Z - Δ| ≤ 101 / 100 * (uR * |Δ|) := by linarith
  have huΔ : uR * |Δ| ≤ 1 / 1000 * |Δ| := mul_le_mul_of_nonneg_right hu1 hΔ0.le
  have hZlow : 99 / 100 * |Δ| ≤ |Z| := by
    have := abs_sub_abs_le_abs_sub Δ Z
    rw [abs_sub_comm Δ Z] at this
    linarith
  have hZ0 : 0 < |Z| := by linarith
  have hZne : Z ≠ 0 := abs_pos.1 hZ0
  refine ⟨hZne, ?_⟩
  -- better lower bound
  have hZlow' : (1 - 102 / 100 * (1 / 1000)) * |Δ| ≤ |Z| := by
    have := abs_sub_abs_le_abs_sub Δ Z
    rw [abs_sub_comm Δ Z] at this
    linarith
  have hinv : 1 / |Z| ≤ 1002 / 1000 * (1 / |Δ|) := by
    rw [div_le_iff₀ hZ0]
    have : 1 / |Δ| * |Δ| = 1 := by field_simp
    have h2 := mul_le_mul_of_nonneg_left hZlow' (by positivity : 0 ≤ 1 / |Δ|)
    nlinarith
  have e1 : |N - n| ≤ 2001 / 1000 * (2 * E) / 2 + 2 * (1 / 1000 * E) + uR * |n| + ηR := by
    have := round_near hN (sub_near ha hb) (Y := |n|) le_rfl
    have : uR * (E + E) ≤ 1 / 1000 * (E + E) := mul_le_mul_of_nonneg_right hu1 (by linarith)
    linarith
  set s := 1 / |Δ| with hs
  have hs0 : 0 < s := by positivity
  set Q := |n / Δ| with hQ
  have hQs : |n| * s = Q := by rw [hs, hQ, abs_div]; ring
  have hηs : ηR * s ≤ 1 / 1000 * uR := by
    have := mul_le_mul_of_nonneg_right hη hs0.le
    have e : 1 / 1000 * (uR * |Δ|) * s = 1 / 1000 * uR := by rw [hs]; field_simp
    linarith
  have e2 : N / Z - n / Δ = (N - n) / Z + n / Δ * ((Δ - Z) / Z) := by field_simp; ring
  have e3 : |(N - n) / Z| ≤ 2008 / 1000 * (E * s) + 1002 / 1000 * (uR * Q) + 2 / 1000 * uR := by
    rw [abs_div, ← mul_one_div]
    have h1 := mul_le_mul e1 hinv (by positivity) (by positivity)
    refine h1.trans ?_
    have h2 : uR * |n| * s = uR * Q := by rw [← hQs]; ring
    have h3 : 0 ≤ E * s := by positivity
    nlinarith
  have e4 : |n / Δ * ((Δ - Z) / Z)| ≤ 102 / 100 * (uR * Q) := by
    rw [abs_mul, abs_div (Δ - Z), abs_sub_comm]
    have h1 : |Z - Δ| / |Z| ≤ 102 / 100 * uR := by
      rw [div_le_iff₀ hZ0]
      have := mul_le_mul_of_nonneg_left hZlow' hu.le
      nlinarith
    have := mul_le_mul_of_nonneg_left h1 (abs_nonneg (n / Δ))
    nlinarith
  have hQ0 : 0 ≤ uR * Q := by positivity
  have hEs : 0 ≤ E * s := by positivity
  have e5 : |N / Z - n / Δ| ≤ 2008 / 1000 * (E * s) + 203 / 100 * (uR * Q) + 2 / 1000 * uR := by
    rw [e2]
    have := abs_add_le ((N - n) / Z) (n / Δ * ((Δ - Z) / Z))
    linarith
  have e6 := round_near (Fl.re_div (a - b) (c - d)) e5 (Y := Q) le_rfl
  refine e6.trans ?_
  have f1 : uR * (E * s) ≤ 1 / 1000 * (E * s) := mul_le_mul_of_nonneg_right hu1 hEs
  have f2 : uR * (uR * Q) ≤ 1 / 1000 * (uR * Q) := mul_le_mul_of_nonneg_right hu1 hQ0
  have f3 : uR * uR ≤ 1 / 1000 * uR := mul_le_mul_of_nonneg_right hu1 hu.le
  linarith

/-- Entries are at most the largest stretch. -/
theorem entry_le_stretch {d : ℕ} {F : Matrix (Fin d) (Fin d) ℝ} {σ : ℝ} (h : IsMaxStretch F σ)
    (i j : Fin d) : |F i j| ≤ σ := by
  have h1 := maxStretch_bound h (Pi.single j 1)
  have h2 : len (Pi.single j (1 : ℝ)) = 1 := by
    unfold len
    simp
  rw [h2, mul_one] at h1
  refine le_trans ?_ h1
  have e : (F *ᵥ Pi.single j 1) i = F i j := by simp
  rw [← e]
  exact abs_le_len (F *ᵥ Pi.single j 1) i

/-- The computed Jacobian against exact differences of exact positions. -/
theorem jac64_near {X x : Fin 4 → Fin 2 → Fl} {Y : Fin 4 → Fin 2 → ℝ} {E σ : ℝ}
    (h : ∀ b, ‖reVec (X b) - Y b‖ ≤ E)
    (h1 : 2 ^ (-500 : ℤ) ≤ |(x 1 0).re - (x 0 0).re|)
    (h2 : 2 ^ (-500 : ℤ) ≤ |(x 2 1).re - (x 3 1).re|)
    (hσ : IsMaxStretch (diffs2 Y fun b => reVec (x b)) σ) :
    ∃ J, centralDiff2 X x = .ok J ∧
      ∑ r, ∑ c, |reMat J r c - diffs2 Y (fun b => reVec (x b)) r c| ≤
        41 / 10 * E * (1 / |(x 1 0).re - (x 0 0).re| + 1 / |(x 2 1).re - (x 3 1).re|) +
          uR * (1 + 16 * σ) := by
  have h' : ∀ b c, |(X b c).re - Y b c| ≤ E := fun b c =>
    (norm_le_pi_norm (reVec (X b) - Y b) c).trans (h b)
  have q1 := fun r => quot64 (h' 1 r) (h' 0 r) h1
  have q2 := fun r => quot64 (h' 2 r) (h' 3 r) h2
  refine ⟨_, by
    rw [centralDiff2, if_neg]
    rintro (e | e)
    · exact (q1 0).1 (by rw [e, Fl.re_zero])
    · exact (q2 0).1 (by rw [e, Fl.re_zero]), ?_⟩
  have s00 : |(Y 1 0 - Y 0 0) / ((x 1 0).re - (x 0 0).re)| ≤ σ := entry_le_stretch hσ 0 0
  have s01 : |(Y 2 0 - Y 3 0) / ((x 2 1).re - (x 3 1).re)| ≤ σ := entry_le_stretch hσ 0 1
  have s10 : |(Y 1 1 - Y 0 1) / ((x 1 0).re - (x 0 0).re)| ≤ σ := entry_le_stretch hσ 1 0
  have s11 : |(Y 2 1 - Y 3 1) / ((x 2 1).re - (x 3 1).re)| ≤ σ := entry_le_stretch hσ 1 1
  have a00 := (q1 0).2
  have a10 := (q1 1).2
  have a01 := (q2 0).2
  have a11 := (q2 1).2
  have hu := uR_pos
  have m00 := mul_le_mul_of_nonneg_left s00 hu.le
  have m01 := mul_le_mul_of_nonneg_left s01 hu.le
  have m10 := mul_le_mul_of_nonneg_left s10 hu.le
  have m11 := mul_le_mul_of_nonneg_left s11 hu.le
  rw [Fin.sum_univ_two, Fin.sum_univ_two, Fin.sum_univ_two]
  show |((X 1 0 - X 0 0) / (x 1 0 - x 0 0)).re - (Y 1 0 - Y 0 0) / ((x 1 0).re - (x 0 0).re)| +
      |((X 2 0 - X 3 0) / (x 2 1 - x 3 1)).re - (Y 2 0 - Y 3 0) / ((x 2 1).re - (x 3 1).re)| +
      (|((X 1 1 - X 0 1) / (x 1 0 - x 0 0)).re - (Y 1 1 - Y 0 1) / ((x 1 0).re - (x 0 0).re)| +
      |((X 2 1 - X 3 1) / (x 2 1 - x 3 1)).re - (Y 2 1 - Y 3 1) / ((x 2 1).re - (x 3 1).re)|) ≤ _
  linarith

/-- The period `(n - 1) |h|` in binary64. -/
theorem period64 {h : Fl} {a : Fl} {k : ℤ} (hk : 1 ≤ k) (ha : a.re = |h.re|)
    (hh : 2 ^ (-500 : ℤ) ≤ |h.re|) :
    |((k : Fl) * a).re - (k : ℝ) * (|h.re|)| ≤ 21 / 10 * (uR * ((k : ℝ) * |h.re|)) := by
  have hη := eta_le hh
  have hη1 := eta_le_u
  have hu := uR_pos
  have hu1 : uR ≤ 1 / 1000 := uR_le.trans (by norm_num)
  have hk1 : (1 : ℝ) ≤ k := by exact_mod_cast hk
  have hp : (0 : ℝ) < 2 ^ (-500 : ℤ) := by positivity
  have hh0 : 0 < |h.re| := hp.trans_le hh
  have e1 : |(k : Fl).re - (k : ℝ)| ≤ 101 / 100 * (uR * k) := by
    have := rne_real (k : ℚ)
    rw [Rat.cast_intCast, abs_of_pos (by linarith : (0 : ℝ) < k)] at this
    refine this.trans ?_
    have : uR * 1 ≤ uR * k := mul_le_mul_of_nonneg_left hk1 hu.le
    linarith
  have e2 := mul_near e1 (show |a.re - (|h.re|)| ≤ 0 by rw [ha]; simp) (X := k) (Y := |h.re|)
    (by rw [abs_of_pos (by linarith)]) (by rw [abs_abs])
  have e3 := round_near (Fl.re_mul (k : Fl) a) e2 (Y := (k : ℝ) * |h.re|)
    (by rw [abs_of_pos (by positivity)])
  refine e3.trans ?_
  set q := uR * ((k : ℝ) * |h.re|) with hq
  have f1 : uR * q ≤ 1 / 1000 * q := mul_le_mul_of_nonneg_right hu1 (by positivity)
  have f2 : uR * |h.re| ≤ q := by
    have : |h.re| ≤ k * |h.re| := by nlinarith
    exact mul_le_mul_of_nonneg_left this hu.le
  have f3 : |h.re| * (101 / 100 * (uR * k)) = 101 / 100 * q := by rw [hq]; ring
  have f4 : uR * ((k : ℝ) * |h.re| + ((k : ℝ) * 0 + |h.re| * (101 / 100 * (uR * k)) +
      101 / 100 * (uR * k) * 0)) = q + 101 / 100 * (uR * q) := by rw [hq]; ring
  have f5 : 0 < q := by positivity
  rw [f4, f3]
  linarith

/-- From the exponent of the computed Jacobian over the computed period to that of the exact ones. -/
theorem exponent64 {x τ T l l' β P κ : ℝ} (hT : 0 < T) (hτ : |τ - T| ≤ 21 / 10 * (uR * T))
    (hκ0 : 0 ≤ κ) (hκ : κ ≤ 1 / 100) (hP : 0 ≤ P) (hβ : |l' - l| ≤ β)
    (hx : |x - 1 / τ * l'| ≤ 1 / |τ| * (P + (κ + 2 ^ (-51 : ℤ)) * |l'|)) :
    |x - 1 / T * l| ≤ 1 / T * (101 / 100 * P + 102 / 100 * β + (κ + 2 ^ (-50 : ℤ)) * |l|) := by
  have hu := uR_pos
  have hu1 : uR ≤ 1 / 1000 := uR_le.trans (by norm_num)
  have u3 : (2 : ℝ) ^ (-51 : ℤ) = 4 * uR := uR_values.2.2.symm
  have u4 : (2 : ℝ) ^ (-50 : ℤ) = 8 * uR := by unfold uR; norm_num
  rw [u3] at hx
  rw [u4]
  have hβ0 : 0 ≤ β := (abs_nonneg _).trans hβ
  have huT : uR * T ≤ 1 / 1000 * T := mul_le_mul_of_nonneg_right hu1 hT.le
  have hτ' := abs_le.1 hτ
  have hτ0 : 0 < τ := by linarith
  rw [abs_of_pos hτ0] at hx
  have hl' : |l'| ≤ |l| + β := by
    have := abs_sub_abs_le_abs_sub l' l
    linarith
  -- T / τ
  have hratio : T * (1 / τ) ≤ 1 + 22 / 10 * uR := by
    rw [mul_one_div, div_le_iff₀ hτ0]
    have : uR * (uR * T) ≤ 1 / 1000 * (uR * T) := mul_le_mul_of_nonneg_right hu1 (by positivity)
    nlinarith
  have hdiff : |1 / τ - 1 / T| * T ≤ 22 / 10 * uR := by
    have e : 1 / τ - 1 / T = (T - τ) / (τ * T) := by field_simp
    rw [e, abs_div, abs_of_pos (by positivity : 0 < τ * T), abs_sub_comm, div_mul_eq_mul_div,
      div_le_iff₀ (by positivity)]
    have h1 : 22 / 10 * uR * τ ≥ 21 / 10 * (uR * T) := by
      have h2 : τ ≥ (1 - 21 / 10 * uR) * T := by linarith
      have h3 := mul_le_mul_of_nonneg_left h2 hu.le
      have h4 : uR * (uR * T) ≤ 1 / 1000 * (uR * T) := mul_le_mul_of_nonneg_right hu1 (by positivity)
      nlinarith
    have := mul_le_mul_of_nonneg_right (hτ.trans h1) hT.le
    linarith
  suffices hs : |x - 1 / T * l| * T ≤
      101 / 100 * P + 102 / 100 * β + (κ + 8 * uR) * |l| by
    rw [← le_div_iff₀ hT] at hs
    exact hs.trans_eq (by ring)
  have e : x - 1 / T * l = (x - 1 / τ * l') + (1 / τ - 1 / T) * l' + 1 / T * (l' - l) := by ring
  have t1 : |x - 1 / T * l| * T ≤ |x - 1 / τ * l'| * T + |1 / τ - 1 / T| * T * |l'| + |l' - l| := by
    rw [e]
    have h1 := abs_add_le ((x - 1 / τ * l') + (1 / τ - 1 / T) * l') (1 / T * (l' - l))
    have h2 := abs_add_le (x - 1 / τ * l') ((1 / τ - 1 / T) * l')
    rw [abs_mul] at h2
    rw [abs_mul (1 / T), abs_of_pos (by positivity : 0 < 1 / T)] at h1
    have h3 := mul_le_mul_of_nonneg_right (h1.trans (add_le_add_left h2 _)) hT.le
    have h4 : 1 / T * |l' - l| * T = |l' - l| := by field_simp
    nlinarith
  have t2 : |x - 1 / τ * l'| * T ≤ (1 + 22 / 10 * uR) * (P + (κ + 4 * uR) * |l'|) := by
    have h1 := mul_le_mul_of_nonneg_right hx hT.le
    have h2 : 1 / τ * (P + (κ + 4 * uR) * |l'|) * T =
      T * (1 / τ) * (P + (κ + 4 * uR) * |l'|) := by ring
    rw [h2] at h1
    exact h1.trans (mul_le_mul_of_nonneg_right hratio (by positivity))
  have t3 := mul_le_mul_of_nonneg_right hdiff (abs_nonneg l')
  -- collect
  have c1 : uR * P ≤ 1 / 1000 * P := mul_le_mul_of_nonneg_right hu1 hP
  set y := |l'| with hy
  have hy0 : 0 ≤ y := abs_nonneg _
  have c2 : uR * (κ * y) ≤ 1 / 100 * (uR * y) := by
    have := mul_le_mul_of_nonneg_right hκ (by positivity : 0 ≤ uR * y)
    linarith
  have c3 : uR * (uR * y) ≤ 1 / 1000 * (uR * y) := mul_le_mul_of_nonneg_right hu1 (by positivity)
  have c4 : (1 + 22 / 10 * uR) * (P + (κ + 4 * uR) * y) + 22 / 10 * uR * y ≤
      101 / 100 * P + (κ + 7 * uR) * y := by nlinarith [mul_nonneg hu.le hy0]
  have c5 : (κ + 7 * uR) * y ≤ (κ + 7 * uR) * (|l| + β) :=
    mul_le_mul_of_nonneg_left hl' (by positivity)
  have c6 : (κ + 7 * uR) * β ≤ 2 / 100 * β := mul_le_mul_of_nonneg_right (by linarith) hβ0
  have c7 : 0 ≤ uR * |l| := by positivity
  nlinarith

end Verif
