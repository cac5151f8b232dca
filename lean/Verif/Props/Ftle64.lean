import Verif.Lemmas.Ftle64
import Verif.Lemmas.EndToEnd

/-!
# C85: accuracy of the 2-D FTLE kernel in binary64

Every operation of `compute_ftle_2x2` rounded: the result against the exponent
`(1/T) ln σ` of the given Jacobian, `σ` its largest stretch.
-/

namespace Verif

/-! ## Specification -/

/-- `v` is a number within `b` of `y`. -/
def Val64.Within (v : Val64) (y b : ℝ) : Prop := ∃ x : Fl, v = .fin x ∧ |x.re - y| ≤ b

/-! ## Lemmas -/

/-- The gap of the eigenvalues against the trace, by the ratio of the stretches. -/
theorem gap_ratio {t r σ δ c : ℝ} (ht : 0 < t) (hr : 0 ≤ r) (hσ : σ ^ 2 = 1 / 2 * (t + r))
    (hδ : t ^ 2 - r ^ 2 = 4 * δ ^ 2) (h : |δ| ≤ c * σ ^ 2) :
    (1 - c ^ 2) * t ≤ (1 + c ^ 2) * r := by
  have hσ0 : 0 < σ ^ 2 := by rw [hσ]; positivity
  have h1 : δ ^ 2 ≤ c ^ 2 * (σ ^ 2) ^ 2 := by
    have := abs_le_abs_of_nonneg (abs_nonneg δ) h
    have h2 := mul_self_le_mul_self (abs_nonneg δ) h
    rw [abs_mul_abs_self] at h2
    nlinarith
  have h2 : (t - r) * (t + r) ≤ c ^ 2 * (t + r) * (t + r) := by
    have e : c ^ 2 * (σ ^ 2) ^ 2 = c ^ 2 * (t + r) * (t + r) / 4 := by rw [hσ]; ring
    rw [e] at h1
    nlinarith
  have h3 : t - r ≤ c ^ 2 * (t + r) := le_of_mul_le_mul_right h2 (by linarith)
  linarith

/-- The last line of the kernel. -/
theorem period_near {m : Libm} {κ : ℝ} (hm : m.Accurate κ) (hκ0 : 0 ≤ κ) (hκ : κ ≤ 1 / 100)
    {S T : Fl} {σ b : ℝ} (hσ : 0 < σ) (hb0 : 10 * uR ≤ b) (hb : b ≤ 1 / 10 ^ 4)
    (hS : |S.re - σ| ≤ b * σ) (hT : T.re ≠ 0) (hT' : |T.re| ≤ 2 ^ 1000) :
    (Val64.smul (1 / T) (Val64.log m (.fin S))).Within (1 / T.re * Real.log σ)
      (1 / |T.re| * (103 / 100 * b + (κ + 4 * uR) * |Real.log σ|)) := by
  have hu := uR_pos
  have hu1 := uR_le
  have hbσ : b * σ ≤ 1 / 10 ^ 4 * σ := mul_le_mul_of_nonneg_right hb hσ.le
  obtain ⟨hS0, hlog⟩ := log_error hS (by linarith)
  have e1 : b * σ / (σ - b * σ) ≤ 1001 / 1000 * b := by
    have : 0 < σ - b * σ := by linarith
    rw [div_le_iff₀ this]
    have : b * (b * σ) ≤ b * (1 / 10 ^ 4 * σ) := mul_le_mul_of_nonneg_left hbσ (by linarith)
    nlinarith [mul_pos (by linarith : 0 < b) hσ]
  have hlog := hlog.trans e1
  have hn1 : ¬ S.val < 0 := by rw [Fl.re_lt_zero]; linarith
  have hn2 : ¬ S.val = 0 := by rw [Fl.re_eq_zero]; exact hS0.ne'
  refine ⟨1 / T * m.log S, by rw [Val64.log, if_neg hn1, if_neg hn2, Val64.smul], ?_⟩
  set y := Real.log σ with hy
  have hl := hm.log S hS0
  set l := (m.log S).re with hld
  set q := |T.re| with hq
  have hq0 : 0 < q := abs_pos.2 hT
  -- the logarithm
  have a0 : |Real.log S.re| ≤ |y| + 1001 / 1000 * b := by
    have := abs_sub_abs_le_abs_sub (Real.log S.re) y
    linarith
  have a1 : |l - y| ≤ κ * |y| + 1012 / 1000 * b := by
    have h1 := abs_sub_le l (Real.log S.re) y
    have h2 := mul_le_mul_of_nonneg_left a0 hκ0
    have h3 : κ * (1001 / 1000 * b) ≤ 1 / 100 * (1001 / 1000 * b) :=
      mul_le_mul_of_nonneg_right hκ (by linarith)
    nlinarith
  have hb' : 0 ≤ b := by linarith
  have a2 : |l| ≤ 101 / 100 * |y| + 1012 / 1000 * b := by
    have h1 := abs_sub_abs_le_abs_sub l y
    have h2 := mul_le_mul_of_nonneg_right hκ (abs_nonneg y)
    linarith
  -- the reciprocal
  have a3 : ηR * q ≤ 1 / 100 * uR := by
    have h1 : ηR * q ≤ ηR * 2 ^ 1000 := mul_le_mul_of_nonneg_left hT' ηR_pos.le
    refine h1.trans ?_
    have h2 : ηR * 2 ^ 1000 = 2 ^ (-22 : ℤ) * uR := by
      unfold ηR uR
      rw [← zpow_natCast, ← zpow_add₀ (by norm_num), ← zpow_add₀ (by norm_num)]
      norm_num
    rw [h2]
    exact mul_le_mul_of_nonneg_right (by norm_num) hu.le
  have a4 : |(1 / T).re - 1 / T.re| * q ≤ 101 / 100 * uR := by
    have h1 := Fl.re_div 1 T
    rw [Fl.re_one] at h1
    have h2 : |1 / T.re| = 1 / q := by rw [abs_div, abs_one]
    rw [h2] at h1
    have h3 := mul_le_mul_of_nonneg_right h1 hq0.le
    have h4 : (uR * (1 / q) + ηR) * q = uR + ηR * q := by field_simp
    linarith
  have a5 := Fl.re_mul (1 / T) (m.log S)
  rw [← hld] at a5
  set c := (1 / T).re with hc
  have a6 : |c| * q ≤ 102 / 100 := by
    have h1 : |c| ≤ |1 / T.re| + |c - 1 / T.re| := by
      have := abs_sub_abs_le_abs_sub c (1 / T.re)
      linarith
    have h2 : |1 / T.re| = 1 / q := by rw [abs_div, abs_one]
    rw [h2] at h1
    have h3 := mul_le_mul_of_nonneg_right h1 hq0.le
    have h4 : (1 / q + |c - 1 / T.re|) * q = 1 + |c - 1 / T.re| * q := by field_simp
    rw [h4] at h3
    linarith
  -- together
  rw [one_div_mul_eq_div q, le_div_iff₀ hq0]
  have b1 : |c * l - 1 / T.re * y| * q ≤ 101 / 100 * uR * |l| + |l - y| := by
    have e : c * l - 1 / T.re * y = (c - 1 / T.re) * l + 1 / T.re * (l - y) := by ring
    rw [e]
    have h1 := abs_add_le ((c - 1 / T.re) * l) (1 / T.re * (l - y))
    rw [abs_mul, abs_mul, abs_div, abs_one] at h1
    have h2 := mul_le_mul_of_nonneg_right h1 hq0.le
    have h3 : (|c - 1 / T.re| * |l| + 1 / |T.re| * |l - y|) * q =
        |c - 1 / T.re| * q * |l| + |l - y| := by rw [← hq]; field_simp
    rw [h3] at h2
    have h4 := mul_le_mul_of_nonneg_right a4 (abs_nonneg l)
    linarith
  have b2 : |(1 / T * m.log S).re - c * l| * q ≤ 102 / 100 * uR * |l| + 1 / 100 * uR := by
    have h1 := mul_le_mul_of_nonneg_right a5 hq0.le
    rw [abs_mul] at h1
    have h2 : (uR * (|c| * |l|) + ηR) * q = uR * |l| * (|c| * q) + ηR * q := by ring
    rw [h2] at h1
    have h3 := mul_le_mul_of_nonneg_left a6 (by positivity : 0 ≤ uR * |l|)
    linarith
  have b3 := mul_le_mul_of_nonneg_right (abs_sub_le (1 / T * m.log S).re (c * l) (1 / T.re * y))
    hq0.le
  have b4 : uR * |l| ≤ uR * (101 / 100 * |y| + 1012 / 1000 * b) :=
    mul_le_mul_of_nonneg_left a2 hu.le
  have b5 : uR * b ≤ 1 / 10 ^ 15 * b := mul_le_mul_of_nonneg_right hu1 hb'
  have b6 : 0 ≤ uR * |y| := by positivity
  linarith

/-- One matrix, given the error of the root. -/
theorem entry64 {m : Libm} {κ : ℝ} (hm : m.Accurate κ) (hκ0 : 0 ≤ κ) (hκ : κ ≤ 1 / 100)
    (F : Matrix (Fin 2) (Fin 2) Fl) {T : Fl} (hT : T.re ≠ 0) (hT' : |T.re| ≤ 2 ^ 1000) {σ e : ℝ}
    (hσ : IsMaxStretch (reMat F) σ) (hσ0 : 2 ^ (-200 : ℤ) ≤ σ)
    (hd0 : 0 ≤ (disc2 (⟨4⟩ : Fl) (cauchyGreen2 F)).re) (he0 : 0 ≤ e) (he : e ≤ 1 / 10 ^ 6)
    (he' : |√(disc2 (⟨4⟩ : Fl) (cauchyGreen2 F)).re -
        √((cgA (reMat F) - cgD (reMat F)) ^ 2 + 4 * cgB (reMat F) ^ 2)| ≤
      e * (cgA (reMat F) + cgD (reMat F))) :
    (Val64.smul (1 / T) (Val64.log m (Val64.sqrt m (maxEig64 m (cauchyGreen2 F))))).Within
      (1 / T.re * Real.log σ)
      (1 / |T.re| * (103 / 100 * (e + 10 * uR) + (κ + 4 * uR) * |Real.log σ|)) := by
  set G := reMat F with hG
  have hpos : (0 : ℝ) < 2 ^ (-200 : ℤ) := by positivity
  have hs := maxStretch2_sq hσ
  set t := cgA G + cgD G with htd
  set r := √((cgA G - cgD G) ^ 2 + 4 * cgB G ^ 2) with hr
  have hd : r ^ 2 = (cgA G - cgD G) ^ 2 + 4 * cgB G ^ 2 := Real.sq_sqrt (by positivity)
  have hr0 : 0 ≤ r := Real.sqrt_nonneg _
  have hA := cgA_nonneg G
  have hD := cgD_nonneg G
  have hrt : r ≤ t := by
    refine abs_le_of_sq_le_sq' ?_ (by linarith) |>.2
    have := cg_det G
    have := sq_nonneg G.det
    rw [hd, htd]
    nlinarith
  have hσt : σ ^ 2 ≤ t := by rw [hs]; linarith
  have hnu : NoUnderflow t := by
    apply noUnderflow
    refine le_trans ?_ hσt
    have e : (2 : ℝ) ^ (-400 : ℤ) = 2 ^ (-200 : ℤ) * 2 ^ (-200 : ℤ) := by
      rw [← zpow_add₀ (by norm_num)]; norm_num
    rw [e, sq]
    exact mul_le_mul hσ0 hσ0 hpos.le (hpos.le.trans hσ0)
  have hσp : 0 < σ := hpos.trans_le hσ0
  obtain ⟨S, h1, h2⟩ := eig_near hm hnu (T := trace2 (cauchyGreen2 F))
    (D := disc2 ⟨4⟩ (cauchyGreen2 F)) rfl rfl hr0 hrt (tensor_near F hnu).1 hd0 he' he0 he hs hσp
  have hn : ¬ (disc2 (⟨4⟩ : Fl) (cauchyGreen2 F)).val < 0 := by
    rw [Fl.re_lt_zero]; exact not_lt.2 hd0
  have e1 : maxEig64 m (cauchyGreen2 F) =
      .fin (max (NumLits.half * (trace2 (cauchyGreen2 F) + m.sqrt (disc2 ⟨4⟩ (cauchyGreen2 F))))
        (NumLits.half * (trace2 (cauchyGreen2 F) - m.sqrt (disc2 ⟨4⟩ (cauchyGreen2 F))))) := by
    rw [maxEig64, Val64.sqrt, if_neg hn]
  rw [e1, h1]
  refine period_near hm hκ0 hκ hσp (by linarith) ?_ h2 hT hT'
  have := uR_le
  norm_num at this he ⊢
  linarith

/-- Facts about one matrix used below. -/
theorem stretch_facts (F : Matrix (Fin 2) (Fin 2) Fl) {σ : ℝ}
    (hσ : IsMaxStretch (reMat F) σ) (hσ0 : 2 ^ (-200 : ℤ) ≤ σ) :
    ∃ t r : ℝ, 0 < t ∧ 0 ≤ r ∧ t = cgA (reMat F) + cgD (reMat F) ∧
      r = √((cgA (reMat F) - cgD (reMat F)) ^ 2 + 4 * cgB (reMat F) ^ 2) ∧
      σ ^ 2 = 1 / 2 * (t + r) ∧ t ^ 2 - r ^ 2 = 4 * (reMat F).det ^ 2 ∧
      |(disc2 (⟨4⟩ : Fl) (cauchyGreen2 F)).re - r ^ 2| ≤ 64 * (uR * t ^ 2) := by
  set G := reMat F with hG
  have hpos : (0 : ℝ) < 2 ^ (-200 : ℤ) := by positivity
  have hs := maxStretch2_sq hσ
  set t := cgA G + cgD G with htd
  set r := √((cgA G - cgD G) ^ 2 + 4 * cgB G ^ 2) with hr
  have hd : r ^ 2 = (cgA G - cgD G) ^ 2 + 4 * cgB G ^ 2 := Real.sq_sqrt (by positivity)
  have hr0 : 0 ≤ r := Real.sqrt_nonneg _
  have hA := cgA_nonneg G
  have hD := cgD_nonneg G
  have hdet := cg_det G
  have hrt : r ≤ t := by
    refine abs_le_of_sq_le_sq' ?_ (by linarith) |>.2
    have := sq_nonneg G.det
    rw [hd, htd]
    nlinarith
  have hσt : σ ^ 2 ≤ t := by rw [hs]; linarith
  have h400 : (2 : ℝ) ^ (-400 : ℤ) ≤ t := by
    refine le_trans ?_ hσt
    have e : (2 : ℝ) ^ (-400 : ℤ) = 2 ^ (-200 : ℤ) * 2 ^ (-200 : ℤ) := by
      rw [← zpow_add₀ (by norm_num)]; norm_num
    rw [e, sq]
    exact mul_le_mul hσ0 hσ0 hpos.le (hpos.le.trans hσ0)
  have hnu := noUnderflow h400
  refine ⟨t, r, hnu.pos, hr0, rfl, rfl, hs, ?_, ?_⟩
  · rw [hd, ← hdet, htd]; ring
  · rw [hd]; exact (tensor_near F hnu).2

theorem uR_values : 64 * uR = 2 ^ (-47 : ℤ) ∧ 128 * uR = 2 ^ (-46 : ℤ) ∧ 4 * uR = 2 ^ (-51 : ℤ) := by
  unfold uR
  norm_num

/-- **C85**, one matrix. -/
theorem entry64_bounds {m : Libm} {κ : ℝ} (hm : m.Accurate κ) (hκ0 : 0 ≤ κ) (hκ : κ ≤ 1 / 100)
    (F : Matrix (Fin 2) (Fin 2) Fl) {T : Fl} (hT : T.re ≠ 0) (hT' : |T.re| ≤ 2 ^ 1000) {σ : ℝ}
    (hσ : IsMaxStretch (reMat F) σ) (hσ0 : 2 ^ (-200 : ℤ) ≤ σ) {v : Val64}
    (hv : v = Val64.smul (1 / T) (Val64.log m (Val64.sqrt m (maxEig64 m (cauchyGreen2 F))))) :
    (v = .nan ∨ v.Within (1 / T.re * Real.log σ)
      (1 / |T.re| * (2 ^ (-23 : ℤ) + (κ + 2 ^ (-51 : ℤ)) * |Real.log σ|))) ∧
    (|(reMat F).det| ≤ (1 - 2 ^ (-22 : ℤ)) * σ ^ 2 → v ≠ .nan) ∧
    (|(reMat F).det| ≤ 1 / 2 * σ ^ 2 → v.Within (1 / T.re * Real.log σ)
      (1 / |T.re| * (2 ^ (-46 : ℤ) + (κ + 2 ^ (-51 : ℤ)) * |Real.log σ|))) := by
  obtain ⟨t, r, ht0, hr0, ht, hr, hs, hdet, hd⟩ := stretch_facts F hσ hσ0
  have hu := uR_pos
  have hu1 := uR_le
  obtain ⟨u1, u2, u3⟩ := uR_values
  have hq0 : 0 < 1 / |T.re| := by have := abs_pos.2 hT; positivity
  set D := disc2 (⟨4⟩ : Fl) (cauchyGreen2 F) with hD
  have mono : ∀ a b y : ℝ, a ≤ b → v.Within y (1 / |T.re| * (a + (κ + 4 * uR) * |Real.log σ|)) →
      v.Within y (1 / |T.re| * (b + (κ + 2 ^ (-51 : ℤ)) * |Real.log σ|)) := by
    rintro a b y hab ⟨x, h1, h2⟩
    refine ⟨x, h1, h2.trans (mul_le_mul_of_nonneg_left ?_ hq0.le)⟩
    rw [u3]
    linarith
  have general : 0 ≤ D.re → v.Within (1 / T.re * Real.log σ)
      (1 / |T.re| * (2 ^ (-23 : ℤ) + (κ + 2 ^ (-51 : ℤ)) * |Real.log σ|)) := by
    intro h0
    have hn := sqrt_near (a := D.re) (b := r ^ 2) (c := 9 / 10 ^ 8 * t) (by positivity)
      (by positivity) (hd.trans (by
        have e : (9 / 10 ^ 8 * t) ^ 2 = (9 / 10 ^ 8) ^ 2 * t ^ 2 := by ring
        rw [e, ← mul_assoc]
        refine mul_le_mul_of_nonneg_right ?_ (by positivity)
        rw [u1]; norm_num))
    rw [Real.sqrt_sq hr0, hr, ht] at hn
    have := entry64 hm hκ0 hκ F hT hT' hσ hσ0 h0 (e := 9 / 10 ^ 8) (by norm_num) (by norm_num) hn
    rw [← hv] at this
    refine mono _ _ _ ?_ this
    norm_num at hu1 ⊢
    linarith
  refine ⟨?_, ?_, ?_⟩
  · by_cases h0 : D.re < 0
    · left
      rw [hv, maxEig64, Val64.sqrt, if_pos (Fl.re_lt_zero.2 h0)]
      rfl
    · exact .inr (general (not_lt.1 h0))
  · intro h
    have hg := gap_ratio ht0 hr0 hs hdet h
    have h0 : 0 ≤ D.re := by
      have h1 : 2 ^ (-23 : ℤ) * t ≤ r := by
        norm_num at hg ⊢
        linarith
      have h2 := mul_self_le_mul_self (by positivity) h1
      have h3 : (2 : ℝ) ^ (-23 : ℤ) * t * (2 ^ (-23 : ℤ) * t) = 2 ^ (-46 : ℤ) * t ^ 2 := by
        norm_num; ring
      have h4 := (abs_le.1 hd).1
      rw [h3, ← u2] at h2
      have h5 : 0 < uR * t ^ 2 := by positivity
      nlinarith
    obtain ⟨x, hx, -⟩ := general h0
    rw [hx]
    exact fun h => by cases h
  · intro h
    have hg := gap_ratio ht0 hr0 hs hdet h
    have h1 : 3 / 5 * t ≤ r := by linarith
    have hr1 : 0 < r := lt_of_lt_of_le (by positivity) h1
    have h0 : 0 ≤ D.re := by
      have h2 := mul_self_le_mul_self (by positivity) h1
      have h4 := (abs_le.1 hd).1
      have h5 : uR * t ^ 2 ≤ 1 / 10 ^ 15 * t ^ 2 :=
        mul_le_mul_of_nonneg_right hu1 (by positivity)
      nlinarith [sq_nonneg t]
    have hn := sqrt_near' (a := D.re) (b := r ^ 2) h0 (by positivity)
    rw [Real.sqrt_sq hr0] at hn
    have hn' : |√D.re - r| ≤ 107 * uR * t := by
      refine hn.trans ?_
      rw [div_le_iff₀ hr1]
      refine hd.trans ?_
      have := mul_le_mul_of_nonneg_left h1 (by positivity : 0 ≤ 107 * uR * t)
      nlinarith [mul_pos hu (sq_pos_of_pos ht0)]
    rw [hr, ht] at hn'
    have := entry64 hm hκ0 hκ F hT hT' hσ hσ0 h0 (e := 107 * uR) (by positivity)
      (by norm_num at hu1 ⊢; linarith) hn'
    rw [← hv] at this
    refine mono _ _ _ ?_ this
    rw [← u2]
    linarith

/-- **C85** (accuracy of `compute_ftle_2x2`).  In binary64, with a square root accurate to one
rounding and a logarithm accurate to a relative error `κ`: the kernel returns a value for every
Jacobian; with `σ ≥ 2^-200` the largest stretch, this is NaN or within
`(2^-23 + (κ + 2^-51) |ln σ|) / |T|` of `(1/T) ln σ`.  It is not NaN when the two stretches differ
by a relative `2^-22` (their product is `|det|`), and `2^-23` becomes `2^-46` when the larger
stretch is at least twice the smaller. -/
theorem C85_kernel {m : Libm} {κ : ℝ} (hm : m.Accurate κ) (hκ0 : 0 ≤ κ) (hκ : κ ≤ 1 / 100)
    (Js : List (Matrix (Fin 2) (Fin 2) Fl)) {T : Fl} (hT : T.re ≠ 0) (hT' : |T.re| ≤ 2 ^ 1000) :
    ∃ vs, ftle64 m Js T = .ok vs ∧ List.Forall₂ (fun F v => ∀ σ, IsMaxStretch (reMat F) σ →
      2 ^ (-200 : ℤ) ≤ σ →
      (v = .nan ∨ v.Within (1 / T.re * Real.log σ)
        (1 / |T.re| * (2 ^ (-23 : ℤ) + (κ + 2 ^ (-51 : ℤ)) * |Real.log σ|))) ∧
      (|(reMat F).det| ≤ (1 - 2 ^ (-22 : ℤ)) * σ ^ 2 → v ≠ .nan) ∧
      (|(reMat F).det| ≤ 1 / 2 * σ ^ 2 → v.Within (1 / T.re * Real.log σ)
        (1 / |T.re| * (2 ^ (-46 : ℤ) + (κ + 2 ^ (-51 : ℤ)) * |Real.log σ|)))) Js vs := by
  refine ⟨_, by rw [ftle64, if_neg (fun h => hT (Fl.re_eq_zero.1 h))], ?_⟩
  rw [List.map_map, List.map_map, List.forall₂_map_right_iff, List.forall₂_same]
  intro F _ σ hσ hσ0
  exact entry64_bounds hm hκ0 hκ F hT hT' hσ hσ0 rfl

/-- **C85** (the exception is real).  Whatever the libraries, for the stretches `1 + 2^-26` and
`1 + 2^-27` the value is NaN. -/
theorem C85_nan (m : Libm) : ∃ F : Matrix (Fin 2) (Fin 2) Fl, ∃ σ : ℝ,
    IsMaxStretch (reMat F) σ ∧ 1 ≤ σ ∧ ∀ T : Fl, T.val ≠ 0 → ftle64 m [F] T = .ok [.nan] := by
  refine ⟨stretch64 (1 + 2 / 2 ^ 27) (1 + 1 / 2 ^ 27), 1 + 2 / 2 ^ 27, ?_, by norm_num, ?_⟩
  · have := maxStretch_diag (x := 1 + 2 / 2 ^ 27) (y := 1 + 1 / 2 ^ 27)
      (by rw [abs_of_pos, abs_of_pos] <;> norm_num)
    rw [abs_of_pos (by norm_num)] at this
    convert this using 1
    ext i j
    fin_cases i <;> fin_cases j <;> simp [reMat, stretch64, Fl.re]
  · intro T hT
    have h : (disc2 (⟨4⟩ : Fl) (cauchyGreen2 (stretch64 (1 + 2 / 2 ^ 27) (1 + 1 / 2 ^ 27)))).val < 0 := by
      decide +kernel
    rw [ftle64, if_neg hT]
    simp only [List.map_cons, List.map_nil, maxEig64, Val64.sqrt, if_pos h]
    rfl

/-- A zero period raises. -/
theorem C85_zero_period (m : Libm) (Js : List (Matrix (Fin 2) (Fin 2) Fl)) (T : Fl)
    (hT : T.val = 0) : ftle64 m Js T = .error .zeroDivisionError := by
  rw [ftle64, if_pos hT]

/-! ## The hypotheses can be met -/

theorem exists_fl_near (y b : ℝ) (h : y ≠ 0 → 0 < b) (hb : 0 ≤ b) : ∃ x : Fl, |x.re - y| ≤ b := by
  by_cases hy : y = 0
  · exact ⟨0, by rw [hy, Fl.re_zero]; simpa using hb⟩
  · obtain ⟨q, h1, h2⟩ := exists_rat_btwn (show y < y + b by linarith [h hy])
    exact ⟨⟨q⟩, by rw [Fl.re, abs_of_pos (by linarith)]; linarith⟩

/-- Libraries of any accuracy exist. -/
theorem exists_libm {κ : ℝ} (hκ : 0 < κ) : ∃ m : Libm, m.Accurate κ := by
  have h1 : ∀ x : Fl, ∃ y : Fl, |y.re - √x.re| ≤ 2 ^ (-53 : ℤ) * √x.re := fun x =>
    exists_fl_near _ _ (fun h => by
      have : 0 < √x.re := lt_of_le_of_ne (Real.sqrt_nonneg _) (Ne.symm h)
      positivity) (by positivity)
  have h2 : ∀ x : Fl, ∃ y : Fl, |y.re - Real.log x.re| ≤ κ * |Real.log x.re| := fun x =>
    exists_fl_near _ _ (fun h => by have := abs_pos.2 h; positivity) (by positivity)
  choose f hf using h1
  choose g hg using h2
  exact ⟨⟨f, g⟩, fun x _ => hf x, fun x _ => hg x⟩

/-- The stretches 2 and 1/2 over the period −3: the value is within `2^-47 (1 + ln 2)` of
`-(1/3) ln 2`. -/
example : ∃ m : Libm, m.Accurate (2 ^ (-52 : ℤ)) ∧ ∃ v,
    ftle64 m [stretch64 2 (1 / 2)] ⟨-3⟩ = .ok [v] ∧
      v.Within (-1 / 3 * Real.log 2) (2 ^ (-47 : ℤ) * (1 + Real.log 2)) := by
  obtain ⟨m, hm⟩ := exists_libm (κ := 2 ^ (-52 : ℤ)) (by positivity)
  have hT : (⟨-3⟩ : Fl).re = -3 := by simp [Fl.re]
  obtain ⟨vs, h1, h2⟩ := C85_kernel hm (by positivity) (by norm_num) [stretch64 2 (1 / 2)]
    (T := ⟨-3⟩) (by rw [hT]; norm_num) (by
      rw [hT, abs_neg, abs_of_pos (by norm_num)]
      exact le_trans (by norm_num : (3 : ℝ) ≤ 2 ^ 2) (pow_le_pow_right₀ (by norm_num) (by norm_num)))
  obtain ⟨v, vs', h3, h4, rfl⟩ := List.forall₂_cons_left_iff.1 h2
  rw [List.forall₂_nil_left_iff] at h4
  subst h4
  have hG : reMat (stretch64 2 (1 / 2)) = !![(2 : ℝ), 0; 0, 1 / 2] := by
    ext i j
    fin_cases i <;> fin_cases j <;> simp [reMat, stretch64, Fl.re]
  have hσ : IsMaxStretch (reMat (stretch64 2 (1 / 2))) 2 := by
    have := maxStretch_diag (x := 2) (y := 1 / 2)
      (by rw [abs_of_pos, abs_of_pos] <;> norm_num)
    rwa [abs_of_pos (by norm_num), ← hG] at this
  obtain ⟨x, hx, hb⟩ := (h3 2 hσ ((zpow_le_one_of_nonpos₀ (by norm_num) (by norm_num)).trans
    (by norm_num))).2.2 (by rw [hG, Matrix.det_fin_two]; norm_num)
  refine ⟨m, hm, v, h1, x, hx, ?_⟩
  have hl : 0 < Real.log 2 := Real.log_pos (by norm_num)
  rw [hT, abs_of_pos hl] at hb
  have e : (1 : ℝ) / -3 = -1 / 3 := by norm_num
  rw [e] at hb
  refine hb.trans ?_
  norm_num
  linarith

end Verif
