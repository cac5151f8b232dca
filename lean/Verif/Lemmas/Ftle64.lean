import Verif.Lemmas.Float
import Verif.Lemmas.Ftle
import Verif.Lemmas.GridError

/-!
# Rounding errors of the 2-D FTLE kernel
-/

namespace Verif

/-- A sum of two products. -/
theorem dot_near {x y p q s : ℝ} (hp : |p - x| ≤ uR * |x| + ηR) (hq : |q - y| ≤ uR * |y| + ηR)
    (hs : |s - (p + q)| ≤ uR * |p + q| + ηR) :
    |s - (x + y)| ≤ 201 / 100 * uR * (|x| + |y|) + 4 * ηR := by
  have h1 := round_near hs (add_near hp hq) (abs_add_le x y)
  have hu := uR_pos
  have hη := ηR_pos
  have h2 : uR * (uR * (|x| + |y|)) ≤ 1 / 100 * (uR * (|x| + |y|)) := by
    refine mul_le_mul_of_nonneg_right (uR_le.trans (by norm_num)) ?_
    positivity
  have h3 : uR * ηR ≤ 1 / 100 * ηR :=
    mul_le_mul_of_nonneg_right (uR_le.trans (by norm_num)) hη.le
  nlinarith

/-- The size of the entries is large against underflow. -/
structure NoUnderflow (t : ℝ) : Prop where
  pos : 0 < t
  lin : ηR ≤ 1 / 10 ^ 6 * (uR * t)
  quad : ηR ≤ 1 / 10 ^ 6 * (uR * t ^ 2)

theorem noUnderflow {t : ℝ} (h : 2 ^ (-400 : ℤ) ≤ t) : NoUnderflow t := by
  have h0 : (0 : ℝ) < 2 ^ (-400 : ℤ) := by positivity
  have ht : 0 < t := lt_of_lt_of_le h0 h
  have e1 : ηR ≤ 1 / 10 ^ 6 * (uR * 2 ^ (-800 : ℤ)) := by
    have e : (2 : ℝ) ^ (-20 : ℤ) ≤ 1 / 10 ^ 6 := by norm_num
    have e2 : (2 : ℝ) ^ (-20 : ℤ) * (uR * 2 ^ (-800 : ℤ)) ≤ 1 / 10 ^ 6 * (uR * 2 ^ (-800 : ℤ)) :=
      mul_le_mul_of_nonneg_right e (by have := uR_pos; positivity)
    refine le_trans ?_ e2
    unfold ηR uR
    rw [← zpow_add₀ (by norm_num), ← zpow_add₀ (by norm_num)]
    exact zpow_le_zpow_right₀ (by norm_num) (by norm_num)
  have hu := uR_pos
  refine ⟨ht, e1.trans ?_, e1.trans ?_⟩
  · refine mul_le_mul_of_nonneg_left (mul_le_mul_of_nonneg_left ?_ hu.le) (by norm_num)
    refine le_trans ?_ h
    exact zpow_le_zpow_right₀ (by norm_num) (by norm_num)
  · refine mul_le_mul_of_nonneg_left (mul_le_mul_of_nonneg_left ?_ hu.le) (by norm_num)
    have : (2 : ℝ) ^ (-800 : ℤ) = 2 ^ (-400 : ℤ) * 2 ^ (-400 : ℤ) := by
      rw [← zpow_add₀ (by norm_num)]; norm_num
    rw [this, sq]
    exact mul_le_mul h h h0.le ht.le

/-- The number under the root and the trace, from the entries of the tensor with rounding. -/
theorem disc_near {A B D A' B' C' D' t' q P Q w f d : ℝ} (ht : NoUnderflow (A + D))
    (hA : 0 ≤ A) (hD : 0 ≤ D) (hB : B ^ 2 ≤ A * D)
    (hA' : |A' - A| ≤ 202 / 100 * (uR * (A + D))) (hB' : |B' - B| ≤ 202 / 100 * (uR * (A + D)))
    (hC' : |C' - B| ≤ 202 / 100 * (uR * (A + D)))
    (hD' : |D' - D| ≤ 202 / 100 * (uR * (A + D)))
    (hT' : |A' + D' - (A + D)| ≤ 202 / 100 * (uR * (A + D)))
    (h1 : |t' - (A' + D')| ≤ uR * |A' + D'| + ηR) (h2 : |q - t' * t'| ≤ uR * |t' * t'| + ηR)
    (h3 : |P - A' * D'| ≤ uR * |A' * D'| + ηR) (h4 : |Q - B' * C'| ≤ uR * |B' * C'| + ηR)
    (h5 : |w - (P - Q)| ≤ uR * |P - Q| + ηR) (h6 : |f - 4 * w| ≤ uR * |4 * w| + ηR)
    (h7 : |d - (q - f)| ≤ uR * |q - f| + ηR) :
    |t' - (A + D)| ≤ 304 / 100 * (uR * (A + D)) ∧
      |d - ((A - D) ^ 2 + 4 * B ^ 2)| ≤ 64 * (uR * (A + D) ^ 2) := by
  obtain ⟨hpos, hl, hq⟩ := ht
  set t := A + D with htd
  have hu := uR_pos
  have hu1 := uR_le
  have hη := ηR_pos
  set p := uR * t with hp
  have hp0 : 0 < p := by positivity
  set s := uR * t ^ 2 with hs
  have hs0 : 0 < s := by positivity
  have hup : uR * p ≤ 1 / 10 ^ 15 * p := mul_le_mul_of_nonneg_right hu1 hp0.le
  have hus : uR * s ≤ 1 / 10 ^ 15 * s := mul_le_mul_of_nonneg_right hu1 hs0.le
  have htp : t * p = s := by rw [hp, hs]; ring
  have hpp : p * p ≤ 1 / 10 ^ 15 * s := by
    have : p * p = uR * s := by rw [hp, hs]; ring
    rw [this]; exact hus
  have ht2 : 0 ≤ t ^ 2 := by positivity
  have hAt : |A| ≤ t := by rw [abs_of_nonneg hA]; linarith
  have hDt : |D| ≤ t := by rw [abs_of_nonneg hD]; linarith
  have hAD : A * D ≤ t ^ 2 / 4 := by rw [htd]; nlinarith [sq_nonneg (A - D)]
  have hAD0 : 0 ≤ A * D := mul_nonneg hA hD
  have hBB2 : B * B ≤ A * D := by rw [← sq]; exact hB
  have htt : t * t = t ^ 2 := (sq t).symm
  have hBt : |B| ≤ t := abs_le_of_sq_le_sq (by linarith) hpos.le
  have k1 : |t' - t| ≤ 304 / 100 * p := by
    have := round_near h1 hT' (Y := t) (by rw [abs_of_pos hpos])
    have e : uR * (t + 202 / 100 * p) = p + 202 / 100 * (uR * p) := by rw [hp]; ring
    linarith
  refine ⟨k1, ?_⟩
  have round : ∀ x y y' c : ℝ, |x - y| ≤ uR * |y| + ηR → |y - y'| ≤ c * s → |y'| ≤ t ^ 2 → c ≤ 100 →
      |x - y'| ≤ (c + 101 / 100) * s := by
    intro x y y' c hx hy hY hc
    have := round_near hx hy hY
    have e : uR * (t ^ 2 + c * s) = s + c * (uR * s) := by rw [hs]; ring
    have e2 : c * (uR * s) ≤ 100 * (1 / 10 ^ 15 * s) :=
      mul_le_mul hc hus (by positivity) (by norm_num)
    linarith
  have prod : ∀ x y x' y' : ℝ, |x - x'| ≤ 202 / 100 * p → |y - y'| ≤ 202 / 100 * p → |x'| ≤ t →
      |y'| ≤ t → |x * y - x' * y'| ≤ 405 / 100 * s := by
    intro x y x' y' hx hy hX hY
    have := mul_near hx hy hX hY
    have e : t * (202 / 100 * p) + t * (202 / 100 * p) + 202 / 100 * p * (202 / 100 * p) =
        404 / 100 * (t * p) + 202 / 100 * (202 / 100) * (p * p) := by ring
    rw [e, htp] at this
    linarith
  have k2 : |q - t * t| ≤ 712 / 100 * s := by
    have e1 := mul_near k1 k1 (X := t) (Y := t) (by rw [abs_of_pos hpos]) (by rw [abs_of_pos hpos])
    have e : t * (304 / 100 * p) + t * (304 / 100 * p) + 304 / 100 * p * (304 / 100 * p) =
        608 / 100 * (t * p) + 304 / 100 * (304 / 100) * (p * p) := by ring
    rw [e, htp] at e1
    refine (round q (t' * t') (t * t) (610 / 100) h2 (by linarith) ?_ (by norm_num)).trans ?_
    · rw [abs_of_pos (by positivity), sq]
    · linarith
  have k3 := round P (A' * D') (A * D) (405 / 100) h3 (prod _ _ _ _ hA' hD' hAt hDt)
    (by rw [abs_of_nonneg hAD0]; linarith) (by norm_num)
  have hBB : 0 ≤ B * B := mul_self_nonneg B
  have k4 := round Q (B' * C') (B * B) (405 / 100) h4 (prod _ _ _ _ hB' hC' hBt hBt)
    (by rw [abs_of_nonneg hBB]; linarith) (by norm_num)
  have hdet : 0 ≤ A * D - B * B := by linarith
  have k5 := round w (P - Q) (A * D - B * B) (1012 / 100) h5
    ((sub_near k3 k4).trans (by linarith)) (by rw [abs_of_nonneg hdet]; linarith) (by norm_num)
  have k6 := round f (4 * w) (4 * (A * D - B * B)) (4452 / 100) h6
    (by rw [← mul_sub, abs_mul, abs_of_pos (by norm_num : (0 : ℝ) < 4)]; linarith)
    (by rw [abs_of_nonneg (by linarith)]; linarith) (by norm_num)
  have k7 := round d (q - f) (t * t - 4 * (A * D - B * B)) (5266 / 100) h7
    ((sub_near k2 k6).trans (by linarith))
    (by rw [abs_of_nonneg (by linarith)]; linarith) (by norm_num)
  have e : (A - D) ^ 2 + 4 * B ^ 2 = t * t - 4 * (A * D - B * B) := by rw [htd]; ring
  rw [e]
  linarith

/-- Entries as real numbers. -/
noncomputable def reMat {d : ℕ} (F : Matrix (Fin d) (Fin d) Fl) : Matrix (Fin d) (Fin d) ℝ :=
  fun i j => (F i j).re

/-- The entries of the tensor of a real matrix. -/
def cgA (G : Matrix (Fin 2) (Fin 2) ℝ) : ℝ := G 0 0 * G 0 0 + G 1 0 * G 1 0
def cgB (G : Matrix (Fin 2) (Fin 2) ℝ) : ℝ := G 0 0 * G 0 1 + G 1 0 * G 1 1
def cgD (G : Matrix (Fin 2) (Fin 2) ℝ) : ℝ := G 0 1 * G 0 1 + G 1 1 * G 1 1

theorem cgA_nonneg (G : Matrix (Fin 2) (Fin 2) ℝ) : 0 ≤ cgA G :=
  add_nonneg (mul_self_nonneg _) (mul_self_nonneg _)
theorem cgD_nonneg (G : Matrix (Fin 2) (Fin 2) ℝ) : 0 ≤ cgD G :=
  add_nonneg (mul_self_nonneg _) (mul_self_nonneg _)

theorem cg_det (G : Matrix (Fin 2) (Fin 2) ℝ) : cgA G * cgD G - cgB G ^ 2 = G.det ^ 2 := by
  rw [Matrix.det_fin_two]
  unfold cgA cgB cgD
  ring

/-- The largest stretch in closed form. -/
theorem maxStretch2_sq {G : Matrix (Fin 2) (Fin 2) ℝ} {σ : ℝ} (h : IsMaxStretch G σ) :
    σ ^ 2 = 1 / 2 * (cgA G + cgD G + √((cgA G - cgD G) ^ 2 + 4 * cgB G ^ 2)) := by
  obtain ⟨l, h1, h2, h3⟩ := entry2 G
  rw [maxStretch_unique h h3, Real.sq_sqrt h2]
  have e : disc2 4 (cauchyGreen2 G) = (cgA G - cgD G) ^ 2 + 4 * cgB G ^ 2 := by
    rw [disc2_symm _ (by simp [cauchyGreen2, mul_comm])]
    simp [cauchyGreen2, cgA, cgB, cgD]
  have et : trace2 (cauchyGreen2 G) = cgA G + cgD G := by
    simp [trace2, cauchyGreen2, cgA, cgD]
  have h0 : ¬ disc2 4 (cauchyGreen2 G) < 0 := by rw [e, not_lt]; positivity
  rw [maxEig2, FVal.sqrt, if_neg h0] at h1
  simp only [FVal.fin.injEq] at h1
  rw [e, et] at h1
  rw [← h1, max_eq_left]
  have := Real.sqrt_nonneg ((cgA G - cgD G) ^ 2 + 4 * cgB G ^ 2)
  linarith

theorem sqrt_near {a b c : ℝ} (hb : 0 ≤ b) (hc : 0 ≤ c) (h : |a - b| ≤ c ^ 2) :
    |√a - √b| ≤ c := by
  rw [abs_le] at h
  have hsb := Real.sqrt_nonneg b
  have hsa := Real.sqrt_nonneg a
  have e1 : √a ≤ √b + c := by
    apply Real.sqrt_le_iff.2
    refine ⟨by linarith, ?_⟩
    have := Real.sq_sqrt hb
    nlinarith [mul_nonneg hsb hc]
  have e2 : √b ≤ √a + c := by
    apply Real.sqrt_le_iff.2
    refine ⟨by linarith, ?_⟩
    rcases le_total 0 a with ha | ha
    · have := Real.sq_sqrt ha
      nlinarith [mul_nonneg hsa hc]
    · rw [Real.sqrt_eq_zero_of_nonpos ha]
      nlinarith
  rw [abs_le]
  constructor <;> linarith

theorem sqrt_near' {a b : ℝ} (ha : 0 ≤ a) (hb : 0 < b) : |√a - √b| ≤ |a - b| / √b := by
  have hsb := Real.sqrt_pos.2 hb
  have hsa := Real.sqrt_nonneg a
  rw [le_div_iff₀ hsb]
  have e : a - b = (√a - √b) * (√a + √b) := by
    have h1 := Real.sq_sqrt ha
    have h2 := Real.sq_sqrt hb.le
    nlinarith
  rw [e, abs_mul, abs_of_nonneg (by positivity : 0 ≤ √a + √b)]
  exact mul_le_mul_of_nonneg_left (by linarith) (abs_nonneg _)

/-- Trace and number under the root of the computed tensor. -/
theorem tensor_near (F : Matrix (Fin 2) (Fin 2) Fl)
    (ht : NoUnderflow (cgA (reMat F) + cgD (reMat F))) :
    |(trace2 (cauchyGreen2 F)).re - (cgA (reMat F) + cgD (reMat F))| ≤
        304 / 100 * (uR * (cgA (reMat F) + cgD (reMat F))) ∧
      |(disc2 (⟨4⟩ : Fl) (cauchyGreen2 F)).re -
          ((cgA (reMat F) - cgD (reMat F)) ^ 2 + 4 * cgB (reMat F) ^ 2)| ≤
        64 * (uR * (cgA (reMat F) + cgD (reMat F)) ^ 2) := by
  set G := reMat F with hG
  set t := cgA G + cgD G with htd
  have hA0 := cgA_nonneg G
  have hD0 := cgD_nonneg G
  have hp : 0 < uR * t := mul_pos uR_pos ht.pos
  have hη := ht.lin
  have dot : ∀ a b c d : Fl, |(a * b + c * d).re - (a.re * b.re + c.re * d.re)| ≤
      201 / 100 * uR * (|a.re * b.re| + |c.re * d.re|) + 4 * ηR := fun a b c d =>
    dot_near (Fl.re_mul a b) (Fl.re_mul c d) (Fl.re_add _ _)
  have small : ∀ x z : ℝ, |x| ≤ 201 / 100 * uR * z + 4 * ηR → z ≤ t →
      |x| ≤ 202 / 100 * (uR * t) := by
    intro x z h hz
    have := mul_le_mul_of_nonneg_left hz uR_pos.le
    linarith
  have hsq : ∀ x : ℝ, |x * x| = x * x := fun x => abs_of_nonneg (mul_self_nonneg x)
  have hab : ∀ x y : ℝ, |x * y| ≤ 1 / 2 * (x * x + y * y) := by
    intro x y
    rw [abs_le]
    constructor <;> nlinarith [sq_nonneg (x + y), sq_nonneg (x - y)]
  have dA := dot (F 0 0) (F 0 0) (F 1 0) (F 1 0)
  have dB := dot (F 0 0) (F 0 1) (F 1 0) (F 1 1)
  have dC := dot (F 0 1) (F 0 0) (F 1 1) (F 1 0)
  have dD := dot (F 0 1) (F 0 1) (F 1 1) (F 1 1)
  rw [hsq, hsq] at dA dD
  have bB : |(F 0 0).re * (F 0 1).re| + |(F 1 0).re * (F 1 1).re| ≤ t := by
    have e1 := hab (F 0 0).re (F 0 1).re
    have e2 := hab (F 1 0).re (F 1 1).re
    have : t = (F 0 0).re * (F 0 0).re + (F 1 0).re * (F 1 0).re +
        ((F 0 1).re * (F 0 1).re + (F 1 1).re * (F 1 1).re) := rfl
    nlinarith [ht.pos]
  have bC : |(F 0 1).re * (F 0 0).re| + |(F 1 1).re * (F 1 0).re| ≤ t := by
    rw [mul_comm (F 0 1).re, mul_comm (F 1 1).re]; exact bB
  have hA' : |(F 0 0 * F 0 0 + F 1 0 * F 1 0).re - cgA G| ≤ 202 / 100 * (uR * t) :=
    small _ (cgA G) dA (by linarith)
  have hD' : |(F 0 1 * F 0 1 + F 1 1 * F 1 1).re - cgD G| ≤ 202 / 100 * (uR * t) :=
    small _ (cgD G) dD (by linarith)
  have hB' : |(F 0 0 * F 0 1 + F 1 0 * F 1 1).re - cgB G| ≤ 202 / 100 * (uR * t) :=
    small _ _ dB bB
  have hC' : |(F 0 1 * F 0 0 + F 1 1 * F 1 0).re - cgB G| ≤ 202 / 100 * (uR * t) := by
    have e : cgB G = (F 0 1).re * (F 0 0).re + (F 1 1).re * (F 1 0).re := by
      show (F 0 0).re * (F 0 1).re + (F 1 0).re * (F 1 1).re = _
      ring
    rw [e]
    exact small _ _ dC bC
  have hT' : |(F 0 0 * F 0 0 + F 1 0 * F 1 0).re + (F 0 1 * F 0 1 + F 1 1 * F 1 1).re - t| ≤
      202 / 100 * (uR * t) := by
    have e := add_near dA dD
    change |_ - (cgA G + cgD G)| ≤ 201 / 100 * uR * cgA G + 4 * ηR +
      (201 / 100 * uR * cgD G + 4 * ηR) at e
    refine e.trans ?_
    have e3 : 201 / 100 * uR * cgA G + 201 / 100 * uR * cgD G = 201 / 100 * (uR * t) := by
      rw [htd]; ring
    linarith
  have hB2 : cgB G ^ 2 ≤ cgA G * cgD G := by
    have := cg_det G
    have := sq_nonneg G.det
    linarith
  have key := disc_near (A := cgA G) (B := cgB G) (D := cgD G) ht hA0 hD0 hB2 hA' hB' hC' hD' hT'
    (Fl.re_add (F 0 0 * F 0 0 + F 1 0 * F 1 0) (F 0 1 * F 0 1 + F 1 1 * F 1 1))
    (Fl.re_mul _ _)
    (Fl.re_mul (F 0 0 * F 0 0 + F 1 0 * F 1 0) (F 0 1 * F 0 1 + F 1 1 * F 1 1))
    (Fl.re_mul (F 0 0 * F 0 1 + F 1 0 * F 1 1) (F 0 1 * F 0 0 + F 1 1 * F 1 0))
    (Fl.re_sub _ _)
    (by have := Fl.re_mul ⟨4⟩ ((F 0 0 * F 0 0 + F 1 0 * F 1 0) * (F 0 1 * F 0 1 + F 1 1 * F 1 1) -
          (F 0 0 * F 0 1 + F 1 0 * F 1 1) * (F 0 1 * F 0 0 + F 1 1 * F 1 0))
        rw [Fl.re_four] at this
        exact this)
    (Fl.re_sub _ _)
  exact key

/-- The eigenvalue and its root, given the error of the square root relative to the trace. -/
theorem eig_near {m : Libm} {κ : ℝ} (hm : m.Accurate κ) {t r tc d s : ℝ} {T D : Fl} {e : ℝ}
    (ht : NoUnderflow t) (htc : T.re = tc) (hdc : D.re = d) (hr : 0 ≤ r) (hrt : r ≤ t)
    (h1 : |tc - t| ≤ 304 / 100 * (uR * t)) (hd0 : 0 ≤ d) (h2 : |√d - r| ≤ e * t)
    (he0 : 0 ≤ e) (he : e ≤ 1 / 10 ^ 6) (hs : s ^ 2 = 1 / 2 * (t + r)) (hs0 : 0 < s) :
    ∃ S : Fl, Val64.sqrt m (.fin (max (NumLits.half * (T + m.sqrt D)) (NumLits.half * (T - m.sqrt D)))) =
        .fin S ∧ |S.re - s| ≤ (e + 10 * uR) * s := by
  obtain ⟨hpos, hl, hq⟩ := ht
  have hu := uR_pos
  have hu1 := uR_le
  set p := uR * t with hp
  have hp0 : 0 < p := by positivity
  have hup : uR * p ≤ 1 / 10 ^ 15 * p := mul_le_mul_of_nonneg_right hu1 hp0.le
  have hue : uR * (e * t) ≤ 1 / 10 ^ 6 * p := by
    have : uR * (e * t) = e * p := by rw [hp]; ring
    rw [this]
    exact mul_le_mul_of_nonneg_right he hp0.le
  have het : 0 ≤ e * t := by positivity
  -- the rounded root
  have k1 : |(m.sqrt D).re - r| ≤ e * t + 101 / 100 * p := by
    have a1 := hm.sqrt D (by rw [hdc]; exact hd0)
    rw [hdc] at a1
    have a2 : √d ≤ t + e * t := by
      have := (abs_le.1 h2).2
      linarith
    have a3 : (2 : ℝ) ^ (-53 : ℤ) * √d ≤ uR * (t + e * t) :=
      mul_le_mul_of_nonneg_left a2 hu.le
    have a4 := abs_sub_le (m.sqrt D).re (√d) r
    have a5 : uR * (t + e * t) = p + uR * (e * t) := by rw [hp]; ring
    linarith
  -- both candidates
  have half : ∀ (Z : Fl) (z : ℝ), |Z.re - z| ≤ e * t + 611 / 100 * p → |z| ≤ 2 * t →
      |(NumLits.half * Z).re - 1 / 2 * z| ≤ 1 / 2 * (e * t) + 41 / 10 * p := by
    intro Z z hZ hz
    have a1 := Fl.re_mul NumLits.half Z
    rw [Fl.re_half] at a1
    have a2 : |1 / 2 * Z.re - 1 / 2 * z| ≤ 1 / 2 * (e * t + 611 / 100 * p) := by
      rw [← mul_sub, abs_mul, abs_of_pos (by norm_num : (0 : ℝ) < 1 / 2)]
      exact mul_le_mul_of_nonneg_left hZ (by norm_num)
    have a3 : |1 / 2 * z| ≤ t := by
      rw [abs_mul, abs_of_pos (by norm_num : (0 : ℝ) < 1 / 2)]
      linarith
    have a4 := round_near a1 a2 a3
    have a5 : uR * (t + 1 / 2 * (e * t + 611 / 100 * p)) =
        p + 1 / 2 * (uR * (e * t)) + 611 / 200 * (uR * p) := by rw [hp]; ring
    linarith
  have k2 : |(T + m.sqrt D).re - (t + r)| ≤ e * t + 611 / 100 * p := by
    have a1 := Fl.re_add T (m.sqrt D)
    rw [htc] at a1
    have a2 := add_near h1 k1
    have a4 := round_near a1 a2 (Y := 2 * t) (by rw [abs_of_nonneg (by linarith)]; linarith)
    have a5 : uR * (2 * t + (304 / 100 * p + (e * t + 101 / 100 * p))) =
        2 * p + 405 / 100 * (uR * p) + uR * (e * t) := by rw [hp]; ring
    linarith
  have k3 : |(T - m.sqrt D).re - (t - r)| ≤ e * t + 611 / 100 * p := by
    have a1 := Fl.re_sub T (m.sqrt D)
    rw [htc] at a1
    have a2 := sub_near h1 k1
    have a4 := round_near a1 a2 (Y := 2 * t) (by rw [abs_of_nonneg (by linarith)]; linarith)
    have a5 : uR * (2 * t + (304 / 100 * p + (e * t + 101 / 100 * p))) =
        2 * p + 405 / 100 * (uR * p) + uR * (e * t) := by rw [hp]; ring
    linarith
  have k4 := half _ _ k2 (by rw [abs_of_nonneg (by linarith)]; linarith)
  have k5 := half _ _ k3 (by rw [abs_of_nonneg (by linarith)]; linarith)
  set Λ := max (NumLits.half * (T + m.sqrt D)) (NumLits.half * (T - m.sqrt D)) with hΛ
  have k6 : |Λ.re - s ^ 2| ≤ 1 / 2 * (e * t) + 41 / 10 * p := by
    rw [hΛ, Fl.re_max, hs, ← max_eq_left (by linarith : 1 / 2 * (t - r) ≤ 1 / 2 * (t + r))]
    exact (abs_max_sub_max_le_max _ _ _ _).trans (max_le k4 k5)
  have hts : t ≤ 2 * s ^ 2 := by rw [hs]; linarith
  have hs2 : 0 < s ^ 2 := by positivity
  have k7 : |Λ.re - s ^ 2| ≤ (e + 82 / 10 * uR) * s ^ 2 := by
    refine k6.trans ?_
    have a1 := mul_le_mul_of_nonneg_left hts he0
    have a2 : p ≤ uR * (2 * s ^ 2) := mul_le_mul_of_nonneg_left hts hu.le
    nlinarith
  have hc : e + 82 / 10 * uR ≤ 1 / 100 := by
    have : (82 / 10 : ℝ) * uR ≤ 82 / 10 * (1 / 10 ^ 15) := by linarith
    norm_num at he this ⊢
    linarith
  have hΛ0 : 0 < Λ.re := by
    have := (abs_le.1 k7).1
    have := mul_le_mul_of_nonneg_right hc hs2.le
    linarith
  have hneg : ¬ Λ.val < 0 := by rw [Fl.re_lt_zero]; exact not_lt.2 hΛ0.le
  refine ⟨m.sqrt Λ, by rw [Val64.sqrt, if_neg hneg], ?_⟩
  have k8 := sqrt_near' (a := Λ.re) (b := s ^ 2) hΛ0.le hs2
  rw [Real.sqrt_sq hs0.le] at k8
  have k9 : |√Λ.re - s| ≤ (e + 82 / 10 * uR) * s := by
    refine k8.trans ?_
    rw [div_le_iff₀ hs0]
    calc _ ≤ _ := k7
      _ = _ := by ring
  have k10 : |(m.sqrt Λ).re - √Λ.re| ≤ uR * √Λ.re := hm.sqrt Λ hΛ0.le
  have k11 : √Λ.re ≤ (1 + 1 / 100) * s := by
    have := (abs_le.1 k9).2
    have := mul_le_mul_of_nonneg_right hc hs0.le
    linarith
  have k12 : uR * √Λ.re ≤ uR * ((1 + 1 / 100) * s) :=
    mul_le_mul_of_nonneg_left k11 hu.le
  have k13 := abs_sub_le (m.sqrt Λ).re (√Λ.re) s
  have : 0 < uR * s := by positivity
  linarith

end Verif
