import Verif.Lemmas.Rk4Local
import Verif.Lemmas.FlowOn
import Verif.Lemmas.GridError
import Verif.Spec.Order

/-!
# Order of accuracy of the integrators
-/

namespace Verif

open Set

variable {d : ℕ}

/-! ## Stability of one step -/

theorem increment_rk4 (g : (Fin d → ℝ) → Fin d → ℝ) (h : ℝ) (prev : Option (Fin d → ℝ))
    (x : Fin d → ℝ) : increment .rk4 g h prev x = rk4Inc g h x := rfl

theorem rk4_combine {a b c e : Fin d → ℝ} {D : ℝ} (ha : ‖a‖ ≤ D) (hb : ‖b‖ ≤ 3 / 2 * D)
    (hc : ‖c‖ ≤ 7 / 4 * D) (he : ‖e‖ ≤ 11 / 4 * D) (hD : 0 ≤ D) :
    ‖(1 / 6 : ℝ) • (a + (2 : ℝ) • b + (2 : ℝ) • c + e)‖ ≤ 2 * D := by
  rw [norm_smul, Real.norm_of_nonneg (by norm_num)]
  have t1 := norm_add_le (a + (2 : ℝ) • b + (2 : ℝ) • c) e
  have t2 := norm_add_le (a + (2 : ℝ) • b) ((2 : ℝ) • c)
  have t3 := norm_add_le a ((2 : ℝ) • b)
  have t4 : ∀ z : Fin d → ℝ, ‖(2 : ℝ) • z‖ = 2 * ‖z‖ := fun z => by
    rw [norm_smul, Real.norm_of_nonneg (by norm_num)]
  rw [t4] at t2 t3
  linarith

/-- Two remembered velocities differ by at most `D`. -/
def PrevNear (D : ℝ) : Option (Fin d → ℝ) → Option (Fin d → ℝ) → Prop
  | none, none => True
  | some p, some q => ‖p - q‖ ≤ D
  | _, _ => False

theorem increment_stable (k : Kind) {g v : (Fin d → ℝ) → Fin d → ℝ} {h ε L B e r : ℝ}
    {prev prev' : Option (Fin d → ℝ)} {x y : Fin d → ℝ} (hε0 : 0 ≤ ε) (hL0 : 0 ≤ L) (hB0 : 0 ≤ B)
    (hε : ∀ z, ‖z - y‖ ≤ r → ‖g z - v z‖ ≤ ε)
    (hL : ∀ z z', ‖z - y‖ ≤ r → ‖z' - y‖ ≤ r → ‖v z - v z'‖ ≤ L * ‖z - z'‖)
    (hB : ∀ z, ‖z - y‖ ≤ r → ‖v z‖ ≤ B) (hx : ‖x - y‖ ≤ e)
    (hp : PrevNear (ε + L * e) prev prev') (hh : L * |h| ≤ 1) (hr : e + |h| * (B + ε) ≤ r) :
    ‖increment k g h prev x - increment k v h prev' y‖ ≤ 2 * (ε + L * e) := by
  have he0 : 0 ≤ e := (norm_nonneg _).trans hx
  have hh0 : 0 ≤ |h| := abs_nonneg h
  have hBε : 0 ≤ |h| * (B + ε) := by positivity
  have hyr : ‖y - y‖ ≤ r := by rw [sub_self, norm_zero]; linarith
  have hxr : ‖x - y‖ ≤ r := by linarith
  set D := ε + L * e with hD
  have hD0 : 0 ≤ D := by positivity
  have pair : ∀ z z' : Fin d → ℝ, ∀ c, ‖z - y‖ ≤ r → ‖z' - y‖ ≤ r → ‖z - z'‖ ≤ c →
      ‖g z - v z'‖ ≤ ε + L * c := by
    intro z z' c hz hz' hc
    have h1 := norm_add_le (g z - v z) (v z - v z')
    rw [sub_add_sub_cancel] at h1
    have h2 := hε z hz
    have h3 := (hL z z' hz hz').trans (mul_le_mul_of_nonneg_left hc hL0)
    linarith
  have h1 : ‖g x - v y‖ ≤ D := pair x y e hxr hyr hx
  cases k with
  | euler =>
    show ‖g x - v y‖ ≤ _
    linarith
  | ab2 =>
    cases prev with
    | none =>
      cases prev' with
      | none =>
        show ‖g x - v y‖ ≤ _
        linarith
      | some q => exact absurd hp id
    | some p =>
      cases prev' with
      | none => exact absurd hp id
      | some q =>
        have hp : ‖p - q‖ ≤ D := hp
        show ‖(3 / 2 : ℝ) • g x - (1 / 2 : ℝ) • p - ((3 / 2 : ℝ) • v y - (1 / 2 : ℝ) • q)‖ ≤ _
        have e1 : (3 / 2 : ℝ) • g x - (1 / 2 : ℝ) • p - ((3 / 2 : ℝ) • v y - (1 / 2 : ℝ) • q) =
            (3 / 2 : ℝ) • (g x - v y) - (1 / 2 : ℝ) • (p - q) := by module
        rw [e1]
        refine (norm_sub_le _ _).trans ?_
        rw [norm_smul, norm_smul, Real.norm_of_nonneg (by norm_num), Real.norm_of_nonneg (by norm_num)]
        linarith
  | rk4 =>
    have size : ∀ z, ‖z - y‖ ≤ r → ‖g z‖ ≤ B + ε := by
      intro z hz
      have h1 := norm_add_le (v z) (g z - v z)
      rw [add_sub_cancel] at h1
      linarith [hB z hz, hε z hz]
    have stay : ∀ (a : ℝ) (q : Fin d → ℝ), |a| ≤ |h| → ‖q‖ ≤ B + ε → ‖x + a • q - y‖ ≤ r := by
      intro a q ha hq
      have h1 : x + a • q - y = (x - y) + a • q := by abel
      rw [h1]
      refine (norm_add_le _ _).trans (le_trans (add_le_add hx ?_) hr)
      rw [norm_smul, Real.norm_eq_abs]
      exact mul_le_mul ha hq (norm_nonneg _) hh0
    have stay' : ∀ (a : ℝ) (q : Fin d → ℝ), |a| ≤ |h| → ‖q‖ ≤ B → ‖y + a • q - y‖ ≤ r := by
      intro a q ha hq
      rw [add_sub_cancel_left, norm_smul, Real.norm_eq_abs]
      have := mul_le_mul ha hq (norm_nonneg _) hh0
      nlinarith
    have close : ∀ (a c : ℝ) (q q' : Fin d → ℝ), ‖q - q'‖ ≤ c →
        ‖x + a • q - (y + a • q')‖ ≤ e + |a| * c := by
      intro a c q q' hc
      have h1 : x + a • q - (y + a • q') = (x - y) + a • (q - q') := by module
      rw [h1]
      refine (norm_add_le _ _).trans (add_le_add hx ?_)
      rw [norm_smul, Real.norm_eq_abs]
      exact mul_le_mul_of_nonneg_left hc (abs_nonneg a)
    have habs : |1 / 2 * h| = 1 / 2 * |h| := by
      rw [abs_mul, abs_of_pos (by norm_num : (0 : ℝ) < 1 / 2)]
    have hhalf : |1 / 2 * h| ≤ |h| := by rw [habs]; linarith
    have i2 := stay _ _ hhalf (size x hxr)
    have j2 := stay' _ _ hhalf (hB y hyr)
    have h2 := pair _ _ _ i2 j2 (close _ _ _ _ h1)
    set k2 := g (x + (1 / 2 * h) • g x) with hk2
    set l2 := v (y + (1 / 2 * h) • v y) with hl2
    have i3 := stay _ _ hhalf (size _ i2)
    have j3 := stay' _ _ hhalf (hB _ j2)
    have h3 := pair _ _ _ i3 j3 (close _ _ _ _ h2)
    set k3 := g (x + (1 / 2 * h) • k2) with hk3
    set l3 := v (y + (1 / 2 * h) • l2) with hl3
    have i4 := stay h _ le_rfl (size _ i3)
    have j4 := stay' h _ le_rfl (hB _ j3)
    have h4 := pair _ _ _ i4 j4 (close _ _ _ _ h3)
    set k4 := g (x + h • k3) with hk4
    set l4 := v (y + h • l3) with hl4
    rw [habs] at h2 h3
    set q := L * |h| with hq
    have hq0 : 0 ≤ q := by positivity
    have hqD : q * D ≤ D := by nlinarith
    have b2 : ‖k2 - l2‖ ≤ 3 / 2 * D := by
      refine h2.trans ?_
      have : ε + L * (e + 1 / 2 * |h| * D) = D + 1 / 2 * (q * D) := by rw [hD, hq]; ring
      rw [this]; linarith
    have b3 : ‖k3 - l3‖ ≤ 7 / 4 * D := by
      refine h3.trans ?_
      have : ε + L * (e + 1 / 2 * |h| * (ε + L * (e + 1 / 2 * |h| * D))) =
        D + 1 / 2 * (q * D) + 1 / 4 * (q * (q * D)) := by rw [hD, hq]; ring
      rw [this]
      nlinarith
    have b4 : ‖k4 - l4‖ ≤ 11 / 4 * D := by
      refine h4.trans ?_
      rw [habs]
      have : ε + L * (e + |h| * (ε + L * (e + 1 / 2 * |h| * (ε + L * (e + 1 / 2 * |h| * D))))) =
        D + q * D + 1 / 2 * (q * (q * D)) + 1 / 4 * (q * (q * (q * D))) := by rw [hD, hq]; ring
      rw [this]
      have h5 : q * (q * D) ≤ D := by nlinarith
      have h6 : q * (q * (q * D)) ≤ D := by nlinarith [mul_nonneg hq0 hD0]
      linarith
    show ‖(1 / 6 : ℝ) • (g x + (2 : ℝ) • k2 + (2 : ℝ) • k3 + k4) -
      (1 / 6 : ℝ) • (v y + (2 : ℝ) • l2 + (2 : ℝ) • l3 + l4)‖ ≤ _
    have e1 : (1 / 6 : ℝ) • (g x + (2 : ℝ) • k2 + (2 : ℝ) • k3 + k4) -
        (1 / 6 : ℝ) • (v y + (2 : ℝ) • l2 + (2 : ℝ) • l3 + l4) =
        (1 / 6 : ℝ) • ((g x - v y) + (2 : ℝ) • (k2 - l2) + (2 : ℝ) • (k3 - l3) + (k4 - l4)) := by
      module
    rw [e1]
    exact rk4_combine h1 b2 b3 b4 hD0

/-! ## Many steps -/

/-- The bound after `n` steps: `s` from the start, `c` per unit of time. -/
noncomputable def orderBound (L s c h : ℝ) (n : ℕ) : ℝ :=
  (s + n * (|h| * c)) * (1 + 2 * L * |h|) ^ n

theorem orderBound_nonneg {L s c h : ℝ} (hL : 0 ≤ L) (hs : 0 ≤ s) (hc : 0 ≤ c) (n : ℕ) :
    0 ≤ orderBound L s c h n := by
  unfold orderBound
  positivity

theorem orderBound_mono {L s c h : ℝ} (hL : 0 ≤ L) (hs : 0 ≤ s) (hc : 0 ≤ c) {m n : ℕ}
    (hmn : m ≤ n) : orderBound L s c h m ≤ orderBound L s c h n := by
  unfold orderBound
  have h1 : (1 : ℝ) ≤ 1 + 2 * L * |h| := by
    have : 0 ≤ 2 * L * |h| := by positivity
    linarith
  have h2 : (m : ℝ) ≤ n := by exact_mod_cast hmn
  have h3 : (1 + 2 * L * |h|) ^ m ≤ (1 + 2 * L * |h|) ^ n := pow_le_pow_right₀ h1 hmn
  have h4 : 0 ≤ |h| * c := by positivity
  have h5 := mul_le_mul_of_nonneg_right h2 h4
  exact mul_le_mul (by linarith) h3 (by positivity) (by positivity)

theorem orderBound_step {L s c h : ℝ} (hL : 0 ≤ L) (hc : 0 ≤ c) (n : ℕ) :
    (1 + 2 * L * |h|) * orderBound L s c h n + |h| * c ≤ orderBound L s c h (n + 1) := by
  unfold orderBound
  have h1 : (1 : ℝ) ≤ 1 + 2 * L * |h| := by
    have : 0 ≤ 2 * L * |h| := by positivity
    linarith
  have h3 : (1 : ℝ) ≤ (1 + 2 * L * |h|) ^ (n + 1) := one_le_pow₀ h1
  have h4 : 0 ≤ |h| * c := by positivity
  have e : (s + ((n + 1 : ℕ) : ℝ) * (|h| * c)) * (1 + 2 * L * |h|) ^ (n + 1) =
      (1 + 2 * L * |h|) * ((s + n * (|h| * c)) * (1 + 2 * L * |h|) ^ n) +
        |h| * c * (1 + 2 * L * |h|) ^ (n + 1) := by
    push_cast
    ring
  rw [e]
  have := mul_le_mul_of_nonneg_left h3 h4
  linarith

theorem orderBound_le_exp {L s c h τ : ℝ} (hL : 0 ≤ L) (hs : 0 ≤ s) (hc : 0 ≤ c) {n : ℕ}
    (hτ : n * |h| ≤ τ) : orderBound L s c h n ≤ (s + τ * c) * Real.exp (2 * L * τ) := by
  unfold orderBound
  have h1 : 1 + 2 * L * |h| ≤ Real.exp (2 * L * |h|) := by
    linarith [Real.add_one_le_exp (2 * L * |h|)]
  have h2 : (1 + 2 * L * |h|) ^ n ≤ Real.exp (2 * L * τ) := by
    have e : Real.exp (2 * L * (n * |h|)) = Real.exp (2 * L * |h|) ^ n := by
      rw [← Real.exp_nat_mul]
      congr 1
      ring
    refine (pow_le_pow_left₀ (by positivity) h1 n).trans (e.symm.le.trans ?_)
    exact Real.exp_le_exp.2 (mul_le_mul_of_nonneg_left hτ (by positivity))
  have h3 : n * (|h| * c) ≤ τ * c := by
    rw [← mul_assoc]
    exact mul_le_mul_of_nonneg_right hτ hc
  have h0 : 0 ≤ n * (|h| * c) := by positivity
  exact mul_le_mul (by linarith) h2 (by positivity) (by linarith)

/-- What AB2 would remember on the exact positions `y`. -/
def exactPrev (k : Kind) (w : ℕ → (Fin d → ℝ) → Fin d → ℝ) (y : ℕ → Fin d → ℝ) :
    ℕ → Option (Fin d → ℝ)
  | 0 => none
  | n + 1 => nextPrev k (w n) (y n)

/-- **Global error** from local errors: `s + |h| c` in the first step, `|h| c` in the others. -/
theorem flow_global (k : Kind) {g w : ℕ → (Fin d → ℝ) → Fin d → ℝ} {h ε L B r s c : ℝ}
    {y : ℕ → Fin d → ℝ} {n : ℕ} (hε0 : 0 ≤ ε) (hL0 : 0 ≤ L) (hB0 : 0 ≤ B) (hs : 0 ≤ s)
    (hc : 0 ≤ c)
    (hε : ∀ i < n, ∀ z, ‖z - y i‖ ≤ r → ‖g i z - w i z‖ ≤ ε)
    (hL : ∀ i < n, ∀ z z', ‖z - y i‖ ≤ r → ‖z' - y i‖ ≤ r → ‖w i z - w i z'‖ ≤ L * ‖z - z'‖)
    (hB : ∀ i < n, ∀ z, ‖z - y i‖ ≤ r → ‖w i z‖ ≤ B)
    (hloc : ∀ i < n, ‖y (i + 1) - y i - h • increment k (w i) h (exactPrev k w y i) (y i)‖ ≤
      (if i = 0 then s else 0) + |h| * c)
    (hh : L * |h| ≤ 1) (hr : orderBound L s (2 * ε + c) h n + |h| * (B + ε) ≤ r) :
    ∀ i ≤ n, ‖flowMap k g h i (y 0) - y i‖ ≤ orderBound L s (2 * ε + c) h i := by
  have hc0 : 0 ≤ 2 * ε + c := by positivity
  have hBε : 0 ≤ |h| * (B + ε) := by positivity
  intro i
  induction i using Nat.strong_induction_on with
  | _ i ih =>
    intro hi
    cases i with
    | zero =>
      have e : flowMap k g h 0 (y 0) = y 0 := rfl
      rw [e, sub_self, norm_zero]
      exact orderBound_nonneg hL0 hs hc0 0
    | succ i =>
      -- the bound on the error before the step
      obtain ⟨e, he, hei, hmono, hstep⟩ : ∃ e, ‖flowMap k g h i (y 0) - y i‖ ≤ e ∧
          e ≤ orderBound L s (2 * ε + c) h i ∧
          (∀ j, i = j + 1 → orderBound L s (2 * ε + c) h j ≤ e) ∧
          (1 + 2 * L * |h|) * e + (if i = 0 then s else 0) + |h| * (2 * ε + c) ≤
            orderBound L s (2 * ε + c) h (i + 1) := by
        cases i with
        | zero =>
          refine ⟨0, ?_, orderBound_nonneg hL0 hs hc0 0, fun j hj => by omega, ?_⟩
          · show ‖y 0 - y 0‖ ≤ 0
            rw [sub_self, norm_zero]
          · have := orderBound_step (s := s) (h := h) hL0 hc0 0
            have h0 : orderBound L s (2 * ε + c) h 0 = s := by simp [orderBound]
            rw [h0] at this
            have : 0 ≤ 2 * L * |h| * s := by positivity
            simp only [if_pos]
            linarith
        | succ j =>
          refine ⟨_, ih (j + 1) (by omega) (by omega), le_rfl, fun j' hj' => ?_, ?_⟩
          · exact orderBound_mono hL0 hs hc0 (by omega)
          · have := orderBound_step (s := s) (h := h) hL0 hc0 (j + 1)
            rw [if_neg (by omega)]
            linarith
      have hle : e + |h| * (B + ε) ≤ r := by
        have := orderBound_mono (h := h) hL0 hs hc0 (show i ≤ n by omega)
        linarith
      have key := increment_stable k (prev := flowPrev k g h (y 0) i) (prev' := exactPrev k w y i)
        hε0 hL0 hB0 (hε i (by omega)) (hL i (by omega)) (hB i (by omega)) he (by
          cases i with
          | zero => trivial
          | succ j =>
            cases k with
            | euler => trivial
            | rk4 => trivial
            | ab2 =>
              show ‖g j (flowMap .ab2 g h j (y 0)) - w j (y j)‖ ≤ _
              have hEj := (ih j (by omega) (by omega)).trans (hmono j rfl)
              have hr0 : e ≤ r := by linarith
              have h1 := norm_add_le (g j (flowMap .ab2 g h j (y 0)) - w j (flowMap .ab2 g h j (y 0)))
                (w j (flowMap .ab2 g h j (y 0)) - w j (y j))
              rw [sub_add_sub_cancel] at h1
              have h2 := hε j (by omega) (flowMap .ab2 g h j (y 0)) (by linarith)
              have he0 : 0 ≤ e := (norm_nonneg _).trans he
              have h3 := hL j (by omega) (flowMap .ab2 g h j (y 0)) (y j) (by linarith)
                (by rw [sub_self, norm_zero]; linarith)
              have h4 := mul_le_mul_of_nonneg_left hEj hL0
              linarith) hh hle
      rw [flowMap_succ, rowStep_increment]
      set Φ := increment k (g i) h (flowPrev k g h (y 0) i) (flowMap k g h i (y 0)) with hΦ
      set Ψ := increment k (w i) h (exactPrev k w y i) (y i) with hΨ
      have e1 : flowMap k g h i (y 0) + h • Φ - y (i + 1) =
          (flowMap k g h i (y 0) - y i) + h • (Φ - Ψ) - (y (i + 1) - y i - h • Ψ) := by
        rw [smul_sub]
        abel
      rw [e1]
      have t1 := norm_sub_le ((flowMap k g h i (y 0) - y i) + h • (Φ - Ψ))
        (y (i + 1) - y i - h • Ψ)
      have t2 := norm_add_le (flowMap k g h i (y 0) - y i) (h • (Φ - Ψ))
      rw [norm_smul, Real.norm_eq_abs] at t2
      have t3 := mul_le_mul_of_nonneg_left key (abs_nonneg h)
      have t4 := hloc i (by omega)
      have e2 : |h| * (2 * (ε + L * e)) = 2 * L * |h| * e + |h| * (2 * ε) := by ring
      have e3 : (1 + 2 * L * |h|) * e = e + 2 * L * |h| * e := by ring
      have e4 : |h| * (2 * ε + c) = |h| * (2 * ε) + |h| * c := by ring
      rw [e2] at t3
      rw [e3, e4] at hstep
      linarith

end Verif
