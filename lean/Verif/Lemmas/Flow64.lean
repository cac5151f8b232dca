import Verif.Lemmas.Float
import Verif.Lemmas.GridError

/-!
# Rounding errors of the integrators

A step computed in binary64 is a step in exact arithmetic with slightly moved stage points and a
slightly moved result.
-/

namespace Verif

open Set

variable {d : ℕ}

/-- A binary64 vector as a real vector. -/
noncomputable def reVec (x : Fin d → Fl) : Fin d → ℝ := fun c => (x c).re

/-- Bound on the rounding error of one stage or step: positions up to `X`, velocities up to `V`,
timestep up to `H`. -/
noncomputable def stepRounding (X V H : ℝ) : ℝ := uR * (X + 10 * (H * V)) + 8 * ηR * (1 + H + V)

theorem stepRounding_nonneg {X V H : ℝ} (hX : 0 ≤ X) (hV : 0 ≤ V) (hH : 0 ≤ H) :
    0 ≤ stepRounding X V H := by
  have := uR_pos
  have := ηR_pos
  unfold stepRounding
  positivity

/-- Products of small numbers, for linear arithmetic. -/
structure Tiny (V H : ℝ) : Prop where
  uA : uR * (uR * V) ≤ 1 / 1000 * (uR * V)
  uη : uR * ηR ≤ 1 / 1000 * ηR
  uHA : uR * (uR * (H * V)) ≤ 1 / 1000 * (uR * (H * V))
  uHη : uR * (H * ηR) ≤ 1 / 1000 * (H * ηR)
  uVη : uR * (V * ηR) ≤ 1 / 1000 * (V * ηR)
  ηη : ηR * ηR ≤ 1 / 1000 * ηR
  A0 : 0 ≤ uR * V
  HA0 : 0 ≤ uR * (H * V)
  Hη0 : 0 ≤ H * ηR
  Vη0 : 0 ≤ V * ηR

theorem tiny {V H : ℝ} (hV : 0 ≤ V) (hH : 0 ≤ H) : Tiny V H := by
  have hu := uR_pos
  have hη := ηR_pos
  have hu1 : uR ≤ 1 / 1000 := uR_le.trans (by norm_num)
  have hη1 : ηR ≤ 1 / 1000 := ηR_le.trans (by norm_num)
  refine ⟨?_, ?_, ?_, ?_, ?_, ?_, ?_, ?_, ?_, ?_⟩
  · exact mul_le_mul_of_nonneg_right hu1 (by positivity)
  · exact mul_le_mul_of_nonneg_right hu1 (by positivity)
  · exact mul_le_mul_of_nonneg_right hu1 (by positivity)
  · exact mul_le_mul_of_nonneg_right hu1 (by positivity)
  · exact mul_le_mul_of_nonneg_right hu1 (by positivity)
  · exact mul_le_mul_of_nonneg_right hη1 (by positivity)
  all_goals positivity

/-- `x + a * v`, the factor known up to rounding. -/
theorem axpy64 {x a v : Fl} {X V H α : ℝ} (hx : |x.re| ≤ X) (hv : |v.re| ≤ V) (hα : |α| ≤ H)
    (ha : |a.re - α| ≤ uR * H + ηR) :
    |(x + a * v).re - (x.re + α * v.re)| ≤ stepRounding X V H := by
  have hV : 0 ≤ V := (abs_nonneg _).trans hv
  have hH : 0 ≤ H := (abs_nonneg _).trans hα
  obtain ⟨t1, t2, t3, t4, t5, t6, p1, p2, p3, p4⟩ := tiny hV hH
  have hη := ηR_pos
  have e1 := mul_near ha (show |v.re - v.re| ≤ 0 by simp) hα hv
  have hαv : |α * v.re| ≤ H * V := by
    rw [abs_mul]; exact mul_le_mul hα hv (abs_nonneg _) hH
  have e2 := (round_near (Fl.re_mul a v) e1 hαv).trans
    (show _ ≤ 201 / 100 * (uR * (H * V)) + 101 / 100 * (V * ηR) + ηR by linarith)
  have e3 := add_near (show |x.re - x.re| ≤ 0 by simp) e2
  have hs : |x.re + α * v.re| ≤ X + H * V := (abs_add_le _ _).trans (add_le_add hx hαv)
  have e4 := round_near (Fl.re_add x (a * v)) e3 hs
  refine e4.trans ?_
  unfold stepRounding
  linarith

theorem half64 (h : Fl) :
    |((NumLits.half : Fl) * h).re - 1 / 2 * h.re| ≤ uR * |h.re| + ηR := by
  have := Fl.re_mul NumLits.half h
  rw [Fl.re_half] at this
  refine this.trans ?_
  rw [abs_mul, abs_of_pos (by norm_num : (0 : ℝ) < 1 / 2)]
  have := mul_le_mul_of_nonneg_left (by linarith [abs_nonneg h.re] : 1 / 2 * |h.re| ≤ |h.re|)
    uR_pos.le
  linarith

/-- The update of AB2. -/
theorem ab2_64 {x h v p : Fl} {X V : ℝ} (hx : |x.re| ≤ X) (hv : |v.re| ≤ V) (hp : |p.re| ≤ V) :
    |(x + h * (NumLits.onePointFive * v - NumLits.half * p)).re -
      (x.re + h.re * (3 / 2 * v.re - 1 / 2 * p.re))| ≤ stepRounding X V |h.re| := by
  have hV : 0 ≤ V := (abs_nonneg _).trans hv
  have hH : 0 ≤ |h.re| := abs_nonneg _
  obtain ⟨t1, t2, t3, t4, t5, t6, p1, p2, p3, p4⟩ := tiny hV hH
  have hη := ηR_pos
  have z : ∀ y : ℝ, |y - y| ≤ 0 := fun y => by simp
  have a1 : |(NumLits.onePointFive * v).re - 3 / 2 * v.re| ≤ 3 / 2 * (uR * V) + ηR := by
    have := Fl.re_mul NumLits.onePointFive v
    rw [Fl.re_three_half] at this
    refine this.trans ?_
    rw [abs_mul, abs_of_pos (by norm_num : (0 : ℝ) < 3 / 2)]
    have := mul_le_mul_of_nonneg_left hv uR_pos.le
    linarith
  have a2 : |(NumLits.half * p).re - 1 / 2 * p.re| ≤ 1 / 2 * (uR * V) + ηR := by
    have := Fl.re_mul NumLits.half p
    rw [Fl.re_half] at this
    refine this.trans ?_
    rw [abs_mul, abs_of_pos (by norm_num : (0 : ℝ) < 1 / 2)]
    have := mul_le_mul_of_nonneg_left hp uR_pos.le
    linarith
  have s1 : |3 / 2 * v.re - 1 / 2 * p.re| ≤ 2 * V := by
    rw [abs_le] at hv hp ⊢
    constructor <;> linarith [hv.1, hv.2, hp.1, hp.2]
  have a3 := round_near (Fl.re_sub _ _) (sub_near a1 a2) s1
  have a3' : |(NumLits.onePointFive * v - NumLits.half * p).re - (3 / 2 * v.re - 1 / 2 * p.re)| ≤
      401 / 100 * (uR * V) + 301 / 100 * ηR := by
    refine a3.trans ?_
    linarith
  have a4 := mul_near (z h.re) a3' le_rfl s1
  have s2 : |h.re * (3 / 2 * v.re - 1 / 2 * p.re)| ≤ |h.re| * (2 * V) := by
    rw [abs_mul]; exact mul_le_mul_of_nonneg_left s1 hH
  have a5 := round_near (Fl.re_mul h _) a4 s2
  have a5' := a5.trans (show _ ≤ 603 / 100 * (uR * (|h.re| * V)) + 302 / 100 * (|h.re| * ηR) + ηR by
    linarith)
  have s3 : |x.re + h.re * (3 / 2 * v.re - 1 / 2 * p.re)| ≤ X + |h.re| * (2 * V) :=
    (abs_add_le _ _).trans (add_le_add hx s2)
  have a6 := round_near (Fl.re_add x _) (add_near (z x.re) a5') s3
  refine a6.trans ?_
  unfold stepRounding
  linarith

/-- The update of RK4. -/
theorem rk4_64 {x h k1 k2 k3 k4 : Fl} {X V : ℝ} (hx : |x.re| ≤ X) (h1 : |k1.re| ≤ V)
    (h2 : |k2.re| ≤ V) (h3 : |k3.re| ≤ V) (h4 : |k4.re| ≤ V) :
    |(x + (h / NumLits.six) * (k1 + NumLits.two * k2 + NumLits.two * k3 + k4)).re -
      (x.re + h.re / 6 * (k1.re + 2 * k2.re + 2 * k3.re + k4.re))| ≤ stepRounding X V |h.re| := by
  have hV : 0 ≤ V := (abs_nonneg _).trans h1
  have hH : 0 ≤ |h.re| := abs_nonneg _
  obtain ⟨t1, t2, t3, t4, t5, t6, p1, p2, p3, p4⟩ := tiny hV hH
  have hη := ηR_pos
  have hu := uR_pos
  have z : ∀ y : ℝ, |y - y| ≤ 0 := fun y => by simp
  have two : ∀ k : Fl, |k.re| ≤ V → |(NumLits.two * k).re - 2 * k.re| ≤ 2 * (uR * V) + ηR := by
    intro k hk
    have := Fl.re_mul NumLits.two k
    rw [Fl.re_two] at this
    refine this.trans ?_
    rw [abs_mul, abs_of_pos (by norm_num : (0 : ℝ) < 2)]
    have := mul_le_mul_of_nonneg_left hk uR_pos.le
    linarith
  have s1 : |k1.re + 2 * k2.re| ≤ 3 * V := by
    rw [abs_le] at *
    constructor <;> linarith [h1.1, h1.2, h2.1, h2.2]
  have s2 : |k1.re + 2 * k2.re + 2 * k3.re| ≤ 5 * V := by
    rw [abs_le] at *
    constructor <;> linarith [h1.1, h1.2, h2.1, h2.2, h3.1, h3.2]
  have s3 : |k1.re + 2 * k2.re + 2 * k3.re + k4.re| ≤ 6 * V := by
    rw [abs_le] at *
    constructor <;> linarith [h1.1, h1.2, h2.1, h2.2, h3.1, h3.2, h4.1, h4.2]
  have a1 := (round_near (Fl.re_add k1 _) (add_near (z k1.re) (two k2 h2)) s1).trans
    (show _ ≤ 501 / 100 * (uR * V) + 201 / 100 * ηR by linarith)
  have a2 := (round_near (Fl.re_add _ _) (add_near a1 (two k3 h3)) s2).trans
    (show _ ≤ 1203 / 100 * (uR * V) + 403 / 100 * ηR by linarith)
  have a3 := (round_near (Fl.re_add _ _) (add_near a2 (z k4.re)) s3).trans
    (show _ ≤ 1806 / 100 * (uR * V) + 506 / 100 * ηR by linarith)
  have b0 : |h.re / 6| = 1 / 6 * |h.re| := by
    rw [abs_div, abs_of_pos (by norm_num : (0 : ℝ) < 6)]; ring
  have b1 : |(h / NumLits.six).re - h.re / 6| ≤ 1 / 6 * (uR * |h.re|) + ηR := by
    have := Fl.re_div h NumLits.six
    rw [Fl.re_six, b0] at this
    linarith
  have c1 := mul_near b1 a3 b0.le s3
  have c1' := c1.trans (show _ ≤ 402 / 100 * (uR * (|h.re| * V)) + 90 / 100 * (|h.re| * ηR) +
      602 / 100 * (V * ηR) + 1 / 100 * ηR by linarith)
  have s4 : |h.re / 6 * (k1.re + 2 * k2.re + 2 * k3.re + k4.re)| ≤ |h.re| * V := by
    rw [abs_mul, b0]
    have := mul_le_mul_of_nonneg_left s3 (by positivity : 0 ≤ 1 / 6 * |h.re|)
    linarith
  have c2 := (round_near (Fl.re_mul _ _) c1' s4).trans (show _ ≤
      503 / 100 * (uR * (|h.re| * V)) + 91 / 100 * (|h.re| * ηR) +
      603 / 100 * (V * ηR) + 102 / 100 * ηR by linarith)
  have s5 : |x.re + h.re / 6 * (k1.re + 2 * k2.re + 2 * k3.re + k4.re)| ≤ X + |h.re| * V :=
    (abs_add_le _ _).trans (add_le_add hx s4)
  have c3 := round_near (Fl.re_add x _) (add_near (z x.re) c2) s5
  refine c3.trans ?_
  unfold stepRounding
  linarith

/-! ## One step -/

theorem norm_reVec_le {x : Fin d → Fl} {X : ℝ} (h : ‖reVec x‖ ≤ X) (c : Fin d) : |(x c).re| ≤ X :=
  (norm_le_pi_norm (reVec x) c).trans h

/-- The stages of RK4 with slightly moved stage points `z`: the mean velocity, and the distance of
the stage points. -/
theorem rk4_rel {h ε L B e r ρ : ℝ} {x y w k1 k2 k3 k4 z2 z3 z4 : Fin d → ℝ} (hL : 0 ≤ L)
    (hε : 0 ≤ ε) (hρ : 0 ≤ ρ) (hB : ‖w‖ ≤ B) (hx : ‖x - y‖ ≤ e)
    (h1 : ‖k1 - w‖ ≤ ε + L * e)
    (m2 : ‖k1‖ ≤ B + ε + L * r → ‖z2 - (x + (1 / 2 * h) • k1)‖ ≤ ρ)
    (h2 : ‖z2 - y‖ ≤ r → ‖k2 - w‖ ≤ ε + L * ‖z2 - y‖)
    (m3 : ‖k2‖ ≤ B + ε + L * r → ‖z3 - (x + (1 / 2 * h) • k2)‖ ≤ ρ)
    (h3 : ‖z3 - y‖ ≤ r → ‖k3 - w‖ ≤ ε + L * ‖z3 - y‖)
    (m4 : ‖k3‖ ≤ B + ε + L * r → ‖z4 - (x + h • k3)‖ ≤ ρ)
    (h4 : ‖z4 - y‖ ≤ r → ‖k4 - w‖ ≤ ε + L * ‖z4 - y‖)
    (hh : L * |h| ≤ 1) (he : e ≤ r / 2)
    (hr : |h| * (2 * B + 2 * ε + 2 * L * r) + ρ ≤ r / 2) :
    (‖z2 - y‖ ≤ r ∧ ‖z3 - y‖ ≤ r ∧ ‖z4 - y‖ ≤ r) ∧
    ‖(1 / 6 : ℝ) • (k1 + (2 : ℝ) • k2 + (2 : ℝ) • k3 + k4) - w‖ ≤
      2 * (ε + L * ρ) + 2 * L * e + L * B * |h| := by
  have he0 : 0 ≤ e := (norm_nonneg _).trans hx
  have hB0 : 0 ≤ B := (norm_nonneg _).trans hB
  have hh0 : 0 ≤ |h| := abs_nonneg h
  have hr0 : 0 ≤ r := by linarith
  have hLr : L * e ≤ L * r / 2 := by
    have := mul_le_mul_of_nonneg_left he hL
    linarith
  have hLr0 : 0 ≤ L * r := by positivity
  -- a stage
  have stage : ∀ (a D : ℝ) (q z k : Fin d → ℝ), |a| ≤ |h| → ‖q - w‖ ≤ D → D ≤ ε + L * r →
      (‖q‖ ≤ B + ε + L * r → ‖z - (x + a • q)‖ ≤ ρ) →
      (‖z - y‖ ≤ r → ‖k - w‖ ≤ ε + L * ‖z - y‖) →
      ‖z - y‖ ≤ r ∧ ‖k - w‖ ≤ ε + L * ρ + L * e + L * |a| * (B + D) ∧ ‖k - w‖ ≤ ε + L * r := by
    intro a D q z k ha hq hD hz hk
    have hqn : ‖q‖ ≤ B + D := by
      have : q = w + (q - w) := by abel
      rw [this]
      exact (norm_add_le _ _).trans (add_le_add hB hq)
    have hz := hz (by linarith)
    have hdist : ‖z - y‖ ≤ ρ + (e + |a| * (B + D)) := by
      have : z - y = (z - (x + a • q)) + ((x - y) + a • q) := by abel
      rw [this]
      refine (norm_add_le _ _).trans (add_le_add hz ?_)
      refine (norm_add_le _ _).trans (add_le_add hx ?_)
      rw [norm_smul, Real.norm_eq_abs]
      exact mul_le_mul_of_nonneg_left hqn (abs_nonneg a)
    have hin : ‖z - y‖ ≤ r := by
      refine hdist.trans ?_
      have hBD : 0 ≤ B + D := (norm_nonneg _).trans hqn
      have h1 : |a| * (B + D) ≤ |h| * (2 * B + 2 * ε + 2 * L * r) :=
        mul_le_mul ha (by linarith) hBD hh0
      linarith
    have e1 := mul_le_mul_of_nonneg_left hdist hL
    have e2 := mul_le_mul_of_nonneg_left hin hL
    refine ⟨hin, (hk hin).trans ?_, (hk hin).trans (by linarith)⟩
    nlinarith
  have habs : |1 / 2 * h| = 1 / 2 * |h| := by
    rw [abs_mul, abs_of_pos (by norm_num : (0 : ℝ) < 1 / 2)]
  set q := L * |h| with hq
  have hq0 : 0 ≤ q := mul_nonneg hL hh0
  set D1 := ε + L * ρ + L * e with hD1
  have hLρ : 0 ≤ L * ρ := mul_nonneg hL hρ
  have hD10 : 0 ≤ D1 := by positivity
  have hqD : q * D1 ≤ D1 := by nlinarith
  have hqD0 : 0 ≤ q * D1 := by positivity
  have hqB : 0 ≤ q * B := mul_nonneg hq0 hB0
  have hqqB : q * (q * B) ≤ q * B := by nlinarith
  have hqqD : q * (q * D1) ≤ q * D1 := by nlinarith
  obtain ⟨r2, e2, f2⟩ := stage (1 / 2 * h) (ε + L * e) _ _ _ (by rw [habs]; linarith) h1
    (by linarith) m2 h2
  rw [habs] at e2
  have e2' : ‖k2 - w‖ ≤ 3 / 2 * D1 + 1 / 2 * (q * B) := by
    refine e2.trans ?_
    have t1 : L * (1 / 2 * |h|) * (B + (ε + L * e)) = 1 / 2 * (q * B) + 1 / 2 * (q * (ε + L * e)) := by
      rw [hq]; ring
    have t2 : q * (ε + L * e) ≤ q * D1 := mul_le_mul_of_nonneg_left (by linarith) hq0
    rw [t1]
    linarith
  obtain ⟨r3, e3, f3⟩ := stage (1 / 2 * h) ‖k2 - w‖ _ _ _ (by rw [habs]; linarith) le_rfl f2 m3 h3
  rw [habs] at e3
  have e3' : ‖k3 - w‖ ≤ 7 / 4 * D1 + 3 / 4 * (q * B) := by
    refine e3.trans ?_
    have t1 : L * (1 / 2 * |h|) * (B + ‖k2 - w‖) = 1 / 2 * (q * B) + 1 / 2 * (q * ‖k2 - w‖) := by
      rw [hq]; ring
    have t2 := mul_le_mul_of_nonneg_left e2' hq0
    rw [t1]
    linarith
  obtain ⟨r4, e4, f4⟩ := stage h ‖k3 - w‖ _ _ _ le_rfl le_rfl f3 m4 h4
  have e4' : ‖k4 - w‖ ≤ 11 / 4 * D1 + 7 / 4 * (q * B) := by
    refine e4.trans ?_
    have t1 : L * |h| * (B + ‖k3 - w‖) = q * B + q * ‖k3 - w‖ := by
      rw [hq]; ring
    have t2 := mul_le_mul_of_nonneg_left e3' hq0
    rw [t1]
    linarith
  refine ⟨⟨r2, r3, r4⟩, ?_⟩
  have e1 : (1 / 6 : ℝ) • (k1 + (2 : ℝ) • k2 + (2 : ℝ) • k3 + k4) - w =
      (1 / 6 : ℝ) • ((k1 - w) + (2 : ℝ) • (k2 - w) + (2 : ℝ) • (k3 - w) + (k4 - w)) := by
    funext c
    simp only [Pi.sub_apply, Pi.smul_apply, Pi.add_apply, smul_eq_mul]
    ring
  rw [e1, norm_smul, Real.norm_of_nonneg (by norm_num)]
  have t1 := norm_add_le ((k1 - w) + (2 : ℝ) • (k2 - w) + (2 : ℝ) • (k3 - w)) (k4 - w)
  have t2 := norm_add_le ((k1 - w) + (2 : ℝ) • (k2 - w)) ((2 : ℝ) • (k3 - w))
  have t3 := norm_add_le (k1 - w) ((2 : ℝ) • (k2 - w))
  have t4 : ∀ z : Fin d → ℝ, ‖(2 : ℝ) • z‖ = 2 * ‖z‖ := fun z => by
    rw [norm_smul, Real.norm_of_nonneg (by norm_num)]
  rw [t4] at t2 t3
  have eqB : q * B = L * B * |h| := by rw [hq]; ring
  rw [eqB] at e2' e3' e4'
  have : 0 ≤ L * B * |h| := by positivity
  linarith

/-- One step in binary64 against the exact step from `y` with velocity `w`. -/
theorem step64_error (k : Kind) {g : (Fin d → Fl) → Fin d → Fl} {h : Fl} {ε L B M e r X ρ : ℝ}
    {prev : Option (Fin d → Fl)} {x : Fin d → Fl} {y w : Fin d → ℝ} (hL : 0 ≤ L) (hε : 0 ≤ ε)
    (hM : 0 ≤ M)
    (hg : ∀ z, ‖reVec z - y‖ ≤ r → ‖reVec (g z) - w‖ ≤ ε + L * ‖reVec z - y‖) (hB : ‖w‖ ≤ B)
    (hX : ‖y‖ + r ≤ X) (hx : ‖reVec x - y‖ ≤ e)
    (hp : ∀ p, prev = some p → ‖reVec p - w‖ ≤ ε + L * e + M * |h.re| ∧
      ‖reVec p‖ ≤ B + ε + L * r)
    (hρ : stepRounding X (B + ε + L * r) |h.re| ≤ ρ) (hh : L * |h.re| ≤ 1) (he : e ≤ r / 2)
    (hr : |h.re| * (2 * B + 2 * ε + 2 * L * r) + ρ ≤ r / 2) :
    (∀ z ∈ stages k g h x, ‖reVec z - y‖ ≤ r) ∧
    ‖reVec (rowStep k g h prev x) - (y + h.re • w)‖ ≤
      e + |h.re| * (2 * (ε + L * ρ) + 2 * L * e + (M + L * B) * |h.re|) + ρ := by
  set V := B + ε + L * r with hVd
  set H := |h.re| with hH
  have hH0 : 0 ≤ H := abs_nonneg _
  have he0 : 0 ≤ e := (norm_nonneg _).trans hx
  have hr0 : 0 ≤ r := by linarith
  have hB0 : 0 ≤ B := (norm_nonneg _).trans hB
  have hLr : 0 ≤ L * r := mul_nonneg hL hr0
  have hV0 : 0 ≤ V := by positivity
  have hX0 : 0 ≤ X := by linarith [norm_nonneg y]
  have hρ0 : 0 ≤ ρ := (stepRounding_nonneg hX0 hV0 hH0).trans hρ
  have hxr : ‖reVec x - y‖ ≤ r := by linarith
  have size : ∀ z, ‖reVec z - y‖ ≤ r → ‖reVec (g z)‖ ≤ V := by
    intro z hz
    have h1 : reVec (g z) = w + (reVec (g z) - w) := by abel
    rw [h1]
    have h2 := norm_add_le w (reVec (g z) - w)
    have h3 := hg z hz
    have h4 := mul_le_mul_of_nonneg_left hz hL
    linarith
  have hxX : ‖reVec x‖ ≤ X := by
    have h1 : reVec x = y + (reVec x - y) := by abel
    rw [h1]
    have := norm_add_le y (reVec x - y)
    linarith
  have axpy : ∀ (a : Fl) (α : ℝ) (v : Fin d → Fl), |α| ≤ H → |a.re - α| ≤ uR * H + ηR →
      ‖reVec v‖ ≤ V → ‖reVec (fun c => x c + a * v c) - (reVec x + α • reVec v)‖ ≤ ρ := by
    intro a α v hα ha hv
    refine (pi_norm_le_iff_of_nonneg hρ0).2 fun c => ?_
    exact (axpy64 (norm_reVec_le hxX c) (norm_reVec_le hv c) hα ha).trans hρ
  have hexact : |h.re - h.re| ≤ uR * H + ηR := by
    have := uR_pos
    have := ηR_pos
    rw [sub_self, abs_zero]; positivity
  have finish : ∀ x' Φ : Fin d → ℝ, ‖x' - (reVec x + h.re • Φ)‖ ≤ ρ →
      ‖Φ - w‖ ≤ 2 * (ε + L * ρ) + 2 * L * e + (M + L * B) * H →
      ‖x' - (y + h.re • w)‖ ≤ e + H * (2 * (ε + L * ρ) + 2 * L * e + (M + L * B) * H) + ρ := by
    intro x' Φ h1 h2
    have e1 : x' - (y + h.re • w) =
        (x' - (reVec x + h.re • Φ)) + ((reVec x - y) + h.re • (Φ - w)) := by
      funext c
      simp only [Pi.sub_apply, Pi.smul_apply, Pi.add_apply, smul_eq_mul]
      ring
    rw [e1]
    have t1 := norm_add_le (x' - (reVec x + h.re • Φ)) ((reVec x - y) + h.re • (Φ - w))
    have t2 := norm_add_le (reVec x - y) (h.re • (Φ - w))
    rw [norm_smul, Real.norm_eq_abs] at t2
    have t3 := mul_le_mul_of_nonneg_left h2 hH0
    linarith
  have hLe : L * ‖reVec x - y‖ ≤ L * e := mul_le_mul_of_nonneg_left hx hL
  have h1 : ‖reVec (g x) - w‖ ≤ ε + L * e := (hg x hxr).trans (by linarith)
  have hLρ : 0 ≤ L * ρ := mul_nonneg hL hρ0
  have hLe0 : 0 ≤ L * e := mul_nonneg hL he0
  have hMH : 0 ≤ M * H := mul_nonneg hM hH0
  have hLBH : 0 ≤ L * B * H := by positivity
  have euler : ‖reVec (fun c => x c + h * g x c) - (y + h.re • w)‖ ≤
      e + H * (2 * (ε + L * ρ) + 2 * L * e + (M + L * B) * H) + ρ :=
    finish _ _ (axpy h h.re (g x) le_rfl hexact (size x hxr)) (by linarith)
  cases k with
  | euler =>
    refine ⟨fun z hz => ?_, euler⟩
    simp only [stages, List.mem_singleton] at hz
    rw [hz]; exact hxr
  | ab2 =>
    refine ⟨fun z hz => ?_, ?_⟩
    · simp only [stages, List.mem_singleton] at hz
      rw [hz]; exact hxr
    · cases prev with
      | none => exact euler
      | some p =>
        obtain ⟨p1, p2⟩ := hp p rfl
        refine finish _ ((3 / 2 : ℝ) • reVec (g x) - (1 / 2 : ℝ) • reVec p) ?_ ?_
        · refine (pi_norm_le_iff_of_nonneg hρ0).2 fun c => ?_
          exact (ab2_64 (norm_reVec_le hxX c) (norm_reVec_le (size x hxr) c)
            (norm_reVec_le p2 c)).trans hρ
        · have e1 : (3 / 2 : ℝ) • reVec (g x) - (1 / 2 : ℝ) • reVec p - w =
              (3 / 2 : ℝ) • (reVec (g x) - w) - (1 / 2 : ℝ) • (reVec p - w) := by
            funext c
            simp only [Pi.sub_apply, Pi.smul_apply, smul_eq_mul]
            ring
          rw [e1]
          refine (norm_sub_le _ _).trans ?_
          rw [norm_smul, norm_smul, Real.norm_of_nonneg (by norm_num),
            Real.norm_of_nonneg (by norm_num)]
          linarith
  | rk4 =>
    set z2 : Fin d → Fl := fun c => x c + (NumLits.half * h) * g x c with hz2
    set z3 : Fin d → Fl := fun c => x c + (NumLits.half * h) * g z2 c with hz3
    set z4 : Fin d → Fl := fun c => x c + h * g z3 c with hz4
    have hhalf : |1 / 2 * h.re| ≤ H := by
      rw [abs_mul, abs_of_pos (by norm_num : (0 : ℝ) < 1 / 2)]
      linarith
    obtain ⟨⟨r2, r3, r4⟩, hΦ⟩ := rk4_rel (h := h.re) (ρ := ρ) (x := reVec x) (k1 := reVec (g x))
      (k2 := reVec (g z2)) (k3 := reVec (g z3)) (k4 := reVec (g z4)) (z2 := reVec z2)
      (z3 := reVec z3) (z4 := reVec z4) hL hε hρ0 hB hx h1
      (fun hv => axpy _ _ _ hhalf (half64 h) hv) (hg z2)
      (fun hv => axpy _ _ _ hhalf (half64 h) hv) (hg z3)
      (fun hv => axpy _ _ _ le_rfl hexact hv) (hg z4) hh he hr
    refine ⟨fun z hz => ?_, ?_⟩
    · simp only [stages, List.mem_cons, List.not_mem_nil, or_false] at hz
      rcases hz with rfl | rfl | rfl | rfl
      · exact hxr
      · exact r2
      · exact r3
      · exact r4
    · refine finish _ _ ?_ (hΦ.trans (by linarith))
      refine (pi_norm_le_iff_of_nonneg hρ0).2 fun c => ?_
      have key := rk4_64 (h := h) (norm_reVec_le hxX c) (norm_reVec_le (size x hxr) c)
        (norm_reVec_le (size z2 r2) c) (norm_reVec_le (size z3 r3) c)
        (norm_reVec_le (size z4 r4) c)
      rw [Real.norm_eq_abs]
      refine le_trans (le_of_eq ?_) (key.trans hρ)
      congr 1
      simp only [Pi.sub_apply, Pi.add_apply, Pi.smul_apply, smul_eq_mul, reVec]
      have e : rowStep .rk4 g h prev x c = x c + (h / NumLits.six) *
        (g x c + NumLits.two * g z2 c + NumLits.two * g z3 c + g z4 c) := rfl
      rw [e]
      ring

/-! ## Many steps -/

/-- The rounding of a step, per unit of time, joins the error of the velocities. -/
noncomputable def effError (ε L ρ h : ℝ) : ℝ := ε + L * ρ + ρ / (2 * |h|)

theorem effError_mul {ε L ρ h : ℝ} (h0 : h ≠ 0) :
    |h| * (2 * effError ε L ρ h) = |h| * (2 * (ε + L * ρ)) + ρ := by
  have := abs_pos.2 h0
  unfold effError
  field_simp

/-- Positions computed in binary64, and all points at which velocities are evaluated on the way,
are near the exact trajectory. -/
theorem flow64_near (k : Kind) {v : ℝ → (Fin d → ℝ) → Fin d → ℝ} {X : ℝ → Fin d → ℝ}
    {g : ℕ → (Fin d → Fl) → Fin d → Fl} {h : Fl} {t0 ε L B M r W ρ : ℝ} {n : ℕ} {x : Fin d → Fl}
    (h0 : h.re ≠ 0) (hr0 : 0 ≤ r) (hX : IsTrajectory v (uIcc t0 (t0 + n * h.re)) X) (hx : reVec x = X t0)
    (hL : 0 ≤ L) (hε : 0 ≤ ε) (hM : 0 ≤ M) (hB0 : 0 ≤ B)
    (hg : ∀ i < n, ∀ z, ‖reVec z - X (t0 + i * h.re)‖ ≤ r →
      ‖reVec (g i z) - v (t0 + i * h.re) (X (t0 + i * h.re))‖ ≤
        ε + L * ‖reVec z - X (t0 + i * h.re)‖)
    (hB : ∀ t ∈ uIcc t0 (t0 + n * h.re), ‖v t (X t)‖ ≤ B)
    (hW : ∀ t ∈ uIcc t0 (t0 + n * h.re), ‖X t‖ + r ≤ W)
    (hw : ∀ s ∈ uIcc t0 (t0 + n * h.re), ∀ t ∈ uIcc t0 (t0 + n * h.re),
      ‖v s (X s) - v t (X t)‖ ≤ M * |s - t|)
    (hρ : stepRounding W (B + ε + L * r) |h.re| ≤ ρ) (hh : L * |h.re| ≤ 1)
    (he : errBound L (2 * effError ε L ρ h.re + (2 * M + L * B) * |h.re|) h.re n ≤ r / 2)
    (hr : |h.re| * (2 * B + 2 * effError ε L ρ h.re + 2 * L * r) ≤ r / 2) :
    ‖reVec (flowMap k g h n x) - X (t0 + n * h.re)‖ ≤
      errBound L (2 * effError ε L ρ h.re + (2 * M + L * B) * |h.re|) h.re n ∧
    ∀ i < n, ∀ z ∈ stages k (g i) h (flowMap k g h i x), ‖reVec z - X (t0 + i * h.re)‖ ≤ r := by
  set E := effError ε L ρ h.re with hE
  set c := 2 * E + (2 * M + L * B) * |h.re| with hc
  have hH : 0 < |h.re| := abs_pos.2 h0
  have hEm : |h.re| * (2 * E) = |h.re| * (2 * (ε + L * ρ)) + ρ := effError_mul h0
  have hmem0 : t0 ∈ uIcc t0 (t0 + n * h.re) := left_mem_uIcc
  have hLr : 0 ≤ L * r := mul_nonneg hL hr0
  have hW0 : 0 ≤ W := by linarith [hW t0 hmem0, norm_nonneg (X t0)]
  have hρ0 : 0 ≤ ρ := (stepRounding_nonneg hW0 (by positivity) hH.le).trans hρ
  have hE0 : 0 ≤ E := by rw [hE]; unfold effError; positivity
  have hc0 : 0 ≤ c := by positivity
  have hstep : ∀ i : ℕ, t0 + ((i + 1 : ℕ) : ℝ) * h.re = t0 + i * h.re + h.re := by
    intro i; push_cast; ring
  have hr' : |h.re| * (2 * B + 2 * ε + 2 * L * r) + ρ ≤ r / 2 := by
    have e1 : |h.re| * (2 * B + 2 * E + 2 * L * r) =
        |h.re| * (2 * B + 2 * ε + 2 * L * r) + ρ + |h.re| * (2 * (L * ρ)) := by
      rw [show |h.re| * (2 * B + 2 * E + 2 * L * r) =
        |h.re| * (2 * B + 2 * L * r) + |h.re| * (2 * E) by ring, hEm]
      ring
    have : 0 ≤ |h.re| * (2 * (L * ρ)) := by positivity
    linarith
  have size : ∀ i < n, ∀ z, ‖reVec z - X (t0 + i * h.re)‖ ≤ r →
      ‖reVec (g i z)‖ ≤ B + ε + L * r := by
    intro i hi z hz
    have h1 : reVec (g i z) = v (t0 + i * h.re) (X (t0 + i * h.re)) +
      (reVec (g i z) - v (t0 + i * h.re) (X (t0 + i * h.re))) := by abel
    rw [h1]
    have h2 := norm_add_le (v (t0 + i * h.re) (X (t0 + i * h.re)))
      (reVec (g i z) - v (t0 + i * h.re) (X (t0 + i * h.re)))
    have h3 := hg i hi z hz
    have h4 := mul_le_mul_of_nonneg_left hz hL
    have h5 := hB _ (mem_times (t0 := t0) (h := h.re) hi.le)
    linarith
  -- one step from position `i`
  have one : ∀ i < n,
      (∀ j ≤ i, ‖reVec (flowMap k g h j x) - X (t0 + j * h.re)‖ ≤ errBound L c h.re j) →
      (∀ z ∈ stages k (g i) h (flowMap k g h i x), ‖reVec z - X (t0 + i * h.re)‖ ≤ r) ∧
      ‖reVec (flowMap k g h (i + 1) x) - X (t0 + (i + 1 : ℕ) * h.re)‖ ≤
        errBound L c h.re (i + 1) := by
    intro i hi ih
    have hle : ∀ j ≤ n, errBound L c h.re j ≤ r / 2 := fun j hj =>
      (errBound_mono hL hc0 hj).trans he
    have key := step64_error k (prev := flowPrev k g h x i) (x := flowMap k g h i x)
      (X := W) (ρ := ρ) hL hε hM (hg i hi) (hB _ (mem_times hi.le)) (hW _ (mem_times hi.le))
      (ih i le_rfl) (fun p hp => by
        cases i with
        | zero => cases hp
        | succ j =>
          cases k with
          | euler => cases hp
          | rk4 => cases hp
          | ab2 =>
            cases hp
            have hEj := ih j (by omega)
            have hjr := hle j (by omega)
            have hnear : ‖reVec (flowMap .ab2 g h j x) - X (t0 + j * h.re)‖ ≤ r := by linarith
            refine ⟨?_, size j (by omega) _ hnear⟩
            have e1 := hg j (by omega) _ hnear
            have e2 : ‖v (t0 + j * h.re) (X (t0 + j * h.re)) -
                v (t0 + (j + 1 : ℕ) * h.re) (X (t0 + (j + 1 : ℕ) * h.re))‖ ≤ M * |h.re| := by
              refine (hw _ (mem_times (by omega)) _ (mem_times (by omega))).trans_eq ?_
              rw [hstep]
              congr 1
              rw [show t0 + j * h.re - (t0 + j * h.re + h.re) = -h.re by ring, abs_neg]
            have e3 := norm_add_le
              (reVec (g j (flowMap .ab2 g h j x)) - v (t0 + j * h.re) (X (t0 + j * h.re)))
              (v (t0 + j * h.re) (X (t0 + j * h.re)) -
                v (t0 + (j + 1 : ℕ) * h.re) (X (t0 + (j + 1 : ℕ) * h.re)))
            rw [sub_add_sub_cancel] at e3
            have e4 : L * ‖reVec (flowMap .ab2 g h j x) - X (t0 + j * h.re)‖ ≤
                L * errBound L c h.re (j + 1) :=
              mul_le_mul_of_nonneg_left (hEj.trans (errBound_mono hL hc0 (by omega))) hL
            linarith) hρ hh (hle i hi.le) hr'
    refine ⟨key.1, ?_⟩
    rw [flowMap_succ]
    have t0' := trajectory_step (convex_uIcc _ _) hX hM hw (mem_times hi.le)
      (by rw [← hstep]; exact mem_times hi)
    rw [← hstep] at t0'
    set y := X (t0 + i * h.re) with hy
    set w := v (t0 + i * h.re) y with hwd
    set y' := X (t0 + (i + 1 : ℕ) * h.re) with hy'
    set x' := reVec (rowStep k (g i) h (flowPrev k g h x i) (flowMap k g h i x)) with hx'
    have e1 : x' - y' = (x' - (y + h.re • w)) - (y' - y - h.re • w) := by abel
    rw [e1]
    have t1 := norm_sub_le (x' - (y + h.re • w)) (y' - y - h.re • w)
    have t5 := errBound_step (h := h.re) hL hc0 i
    have t6 : |h.re| * c = |h.re| * (2 * (ε + L * ρ)) + ρ + |h.re| * ((2 * M + L * B) * |h.re|) := by
      rw [hc, mul_add, hEm]
    have t7 := key.2
    nlinarith
  have main : ∀ i ≤ n, ‖reVec (flowMap k g h i x) - X (t0 + i * h.re)‖ ≤ errBound L c h.re i := by
    intro i
    induction i using Nat.strong_induction_on with
    | _ i ih =>
      intro hi
      cases i with
      | zero => simp [flowMap, rowRun, errBound, hx]
      | succ i => exact (one i (by omega) fun j hj => ih j (by omega) (by omega)).2
  exact ⟨main n le_rfl, fun i hi => (one i hi fun j hj => main j (by omega)).1⟩

end Verif
