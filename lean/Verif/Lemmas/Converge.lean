import Verif.Lemmas.FlowMap
import Mathlib.Analysis.Calculus.MeanValue
import Mathlib.Analysis.Calculus.ContDiff.RCLike
import Mathlib.Analysis.SpecialFunctions.Exp
import Mathlib.Topology.Algebra.MetricSpace.Lipschitz

/-!
# Global error of the integrators

A particle integrated with velocities close to those of a smooth flow stays close to the exact
trajectory.  Vectors carry the maximum norm.
-/

namespace Verif

variable {d : ℕ}

/-! ## The integrators as one-step methods -/

section
variable {K : Type} [Add K] [Sub K] [Mul K] [Div K] [NumLits K]

/-- The velocity remembered after a list of steps. -/
def rowPrev (k : Kind) : List (((Fin d → K) → Fin d → K) × K) → Option (Fin d → K) →
    (Fin d → K) → Option (Fin d → K)
  | [], prev, _ => prev
  | (g, h) :: rest, prev, x => rowPrev k rest (nextPrev k g x) (rowStep k g h prev x)

theorem rowRun_snoc (k : Kind) (l : List (((Fin d → K) → Fin d → K) × K))
    (g : (Fin d → K) → Fin d → K) (h : K) (prev : Option (Fin d → K)) (x : Fin d → K) :
    rowRun k (l ++ [(g, h)]) prev x = rowStep k g h (rowPrev k l prev x) (rowRun k l prev x) := by
  induction l generalizing prev x with
  | nil => rfl
  | cons a l ih => exact ih _ _

theorem rowPrev_snoc (k : Kind) (l : List (((Fin d → K) → Fin d → K) × K))
    (g : (Fin d → K) → Fin d → K) (h : K) (prev : Option (Fin d → K)) (x : Fin d → K) :
    rowPrev k (l ++ [(g, h)]) prev x = nextPrev k g (rowRun k l prev x) := by
  induction l generalizing prev x with
  | nil => rfl
  | cons a l ih => exact ih _ _

/-- The velocity AB2 remembers before step `n`. -/
def flowPrev (k : Kind) (g : ℕ → (Fin d → K) → Fin d → K) (h : K) (x : Fin d → K) :
    ℕ → Option (Fin d → K)
  | 0 => none
  | n + 1 => nextPrev k (g n) (flowMap k g h n x)

theorem flowMap_succ (k : Kind) (g : ℕ → (Fin d → K) → Fin d → K) (h : K) (n : ℕ)
    (x : Fin d → K) : flowMap k g h (n + 1) x =
      rowStep k (g n) h (flowPrev k g h x n) (flowMap k g h n x) := by
  unfold flowMap
  rw [List.range_succ, List.map_append]
  simp only [List.map_cons, List.map_nil]
  rw [rowRun_snoc]
  congr 1
  cases n with
  | zero => rfl
  | succ n =>
    rw [List.range_succ, List.map_append]
    simp only [List.map_cons, List.map_nil]
    rw [rowPrev_snoc]
    rfl

end

/-! ## One step -/

/-- The mean velocity of one step. -/
noncomputable def increment (k : Kind) (g : (Fin d → ℝ) → Fin d → ℝ) (h : ℝ)
    (prev : Option (Fin d → ℝ)) (x : Fin d → ℝ) : Fin d → ℝ :=
  match k with
  | .euler => g x
  | .ab2 =>
    match prev with
    | none => g x
    | some p => (3 / 2 : ℝ) • g x - (1 / 2 : ℝ) • p
  | .rk4 =>
    let k1 := g x
    let k2 := g (x + (1 / 2 * h) • k1)
    let k3 := g (x + (1 / 2 * h) • k2)
    let k4 := g (x + h • k3)
    (1 / 6 : ℝ) • (k1 + (2 : ℝ) • k2 + (2 : ℝ) • k3 + k4)

theorem rowStep_increment (k : Kind) (g : (Fin d → ℝ) → Fin d → ℝ) (h : ℝ)
    (prev : Option (Fin d → ℝ)) (x : Fin d → ℝ) :
    rowStep k g h prev x = x + h • increment k g h prev x := by
  cases k with
  | euler => rfl
  | ab2 => cases prev <;> rfl
  | rk4 =>
    funext c
    simp only [rowStep, increment, Pi.add_apply, Pi.smul_apply, smul_eq_mul]
    have e : ∀ (a : ℝ) (y : Fin d → ℝ), (fun c => x c + a * y c) = x + a • y := fun a y => rfl
    simp only [NumLits.half, NumLits.two, NumLits.six, e]
    ring

/-- How far the mean velocity of a step is from the exact velocity `w` at the exact position
`y`.  `g` is within `ε + L ‖z - y‖` of `w` for `z` within `r` of `y`. -/
theorem increment_error (k : Kind) {g : (Fin d → ℝ) → Fin d → ℝ} {h ε L B M e r : ℝ}
    {prev : Option (Fin d → ℝ)} {x y w : Fin d → ℝ} (hL : 0 ≤ L) (hε : 0 ≤ ε) (hM : 0 ≤ M)
    (hg : ∀ z, ‖z - y‖ ≤ r → ‖g z - w‖ ≤ ε + L * ‖z - y‖) (hB : ‖w‖ ≤ B) (hx : ‖x - y‖ ≤ e)
    (hp : ∀ p, prev = some p → ‖p - w‖ ≤ ε + L * e + M * |h|) (hh : L * |h| ≤ 1)
    (he : e ≤ r / 2) (hr : |h| * (2 * B + 2 * ε + 2 * L * r) ≤ r / 2) :
    ‖increment k g h prev x - w‖ ≤ 2 * ε + 2 * L * e + (M + L * B) * |h| := by
  have he0 : 0 ≤ e := (norm_nonneg _).trans hx
  have hB0 : 0 ≤ B := (norm_nonneg _).trans hB
  have hh0 : 0 ≤ |h| := abs_nonneg h
  have hLe : 0 ≤ L * e := mul_nonneg hL he0
  have hMh : 0 ≤ M * |h| := mul_nonneg hM hh0
  have hLB : 0 ≤ L * B * |h| := by positivity
  have hr0 : 0 ≤ r := by linarith
  have h1 : ‖g x - w‖ ≤ ε + L * e := by
    refine (hg x (by linarith)).trans ?_
    have := mul_le_mul_of_nonneg_left hx hL
    linarith
  cases k with
  | euler =>
    show ‖g x - w‖ ≤ _
    nlinarith
  | ab2 =>
    cases prev with
    | none =>
      show ‖g x - w‖ ≤ _
      nlinarith
    | some p =>
      show ‖(3 / 2 : ℝ) • g x - (1 / 2 : ℝ) • p - w‖ ≤ _
      have e1 : (3 / 2 : ℝ) • g x - (1 / 2 : ℝ) • p - w =
          (3 / 2 : ℝ) • (g x - w) - (1 / 2 : ℝ) • (p - w) := by
        funext c
        simp only [Pi.sub_apply, Pi.smul_apply, smul_eq_mul]
        ring
      rw [e1]
      refine (norm_sub_le _ _).trans ?_
      rw [norm_smul, norm_smul, Real.norm_of_nonneg (by norm_num), Real.norm_of_nonneg (by norm_num)]
      have := hp p rfl
      nlinarith
  | rk4 =>
    -- a stage
    have stage : ∀ (a D : ℝ) (q : Fin d → ℝ), |a| ≤ |h| → ‖q - w‖ ≤ D → D ≤ B + 2 * ε + 2 * L * r →
        ‖g (x + a • q) - w‖ ≤ ε + L * e + L * |a| * (B + D) := by
      intro a D q ha hq hD
      have hqn : ‖q‖ ≤ B + D := by
        have : q = w + (q - w) := by abel
        rw [this]
        exact (norm_add_le _ _).trans (add_le_add hB hq)
      have hdist : ‖x + a • q - y‖ ≤ e + |a| * (B + D) := by
        have : x + a • q - y = (x - y) + a • q := by abel
        rw [this]
        refine (norm_add_le _ _).trans (add_le_add hx ?_)
        rw [norm_smul, Real.norm_eq_abs]
        exact mul_le_mul_of_nonneg_left hqn (abs_nonneg a)
      have hin : ‖x + a • q - y‖ ≤ r := by
        refine hdist.trans ?_
        have hBD : 0 ≤ B + D := (norm_nonneg _).trans hqn
        have h1 : |a| * (B + D) ≤ |h| * (2 * B + 2 * ε + 2 * L * r) :=
          mul_le_mul ha (by linarith) hBD hh0
        linarith
      refine (hg _ hin).trans ?_
      have := mul_le_mul_of_nonneg_left hdist hL
      nlinarith
    have habs : |1 / 2 * h| = 1 / 2 * |h| := by
      rw [abs_mul, abs_of_pos (by norm_num : (0 : ℝ) < 1 / 2)]
    set q := L * |h| with hq
    have hq0 : 0 ≤ q := mul_nonneg hL hh0
    set D1 := ε + L * e with hD1
    have hD10 : 0 ≤ D1 := by positivity
    have hLr : L * e ≤ L * r / 2 := by
      have := mul_le_mul_of_nonneg_left he hL
      linarith
    have hqD : q * D1 ≤ D1 := by nlinarith
    have hqB : 0 ≤ q * B := mul_nonneg hq0 hB0
    have hqB1 : q * B ≤ B := by nlinarith
    have hqqB : q * (q * B) ≤ q * B := by nlinarith
    have h2 : ‖g (x + (1 / 2 * h) • g x) - w‖ ≤ 3 / 2 * D1 + 1 / 2 * (q * B) := by
      refine (stage (1 / 2 * h) D1 _ (by rw [habs]; linarith) h1 (by nlinarith)).trans ?_
      rw [habs]
      nlinarith
    set k2 := g (x + (1 / 2 * h) • g x) with hk2
    have h3 : ‖g (x + (1 / 2 * h) • k2) - w‖ ≤ 7 / 4 * D1 + 3 / 4 * (q * B) := by
      refine (stage (1 / 2 * h) _ _ (by rw [habs]; linarith) h2 (by nlinarith)).trans ?_
      rw [habs]
      nlinarith
    set k3 := g (x + (1 / 2 * h) • k2) with hk3
    have h4 : ‖g (x + h • k3) - w‖ ≤ 11 / 4 * D1 + 7 / 4 * (q * B) := by
      refine (stage h _ _ le_rfl h3 (by nlinarith)).trans ?_
      nlinarith
    set k4 := g (x + h • k3) with hk4
    show ‖(1 / 6 : ℝ) • (g x + (2 : ℝ) • k2 + (2 : ℝ) • k3 + k4) - w‖ ≤ _
    have e1 : (1 / 6 : ℝ) • (g x + (2 : ℝ) • k2 + (2 : ℝ) • k3 + k4) - w =
        (1 / 6 : ℝ) • ((g x - w) + (2 : ℝ) • (k2 - w) + (2 : ℝ) • (k3 - w) + (k4 - w)) := by
      funext c
      simp only [Pi.sub_apply, Pi.smul_apply, Pi.add_apply, smul_eq_mul]
      ring
    rw [e1, norm_smul, Real.norm_of_nonneg (by norm_num)]
    have t1 := norm_add_le ((g x - w) + (2 : ℝ) • (k2 - w) + (2 : ℝ) • (k3 - w)) (k4 - w)
    have t2 := norm_add_le ((g x - w) + (2 : ℝ) • (k2 - w)) ((2 : ℝ) • (k3 - w))
    have t3 := norm_add_le (g x - w) ((2 : ℝ) • (k2 - w))
    have t4 : ∀ z : Fin d → ℝ, ‖(2 : ℝ) • z‖ = 2 * ‖z‖ := fun z => by
      rw [norm_smul, Real.norm_of_nonneg (by norm_num)]
    rw [t4] at t2 t3
    have eqB : q * B = L * B * |h| := by rw [hq]; ring
    nlinarith

/-! ## Many steps -/

/-- The bound after `n` steps. -/
noncomputable def errBound (L c : ℝ) (h : ℝ) (n : ℕ) : ℝ := n * (|h| * c) * (1 + 2 * L * |h|) ^ n

theorem errBound_nonneg {L c h : ℝ} (hL : 0 ≤ L) (hc : 0 ≤ c) (n : ℕ) : 0 ≤ errBound L c h n := by
  unfold errBound
  positivity

theorem errBound_mono {L c h : ℝ} (hL : 0 ≤ L) (hc : 0 ≤ c) {m n : ℕ} (hmn : m ≤ n) :
    errBound L c h m ≤ errBound L c h n := by
  unfold errBound
  have h1 : (1 : ℝ) ≤ 1 + 2 * L * |h| := by
    have : 0 ≤ 2 * L * |h| := by positivity
    linarith
  have h2 : (m : ℝ) ≤ n := by exact_mod_cast hmn
  have h3 : (1 + 2 * L * |h|) ^ m ≤ (1 + 2 * L * |h|) ^ n := pow_le_pow_right₀ h1 hmn
  have h4 : 0 ≤ |h| * c := by positivity
  exact mul_le_mul (mul_le_mul_of_nonneg_right h2 h4) h3 (by positivity) (by positivity)

theorem errBound_step {L c h : ℝ} (hL : 0 ≤ L) (hc : 0 ≤ c) (n : ℕ) :
    (1 + 2 * L * |h|) * errBound L c h n + |h| * c ≤ errBound L c h (n + 1) := by
  unfold errBound
  have h1 : (1 : ℝ) ≤ 1 + 2 * L * |h| := by
    have : 0 ≤ 2 * L * |h| := by positivity
    linarith
  have h3 : (1 : ℝ) ≤ (1 + 2 * L * |h|) ^ (n + 1) := one_le_pow₀ h1
  have h4 : 0 ≤ |h| * c := by positivity
  push_cast
  rw [pow_succ] at h3 ⊢
  nlinarith

theorem errBound_le_exp {L c h : ℝ} (hL : 0 ≤ L) (hc : 0 ≤ c) (n : ℕ) :
    errBound L c h n ≤ n * |h| * c * Real.exp (2 * L * (n * |h|)) := by
  unfold errBound
  have h1 : 1 + 2 * L * |h| ≤ Real.exp (2 * L * |h|) := by
    linarith [Real.add_one_le_exp (2 * L * |h|)]
  have h2 : (1 + 2 * L * |h|) ^ n ≤ Real.exp (2 * L * (n * |h|)) := by
    have : Real.exp (2 * L * (n * |h|)) = Real.exp (2 * L * |h|) ^ n := by
      rw [← Real.exp_nat_mul]
      congr 1
      ring
    rw [this]
    exact pow_le_pow_left₀ (by positivity) h1 n
  calc n * (|h| * c) * (1 + 2 * L * |h|) ^ n
      ≤ n * (|h| * c) * Real.exp (2 * L * (n * |h|)) :=
        mul_le_mul_of_nonneg_left h2 (by positivity)
    _ = _ := by ring

/-- **Global error.**  `y i` are exact positions, `w i` exact velocities there; `M` bounds the
change of the exact velocity from one step to the next, per unit of time. -/
theorem flowMap_error (k : Kind) {g : ℕ → (Fin d → ℝ) → Fin d → ℝ} {h ε L B M r : ℝ}
    {y w : ℕ → Fin d → ℝ} {n : ℕ} (hL : 0 ≤ L) (hε : 0 ≤ ε) (hM : 0 ≤ M)
    (hg : ∀ i < n, ∀ z, ‖z - y i‖ ≤ r → ‖g i z - w i‖ ≤ ε + L * ‖z - y i‖)
    (hB : ∀ i < n, ‖w i‖ ≤ B)
    (hw : ∀ i, i + 1 < n → ‖w i - w (i + 1)‖ ≤ M * |h|)
    (hy : ∀ i < n, ‖y (i + 1) - y i - h • w i‖ ≤ M * |h| * |h|) (hh : L * |h| ≤ 1)
    (he : errBound L (2 * ε + (2 * M + L * B) * |h|) h n ≤ r / 2)
    (hr : |h| * (2 * B + 2 * ε + 2 * L * r) ≤ r / 2) (hB0 : 0 ≤ B) :
    ∀ i ≤ n, ‖flowMap k g h i (y 0) - y i‖ ≤ errBound L (2 * ε + (2 * M + L * B) * |h|) h i := by
  set c := 2 * ε + (2 * M + L * B) * |h| with hc
  have hc0 : 0 ≤ c := by positivity
  intro i
  induction i using Nat.strong_induction_on with
  | _ i ih =>
    intro hi
    cases i with
    | zero => simp [flowMap, rowRun, errBound]
    | succ i =>
      have hEi := ih i (by omega) (by omega)
      have hri : errBound L c h i ≤ r / 2 := (errBound_mono hL hc0 (by omega)).trans he
      have key := increment_error k (prev := flowPrev k g h (y 0) i) hL hε hM (hg i (by omega))
        (hB i (by omega)) hEi (fun p hp => by
          cases i with
          | zero => cases hp
          | succ j =>
            cases k with
            | euler => cases hp
            | rk4 => cases hp
            | ab2 =>
              cases hp
              have hEj := ih j (by omega) (by omega)
              have hjr : errBound L c h j ≤ r / 2 := (errBound_mono hL hc0 (by omega)).trans he
              have hr0 : 0 ≤ r := by
                have := errBound_nonneg (h := h) hL hc0 j
                linarith
              have e1 := hg j (by omega) (flowMap .ab2 g h j (y 0)) (by linarith)
              have e2 := hw j (by omega)
              have e3 : ‖g j (flowMap .ab2 g h j (y 0)) - w (j + 1)‖ ≤
                  ‖g j (flowMap .ab2 g h j (y 0)) - w j‖ + ‖w j - w (j + 1)‖ := by
                have := norm_add_le (g j (flowMap .ab2 g h j (y 0)) - w j) (w j - w (j + 1))
                simpa using this
              have e4 : L * ‖flowMap .ab2 g h j (y 0) - y j‖ ≤ L * errBound L c h (j + 1) :=
                mul_le_mul_of_nonneg_left (hEj.trans (errBound_mono hL hc0 (by omega))) hL
              linarith) hh hri hr
      rw [flowMap_succ, rowStep_increment]
      set Φ := increment k (g i) h (flowPrev k g h (y 0) i) (flowMap k g h i (y 0)) with hΦ
      have e1 : flowMap k g h i (y 0) + h • Φ - y (i + 1) =
          (flowMap k g h i (y 0) - y i) + h • (Φ - w i) - (y (i + 1) - y i - h • w i) := by
        funext c
        simp only [Pi.sub_apply, Pi.smul_apply, Pi.add_apply, smul_eq_mul]
        ring
      rw [e1]
      have t1 := norm_sub_le ((flowMap k g h i (y 0) - y i) + h • (Φ - w i))
        (y (i + 1) - y i - h • w i)
      have t2 := norm_add_le (flowMap k g h i (y 0) - y i) (h • (Φ - w i))
      rw [norm_smul, Real.norm_eq_abs] at t2
      have t3 := mul_le_mul_of_nonneg_left key (abs_nonneg h)
      have t4 := hy i (by omega)
      have t5 := errBound_step (h := h) hL hc0 i
      rw [hc] at t5
      rw [← hc] at t5
      nlinarith

/-! ## The limit -/

open Filter Topology Set

theorem tendsto_step (T : ℝ) : Tendsto (fun p : ℕ => T / ((p : ℝ) - 1)) atTop (𝓝 0) := by
  apply Tendsto.const_div_atTop
  exact tendsto_atTop_add_const_right _ _ tendsto_natCast_atTop_atTop

/-- Constants of a smooth flow along a trajectory. -/
theorem flow_constants {v : ℝ → (Fin d → ℝ) → Fin d → ℝ}
    (hv : ContDiff ℝ 1 fun q : ℝ × (Fin d → ℝ) => v q.1 q.2) {X : ℝ → Fin d → ℝ} {U : Set ℝ}
    (hUc : IsCompact U) (hUv : Convex ℝ U)
    (hX : ∀ t ∈ U, HasDerivWithinAt X (v t (X t)) U t) (r : ℝ) :
    ∃ L B M : ℝ, 0 ≤ L ∧ 0 ≤ B ∧ 0 ≤ M ∧
      (∀ t ∈ U, ∀ z, ‖z - X t‖ ≤ r → ‖v t z - v t (X t)‖ ≤ L * ‖z - X t‖) ∧
      (∀ t ∈ U, ‖v t (X t)‖ ≤ B) ∧
      (∀ s ∈ U, ∀ t ∈ U, ‖v s (X s) - v t (X t)‖ ≤ M * |s - t|) ∧
      (∀ t ∈ U, ∀ h, t + h ∈ U → ‖X (t + h) - X t - h • v t (X t)‖ ≤ M * |h| * |h|) := by
  have hXc : ContinuousOn X U := fun t ht => (hX t ht).continuousWithinAt
  obtain ⟨R, hR⟩ := (hUc.image_of_continuousOn hXc).isBounded.exists_norm_le
  have hR' : ∀ t ∈ U, ‖X t‖ ≤ R := fun t ht => hR _ (mem_image_of_mem X ht)
  set K : Set (ℝ × (Fin d → ℝ)) := U ×ˢ Metric.closedBall 0 (R + |r|) with hK
  have hKc : IsCompact K := hUc.prod (isCompact_closedBall _ _)
  obtain ⟨Λ, hΛ⟩ := (hv.locallyLipschitz.locallyLipschitzOn (s := K)).exists_lipschitzOnWith_of_compact
    hKc
  obtain ⟨B, hB⟩ := (hKc.image_of_continuousOn hv.continuous.continuousOn).isBounded.exists_norm_le
  have hmem : ∀ t ∈ U, ∀ z, ‖z - X t‖ ≤ r → (t, z) ∈ K := by
    intro t ht z hz
    refine ⟨ht, ?_⟩
    rw [mem_closedBall_zero_iff]
    have h1 := norm_add_le (X t) (z - X t)
    rw [add_sub_cancel] at h1
    have := hR' t ht
    have := le_abs_self r
    show ‖z‖ ≤ _
    linarith
  have hmem' : ∀ t ∈ U, (t, X t) ∈ K := by
    intro t ht
    refine ⟨ht, ?_⟩
    rw [mem_closedBall_zero_iff]
    have := hR' t ht
    have := abs_nonneg r
    show ‖X t‖ ≤ _
    linarith
  have hB' : ∀ t ∈ U, ‖v t (X t)‖ ≤ |B| := fun t ht =>
    (hB _ (mem_image_of_mem _ (hmem' t ht))).trans (le_abs_self B)
  have hXl : ∀ s ∈ U, ∀ t ∈ U, ‖X s - X t‖ ≤ |B| * |s - t| := by
    intro s hs t ht
    have := hUv.norm_image_sub_le_of_norm_hasDerivWithin_le hX hB' ht hs
    rwa [Real.norm_eq_abs] at this
  have hM : ∀ s ∈ U, ∀ t ∈ U,
      ‖v s (X s) - v t (X t)‖ ≤ (Λ : ℝ) * (1 + |B|) * |s - t| := by
    intro s hs t ht
    have h1 := hΛ.dist_le_mul _ (hmem' s hs) _ (hmem' t ht)
    rw [dist_eq_norm, Prod.dist_eq, Real.dist_eq, dist_eq_norm] at h1
    refine h1.trans ?_
    rw [mul_assoc]
    refine mul_le_mul_of_nonneg_left (max_le ?_ ?_) Λ.2
    · have := abs_nonneg B
      have := abs_nonneg (s - t)
      nlinarith
    · have := hXl s hs t ht
      have := abs_nonneg (s - t)
      show ‖X s - X t‖ ≤ _
      nlinarith
  refine ⟨Λ, |B|, Λ * (1 + |B|), Λ.2, abs_nonneg B, by positivity, ?_, hB', hM, ?_⟩
  · intro t ht z hz
    have h1 := hΛ.dist_le_mul _ (hmem t ht z hz) _ (hmem' t ht)
    rw [dist_eq_norm, Prod.dist_eq, dist_self, dist_eq_norm] at h1
    rwa [max_eq_right (norm_nonneg _)] at h1
  · intro t ht h hth
    have hseg : uIcc t (t + h) ⊆ U := by
      rw [← segment_eq_uIcc]
      exact hUv.segment_subset ht hth
    have hd : ∀ s ∈ uIcc t (t + h), HasDerivWithinAt (fun s => X s - s • v t (X t))
        (v s (X s) - (1 : ℝ) • v t (X t)) (uIcc t (t + h)) s := by
      intro s hs
      exact ((hX s (hseg hs)).mono hseg).sub ((hasDerivWithinAt_id s _).smul_const _)
    have hb : ∀ s ∈ uIcc t (t + h), ‖v s (X s) - (1 : ℝ) • v t (X t)‖ ≤
        Λ * (1 + |B|) * |h| := by
      intro s hs
      rw [one_smul]
      refine (hM s (hseg hs) t ht).trans (mul_le_mul_of_nonneg_left ?_ (by positivity))
      have := abs_sub_left_of_mem_uIcc hs
      simpa using this
    have := (convex_uIcc t (t + h)).norm_image_sub_le_of_norm_hasDerivWithin_le hd hb
      left_mem_uIcc right_mem_uIcc
    have e : X (t + h) - (t + h) • v t (X t) - (X t - t • v t (X t)) =
        X (t + h) - X t - h • v t (X t) := by
      rw [add_smul]
      abel
    rw [e] at this
    simpa using this

/-- Times of the steps lie in the time interval of the trajectory. -/
theorem step_times {t0 T η : ℝ} (hη : 0 < η) :
    ∀ᶠ p : ℕ in atTop, (p : ℝ) * |T / ((p : ℝ) - 1)| ≤ (1 + η) * |T| ∧
      ∀ i ≤ p, t0 + i * (T / ((p : ℝ) - 1)) ∈ uIcc t0 (t0 + (1 + η) * T) := by
  have h1 : ∀ᶠ p : ℕ in atTop, 1 / η + 2 ≤ (p : ℝ) :=
    tendsto_natCast_atTop_atTop.eventually_ge_atTop _
  filter_upwards [h1] with p hp
  have hη' : 0 < 1 / η := by positivity
  have hp1 : (0 : ℝ) < p - 1 := by linarith
  have key : (p : ℝ) / (p - 1) ≤ 1 + η := by
    rw [div_le_iff₀ hp1]
    have : η * (1 / η) = 1 := by field_simp
    nlinarith
  have hi : ∀ i ≤ p, 0 ≤ (i : ℝ) / (p - 1) ∧ (i : ℝ) / (p - 1) ≤ 1 + η := by
    intro i hi
    refine ⟨by positivity, le_trans ?_ key⟩
    have : (i : ℝ) ≤ p := by exact_mod_cast hi
    exact div_le_div_of_nonneg_right this hp1.le
  constructor
  · rw [abs_div, abs_of_pos hp1]
    have : (p : ℝ) * (|T| / (p - 1)) = p / (p - 1) * |T| := by ring
    rw [this]
    exact mul_le_mul_of_nonneg_right key (abs_nonneg T)
  · intro i hip
    obtain ⟨a, b⟩ := hi i hip
    have e : (i : ℝ) * (T / (p - 1)) = i / (p - 1) * T := by ring
    rw [e, mem_uIcc]
    rcases le_total 0 T with hT | hT
    · left
      constructor <;> nlinarith
    · right
      constructor <;> nlinarith

/-- **The integrated particle converges to the exact trajectory** when the time step is refined
and the velocities used approach those of the flow near the trajectory. -/
theorem flowMap_tendsto (k : Kind) {v : ℝ → (Fin d → ℝ) → Fin d → ℝ}
    (hv : ContDiff ℝ 1 fun q : ℝ × (Fin d → ℝ) => v q.1 q.2) {X : ℝ → Fin d → ℝ} {t0 T η : ℝ}
    (hη : 0 < η)
    (hX : ∀ t ∈ uIcc t0 (t0 + (1 + η) * T),
      HasDerivWithinAt X (v t (X t)) (uIcc t0 (t0 + (1 + η) * T)) t)
    {g : ℕ → ℕ → (Fin d → ℝ) → Fin d → ℝ} {r : ℝ} (hr : 0 < r)
    (hg : ∀ ε > 0, ∀ᶠ p : ℕ in atTop, ∀ i < p, ∀ z,
      ‖z - X (t0 + i * (T / ((p : ℝ) - 1)))‖ ≤ r →
      ‖g p i z - v (t0 + i * (T / ((p : ℝ) - 1))) z‖ ≤ ε) :
    Tendsto (fun p : ℕ => flowMap k (g p) (T / ((p : ℝ) - 1)) p (X t0)) atTop
      (𝓝 (X (t0 + T))) := by
  set U := uIcc t0 (t0 + (1 + η) * T) with hU
  obtain ⟨L, B, M, hL, hB, hM, c1, c2, c3, c4⟩ :=
    flow_constants hv isCompact_uIcc (convex_uIcc _ _) hX r
  have hstep := tendsto_step T
  -- the exact end points converge
  have hend : Tendsto (fun p : ℕ => X (t0 + p * (T / ((p : ℝ) - 1)))) atTop (𝓝 (X (t0 + T))) := by
    have hmem : t0 + T ∈ U := by
      rw [hU, mem_uIcc]
      rcases le_total 0 T with hT | hT
      · left; constructor <;> nlinarith
      · right; constructor <;> nlinarith
    have hc := (hX _ hmem).continuousWithinAt
    have ht : Tendsto (fun p : ℕ => t0 + p * (T / ((p : ℝ) - 1))) atTop (𝓝 (t0 + T)) := by
      have h1 : Tendsto (fun p : ℕ => t0 + (T + T / ((p : ℝ) - 1))) atTop (𝓝 (t0 + (T + 0))) :=
        (hstep.const_add T).const_add t0
      rw [add_zero] at h1
      refine h1.congr' ?_
      filter_upwards [eventually_ge_atTop 2] with p hp
      have : (2 : ℝ) ≤ p := by exact_mod_cast hp
      have : (p : ℝ) - 1 ≠ 0 := by intro h; linarith
      field_simp
      ring
    exact hc.tendsto.comp (tendsto_nhdsWithin_iff.2 ⟨ht, (step_times hη).mono fun p hp =>
      hp.2 p le_rfl⟩)
  refine tendsto_of_tendsto_of_dist hend ?_
  rw [Metric.tendsto_atTop']
  intro δ hδ
  set τ := (1 + η) * |T| with hτ
  have hτ0 : 0 ≤ τ := by positivity
  set A := (τ + 1) * Real.exp (2 * L * τ) with hA
  have hA0 : 0 < A := by positivity
  set δ' := min (δ / 2) (r / 2) with hδ'
  have hδ0 : 0 < δ' := by positivity
  set ε := min 1 (δ' / (4 * A)) with hε
  have hε0 : 0 < ε := by positivity
  have hsmall : ∀ κ > 0, ∀ᶠ p : ℕ in atTop, |T / ((p : ℝ) - 1)| ≤ κ := by
    intro κ hκ
    have := hstep.abs
    rw [abs_zero] at this
    exact (this.eventually (gt_mem_nhds hκ)).mono fun p hp => le_of_lt hp
  have hall := (hg ε hε0).and ((step_times (t0 := t0) (T := T) hη).and
    ((hsmall (1 / (L + 1)) (by positivity)).and
    ((hsmall (δ' / (2 * A * (2 * M + L * B + 1))) (by positivity)).and
    (hsmall (r / 2 / (2 * B + 2 + 2 * L * r)) (by positivity)))))
  obtain ⟨P, hP⟩ := eventually_atTop.1 hall
  refine ⟨P, fun p hp => ?_⟩
  obtain ⟨g1, ⟨g2, g3⟩, g4, g5, g6⟩ := hP p hp.le
  set h := T / ((p : ℝ) - 1) with hh
  have hLh : L * |h| ≤ 1 := by
    rw [le_div_iff₀ (by positivity)] at g4
    have := abs_nonneg h
    nlinarith
  have hCh : A * ((2 * M + L * B) * |h|) ≤ δ' / 2 := by
    rw [le_div_iff₀ (by positivity)] at g5
    have h1 := abs_nonneg h
    have h2 : 0 ≤ A * |h| := by positivity
    nlinarith
  have hεA : A * (2 * ε) ≤ δ' / 2 := by
    have : ε ≤ δ' / (4 * A) := min_le_right _ _
    rw [le_div_iff₀ (by positivity)] at this
    nlinarith
  have hbound : errBound L (2 * ε + (2 * M + L * B) * |h|) h p ≤ δ' := by
    have hc0 : 0 ≤ 2 * ε + (2 * M + L * B) * |h| := by positivity
    refine (errBound_le_exp hL hc0 p).trans ?_
    have h1 : Real.exp (2 * L * (p * |h|)) ≤ Real.exp (2 * L * τ) :=
      Real.exp_le_exp.2 (mul_le_mul_of_nonneg_left g2 (by positivity))
    have h2 : (p : ℝ) * |h| ≤ τ + 1 := by linarith
    calc p * |h| * (2 * ε + (2 * M + L * B) * |h|) * Real.exp (2 * L * (p * |h|))
        ≤ (τ + 1) * (2 * ε + (2 * M + L * B) * |h|) * Real.exp (2 * L * τ) := by
          refine mul_le_mul (mul_le_mul_of_nonneg_right h2 hc0) h1 (Real.exp_pos _).le (by positivity)
      _ = A * (2 * ε) + A * ((2 * M + L * B) * |h|) := by rw [hA]; ring
      _ ≤ δ' := by linarith
  have hrr : |h| * (2 * B + 2 * ε + 2 * L * r) ≤ r / 2 := by
    rw [le_div_iff₀ (by positivity)] at g6
    have h1 := abs_nonneg h
    have h2 : ε ≤ 1 := min_le_left _ _
    nlinarith
  have key := flowMap_error k (g := g p) (h := h) (ε := ε) (L := L) (B := B) (M := M) (r := r)
    (y := fun i : ℕ => X (t0 + i * h)) (w := fun i : ℕ => v (t0 + i * h) (X (t0 + i * h)))
    (n := p) hL hε0.le hM
    (fun i hi z hz => by
      have e1 := g1 i hi z hz
      have e2 := c1 _ (g3 i hi.le) z hz
      have e3 := norm_add_le (g p i z - v (t0 + i * h) z)
        (v (t0 + i * h) z - v (t0 + i * h) (X (t0 + i * h)))
      rw [sub_add_sub_cancel] at e3
      linarith)
    (fun i hi => c2 _ (g3 i hi.le))
    (fun i hi => by
      have := c3 _ (g3 i (by omega)) _ (g3 (i + 1) (by omega))
      push_cast at this
      have e : t0 + (i : ℝ) * h - (t0 + (i + 1) * h) = -h := by ring
      rw [e, abs_neg] at this
      push_cast
      exact this)
    (fun i hi => by
      have e : t0 + ((i : ℝ) + 1) * h = t0 + i * h + h := by ring
      have := c4 _ (g3 i hi.le) h (by
        have := g3 (i + 1) hi
        push_cast at this
        rwa [e] at this)
      push_cast
      rw [e]
      exact this)
    hLh (hbound.trans (min_le_right _ _)) hrr hB p le_rfl
  simp only [Nat.cast_zero, zero_mul, add_zero] at key
  rw [dist_zero_right, Real.norm_of_nonneg dist_nonneg, dist_comm, dist_eq_norm]
  have : δ' ≤ δ / 2 := min_le_left _ _
  linarith

end Verif
