import Verif.Lemmas.LongRun
import Verif.Props.DualityExample
import Mathlib.Analysis.Complex.ExponentialBounds
import Mathlib.Analysis.SpecialFunctions.Complex.LogBounds

/-!
# C128: long windows in steady flows

In a steady flow `A x + b` the exponents of longer and longer windows tend to the logarithm of the greatest
amplification of a mode in one step, over the length of a step; and every single exponent is at least
`n / (n - 1)` times that, the period being counted one step short.
-/

namespace Verif

open Matrix Filter Topology

/-- The exponents of the windows, once their stretching is known. -/
theorem long_windows {d : ℕ} (hd : 0 < d) {k : Kind} {R : ℂ → ℂ} (hR : Amplifies k R)
    {A : Matrix (Fin d) (Fin d) ℝ} {h : ℝ} (hh : h ≠ 0) {ρ : ℝ} (hρ : IsGrowth R A h ρ) (h0 : 0 < ρ)
    {M : ℕ → Matrix (Fin d) (Fin d) ℝ} (hM : RunMatrices k (fun _ => A) h M)
    (hex : ∀ F : Matrix (Fin d) (Fin d) ℝ, ∃ s, IsMaxStretch F s) :
    ∃ e : ℕ → ℝ, (∀ n N (r : Py (Option (List FVal))), ReportsNorm r N (M n) ((n - 1) * |h|) →
        r = .ok (some (List.replicate N (.fin (e n))))) ∧
      Tendsto e atTop (𝓝 (Real.log ρ / |h|)) ∧
      ∀ n : ℕ, 2 ≤ n → (n / (n - 1) : ℝ) * (Real.log ρ / |h|) ≤ e n := by
  choose σ hσ using fun n => hex (M n)
  obtain ⟨low, lim⟩ := stretch_growth hR hM hd hρ h0 hσ
  have ha : 0 < |h| := abs_pos.2 hh
  refine ⟨fun n => 1 / ((n - 1) * |h|) * Real.log (σ n), ?_, ?_, ?_⟩
  · rintro n N r ⟨s, h1, h2, -⟩
    obtain rfl := h1.unique (hσ n)
    refine (h2 fun hz => ?_).2
    have := (maxStretch_eq_zero_iff h1).2 hz
    have l := low n
    rw [this] at l
    exact absurd (pow_pos h0 n) (not_lt.2 l)
  · have hf : Tendsto (fun n : ℕ => ((n : ℝ) / (n - 1))) atTop (𝓝 1) := by
      have h1 : Tendsto (fun n : ℕ => (1 : ℝ) / ((n : ℝ) - 1)) atTop (𝓝 0) :=
        tendsto_const_nhds.div_atTop
          (tendsto_atTop_add_const_right _ (-1) tendsto_natCast_atTop_atTop)
      have h2 := h1.const_add 1
      rw [add_zero] at h2
      refine h2.congr' ?_
      filter_upwards [eventually_ge_atTop 2] with n hn
      have : (2 : ℝ) ≤ n := by exact_mod_cast hn
      have : (n : ℝ) - 1 ≠ 0 := by linarith
      field_simp
      ring
    have := (hf.mul lim).div_const |h|
    rw [one_mul] at this
    refine this.congr' ?_
    filter_upwards [eventually_ge_atTop 2] with n hn
    have : (2 : ℝ) ≤ n := by exact_mod_cast hn
    have h1 : (n : ℝ) - 1 ≠ 0 := by linarith
    have h2 : (n : ℝ) ≠ 0 := by linarith
    field_simp
  · intro n hn
    have hn' : (2 : ℝ) ≤ n := by exact_mod_cast hn
    have h1 : (0 : ℝ) < n - 1 := by linarith
    have := Real.log_le_log (pow_pos h0 n) (low n)
    rw [Real.log_pow] at this
    calc (n / (n - 1) : ℝ) * (Real.log ρ / |h|) = 1 / ((n - 1) * |h|) * (n * Real.log ρ) := by
          field_simp
      _ ≤ _ := mul_le_mul_of_nonneg_left this (by positivity)

/-- **C128 (2-D).**  In the long run the exponents of a steady flow tend to `log ρ / |h|`, with `ρ` the
greatest amplification of a mode in one step; and the exponent of `n` snapshots is at least
`n / (n - 1)` times that. -/
theorem C128_limit_2d {env : Env ℝ FVal} (he : RealEnv env) {k : Kind} {R : ℂ → ℂ} (hR : Amplifies k R)
    {P : Particles ℝ} (fn : VelocityFn ℝ) {seed : NDArray ℝ} {N : ℕ} (hs : seed.shape = [4 * N, 2])
    (hp : mkParticles seed = .ok P) (hal : ∀ i < N, AxisAligned2 seed N i)
    {A : Matrix (Fin 2) (Fin 2) ℝ} {b : Fin 2 → ℝ}
    (hv : Pointwise (4 * N) 2 (fn 0) (fun x => A *ᵥ x + b)) {h : ℝ} (hh : h ≠ 0) {ρ : ℝ}
    (hρ : IsGrowth R A h ρ) (h0 : 0 < ρ) :
    ∃ e : ℕ → ℝ, (∀ (queue : Bool) (times : List ℝ), 2 ≤ times.length →
        ((⟨.analytical ⟨P, h, times⟩, .analytical (.fresh (some fn)), .fresh k⟩ : Solver ℝ).run env queue
          none).result = .ok (some (List.replicate N (.fin (e times.length))))) ∧
      Tendsto e atTop (𝓝 (Real.log ρ / |h|)) ∧
      ∀ n : ℕ, 2 ≤ n → (n / (n - 1) : ℝ) * (Real.log ρ / |h|) ≤ e n := by
  obtain ⟨e, h1, h2, h3⟩ := long_windows (by norm_num) hR hh hρ h0
    (runMatrix_ok k (fun _ => A) h) fun F => ftle2_computes.exists_stretch F
  refine ⟨e, fun queue times hlen => h1 _ _ _ ?_, h2, h3⟩
  exact C125_function_2d he queue k ⟨P, h, times⟩ fn hs hp hal hv hlen hh (runMatrix_ok k (fun _ => A) h)

/-- **C128 (3-D).** -/
theorem C128_limit_3d {env : Env ℝ FVal} (he : RealEnv env) {k : Kind} {R : ℂ → ℂ} (hR : Amplifies k R)
    {P : Particles ℝ} (fn : VelocityFn ℝ) {seed : NDArray ℝ} {N : ℕ} (hs : seed.shape = [6 * N, 3])
    (hp : mkParticles seed = .ok P) (hal : ∀ i < N, AxisAligned3 seed N i)
    {A : Matrix (Fin 3) (Fin 3) ℝ} {b : Fin 3 → ℝ}
    (hv : Pointwise (6 * N) 3 (fn 0) (fun x => A *ᵥ x + b)) {h : ℝ} (hh : h ≠ 0) {ρ : ℝ}
    (hρ : IsGrowth R A h ρ) (h0 : 0 < ρ) :
    ∃ e : ℕ → ℝ, (∀ (queue : Bool) (times : List ℝ), 2 ≤ times.length →
        ((⟨.analytical ⟨P, h, times⟩, .analytical (.fresh (some fn)), .fresh k⟩ : Solver ℝ).run env queue
          none).result = .ok (some (List.replicate N (.fin (e times.length))))) ∧
      Tendsto e atTop (𝓝 (Real.log ρ / |h|)) ∧
      ∀ n : ℕ, 2 ≤ n → (n / (n - 1) : ℝ) * (Real.log ρ / |h|) ≤ e n := by
  obtain ⟨e, h1, h2, h3⟩ := long_windows (by norm_num) hR hh hρ h0
    (runMatrix_ok k (fun _ => A) h) fun F => ftle3_computes.exists_stretch F
  refine ⟨e, fun queue times hlen => h1 _ _ _ ?_, h2, h3⟩
  exact C125_function_3d he queue k ⟨P, h, times⟩ fn hs hp hal hv hlen hh (runMatrix_ok k (fun _ => A) h)

/-! ## The limit and the flow -/

theorem growth_near {d : ℕ} {R : ℂ → ℂ} {A : Matrix (Fin d) (Fin d) ℝ} {h ρ α ε : ℝ} (hh : h ≠ 0)
    (hρ : IsGrowth R A h ρ)
    (hα : IsGreatest {x | ∃ μ, IsComplexEigenvalue A μ ∧ x = (h * μ).re / |h|} α)
    (hε : ∀ μ, IsComplexEigenvalue A μ → 0 < ‖R (h * μ)‖ ∧
      |Real.log ‖R (h * μ)‖ - (h * μ).re| ≤ |h| * ε) :
    0 < ρ ∧ |Real.log ρ / |h| - α| ≤ ε := by
  have ha : 0 < |h| := abs_pos.2 hh
  obtain ⟨⟨μ, h1, rfl⟩, h2⟩ := hρ
  obtain ⟨⟨ν, k1, rfl⟩, k2⟩ := hα
  refine ⟨(hε μ h1).1, ?_⟩
  have e1 := abs_le.1 (hε μ h1).2
  have e2 := abs_le.1 (hε ν k1).2
  have e3 := k2 ⟨μ, h1, rfl⟩
  have e4 := Real.log_le_log (hε ν k1).1 (h2 ⟨ν, k1, rfl⟩)
  rw [div_le_div_iff_of_pos_right ha] at e3
  rw [← sub_div, abs_div, abs_abs, div_le_iff₀ ha, abs_le, mul_comm ε]
  constructor <;> linarith

/-- **C128 (Euler).**  The limit differs from the greatest growth rate of the flow by at most
`|h| Λ²`, with `Λ` a bound of the eigenvalues. -/
theorem C128_euler {d : ℕ} {R : ℂ → ℂ} (hR : Amplifies .euler R) {A : Matrix (Fin d) (Fin d) ℝ}
    {h ρ α Λ : ℝ} (hh : h ≠ 0) (hρ : IsGrowth R A h ρ)
    (hα : IsGreatest {x | ∃ μ, IsComplexEigenvalue A μ ∧ x = (h * μ).re / |h|} α)
    (hΛ : ∀ μ, IsComplexEigenvalue A μ → ‖μ‖ ≤ Λ) (small : |h| * Λ ≤ 1 / 2) :
    0 < ρ ∧ |Real.log ρ / |h| - α| ≤ |h| * Λ ^ 2 := by
  cases hR
  refine growth_near hh hρ hα fun μ hμ => ?_
  have hz : ‖(h * μ : ℂ)‖ ≤ |h| * Λ := by
    rw [norm_mul, Complex.norm_real, Real.norm_eq_abs]
    exact mul_le_mul_of_nonneg_left (hΛ μ hμ) (abs_nonneg h)
  set z : ℂ := h * μ
  have hz2 : ‖z‖ ≤ 1 / 2 := hz.trans small
  have hb := Complex.norm_log_one_add_sub_self_le (lt_of_le_of_lt hz2 one_half_lt_one)
  constructor
  · rw [norm_pos_iff]
    intro h0
    have : z = -1 := by linear_combination h0
    rw [this] at hz2
    norm_num at hz2
  · have h1 := (Complex.abs_re_le_norm _).trans hb
    rw [Complex.sub_re, Complex.log_re] at h1
    refine h1.trans ?_
    have h2 : (1 - ‖z‖)⁻¹ ≤ 2 := by
      rw [inv_le_comm₀ (by linarith) (by norm_num)]
      linarith
    have h3 : ‖z‖ ^ 2 ≤ (|h| * Λ) ^ 2 := pow_le_pow_left₀ (norm_nonneg _) hz 2
    have h4 : ‖z‖ ^ 2 * (1 - ‖z‖)⁻¹ ≤ ‖z‖ ^ 2 * 2 := mul_le_mul_of_nonneg_left h2 (by positivity)
    calc ‖z‖ ^ 2 * (1 - ‖z‖)⁻¹ / 2 ≤ ‖z‖ ^ 2 := by linarith
      _ ≤ (|h| * Λ) ^ 2 := h3
      _ = |h| * (|h| * Λ ^ 2) := by ring

/-- **C128 (RK4).**  The limit differs from the greatest growth rate of the flow by at most
`|h|⁴ Λ⁵ / 20`. -/
theorem C128_rk4 {d : ℕ} {R : ℂ → ℂ} (hR : Amplifies .rk4 R) {A : Matrix (Fin d) (Fin d) ℝ}
    {h ρ α Λ : ℝ} (hh : h ≠ 0) (hρ : IsGrowth R A h ρ)
    (hα : IsGreatest {x | ∃ μ, IsComplexEigenvalue A μ ∧ x = (h * μ).re / |h|} α)
    (hΛ : ∀ μ, IsComplexEigenvalue A μ → ‖μ‖ ≤ Λ) (small : |h| * Λ ≤ 1) :
    0 < ρ ∧ |Real.log ρ / |h| - α| ≤ |h| ^ 4 * Λ ^ 5 / 20 := by
  cases hR
  refine growth_near hh hρ hα fun μ hμ => ?_
  have hz : ‖(h * μ : ℂ)‖ ≤ |h| * Λ := by
    rw [norm_mul, Complex.norm_real, Real.norm_eq_abs]
    exact mul_le_mul_of_nonneg_left (hΛ μ hμ) (abs_nonneg h)
  set z : ℂ := h * μ
  have hz1 : ‖z‖ ≤ 1 := hz.trans small
  set r : ℂ := 1 + z + z ^ 2 / 2 + z ^ 3 / 6 + z ^ 4 / 24 with hr
  have hb : ‖Complex.exp z - r‖ ≤ ‖z‖ ^ 5 / 100 := by
    have := Complex.exp_bound hz1 (n := 5) (by norm_num)
    have e : ∑ m ∈ Finset.range 5, z ^ m / (m.factorial : ℂ) = r := by
      rw [hr]
      simp [Finset.sum_range_succ, Nat.factorial]
    rw [e] at this
    refine this.trans (le_of_eq ?_)
    norm_num [Nat.factorial]
    try ring
  set w : ℂ := (r - Complex.exp z) * Complex.exp (-z) with hw
  have hrw : r = Complex.exp z * (1 + w) := by
    rw [hw, mul_add, mul_one, mul_comm (r - _), ← mul_assoc, ← Complex.exp_add]
    simp
  have hwn : ‖w‖ ≤ ‖z‖ ^ 5 / 30 := by
    rw [hw, norm_mul, ← norm_neg, neg_sub]
    have h1 : ‖Complex.exp (-z)‖ ≤ 3 := by
      rw [Complex.norm_exp]
      have h2 : (-z).re ≤ 1 := ((Complex.re_le_norm _).trans (by rw [norm_neg])).trans hz1
      have := Real.exp_le_exp.2 h2
      have := Real.exp_one_lt_d9
      linarith
    calc ‖Complex.exp z - r‖ * ‖Complex.exp (-z)‖ ≤ ‖z‖ ^ 5 / 100 * 3 :=
          mul_le_mul hb h1 (norm_nonneg _) (by positivity)
      _ ≤ ‖z‖ ^ 5 / 30 := by
          have : 0 ≤ ‖z‖ ^ 5 := by positivity
          linarith
  have h5 : ‖z‖ ^ 5 ≤ 1 := pow_le_one₀ (norm_nonneg _) hz1
  have hw2 : ‖w‖ ≤ 1 / 2 := by linarith
  have hlog := (Complex.abs_re_le_norm _).trans (Complex.norm_log_one_add_half_le_self hw2)
  rw [Complex.log_re] at hlog
  have hpos : 0 < ‖1 + w‖ := by
    rw [norm_pos_iff]
    intro h0
    have : w = -1 := by linear_combination h0
    rw [this] at hw2
    norm_num at hw2
  have hnorm : ‖r‖ = Real.exp z.re * ‖1 + w‖ := by rw [hrw, norm_mul, Complex.norm_exp]
  constructor
  · rw [hnorm]
    exact mul_pos (Real.exp_pos _) hpos
  · rw [hnorm, Real.log_mul (Real.exp_pos _).ne' hpos.ne', Real.log_exp, add_sub_cancel_left]
    have h6 : ‖z‖ ^ 5 ≤ (|h| * Λ) ^ 5 := pow_le_pow_left₀ (norm_nonneg _) hz 5
    calc |Real.log ‖1 + w‖| ≤ 3 / 2 * ‖w‖ := hlog
      _ ≤ (|h| * Λ) ^ 5 / 20 := by linarith
      _ = |h| * (|h| ^ 4 * Λ ^ 5 / 20) := by ring

/-! ## Cases -/

/-- The only eigenvalue of a shear is zero. -/
theorem shear_eigenvalue (c : ℝ) {μ : ℂ} : IsComplexEigenvalue !![0, c; 0, 0] μ ↔ μ = 0 := by
  constructor
  · rintro ⟨v, h0, hv⟩
    have e0 := congrFun hv 0
    have e1 := congrFun hv 1
    simp [mulVec, dotProduct, Fin.sum_univ_two] at e0 e1
    by_contra hμ
    have v1 : v 1 = 0 := by rcases e1 with h | h; exact absurd h hμ; exact h
    have v0 : v 0 = 0 := by
      rw [v1, mul_zero] at e0
      rcases mul_eq_zero.1 e0.symm with h | h
      · exact absurd h hμ
      · exact h
    exact h0 (by funext i; fin_cases i; exact v0; exact v1)
  · rintro rfl
    refine ⟨![1, 0], fun h => by simpa using congrFun h 0, ?_⟩
    funext i
    fin_cases i <;> simp [mulVec, dotProduct, Fin.sum_univ_two]

/-- The hypotheses of C128 hold for a shear in a wind: the exponents are positive and tend to 0. -/
example {k : Kind} {R : ℂ → ℂ} (hR : Amplifies k R) : ∃ P : Particles ℝ, mkParticles crossSeed = .ok P ∧
    ∃ e : ℕ → ℝ, (∀ (queue : Bool) (times : List ℝ), 2 ≤ times.length →
      ((⟨.analytical ⟨P, 1 / 10, times⟩, .analytical (.fresh (some fun _ => sourceOf 2 fun x =>
        !![0, 3; 0, 0] *ᵥ x + ![1, 0])), .fresh k⟩ : Solver ℝ).run realEnv queue none).result =
        .ok (some [.fin (e times.length)])) ∧
      Tendsto e atTop (𝓝 0) ∧ ∀ n : ℕ, 2 ≤ n → 0 ≤ e n := by
  obtain ⟨P, hP, -⟩ := mkParticles_2d (show crossSeed.shape = [4 * 1, 2] from rfl)
  have hg : IsGrowth R !![0, 3; 0, 0] (1 / 10) 1 := by
    have hR0 : R 0 = 1 := by cases hR <;> simp
    constructor
    · exact ⟨0, (shear_eigenvalue 3).2 rfl, by simp [hR0]⟩
    · rintro x ⟨μ, hμ, rfl⟩
      rw [(shear_eigenvalue 3).1 hμ]
      simp [hR0]
  obtain ⟨e, h1, h2, h3⟩ := C128_limit_2d realEnv_ok hR (N := 1)
    (fun _ => sourceOf 2 fun x => !![0, 3; 0, 0] *ᵥ x + ![1, 0]) (seed := crossSeed) rfl hP
    crossSeed_aligned (b := ![1, 0]) (sourceOf_pointwise _ _ _) (by norm_num) hg one_pos
  refine ⟨P, hP, e, fun queue times ht => h1 queue times ht, ?_, fun n hn => ?_⟩
  · simpa using h2
  · simpa using h3 n hn

theorem diag_eigenvalue (a b : ℝ) {μ : ℂ} :
    IsComplexEigenvalue !![a, 0; 0, b] μ ↔ μ = (a : ℂ) ∨ μ = (b : ℂ) := by
  constructor
  · rintro ⟨v, h0, hv⟩
    have e0 := congrFun hv 0
    have e1 := congrFun hv 1
    simp only [mulVec, dotProduct, Fin.sum_univ_two, map_apply, of_apply, cons_val', cons_val_zero,
      cons_val_one, cons_val_fin_one, Complex.ofReal_zero, zero_mul, add_zero, zero_add, Pi.smul_apply,
      smul_eq_mul] at e0 e1
    by_contra hμ
    rw [not_or] at hμ
    have v0 : v 0 = 0 := (mul_eq_mul_right_iff.1 e0).resolve_left (Ne.symm hμ.1)
    have v1 : v 1 = 0 := (mul_eq_mul_right_iff.1 e1).resolve_left (Ne.symm hμ.2)
    exact h0 (by funext i; fin_cases i; exact v0; exact v1)
  · rintro (rfl | rfl)
    · refine ⟨![1, 0], fun h => by simpa using congrFun h 0, ?_⟩
      funext i
      fin_cases i <;> simp [mulVec, dotProduct, Fin.sum_univ_two]
    · refine ⟨![0, 1], fun h => by simpa using congrFun h 1, ?_⟩
      funext i
      fin_cases i <;> simp [mulVec, dotProduct, Fin.sum_univ_two]

/-- The hypotheses of C128 (Euler) hold for the saddle `(x, -y)` with time step 1/10: the greatest growth
rate is 1, the limit of the exponents 10 log (11/10). -/
example : |Real.log (11 / 10) / |(1 / 10 : ℝ)| - 1| ≤ |(1 / 10 : ℝ)| * 1 ^ 2 := by
  refine (C128_euler (A := !![1, 0; 0, -1]) (h := 1 / 10) (Λ := 1) .euler (by norm_num) ?_ ?_ ?_
    (by norm_num [abs_of_pos])).2
  · constructor
    · refine ⟨1, (diag_eigenvalue 1 (-1)).2 (.inl (by simp)), ?_⟩
      norm_num
    · rintro x ⟨μ, hμ, rfl⟩
      rcases (diag_eigenvalue 1 (-1)).1 hμ with rfl | rfl <;> norm_num
  · constructor
    · refine ⟨1, (diag_eigenvalue 1 (-1)).2 (.inl (by simp)), ?_⟩
      norm_num [abs_of_pos]
    · rintro x ⟨μ, hμ, rfl⟩
      rcases (diag_eigenvalue 1 (-1)).1 hμ with rfl | rfl <;> norm_num [abs_of_pos]
  · intro μ hμ
    rcases (diag_eigenvalue 1 (-1)).1 hμ with rfl | rfl <;> norm_num

/-- The hypotheses of C128 (RK4) hold for the same saddle. -/
example : |Real.log (265241 / 240000) / |(1 / 10 : ℝ)| - 1| ≤ |(1 / 10 : ℝ)| ^ 4 * 1 ^ 5 / 20 := by
  refine (C128_rk4 (A := !![1, 0; 0, -1]) (h := 1 / 10) (Λ := 1) .rk4 (by norm_num) ?_ ?_ ?_
    (by norm_num [abs_of_pos])).2
  · constructor
    · refine ⟨1, (diag_eigenvalue 1 (-1)).2 (.inl (by simp)), ?_⟩
      norm_num
    · rintro x ⟨μ, hμ, rfl⟩
      rcases (diag_eigenvalue 1 (-1)).1 hμ with rfl | rfl <;> norm_num
  · constructor
    · refine ⟨1, (diag_eigenvalue 1 (-1)).2 (.inl (by simp)), ?_⟩
      norm_num [abs_of_pos]
    · rintro x ⟨μ, hμ, rfl⟩
      rcases (diag_eigenvalue 1 (-1)).1 hμ with rfl | rfl <;> norm_num [abs_of_pos]
  · intro μ hμ
    rcases (diag_eigenvalue 1 (-1)).1 hμ with rfl | rfl <;> norm_num

end Verif
