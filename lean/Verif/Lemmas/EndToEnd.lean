import Verif.Props.Solver
import Mathlib.Analysis.SpecialFunctions.Log.Basic
import Mathlib.Analysis.SpecialFunctions.Exponential
import Mathlib.Analysis.SpecificLimits.Basic

/-!
# Lemmas for complete runs in linear flows
-/

set_option linter.unusedSectionVars false

namespace Verif

open Matrix

/-- The field of equal Jacobians. -/
theorem field_replicate {d : ℕ} {f : List (Matrix (Fin d) (Fin d) ℝ) → ℝ → Py (List FVal)}
    (hf : ComputesFtle f) (M : Matrix (Fin d) (Fin d) ℝ) (N : ℕ) {T : ℝ} (hT : T ≠ 0) :
    ∃ s, IsMaxStretch M s ∧ f (List.replicate N M) T = .ok (List.replicate N (ftleVal s T)) := by
  obtain ⟨vs, -, h2⟩ := hf.value [M] T hT
  cases h2 with
  | cons h _ =>
    obtain ⟨s, hs, -⟩ := h
    refine ⟨s, hs, ?_⟩
    obtain ⟨ws, g1, g2⟩ := hf.value (List.replicate N M) T hT
    rw [g1]
    congr 1
    rw [List.eq_replicate_iff]
    refine ⟨by rw [← g2.length_eq, List.length_replicate], fun w hw => ?_⟩
    obtain ⟨i, hi, rfl⟩ := List.mem_iff_getElem.1 hw
    have hi' : i < (List.replicate N M).length := by rw [g2.length_eq]; exact hi
    obtain ⟨t, ht, e⟩ := g2.get (i := i) hi' hi
    simp only [List.get_eq_getElem, List.getElem_replicate] at ht e
    rw [e, maxStretch_unique ht hs]

/-- A run whose particles undergo a linear map, 2-D. -/
theorem linear_run_2d {env : Env ℝ FVal} (he : RealEnv env) (queue : Bool) (k : Kind)
    (s : AnalyticalSource ℝ) (fn : VelocityFn ℝ) {seed pos : NDArray ℝ} {N : ℕ}
    (hs : seed.shape = [4 * N, 2]) (hp : mkParticles seed = .ok s.particles)
    (hal : ∀ i < N, AxisAligned2 seed N i) (hlen : 2 ≤ s.times.length) (hh : s.timestep ≠ 0)
    (M : Matrix (Fin 2) (Fin 2) ℝ)
    (hst : (Integ.steps env.junk (List.replicate s.times.length (fn 0, s.timestep)) (Integ.fresh k)
      seed).2 = .ok pos) (hsh : pos.shape = [4 * N, 2])
    (hM : ∀ r < 4 * N, rowOf pos 2 r = M *ᵥ rowOf seed 2 r) :
    ∃ σ, IsMaxStretch M σ ∧
      ((⟨.analytical s, .analytical (.fresh (some fn)), Integ.fresh k⟩ : Solver ℝ).run env queue
        none).result =
        .ok (some (List.replicate N (ftleVal σ ((s.times.length - 1) * |s.timestep|)))) := by
  obtain ⟨hpos, hn⟩ : s.particles.positions = seed ∧ s.particles.numNeighbors = 4 := by
    obtain ⟨p, h1, h2, h3, -⟩ := mkParticles_2d hs
    rw [h1] at hp
    cases hp
    exact ⟨h2, h3⟩
  have haff : AffineImage M 0 (4 * N) seed pos := by
    refine ⟨hsh.trans hs.symm, fun r hr c => ?_⟩
    have := congrFun (hM r hr) c
    rw [Pi.zero_apply, add_zero]
    exact this
  have hj := C06_affine_exact_2d seed pos N s.particles M 0 hs hp haff hal
  have hT : ((s.times.length : ℝ) - 1) * |s.timestep| ≠ 0 := by
    have : (2 : ℝ) ≤ s.times.length := by exact_mod_cast hlen
    have h2 : 0 < |s.timestep| := abs_pos.2 hh
    exact mul_ne_zero (by linarith) h2.ne'
  obtain ⟨σ, h1, h2⟩ := field_replicate ftle2_computes M N hT
  refine ⟨σ, h1, ?_⟩
  rw [analytical_run env queue s _ _ (by intro h; rw [h] at hlen; simp at hlen)]
  have e1 : (Integ.steps env.junk (List.replicate s.times.length
      ((AnalyticalState.fresh (some fn)).interpolate, s.timestep)) (Integ.fresh k)
      s.particles.positions).2 = .ok pos := by rw [hpos]; exact hst
  rw [e1]
  simp only
  rw [computeFtle_2d he.abs (by exact hn) hj, he.f2, h2]
  rfl

/-- The same in 3-D. -/
theorem linear_run_3d {env : Env ℝ FVal} (he : RealEnv env) (queue : Bool) (k : Kind)
    (s : AnalyticalSource ℝ) (fn : VelocityFn ℝ) {seed pos : NDArray ℝ} {N : ℕ}
    (hs : seed.shape = [6 * N, 3]) (hp : mkParticles seed = .ok s.particles)
    (hal : ∀ i < N, AxisAligned3 seed N i) (hlen : 2 ≤ s.times.length) (hh : s.timestep ≠ 0)
    (M : Matrix (Fin 3) (Fin 3) ℝ)
    (hst : (Integ.steps env.junk (List.replicate s.times.length (fn 0, s.timestep)) (Integ.fresh k)
      seed).2 = .ok pos) (hsh : pos.shape = [6 * N, 3])
    (hM : ∀ r < 6 * N, rowOf pos 3 r = M *ᵥ rowOf seed 3 r) :
    ∃ σ, IsMaxStretch M σ ∧
      ((⟨.analytical s, .analytical (.fresh (some fn)), Integ.fresh k⟩ : Solver ℝ).run env queue
        none).result =
        .ok (some (List.replicate N (ftleVal σ ((s.times.length - 1) * |s.timestep|)))) := by
  obtain ⟨hpos, hn⟩ : s.particles.positions = seed ∧ s.particles.numNeighbors = 6 := by
    obtain ⟨p, h1, h2, h3, -⟩ := mkParticles_3d hs
    rw [h1] at hp
    cases hp
    exact ⟨h2, h3⟩
  have haff : AffineImage M 0 (6 * N) seed pos := by
    refine ⟨hsh.trans hs.symm, fun r hr c => ?_⟩
    have := congrFun (hM r hr) c
    rw [Pi.zero_apply, add_zero]
    exact this
  have hj := C06_affine_exact_3d seed pos N s.particles M 0 hs hp haff hal
  have hT : ((s.times.length : ℝ) - 1) * |s.timestep| ≠ 0 := by
    have : (2 : ℝ) ≤ s.times.length := by exact_mod_cast hlen
    have h2 : 0 < |s.timestep| := abs_pos.2 hh
    exact mul_ne_zero (by linarith) h2.ne'
  obtain ⟨σ, h1, h2⟩ := field_replicate ftle3_computes M N hT
  refine ⟨σ, h1, ?_⟩
  rw [analytical_run env queue s _ _ (by intro h; rw [h] at hlen; simp at hlen)]
  have e1 : (Integ.steps env.junk (List.replicate s.times.length
      ((AnalyticalState.fresh (some fn)).interpolate, s.timestep)) (Integ.fresh k)
      s.particles.positions).2 = .ok pos := by rw [hpos]; exact hst
  rw [e1]
  simp only
  rw [computeFtle_3d he.abs (by exact hn) hj, he.f3, h2]
  rfl

/-- Maximal stretching of a diagonal matrix, first entry dominant. -/
theorem maxStretch_diag {x y : ℝ} (h : |y| ≤ |x|) : IsMaxStretch !![x, 0; 0, y] |x| := by
  have key : ∀ u : Fin 2 → ℝ, len (!![x, 0; 0, y] *ᵥ u) =
      Real.sqrt (x ^ 2 * u 0 ^ 2 + y ^ 2 * u 1 ^ 2) := by
    intro u
    unfold len
    congr 1
    simp [Matrix.mulVec, dotProduct, Fin.sum_univ_two]
    ring
  refine ⟨⟨![1, 0], by simp [len, dotProduct, Fin.sum_univ_two], ?_⟩, ?_⟩
  · rw [key]; simp [Real.sqrt_sq_eq_abs]
  · rintro _ ⟨u, hu, rfl⟩
    have hu' : u 0 ^ 2 + u 1 ^ 2 = 1 := by
      have := len_sq u
      rw [hu] at this
      simp [dotProduct, Fin.sum_univ_two] at this
      nlinarith
    rw [key, ← Real.sqrt_sq_eq_abs]
    apply Real.sqrt_le_sqrt
    have : y ^ 2 ≤ x ^ 2 := sq_le_sq.2 h
    nlinarith [sq_nonneg (u 1), sq_nonneg (u 0)]

/-- Maximal stretching of a diagonal matrix, second entry dominant. -/
theorem maxStretch_diag' {x y : ℝ} (h : |x| ≤ |y|) : IsMaxStretch !![x, 0; 0, y] |y| := by
  have key : ∀ u : Fin 2 → ℝ, len (!![x, 0; 0, y] *ᵥ u) =
      Real.sqrt (x ^ 2 * u 0 ^ 2 + y ^ 2 * u 1 ^ 2) := by
    intro u
    unfold len
    congr 1
    simp [Matrix.mulVec, dotProduct, Fin.sum_univ_two]
    ring
  refine ⟨⟨![0, 1], by simp [len, dotProduct, Fin.sum_univ_two], ?_⟩, ?_⟩
  · rw [key]; simp [Real.sqrt_sq_eq_abs]
  · rintro _ ⟨u, hu, rfl⟩
    have hu' : u 0 ^ 2 + u 1 ^ 2 = 1 := by
      have := len_sq u
      rw [hu] at this
      simp [dotProduct, Fin.sum_univ_two] at this
      nlinarith
    rw [key, ← Real.sqrt_sq_eq_abs]
    apply Real.sqrt_le_sqrt
    have : x ^ 2 ≤ y ^ 2 := sq_le_sq.2 h
    nlinarith [sq_nonneg (u 1), sq_nonneg (u 0)]

theorem diag_pow (x y : ℝ) (n : ℕ) : (!![x, 0; 0, y]) ^ n = !![x ^ n, 0; 0, y ^ n] := by
  induction n with
  | zero => ext i j; fin_cases i <;> fin_cases j <;> simp
  | succ n ih =>
    rw [pow_succ, ih]
    ext i j; fin_cases i <;> fin_cases j <;> simp [Matrix.mul_apply, Fin.sum_univ_two, pow_succ]

/-- A scalar function of `±z` that is dominated by its value at `|z|`: maximal stretching of
`diag(φ z, φ (-z))^n`. -/
theorem maxStretch_hyperbolic {φ : ℝ → ℝ} (hφ : ∀ z, |φ z| ≤ φ |z|) (z : ℝ) (n : ℕ) :
    IsMaxStretch (!![φ z, 0; 0, φ (-z)] ^ n) (φ |z| ^ n) := by
  have h0 : 0 ≤ φ |z| := (abs_nonneg _).trans (hφ z)
  have hneg := hφ (-z)
  rw [abs_neg] at hneg
  rw [diag_pow]
  rcases le_total 0 z with h | h
  · rw [abs_of_nonneg h] at h0 hneg ⊢
    have := maxStretch_diag (x := φ z ^ n) (y := φ (-z) ^ n) (by
      rw [abs_pow, abs_pow, abs_of_nonneg h0]
      exact pow_le_pow_left₀ (abs_nonneg _) hneg n)
    rwa [abs_pow, abs_of_nonneg h0] at this
  · have hz := hφ z
    rw [abs_of_nonpos h] at h0 hz ⊢
    have := maxStretch_diag' (x := φ z ^ n) (y := φ (-z) ^ n) (by
      rw [abs_pow, abs_pow, abs_of_nonneg h0]
      exact pow_le_pow_left₀ (abs_nonneg _) hz n)
    rwa [abs_pow, abs_of_nonneg h0] at this

/-- The RK4 polynomial. -/
noncomputable def poly4 (z : ℝ) : ℝ := 1 + z + z ^ 2 / 2 + z ^ 3 / 6 + z ^ 4 / 24

theorem poly4_dominated (z : ℝ) : |poly4 z| ≤ poly4 |z| := by
  unfold poly4
  rw [abs_le]
  have h2 : |z| ^ 2 = z ^ 2 := sq_abs z
  have h4 : |z| ^ 4 = z ^ 4 := by rw [show (4 : ℕ) = 2 * 2 from rfl, pow_mul, pow_mul, h2]
  have h3 : |z| ^ 3 = |z ^ 3| := by rw [abs_pow]
  rw [h2, h4, h3]
  have a1 := neg_abs_le z
  have a2 := le_abs_self z
  have a3 := neg_abs_le (z ^ 3)
  have a4 := le_abs_self (z ^ 3)
  constructor <;> nlinarith [sq_nonneg z, sq_nonneg (z ^ 2)]

/-- A growth factor between `1 + z` and `exp z` gives the right exponent in the limit. -/
theorem growth_limit {φ : ℝ → ℝ} (hlo : ∀ z, 0 ≤ z → 1 + z ≤ φ z)
    (hhi : ∀ z, 0 ≤ z → φ z ≤ Real.exp z) (a T : ℝ) (hT : T ≠ 0) :
    Filter.Tendsto (fun p : ℕ => 1 / |T| * Real.log (φ |T / (p - 1) * a| ^ p)) Filter.atTop
      (nhds |a|) := by
  have hT' : 0 < |T| := abs_pos.2 hT
  -- shift the index: `p = n + 1`
  rw [← Filter.tendsto_add_atTop_iff_nat 2]
  have hz : ∀ n : ℕ, |T / (((n + 2 : ℕ) : ℝ) - 1) * a| = |T| * |a| / (n + 1) := by
    intro n
    have h1 : (0 : ℝ) < n + 1 := by positivity
    rw [abs_mul, abs_div]
    have : |(((n + 2 : ℕ) : ℝ) - 1)| = n + 1 := by
      rw [abs_of_pos] <;> push_cast <;> linarith
    rw [this]; ring
  have hlim1 : Filter.Tendsto (fun n : ℕ => (1 : ℝ) / (n + 1)) Filter.atTop (nhds 0) :=
    tendsto_one_div_add_atTop_nhds_zero_nat
  -- upper bound: |a| (1 + 1/(n+1))
  have hup : Filter.Tendsto (fun n : ℕ => |a| * (1 + 1 / ((n : ℝ) + 1))) Filter.atTop
      (nhds |a|) := by
    have := (hlim1.const_add 1).const_mul |a|
    simpa using this
  -- lower bound: |a| / (1 + |T||a|/(n+1))
  have hdown : Filter.Tendsto (fun n : ℕ => |a| / (1 + |T| * |a| * (1 / ((n : ℝ) + 1))))
      Filter.atTop (nhds |a|) := by
    have h1 := ((hlim1.const_mul (|T| * |a|)).const_add 1)
    have h2 := (tendsto_const_nhds (x := |a|)).div h1 (by simp)
    have h3 : |a| / (1 + |T| * |a| * 0) = |a| := by simp
    rw [h3] at h2
    exact h2
  refine tendsto_of_tendsto_of_tendsto_of_le_of_le hdown hup (fun n => ?_) (fun n => ?_)
  · simp only [hz]
    set z := |T| * |a| / ((n : ℝ) + 1) with hzdef
    have hn : (0 : ℝ) < n + 1 := by positivity
    have hz0 : 0 ≤ z := by positivity
    have hφ := hlo z hz0
    have hlog : z / (1 + z) ≤ Real.log (φ z) := by
      calc z / (1 + z) = 1 - (1 + z)⁻¹ := by field_simp; ring
        _ ≤ Real.log (1 + z) := Real.one_sub_inv_le_log_of_pos (by linarith)
        _ ≤ Real.log (φ z) := Real.log_le_log (by linarith) hφ
    rw [Real.log_pow]
    push_cast
    have e : |a| / (1 + |T| * |a| * (1 / ((n : ℝ) + 1))) =
        1 / |T| * (((n : ℝ) + 1) * (z / (1 + z))) := by
      have : |T| * |a| * (1 / ((n : ℝ) + 1)) = z := by rw [hzdef]; ring
      rw [this]
      have : |a| = z * (n + 1) / |T| := by rw [hzdef]; field_simp
      rw [this]
      field_simp
    rw [e]
    apply mul_le_mul_of_nonneg_left _ (by positivity)
    have h2 : 0 ≤ z / (1 + z) := by positivity
    nlinarith
  · simp only [hz]
    set z := |T| * |a| / ((n : ℝ) + 1) with hzdef
    have hn : (0 : ℝ) < n + 1 := by positivity
    have hz0 : 0 ≤ z := by positivity
    have hlog : Real.log (φ z) ≤ z := by
      have h1 : 0 < φ z := by linarith [hlo z hz0]
      calc Real.log (φ z) ≤ Real.log (Real.exp z) := Real.log_le_log h1 (hhi z hz0)
        _ = z := Real.log_exp z
    rw [Real.log_pow]
    push_cast
    have e : |a| * (1 + 1 / ((n : ℝ) + 1)) = 1 / |T| * (((n : ℝ) + 2) * z) := by
      rw [hzdef]; field_simp; ring
    rw [e]
    apply mul_le_mul_of_nonneg_left _ (by positivity)
    exact mul_le_mul_of_nonneg_left hlog (by positivity)

theorem poly4_le_exp {z : ℝ} (hz : 0 ≤ z) : poly4 z ≤ Real.exp z := by
  have := Real.sum_le_exp_of_nonneg hz 5
  simp [Finset.sum_range_succ, Nat.factorial] at this
  unfold poly4
  linarith

end Verif
