import Verif.Lemmas.Ab2
import Verif.Props.Incompressible

/-!
# Complete runs with AB2 on linear flows: C41, C42 and C122
-/

namespace Verif

open Matrix

/-! ## C41: the reported value -/

/-- **C41 (AB2, 2-D).**  `M n` are the matrices of the two-step method; the value is the one of
`M p` for `p` snapshots. -/
theorem C41_ab2_2d {env : Env ℝ FVal} (he : RealEnv env) (queue : Bool)
    (s : AnalyticalSource ℝ) (fn : VelocityFn ℝ) {seed : NDArray ℝ} {N : ℕ}
    (hs : seed.shape = [4 * N, 2]) (hp : mkParticles seed = .ok s.particles)
    (hal : ∀ i < N, AxisAligned2 seed N i) (A : Matrix (Fin 2) (Fin 2) ℝ)
    (hv : Pointwise (4 * N) 2 (fn 0) (fun x => A *ᵥ x)) (hlen : 2 ≤ s.times.length)
    (hh : s.timestep ≠ 0) {M : ℕ → Matrix (Fin 2) (Fin 2) ℝ} (hM : Ab2Matrices A s.timestep M) :
    ReportsNorm ((⟨.analytical s, .analytical (.fresh (some fn)), .fresh .ab2⟩ :
        Solver ℝ).run env queue none).result N
      (M s.times.length) ((s.times.length - 1) * |s.timestep|) := by
  obtain ⟨X, h1, h2⟩ := C19_ab2_linear env.junk A hv s.timestep hs
  refine reportsNorm_of (period_pos hlen hh)
    (linear_run_2d he queue .ab2 s fn hs hp hal hlen hh _ (h1 _).1 (h1 _).2 fun r hr => ?_)
  obtain ⟨a0, a1, a2⟩ := h2 r hr
  rw [← a0]
  exact (hM.rows (x := fun n => rowOf (X n) 2 r) (by rw [a0]; exact a1) a2 _).1

/-- **C41 (AB2, 3-D).** -/
theorem C41_ab2_3d {env : Env ℝ FVal} (he : RealEnv env) (queue : Bool)
    (s : AnalyticalSource ℝ) (fn : VelocityFn ℝ) {seed : NDArray ℝ} {N : ℕ}
    (hs : seed.shape = [6 * N, 3]) (hp : mkParticles seed = .ok s.particles)
    (hal : ∀ i < N, AxisAligned3 seed N i) (A : Matrix (Fin 3) (Fin 3) ℝ)
    (hv : Pointwise (6 * N) 3 (fn 0) (fun x => A *ᵥ x)) (hlen : 2 ≤ s.times.length)
    (hh : s.timestep ≠ 0) {M : ℕ → Matrix (Fin 3) (Fin 3) ℝ} (hM : Ab2Matrices A s.timestep M) :
    ReportsNorm ((⟨.analytical s, .analytical (.fresh (some fn)), .fresh .ab2⟩ :
        Solver ℝ).run env queue none).result N
      (M s.times.length) ((s.times.length - 1) * |s.timestep|) := by
  obtain ⟨X, h1, h2⟩ := C19_ab2_linear env.junk A hv s.timestep hs
  refine reportsNorm_of (period_pos hlen hh)
    (linear_run_3d he queue .ab2 s fn hs hp hal hlen hh _ (h1 _).1 (h1 _).2 fun r hr => ?_)
  obtain ⟨a0, a1, a2⟩ := h2 r hr
  rw [← a0]
  exact (hM.rows (x := fun n => rowOf (X n) 3 r) (by rw [a0]; exact a1) a2 _).1

example (A : Matrix (Fin 2) (Fin 2) ℝ) (h : ℝ) : ∃ M, Ab2Matrices A h M := ⟨_, ab2Mat_ok A h⟩

/-! ## C42: refinement of the time step -/

theorem maxStretch_ab2 (z : ℝ) (n : ℕ) :
    IsMaxStretch !![ab2Num z n, 0; 0, ab2Num (-z) n] (ab2Num |z| n) := by
  have h0 := zero_le_one.trans (ab2Num_grow (abs_nonneg z) n).1
  have hn := (ab2Num_neg (abs_nonneg z) n).1
  rcases le_total 0 z with h | h
  · rw [abs_of_nonneg h] at h0 hn ⊢
    have := maxStretch_diag (x := ab2Num z n) (y := ab2Num (-z) n) (by rwa [abs_of_nonneg h0])
    rwa [abs_of_nonneg h0] at this
  · rw [abs_of_nonpos h] at h0 hn ⊢
    rw [neg_neg] at hn
    have := maxStretch_diag' (x := ab2Num z n) (y := ab2Num (-z) n) (by rwa [abs_of_nonneg h0])
    rwa [abs_of_nonneg h0] at this

theorem ab2_growth_limit (a T : ℝ) (hT : T ≠ 0) :
    Filter.Tendsto (fun p : ℕ => 1 / |T| * Real.log (ab2Num |T / (p - 1) * a| p)) Filter.atTop
      (nhds |a|) := by
  have hT' : 0 < |T| := abs_pos.2 hT
  have lower := growth_limit (φ := fun z => 1 + z) (fun z _ => le_rfl)
    (fun z _ => by linarith [Real.add_one_le_exp z]) a T hT
  have upper : Filter.Tendsto (fun p : ℕ => |a| + |a| / (p - 1) +
      1 / |T| * (3 / 4 * (p * (T * a / (p - 1)) ^ 2))) Filter.atTop (nhds |a|) := by
    have := ((tendsto_step |a|).const_add |a|).add
      (((tendsto_step_sq (T * a)).const_mul (3 / 4)).const_mul (1 / |T|))
    simpa using this
  refine tendsto_of_tendsto_of_tendsto_of_le_of_le' lower upper ?_ ?_
  · filter_upwards with p
    refine mul_le_mul_of_nonneg_left ?_ (by positivity)
    exact Real.log_le_log (by positivity) (ab2Num_lower (abs_nonneg _) p)
  · filter_upwards [Filter.eventually_ge_atTop 2] with p hp
    have hp1 : (0 : ℝ) < (p : ℝ) - 1 := by
      have : (2 : ℝ) ≤ p := by exact_mod_cast hp
      linarith
    set z := |T / (p - 1) * a| with hz
    have hz0 : 0 ≤ z := abs_nonneg _
    have e1 : z = |T| * |a| / (p - 1) := by
      rw [hz, abs_mul, abs_div, abs_of_pos hp1]; ring
    have e2 : z ^ 2 = (T * a / (p - 1)) ^ 2 := by
      rw [hz, sq_abs]; ring
    have h1 : Real.log (ab2Num z p) ≤ p * (z + 3 / 4 * z ^ 2) := by
      have hb := Real.log_le_log (by linarith [(ab2Num_grow hz0 p).1]) (ab2Num_upper hz0 p)
      rw [Real.log_pow] at hb
      have hc := Real.log_le_sub_one_of_pos (show 0 < 1 + z + 3 / 4 * z ^ 2 by positivity)
      refine hb.trans (mul_le_mul_of_nonneg_left (by linarith) (Nat.cast_nonneg p))
    calc 1 / |T| * Real.log (ab2Num z p) ≤ 1 / |T| * (p * (z + 3 / 4 * z ^ 2)) :=
          mul_le_mul_of_nonneg_left h1 (by positivity)
      _ = |a| + |a| / (p - 1) + 1 / |T| * (3 / 4 * (p * (T * a / (p - 1)) ^ 2)) := by
          rw [← e2, mul_add, mul_add, e1]
          field_simp
          ring

/-- **C42 (AB2).** -/
theorem C42_refinement_ab2 {env : Env ℝ FVal} (he : RealEnv env) (queue : Bool)
    (a T : ℝ) (hT : T ≠ 0) (fn : VelocityFn ℝ) {seed : NDArray ℝ}
    {N : ℕ} (hs : seed.shape = [4 * N, 2]) {P : Particles ℝ} (hp : mkParticles seed = .ok P)
    (hal : ∀ i < N, AxisAligned2 seed N i)
    (hv : Pointwise (4 * N) 2 (fn 0) (fun x => !![a, 0; 0, -a] *ᵥ x)) :
    ∃ L : ℕ → ℝ,
      (∀ p, 2 ≤ p → ∀ times : List ℝ, times.length = p →
        ((⟨.analytical ⟨P, T / (p - 1), times⟩, .analytical (.fresh (some fn)), .fresh .ab2⟩ :
          Solver ℝ).run env queue none).result = .ok (some (List.replicate N (.fin (L p))))) ∧
      Filter.Tendsto L Filter.atTop (nhds |a|) := by
  refine ⟨_, ?_, ab2_growth_limit a T hT⟩
  intro p hp2 times hl
  obtain ⟨g1, g2⟩ := fixed_period hT hp2
  have hM := ab2Mat_ok (!![a, 0; 0, -a] : Matrix (Fin 2) (Fin 2) ℝ) (T / (p - 1))
  have := C41_ab2_2d he queue ⟨P, T / (p - 1), times⟩ fn hs hp hal _ hv (by simp [hl, hp2]) g1 hM
  simp only [hl, g2] at this
  rw [(ab2_saddle hM p).1] at this
  exact ftle_of_stretch this (maxStretch_ab2 _ p)
    (by linarith [(ab2Num_grow (abs_nonneg (T / (p - 1) * a)) p).1])

/-! ## C122: incompressible flows -/

theorem ab2Num_real (x : ℝ) (n : ℕ) : ab2Num (x : ℂ) n = ((ab2Num x n : ℝ) : ℂ) ∧
    ab2Num (x : ℂ) (n + 1) = ((ab2Num x (n + 1) : ℝ) : ℂ) := by
  induction n with
  | zero => simp [ab2Num]
  | succ n ih =>
    refine ⟨ih.2, ?_⟩
    rw [ab2Num, ab2Num, ih.1, ih.2]
    push_cast
    rfl

theorem ab2Num_one_le {z : ℂ} {h : ℝ} (him : z.im = 0) (hre : 0 ≤ h * z.re) (n : ℕ) :
    1 ≤ ‖ab2Num ((h : ℂ) * z) n‖ := by
  obtain ⟨x, rfl⟩ : ∃ x : ℝ, z = x := ⟨z.re, Complex.ext rfl him⟩
  rw [Complex.ofReal_re] at hre
  rw [← Complex.ofReal_mul, (ab2Num_real _ n).1, Complex.norm_real, Real.norm_eq_abs]
  exact (ab2Num_grow hre n).1.trans (le_abs_self _)

/-- **C122 (AB2, 2-D), part.**  As for RK4. -/
theorem C122_ab2_2d_partial {env : Env ℝ FVal} (he : RealEnv env) (queue : Bool)
    (s : AnalyticalSource ℝ) (fn : VelocityFn ℝ) {seed : NDArray ℝ} {N : ℕ}
    (hs : seed.shape = [4 * N, 2]) (hp : mkParticles seed = .ok s.particles)
    (hal : ∀ i < N, AxisAligned2 seed N i) (A : Matrix (Fin 2) (Fin 2) ℝ) (htr : A.trace = 0)
    (hdet : A.det ≤ 0)
    (hv : Pointwise (4 * N) 2 (fn 0) (fun x => A *ᵥ x)) (hlen : 2 ≤ s.times.length)
    (hh : s.timestep ≠ 0) :
    ReportsAtLeast ((⟨.analytical s, .analytical (.fresh (some fn)), .fresh .ab2⟩ :
        Solver ℝ).run env queue none).result N 0 := by
  obtain ⟨w, z, hw, hz, hre⟩ := exists_mode htr s.timestep
  have hM := ab2Mat_ok A s.timestep
  refine reportsAtLeast_zero (n := 1) (period_pos hlen hh)
    (C41_ab2_2d he queue s fn hs hp hal A hv hlen hh hM) hw
    (ab2Num_one_le (mode_real_2d htr hdet hw hz) hre s.times.length) ?_
  rw [pow_one]
  exact (mode_ab2 hM hz _).1

/-- **C122 (AB2, 3-D), part.**  As for RK4. -/
theorem C122_ab2_3d_partial {env : Env ℝ FVal} (he : RealEnv env) (queue : Bool)
    (s : AnalyticalSource ℝ) (fn : VelocityFn ℝ) {seed : NDArray ℝ} {N : ℕ}
    (hs : seed.shape = [6 * N, 3]) (hp : mkParticles seed = .ok s.particles)
    (hal : ∀ i < N, AxisAligned3 seed N i) (A : Matrix (Fin 3) (Fin 3) ℝ) (htr : A.trace = 0)
    (hsymm : Aᵀ = A)
    (hv : Pointwise (6 * N) 3 (fn 0) (fun x => A *ᵥ x)) (hlen : 2 ≤ s.times.length)
    (hh : s.timestep ≠ 0) :
    ReportsAtLeast ((⟨.analytical s, .analytical (.fresh (some fn)), .fresh .ab2⟩ :
        Solver ℝ).run env queue none).result N 0 := by
  obtain ⟨w, z, hw, hz, hre⟩ := exists_mode htr s.timestep
  have hM := ab2Mat_ok A s.timestep
  refine reportsAtLeast_zero (n := 1) (period_pos hlen hh)
    (C41_ab2_3d he queue s fn hs hp hal A hv hlen hh hM) hw
    (ab2Num_one_le (mode_symm hsymm hw hz) hre s.times.length) ?_
  rw [pow_one]
  exact (mode_ab2 hM hz _).1

/-- **C122 is false of the code (AB2).**  With two snapshots a rotating body is reported as
stretching, at every point, for every time step other than zero. -/
theorem C122_ab2_rotation_fails {env : Env ℝ FVal} (he : RealEnv env) (queue : Bool)
    (s : AnalyticalSource ℝ) (fn : VelocityFn ℝ) {seed : NDArray ℝ} {N : ℕ}
    (hs : seed.shape = [4 * N, 2]) (hp : mkParticles seed = .ok s.particles)
    (hal : ∀ i < N, AxisAligned2 seed N i) (ω : ℝ) (hω : ω ≠ 0)
    (hv : Pointwise (4 * N) 2 (fn 0) (fun x => !![0, -ω; ω, 0] *ᵥ x))
    (hlen : s.times.length = 2) (hh : s.timestep ≠ 0) :
    ∃ y > 0, ((⟨.analytical s, .analytical (.fresh (some fn)), .fresh .ab2⟩ :
        Solver ℝ).run env queue none).result = .ok (some (List.replicate N (.fin y))) := by
  have hM := ab2Mat_ok (!![0, -ω; ω, 0] : Matrix (Fin 2) (Fin 2) ℝ) s.timestep
  have h := C41_ab2_2d he queue s fn hs hp hal _ hv hlen.ge hh hM
  set x := s.timestep * ω with hx
  have e : ab2Mat (!![0, -ω; ω, 0] : Matrix (Fin 2) (Fin 2) ℝ) s.timestep s.times.length =
      turnScale (1 - 3 / 2 * x ^ 2) (2 * x) ^ 1 := by
    rw [hlen, pow_one, ab2Mat, ab2Mat, ab2Mat, Matrix.one_fin_two]
    ext i j
    fin_cases i <;> fin_cases j <;> simp [turnScale, hx] <;> ring
  rw [e] at h
  have hx0 : 0 < x ^ 2 := by have := mul_ne_zero hh hω; positivity
  have hq : 1 < (1 - 3 / 2 * x ^ 2) ^ 2 + (2 * x) ^ 2 := by nlinarith
  have hq0 : 0 < (1 - 3 / 2 * x ^ 2) ^ 2 + (2 * x) ^ 2 := by linarith
  refine ⟨_, ?_, ftle_of_stretch h (maxStretch_turnScale _ _ _) (Real.sqrt_pos.2 (pow_pos hq0 _))⟩
  refine mul_pos (one_div_pos.2 (period_pos hlen.ge hh)) (Real.log_pos ?_)
  rw [pow_one, Real.lt_sqrt zero_le_one, one_pow]
  exact hq

example : ∃ s : AnalyticalSource ℝ, mkParticles crossSeed = .ok s.particles ∧
    s.times.length = 2 ∧ s.timestep ≠ 0 := by
  obtain ⟨p, h1, -⟩ := mkParticles_2d (show crossSeed.shape = [4 * 1, 2] from rfl)
  exact ⟨⟨p, 1, [0, 1]⟩, h1, rfl, by simp⟩

end Verif
