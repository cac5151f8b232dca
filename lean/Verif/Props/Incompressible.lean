import Verif.Lemmas.Modes
import Verif.Props.EndToEnd

/-!
# C122: the exponents reported for incompressible linear flows

A flow without divergence keeps areas and volumes, so something is always stretched at least as
much as nothing: its exponent is never negative, and it is zero for a rotating body, where all
distances stay the same.
-/

namespace Verif

open Matrix

/-- `z` is an eigenvalue of the real matrix `A`, possibly a complex one. -/
def HasMode {d : ℕ} (A : Matrix (Fin d) (Fin d) ℝ) (z : ℂ) : Prop :=
  ∃ w : Fin d → ℂ, w ≠ 0 ∧ A.map Complex.ofReal *ᵥ w = z • w

/-- The run succeeds and all `N` groups carry one and the same finite value, at least `b`. -/
def ReportsAtLeast (result : Py (Option (List FVal))) (N : ℕ) (b : ℝ) : Prop :=
  ∃ y, b ≤ y ∧ result = .ok (some (List.replicate N (.fin y)))

theorem reportsAtLeast_mode {d : ℕ} {result : Py (Option (List FVal))} {N : ℕ}
    {M : Matrix (Fin d) (Fin d) ℝ} {T : ℝ} (hT : 0 < T) (h : ReportsNorm result N M T)
    {w : Fin d → ℂ} (hw : w ≠ 0) {μ : ℂ} (hμ : μ ≠ 0) (hm : cplx M *ᵥ w = μ • w) :
    ReportsAtLeast result N (1 / T * Real.log ‖μ‖) := by
  obtain ⟨σ, h1, h2, -⟩ := h
  have hle := stretch_ge_mode h1 hw hm
  have h0 := norm_pos_iff.2 hμ
  have hM : M ≠ 0 := fun hM => by
    have := (maxStretch_eq_zero_iff h1).2 hM
    linarith
  refine ⟨_, ?_, (h2 hM).2⟩
  exact mul_le_mul_of_nonneg_left (Real.log_le_log h0 hle) (by positivity)

theorem reportsAtLeast_pow {d : ℕ} {result : Py (Option (List FVal))} {N n : ℕ}
    {M : Matrix (Fin d) (Fin d) ℝ} {T : ℝ} (hT : 0 < T) (h : ReportsNorm result N M T)
    {w : Fin d → ℂ} (hw : w ≠ 0) {μ : ℂ} (hμ : μ ≠ 0) (hm : cplx M *ᵥ w = μ ^ n • w) :
    ReportsAtLeast result N (n / T * Real.log ‖μ‖) := by
  have := reportsAtLeast_mode hT h hw (pow_ne_zero n hμ) hm
  rw [norm_pow, Real.log_pow] at this
  have e : (n : ℝ) / T * Real.log ‖μ‖ = 1 / T * (n * Real.log ‖μ‖) := by ring
  rwa [e]

theorem ReportsAtLeast.mono {result : Py (Option (List FVal))} {N : ℕ} {a b : ℝ}
    (h : ReportsAtLeast result N b) (hab : a ≤ b) : ReportsAtLeast result N a := by
  obtain ⟨y, h1, h2⟩ := h
  exact ⟨y, hab.trans h1, h2⟩

theorem reportsAtLeast_zero {d : ℕ} {result : Py (Option (List FVal))} {N n : ℕ}
    {M : Matrix (Fin d) (Fin d) ℝ} {T : ℝ} (hT : 0 < T) (h : ReportsNorm result N M T)
    {w : Fin d → ℂ} (hw : w ≠ 0) {μ : ℂ} (hμ : 1 ≤ ‖μ‖) (hm : cplx M *ᵥ w = μ ^ n • w) :
    ReportsAtLeast result N 0 :=
  (reportsAtLeast_pow hT h hw (norm_pos_iff.1 (by linarith)) hm).mono
    (mul_nonneg (by positivity) (Real.log_nonneg hμ))

/-! ## Euler: never negative -/

/-- **C122 (Euler, 2-D).**  Whatever the incompressible linear flow, the direction and the size of
the time step: no reported value is negative. -/
theorem C122_euler_2d {env : Env ℝ FVal} (he : RealEnv env) (queue : Bool)
    (s : AnalyticalSource ℝ) (fn : VelocityFn ℝ) {seed : NDArray ℝ} {N : ℕ}
    (hs : seed.shape = [4 * N, 2]) (hp : mkParticles seed = .ok s.particles)
    (hal : ∀ i < N, AxisAligned2 seed N i) (A : Matrix (Fin 2) (Fin 2) ℝ) (htr : A.trace = 0)
    (hv : Pointwise (4 * N) 2 (fn 0) (fun x => A *ᵥ x)) (hlen : 2 ≤ s.times.length)
    (hh : s.timestep ≠ 0) :
    ReportsAtLeast ((⟨.analytical s, .analytical (.fresh (some fn)), .fresh .euler⟩ :
        Solver ℝ).run env queue none).result N 0 := by
  obtain ⟨w, z, hw, hz, hre⟩ := exists_mode htr s.timestep
  exact reportsAtLeast_zero (period_pos hlen hh) (C41_euler_2d he queue s fn hs hp hal A hv hlen hh)
    hw (euler_one_le hre) (mode_euler (mode_smul hz _) _)

/-- **C122 (Euler, 3-D).** -/
theorem C122_euler_3d {env : Env ℝ FVal} (he : RealEnv env) (queue : Bool)
    (s : AnalyticalSource ℝ) (fn : VelocityFn ℝ) {seed : NDArray ℝ} {N : ℕ}
    (hs : seed.shape = [6 * N, 3]) (hp : mkParticles seed = .ok s.particles)
    (hal : ∀ i < N, AxisAligned3 seed N i) (A : Matrix (Fin 3) (Fin 3) ℝ) (htr : A.trace = 0)
    (hv : Pointwise (6 * N) 3 (fn 0) (fun x => A *ᵥ x)) (hlen : 2 ≤ s.times.length)
    (hh : s.timestep ≠ 0) :
    ReportsAtLeast ((⟨.analytical s, .analytical (.fresh (some fn)), .fresh .euler⟩ :
        Solver ℝ).run env queue none).result N 0 := by
  obtain ⟨w, z, hw, hz, hre⟩ := exists_mode htr s.timestep
  exact reportsAtLeast_zero (period_pos hlen hh) (C41_euler_3d he queue s fn hs hp hal A hv hlen hh)
    hw (euler_one_le hre) (mode_euler (mode_smul hz _) _)

/-! ## RK4: never negative where a direction is stretched without being turned -/

/-- **C122 (RK4, bound, 2-D).**  Every eigenvalue `z` of the flow bounds the reported value from
below, through the factor by which one step of RK4 multiplies its eigenvector. -/
theorem C122_rk4_eigenvalue_2d {env : Env ℝ FVal} (he : RealEnv env) (queue : Bool)
    (s : AnalyticalSource ℝ) (fn : VelocityFn ℝ) {seed : NDArray ℝ} {N : ℕ}
    (hs : seed.shape = [4 * N, 2]) (hp : mkParticles seed = .ok s.particles)
    (hal : ∀ i < N, AxisAligned2 seed N i) (A : Matrix (Fin 2) (Fin 2) ℝ)
    (hv : Pointwise (4 * N) 2 (fn 0) (fun x => A *ᵥ x)) (hlen : 2 ≤ s.times.length)
    (hh : s.timestep ≠ 0) {z : ℂ} (hz : HasMode A z) {hz' μ : ℂ}
    (hhz : hz' = s.timestep * z)
    (hμ : μ = 1 + hz' + hz' ^ 2 / 2 + hz' ^ 3 / 6 + hz' ^ 4 / 24) (h0 : μ ≠ 0) :
    ReportsAtLeast ((⟨.analytical s, .analytical (.fresh (some fn)), .fresh .rk4⟩ :
        Solver ℝ).run env queue none).result N
      (s.times.length / ((s.times.length - 1) * |s.timestep|) * Real.log ‖μ‖) := by
  obtain ⟨w, hw, hz⟩ := hz
  subst hμ hhz
  exact reportsAtLeast_pow (period_pos hlen hh)
    (C41_rk4_2d he queue s fn hs hp hal A hv hlen hh) hw h0 (mode_taylor4 (mode_smul hz _) _)

/-- **C122 (RK4, bound, 3-D).** -/
theorem C122_rk4_eigenvalue_3d {env : Env ℝ FVal} (he : RealEnv env) (queue : Bool)
    (s : AnalyticalSource ℝ) (fn : VelocityFn ℝ) {seed : NDArray ℝ} {N : ℕ}
    (hs : seed.shape = [6 * N, 3]) (hp : mkParticles seed = .ok s.particles)
    (hal : ∀ i < N, AxisAligned3 seed N i) (A : Matrix (Fin 3) (Fin 3) ℝ)
    (hv : Pointwise (6 * N) 3 (fn 0) (fun x => A *ᵥ x)) (hlen : 2 ≤ s.times.length)
    (hh : s.timestep ≠ 0) {z : ℂ} (hz : HasMode A z) {hz' μ : ℂ}
    (hhz : hz' = s.timestep * z)
    (hμ : μ = 1 + hz' + hz' ^ 2 / 2 + hz' ^ 3 / 6 + hz' ^ 4 / 24) (h0 : μ ≠ 0) :
    ReportsAtLeast ((⟨.analytical s, .analytical (.fresh (some fn)), .fresh .rk4⟩ :
        Solver ℝ).run env queue none).result N
      (s.times.length / ((s.times.length - 1) * |s.timestep|) * Real.log ‖μ‖) := by
  obtain ⟨w, hw, hz⟩ := hz
  subst hμ hhz
  exact reportsAtLeast_pow (period_pos hlen hh)
    (C41_rk4_3d he queue s fn hs hp hal A hv hlen hh) hw h0 (mode_taylor4 (mode_smul hz _) _)

/-- **C122 (RK4, 2-D), part.**  Incompressible flows of the plane with open streamlines, i.e. with
a determinant that is not positive (saddles, shears, and the fluid at rest): no reported value is
negative.  Missing: the flows with closed streamlines, for which the claim is false
(`C122_rk4_rotation_fails`). -/
theorem C122_rk4_2d_partial {env : Env ℝ FVal} (he : RealEnv env) (queue : Bool)
    (s : AnalyticalSource ℝ) (fn : VelocityFn ℝ) {seed : NDArray ℝ} {N : ℕ}
    (hs : seed.shape = [4 * N, 2]) (hp : mkParticles seed = .ok s.particles)
    (hal : ∀ i < N, AxisAligned2 seed N i) (A : Matrix (Fin 2) (Fin 2) ℝ) (htr : A.trace = 0)
    (hdet : A.det ≤ 0)
    (hv : Pointwise (4 * N) 2 (fn 0) (fun x => A *ᵥ x)) (hlen : 2 ≤ s.times.length)
    (hh : s.timestep ≠ 0) :
    ReportsAtLeast ((⟨.analytical s, .analytical (.fresh (some fn)), .fresh .rk4⟩ :
        Solver ℝ).run env queue none).result N 0 := by
  obtain ⟨w, z, hw, hz, hre⟩ := exists_mode htr s.timestep
  exact reportsAtLeast_zero (period_pos hlen hh) (C41_rk4_2d he queue s fn hs hp hal A hv hlen hh)
    hw (poly4_one_le (mode_real_2d htr hdet hw hz) hre) (mode_taylor4 (mode_smul hz _) _)

/-- **C122 (RK4, 3-D), part.**  Incompressible flows without rotation (symmetric gradient): no
reported value is negative.  Missing: the flows with rotation. -/
theorem C122_rk4_3d_partial {env : Env ℝ FVal} (he : RealEnv env) (queue : Bool)
    (s : AnalyticalSource ℝ) (fn : VelocityFn ℝ) {seed : NDArray ℝ} {N : ℕ}
    (hs : seed.shape = [6 * N, 3]) (hp : mkParticles seed = .ok s.particles)
    (hal : ∀ i < N, AxisAligned3 seed N i) (A : Matrix (Fin 3) (Fin 3) ℝ) (htr : A.trace = 0)
    (hsymm : Aᵀ = A)
    (hv : Pointwise (6 * N) 3 (fn 0) (fun x => A *ᵥ x)) (hlen : 2 ≤ s.times.length)
    (hh : s.timestep ≠ 0) :
    ReportsAtLeast ((⟨.analytical s, .analytical (.fresh (some fn)), .fresh .rk4⟩ :
        Solver ℝ).run env queue none).result N 0 := by
  obtain ⟨w, z, hw, hz, hre⟩ := exists_mode htr s.timestep
  exact reportsAtLeast_zero (period_pos hlen hh) (C41_rk4_3d he queue s fn hs hp hal A hv hlen hh)
    hw (poly4_one_le (mode_symm hsymm hw hz) hre) (mode_taylor4 (mode_smul hz _) _)

/-! ## A rotating body -/

theorem log_sqrt_pow {q : ℝ} (hq : 0 < q) (n : ℕ) (T : ℝ) :
    1 / T * Real.log (Real.sqrt (q ^ n)) = n / (2 * T) * Real.log q := by
  rw [Real.log_sqrt (pow_pos hq n).le, Real.log_pow]
  by_cases hT : T = 0
  · simp [hT]
  · field_simp

/-- **C122 (rotating body, Euler).**  The value reported for a rotation by `ω` per unit of time. -/
theorem C122_euler_rotation {env : Env ℝ FVal} (he : RealEnv env) (queue : Bool)
    (s : AnalyticalSource ℝ) (fn : VelocityFn ℝ) {seed : NDArray ℝ} {N : ℕ}
    (hs : seed.shape = [4 * N, 2]) (hp : mkParticles seed = .ok s.particles)
    (hal : ∀ i < N, AxisAligned2 seed N i) (ω : ℝ)
    (hv : Pointwise (4 * N) 2 (fn 0) (fun x => !![0, -ω; ω, 0] *ᵥ x))
    (hlen : 2 ≤ s.times.length) (hh : s.timestep ≠ 0) :
    ((⟨.analytical s, .analytical (.fresh (some fn)), .fresh .euler⟩ :
        Solver ℝ).run env queue none).result =
      .ok (some (List.replicate N (.fin (s.times.length /
        (2 * ((s.times.length - 1) * |s.timestep|)) * Real.log (1 + (s.timestep * ω) ^ 2))))) := by
  have h := C41_euler_2d he queue s fn hs hp hal _ hv hlen hh
  rw [euler_rotation] at h
  have hq : (0 : ℝ) < 1 ^ 2 + (s.timestep * ω) ^ 2 := by positivity
  rw [ftle_of_stretch h (maxStretch_turnScale _ _ _) (Real.sqrt_pos.2 (pow_pos hq _)),
    log_sqrt_pow hq, one_pow]

/-- What RK4 makes of a distance in a rotation by `x` radians per step, squared. -/
theorem rk4_factor (x : ℝ) : (1 - x ^ 2 / 2 + x ^ 4 / 24) ^ 2 + (x - x ^ 3 / 6) ^ 2 =
    1 - x ^ 6 / 72 + x ^ 8 / 576 := by ring

theorem rk4_factor_pos (x : ℝ) : 0 < 1 - x ^ 6 / 72 + x ^ 8 / 576 := by
  rcases le_or_gt (8 : ℝ) (x ^ 2) with h | h
  · have : 0 ≤ x ^ 6 * (x ^ 2 - 8) := mul_nonneg (by positivity) (by linarith)
    nlinarith
  · nlinarith [sq_nonneg (x ^ 2 - 6), sq_nonneg (x ^ 4 - 6 * x ^ 2), sq_nonneg x,
      sq_nonneg (x ^ 2 * (x ^ 2 - 6)), mul_nonneg (sq_nonneg x) (sq_nonneg (x ^ 2 - 6))]

/-- **C122 (rotating body, RK4).** -/
theorem C122_rk4_rotation {env : Env ℝ FVal} (he : RealEnv env) (queue : Bool)
    (s : AnalyticalSource ℝ) (fn : VelocityFn ℝ) {seed : NDArray ℝ} {N : ℕ}
    (hs : seed.shape = [4 * N, 2]) (hp : mkParticles seed = .ok s.particles)
    (hal : ∀ i < N, AxisAligned2 seed N i) (ω : ℝ)
    (hv : Pointwise (4 * N) 2 (fn 0) (fun x => !![0, -ω; ω, 0] *ᵥ x))
    (hlen : 2 ≤ s.times.length) (hh : s.timestep ≠ 0) :
    ((⟨.analytical s, .analytical (.fresh (some fn)), .fresh .rk4⟩ :
        Solver ℝ).run env queue none).result =
      .ok (some (List.replicate N (.fin (s.times.length /
        (2 * ((s.times.length - 1) * |s.timestep|)) *
          Real.log (1 - (s.timestep * ω) ^ 6 / 72 + (s.timestep * ω) ^ 8 / 576))))) := by
  have h := C41_rk4_2d he queue s fn hs hp hal _ hv hlen hh
  rw [rk4_rotation] at h
  have hq := rk4_factor_pos (s.timestep * ω)
  rw [← rk4_factor] at hq
  rw [ftle_of_stretch h (maxStretch_turnScale _ _ _) (Real.sqrt_pos.2 (pow_pos hq _)),
    log_sqrt_pow hq, rk4_factor]

theorem period_factor_pos {p : ℕ} {h : ℝ} (hp : 2 ≤ p) (hh : h ≠ 0) :
    0 < (p : ℝ) / (2 * ((p - 1) * |h|)) := by
  have := period_pos hp hh
  have : (0 : ℝ) < p := by exact_mod_cast (by omega : 0 < p)
  positivity

/-- **C122 is false of the code (Euler).**  A rotating body is reported as stretching, at every
point, for every time step other than zero. -/
theorem C122_euler_rotation_fails {env : Env ℝ FVal} (he : RealEnv env) (queue : Bool)
    (s : AnalyticalSource ℝ) (fn : VelocityFn ℝ) {seed : NDArray ℝ} {N : ℕ}
    (hs : seed.shape = [4 * N, 2]) (hp : mkParticles seed = .ok s.particles)
    (hal : ∀ i < N, AxisAligned2 seed N i) (ω : ℝ) (hω : ω ≠ 0)
    (hv : Pointwise (4 * N) 2 (fn 0) (fun x => !![0, -ω; ω, 0] *ᵥ x))
    (hlen : 2 ≤ s.times.length) (hh : s.timestep ≠ 0) :
    ∃ y > 0, ((⟨.analytical s, .analytical (.fresh (some fn)), .fresh .euler⟩ :
        Solver ℝ).run env queue none).result = .ok (some (List.replicate N (.fin y))) := by
  refine ⟨_, ?_, C122_euler_rotation he queue s fn hs hp hal ω hv hlen hh⟩
  have hz : 0 < (s.timestep * ω) ^ 2 := by have := mul_ne_zero hh hω; positivity
  exact mul_pos (period_factor_pos hlen hh) (Real.log_pos (by linarith))

/-- **C122 is false of the code (RK4).**  A rotating body is reported as contracting in every
direction, at every point, unless the step turns it by `2√2` radians or more. -/
theorem C122_rk4_rotation_fails {env : Env ℝ FVal} (he : RealEnv env) (queue : Bool)
    (s : AnalyticalSource ℝ) (fn : VelocityFn ℝ) {seed : NDArray ℝ} {N : ℕ}
    (hs : seed.shape = [4 * N, 2]) (hp : mkParticles seed = .ok s.particles)
    (hal : ∀ i < N, AxisAligned2 seed N i) (ω : ℝ) (hω : ω ≠ 0)
    (hv : Pointwise (4 * N) 2 (fn 0) (fun x => !![0, -ω; ω, 0] *ᵥ x))
    (hlen : 2 ≤ s.times.length) (hh : s.timestep ≠ 0) (hz : (s.timestep * ω) ^ 2 < 8) :
    ∃ y < 0, ((⟨.analytical s, .analytical (.fresh (some fn)), .fresh .rk4⟩ :
        Solver ℝ).run env queue none).result = .ok (some (List.replicate N (.fin y))) := by
  refine ⟨_, ?_, C122_rk4_rotation he queue s fn hs hp hal ω hv hlen hh⟩
  have h0 := mul_ne_zero hh hω
  have h6 : 0 < (s.timestep * ω) ^ 6 * (8 - (s.timestep * ω) ^ 2) :=
    mul_pos (by positivity) (by linarith)
  refine mul_neg_of_pos_of_neg (period_factor_pos hlen hh)
    (Real.log_neg (rk4_factor_pos _) ?_)
  nlinarith

/-! ### Refining the time step -/

theorem tendsto_mul_log {a : ℕ → ℝ} (h0 : Filter.Tendsto a Filter.atTop (nhds 0))
    (h1 : Filter.Tendsto (fun p : ℕ => (p : ℝ) * a p) Filter.atTop (nhds 0))
    (hpos : ∀ p, 0 < 1 + a p) :
    Filter.Tendsto (fun p : ℕ => (p : ℝ) * Real.log (1 + a p)) Filter.atTop (nhds 0) := by
  have hlow : Filter.Tendsto (fun p : ℕ => (p : ℝ) * a p * (1 + a p)⁻¹) Filter.atTop (nhds 0) := by
    have h2 : Filter.Tendsto (fun p => (1 + a p)⁻¹) Filter.atTop (nhds (1 + 0)⁻¹) :=
      (h0.const_add 1).inv₀ (by norm_num)
    simpa using h1.mul h2
  refine tendsto_of_tendsto_of_tendsto_of_le_of_le hlow h1 (fun p => ?_) (fun p => ?_)
  · have := Real.one_sub_inv_le_log_of_pos (hpos p)
    have e : (p : ℝ) * a p * (1 + a p)⁻¹ = p * (1 - (1 + a p)⁻¹) := by
      have := (hpos p).ne'
      field_simp
      ring
    show (p : ℝ) * a p * (1 + a p)⁻¹ ≤ p * Real.log (1 + a p)
    rw [e]
    exact mul_le_mul_of_nonneg_left this (Nat.cast_nonneg p)
  · have := Real.log_le_sub_one_of_pos (hpos p)
    exact mul_le_mul_of_nonneg_left (by linarith) (Nat.cast_nonneg p)

theorem tendsto_step (c : ℝ) :
    Filter.Tendsto (fun p : ℕ => c / ((p : ℝ) - 1)) Filter.atTop (nhds 0) :=
  Filter.Tendsto.const_div_atTop
    (Filter.tendsto_atTop_add_const_right _ (-1) tendsto_natCast_atTop_atTop) c

theorem tendsto_step_sq (c : ℝ) :
    Filter.Tendsto (fun p : ℕ => (p : ℝ) * (c / ((p : ℝ) - 1)) ^ 2) Filter.atTop (nhds 0) := by
  have h1 := (tendsto_step c).mul ((tendsto_step c).const_add c)
  rw [zero_mul] at h1
  refine h1.congr' ?_
  filter_upwards [Filter.eventually_ge_atTop 2] with p hp
  have : (2 : ℝ) ≤ p := by exact_mod_cast hp
  have : (p : ℝ) - 1 ≠ 0 := by linarith
  field_simp
  ring

/-- **C122 (rotating body, refinement).**  Over a fixed period `T` with more and more snapshots
the value reported for a rotating body approaches zero, with Euler and with RK4. -/
theorem C122_rotation_refinement {env : Env ℝ FVal} (he : RealEnv env) (queue : Bool) (k : Kind)
    (hk : k = .euler ∨ k = .rk4) (ω T : ℝ) (hT : T ≠ 0) (fn : VelocityFn ℝ) {seed : NDArray ℝ}
    {N : ℕ} (hs : seed.shape = [4 * N, 2]) {P : Particles ℝ} (hp : mkParticles seed = .ok P)
    (hal : ∀ i < N, AxisAligned2 seed N i)
    (hv : Pointwise (4 * N) 2 (fn 0) (fun x => !![0, -ω; ω, 0] *ᵥ x)) :
    ∃ L : ℕ → ℝ,
      (∀ p, 2 ≤ p → ∀ times : List ℝ, times.length = p →
        ((⟨.analytical ⟨P, T / (p - 1), times⟩, .analytical (.fresh (some fn)), .fresh k⟩ :
          Solver ℝ).run env queue none).result = .ok (some (List.replicate N (.fin (L p))))) ∧
      Filter.Tendsto L Filter.atTop (nhds 0) := by
  have hx : ∀ p : ℕ, T / ((p : ℝ) - 1) * ω = T * ω / (p - 1) := fun p => by ring
  have t1 := tendsto_step (T * ω)
  have t2 := tendsto_step_sq (T * ω)
  rcases hk with rfl | rfl
  · refine ⟨fun p => 1 / (2 * |T|) * (p * Real.log (1 + (T * ω / (p - 1)) ^ 2)),
      fun p hp2 times hl => ?_, ?_⟩
    · obtain ⟨g1, g2⟩ := fixed_period hT hp2
      have := C122_euler_rotation he queue ⟨P, T / (p - 1), times⟩ fn hs hp hal ω hv
        (by simp [hl, hp2]) g1
      simp only [hl, g2, hx] at this
      rw [this]
      exact congrArg (fun y => Except.ok (some (List.replicate N (FVal.fin y)))) (by ring)
    · have := tendsto_mul_log (a := fun p : ℕ => (T * ω / ((p : ℝ) - 1)) ^ 2)
        (by simpa using t1.pow 2) t2 (fun p => by positivity)
      simpa using this.const_mul (1 / (2 * |T|))
  · refine ⟨fun p => 1 / (2 * |T|) * (p * Real.log (1 + (-(T * ω / (p - 1)) ^ 6 / 72 +
      (T * ω / (p - 1)) ^ 8 / 576))), fun p hp2 times hl => ?_, ?_⟩
    · obtain ⟨g1, g2⟩ := fixed_period hT hp2
      have := C122_rk4_rotation he queue ⟨P, T / (p - 1), times⟩ fn hs hp hal ω hv
        (by simp [hl, hp2]) g1
      simp only [hl, g2, hx] at this
      have e : ∀ x : ℝ, 1 - x ^ 6 / 72 + x ^ 8 / 576 = 1 + (-x ^ 6 / 72 + x ^ 8 / 576) :=
        fun x => by ring
      rw [e] at this
      rw [this]
      exact congrArg (fun y => Except.ok (some (List.replicate N (FVal.fin y)))) (by ring)
    · have t3 := (((t1.pow 4).neg.div_const 72).add ((t1.pow 6).div_const 576))
      have := tendsto_mul_log (a := fun p : ℕ => -(T * ω / ((p : ℝ) - 1)) ^ 6 / 72 +
          (T * ω / ((p : ℝ) - 1)) ^ 8 / 576)
        (by simpa using ((t1.pow 6).neg.div_const 72).add ((t1.pow 8).div_const 576))
        ?_ (fun p => by have := rk4_factor_pos (T * ω / ((p : ℝ) - 1)); linarith)
      · simpa using this.const_mul (1 / (2 * |T|))
      · have t4 := t2.mul t3
        simp only [zero_mul] at t4
        refine t4.congr fun p => ?_
        ring

/-! ### The claims are not empty -/

/-- The seeds and flows of the examples: a shear, a rotation, a saddle of space. -/
example (A : Matrix (Fin 2) (Fin 2) ℝ) : ∃ s : AnalyticalSource ℝ,
    mkParticles crossSeed = .ok s.particles ∧ crossSeed.shape = [4 * 1, 2] ∧
    (∀ i < 1, AxisAligned2 crossSeed 1 i) ∧
    Pointwise (4 * 1) 2 ((fun _ => sourceOf 2 fun x => A *ᵥ x : VelocityFn ℝ) 0)
      (fun x => A *ᵥ x) ∧ 2 ≤ s.times.length ∧ s.timestep ≠ 0 ∧ (s.timestep * 1) ^ 2 < 8 := by
  obtain ⟨p, h1, -⟩ := mkParticles_2d (show crossSeed.shape = [4 * 1, 2] from rfl)
  exact ⟨⟨p, 1, [0, 1]⟩, h1, rfl, crossSeed_aligned, sourceOf_pointwise _ _ _, le_refl 2, by simp,
    by norm_num⟩

/-- Rotations and shears have no trace; the shear has the determinant of the RK4 theorem. -/
example : (!![0, -1; 1, 0] : Matrix (Fin 2) (Fin 2) ℝ).trace = 0 ∧
    (!![0, 1; 0, 0] : Matrix (Fin 2) (Fin 2) ℝ).trace = 0 ∧
    (!![0, 1; 0, 0] : Matrix (Fin 2) (Fin 2) ℝ).det ≤ 0 := by
  simp [Matrix.trace_fin_two, Matrix.det_fin_two]

/-- A saddle of space: stretching along one axis, contracting along two. -/
example : (!![2, 0, 0; 0, -1, 0; 0, 0, -1] : Matrix (Fin 3) (Fin 3) ℝ).trace = 0 ∧
    (!![2, 0, 0; 0, -1, 0; 0, 0, -1] : Matrix (Fin 3) (Fin 3) ℝ)ᵀ =
      !![2, 0, 0; 0, -1, 0; 0, 0, -1] := by
  constructor
  · simp [Matrix.trace_fin_three]; norm_num
  · ext i j; fin_cases i <;> fin_cases j <;> rfl

/-- The rotation has the eigenvalue `i`. -/
example : HasMode !![0, -1; 1, 0] Complex.I := by
  refine ⟨![1, -Complex.I], fun h => one_ne_zero (congrFun h 0), ?_⟩
  ext i
  fin_cases i <;> simp [Matrix.mulVec, dotProduct, Fin.sum_univ_two]

end Verif
