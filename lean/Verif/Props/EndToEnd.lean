import Verif.Lemmas.EndToEnd
import Verif.Props.IntegrateRel

/-!
# Complete runs: C23 (FTLE), C37 (values), C41, C42
-/

set_option linter.unusedSectionVars false

namespace Verif

open Matrix

/-! ## C41: linear flows -/

/-- The statement of C41 for one result: with `M` the matrix of the whole run and `T` the
normalisation, every one of the `N` groups carries `(1/T) ln ‖M‖`, `‖M‖` being the maximal
stretching factor; `-∞` when `M` annihilates everything. -/
def ReportsNorm {d : ℕ} (result : Py (Option (List FVal))) (N : ℕ)
    (M : Matrix (Fin d) (Fin d) ℝ) (T : ℝ) : Prop :=
  ∃ σ, IsMaxStretch M σ ∧
    (M ≠ 0 → 0 < σ ∧ result = .ok (some (List.replicate N (.fin (1 / T * Real.log σ))))) ∧
    (M = 0 → result = .ok (some (List.replicate N .negInf)))

theorem reportsNorm_of {d : ℕ} {result : Py (Option (List FVal))} {N : ℕ}
    {M : Matrix (Fin d) (Fin d) ℝ} {T : ℝ} (hT : 0 < T)
    (h : ∃ σ, IsMaxStretch M σ ∧ result = .ok (some (List.replicate N (ftleVal σ T)))) :
    ReportsNorm result N M T := by
  obtain ⟨σ, h1, h2⟩ := h
  refine ⟨σ, h1, fun hM => ?_, fun hM => ?_⟩
  · have h0 : 0 < σ := lt_of_le_of_ne (maxStretch_nonneg h1)
      (fun h => hM ((maxStretch_eq_zero_iff h1).1 h.symm))
    exact ⟨h0, by rw [h2, ftleVal_pos h0]⟩
  · rw [h2, (maxStretch_eq_zero_iff h1).2 hM, ftleVal_zero_pos hT]

theorem period_pos {p : ℕ} {h : ℝ} (hp : 2 ≤ p) (hh : h ≠ 0) : 0 < ((p : ℝ) - 1) * |h| := by
  have : (2 : ℝ) ≤ p := by exact_mod_cast hp
  exact mul_pos (by linarith) (abs_pos.2 hh)

/-- **C41 (Euler, 2-D).** -/
theorem C41_euler_2d {env : Env ℝ FVal} (he : RealEnv env) (queue : Bool)
    (s : AnalyticalSource ℝ) (fn : VelocityFn ℝ) {seed : NDArray ℝ} {N : ℕ}
    (hs : seed.shape = [4 * N, 2]) (hp : mkParticles seed = .ok s.particles)
    (hal : ∀ i < N, AxisAligned2 seed N i) (A : Matrix (Fin 2) (Fin 2) ℝ)
    (hv : Pointwise (4 * N) 2 (fn 0) (fun x => A *ᵥ x)) (hlen : 2 ≤ s.times.length)
    (hh : s.timestep ≠ 0) :
    ReportsNorm ((⟨.analytical s, .analytical (.fresh (some fn)), .fresh .euler⟩ :
        Solver ℝ).run env queue none).result N
      ((1 + s.timestep • A) ^ s.times.length) ((s.times.length - 1) * |s.timestep|) := by
  obtain ⟨pos, h1, h2, h3⟩ := C19_euler_linear env.junk A hv s.timestep s.times.length hs
  exact reportsNorm_of (period_pos hlen hh)
    (linear_run_2d he queue .euler s fn hs hp hal hlen hh _ h1 h2 h3)

/-- **C41 (RK4, 2-D).** -/
theorem C41_rk4_2d {env : Env ℝ FVal} (he : RealEnv env) (queue : Bool)
    (s : AnalyticalSource ℝ) (fn : VelocityFn ℝ) {seed : NDArray ℝ} {N : ℕ}
    (hs : seed.shape = [4 * N, 2]) (hp : mkParticles seed = .ok s.particles)
    (hal : ∀ i < N, AxisAligned2 seed N i) (A : Matrix (Fin 2) (Fin 2) ℝ)
    (hv : Pointwise (4 * N) 2 (fn 0) (fun x => A *ᵥ x)) (hlen : 2 ≤ s.times.length)
    (hh : s.timestep ≠ 0) :
    ReportsNorm ((⟨.analytical s, .analytical (.fresh (some fn)), .fresh .rk4⟩ :
        Solver ℝ).run env queue none).result N
      (taylor4 (s.timestep • A) ^ s.times.length) ((s.times.length - 1) * |s.timestep|) := by
  obtain ⟨pos, h1, h2, h3⟩ := C19_rk4_linear env.junk A hv s.timestep s.times.length hs
  exact reportsNorm_of (period_pos hlen hh)
    (linear_run_2d he queue .rk4 s fn hs hp hal hlen hh _ h1 h2 h3)

/-- **C41 (Euler, 3-D).** -/
theorem C41_euler_3d {env : Env ℝ FVal} (he : RealEnv env) (queue : Bool)
    (s : AnalyticalSource ℝ) (fn : VelocityFn ℝ) {seed : NDArray ℝ} {N : ℕ}
    (hs : seed.shape = [6 * N, 3]) (hp : mkParticles seed = .ok s.particles)
    (hal : ∀ i < N, AxisAligned3 seed N i) (A : Matrix (Fin 3) (Fin 3) ℝ)
    (hv : Pointwise (6 * N) 3 (fn 0) (fun x => A *ᵥ x)) (hlen : 2 ≤ s.times.length)
    (hh : s.timestep ≠ 0) :
    ReportsNorm ((⟨.analytical s, .analytical (.fresh (some fn)), .fresh .euler⟩ :
        Solver ℝ).run env queue none).result N
      ((1 + s.timestep • A) ^ s.times.length) ((s.times.length - 1) * |s.timestep|) := by
  obtain ⟨pos, h1, h2, h3⟩ := C19_euler_linear env.junk A hv s.timestep s.times.length hs
  exact reportsNorm_of (period_pos hlen hh)
    (linear_run_3d he queue .euler s fn hs hp hal hlen hh _ h1 h2 h3)

/-- **C41 (RK4, 3-D).** -/
theorem C41_rk4_3d {env : Env ℝ FVal} (he : RealEnv env) (queue : Bool)
    (s : AnalyticalSource ℝ) (fn : VelocityFn ℝ) {seed : NDArray ℝ} {N : ℕ}
    (hs : seed.shape = [6 * N, 3]) (hp : mkParticles seed = .ok s.particles)
    (hal : ∀ i < N, AxisAligned3 seed N i) (A : Matrix (Fin 3) (Fin 3) ℝ)
    (hv : Pointwise (6 * N) 3 (fn 0) (fun x => A *ᵥ x)) (hlen : 2 ≤ s.times.length)
    (hh : s.timestep ≠ 0) :
    ReportsNorm ((⟨.analytical s, .analytical (.fresh (some fn)), .fresh .rk4⟩ :
        Solver ℝ).run env queue none).result N
      (taylor4 (s.timestep • A) ^ s.times.length) ((s.times.length - 1) * |s.timestep|) := by
  obtain ⟨pos, h1, h2, h3⟩ := C19_rk4_linear env.junk A hv s.timestep s.times.length hs
  exact reportsNorm_of (period_pos hlen hh)
    (linear_run_3d he queue .rk4 s fn hs hp hal hlen hh _ h1 h2 h3)

/-! ### A concrete case: one group of four particles -/

/-- Seeds `(-1,0), (1,0), (0,1), (0,-1)`. -/
noncomputable def crossSeed : NDArray ℝ :=
  ⟨[4, 2], fun i => (([-1, 0, 1, 0, 0, 1, 0, -1] : List ℝ)[i.getD 0 0 * 2 + i.getD 1 0]?).getD 0⟩

theorem crossSeed_aligned : ∀ i < 1, AxisAligned2 crossSeed 1 i := by
  intro i hi
  obtain rfl : i = 0 := by omega
  simp [AxisAligned2, pt, crossSeed]
  norm_num

/-- The stretching flow `(a x, -a y)`. -/
noncomputable def saddle (a : ℝ) : Matrix (Fin 2) (Fin 2) ℝ := !![a, 0; 0, -a]

noncomputable def saddleFn (a : ℝ) : VelocityFn ℝ := fun _ => sourceOf 2 fun x => saddle a *ᵥ x

/-- The environment of the exact model. -/
noncomputable def realEnv : Env ℝ FVal :=
  { fs := fun _ => none
    sp := ⟨fun _ _ _ => none, fun _ _ _ _ => .error .valueError, fun _ _ _ => none,
      fun _ _ _ _ => .error .valueError⟩
    m := isoCpp Int.floor Int.cast
    stem := id
    timeName := fun _ => ""
    junk := fun _ => 0
    abs := fun x => |x|
    ftle2 := ftle2
    ftle3 := ftle3 }

theorem realEnv_ok : RealEnv realEnv := ⟨rfl, rfl, rfl⟩

example (a : ℝ) : ∃ s : AnalyticalSource ℝ, mkParticles crossSeed = .ok s.particles ∧
    crossSeed.shape = [4 * 1, 2] ∧ (∀ i < 1, AxisAligned2 crossSeed 1 i) ∧
    Pointwise (4 * 1) 2 (saddleFn a 0) (fun x => saddle a *ᵥ x) ∧ 2 ≤ s.times.length ∧
    s.timestep ≠ 0 := by
  obtain ⟨p, h1, -⟩ := mkParticles_2d (show crossSeed.shape = [4 * 1, 2] from rfl)
  exact ⟨⟨p, 1, [0, 1]⟩, h1, rfl, crossSeed_aligned, sourceOf_pointwise _ _ _, le_refl 2, by simp⟩

/-! ## C42: refinement of the time step -/

theorem ftle_of_stretch {env : Env ℝ FVal} {queue : Bool} {S : Solver ℝ} {N : ℕ}
    {M : Matrix (Fin 2) (Fin 2) ℝ} {T σ : ℝ}
    (h : ReportsNorm (S.run env queue none).result N M T) (hσ : IsMaxStretch M σ) (h0 : 0 < σ) :
    (S.run env queue none).result = .ok (some (List.replicate N (.fin (1 / T * Real.log σ)))) := by
  obtain ⟨τ, h1, h2, -⟩ := h
  rw [maxStretch_unique h1 hσ] at h2
  refine (h2 fun hM => ?_).2
  have := (maxStretch_eq_zero_iff hσ).2 hM
  linarith

theorem saddle_euler (a h : ℝ) : (1 + h • saddle a) =
    !![(fun z => 1 + z) (h * a), 0; 0, (fun z => 1 + z) (-(h * a))] := by
  ext i j
  fin_cases i <;> fin_cases j <;> simp [saddle]

theorem saddle_rk4 (a h : ℝ) :
    taylor4 (h • saddle a) = !![poly4 (h * a), 0; 0, poly4 (-(h * a))] := by
  have e : h • saddle a = !![h * a, 0; 0, -(h * a)] := by
    ext i j; fin_cases i <;> fin_cases j <;> simp [saddle]
  rw [e, taylor4, diag_pow, diag_pow, diag_pow]
  ext i j
  fin_cases i <;> fin_cases j <;> simp [poly4] <;> ring

theorem fixed_period {T : ℝ} (hT : T ≠ 0) {p : ℕ} (hp : 2 ≤ p) :
    T / ((p : ℝ) - 1) ≠ 0 ∧ ((p : ℝ) - 1) * |T / (p - 1)| = |T| := by
  have h1 : (2 : ℝ) ≤ p := by exact_mod_cast hp
  have h2 : (0 : ℝ) < (p : ℝ) - 1 := by linarith
  refine ⟨div_ne_zero hT h2.ne', ?_⟩
  rw [abs_div, abs_of_pos h2]
  field_simp

/-- **C42.**  Advect the seeds in the flow `(a x, -a y)` over the fixed (signed) period `T`,
taking `p` snapshots, i.e. time step `T / (p - 1)` as the front ends do, with the Euler or the
RK4 integrator.  Every run with `p ≥ 2` succeeds, reports one and the same finite value
`L p` at every point, and `L p → |a|`. -/
theorem C42_refinement {env : Env ℝ FVal} (he : RealEnv env) (queue : Bool) (k : Kind)
    (hk : k = .euler ∨ k = .rk4) (a T : ℝ) (hT : T ≠ 0) (fn : VelocityFn ℝ) {seed : NDArray ℝ}
    {N : ℕ} (hs : seed.shape = [4 * N, 2]) {P : Particles ℝ} (hp : mkParticles seed = .ok P)
    (hal : ∀ i < N, AxisAligned2 seed N i)
    (hv : Pointwise (4 * N) 2 (fn 0) (fun x => !![a, 0; 0, -a] *ᵥ x)) :
    ∃ L : ℕ → ℝ,
      (∀ p, 2 ≤ p → ∀ times : List ℝ, times.length = p →
        ((⟨.analytical ⟨P, T / (p - 1), times⟩, .analytical (.fresh (some fn)), .fresh k⟩ :
          Solver ℝ).run env queue none).result = .ok (some (List.replicate N (.fin (L p))))) ∧
      Filter.Tendsto L Filter.atTop (nhds |a|) := by
  rcases hk with rfl | rfl
  · refine ⟨_, ?_, growth_limit (φ := fun z => 1 + z) (fun z _ => le_rfl)
      (fun z _ => by linarith [Real.add_one_le_exp z]) a T hT⟩
    intro p hp2 times hl
    obtain ⟨g1, g2⟩ := fixed_period hT hp2
    have := C41_euler_2d he queue ⟨P, T / (p - 1), times⟩ fn hs hp hal _ hv (by simp [hl, hp2]) g1
    simp only [hl, g2] at this
    refine ftle_of_stretch this ?_ (by positivity)
    have e := maxStretch_hyperbolic (φ := fun z => 1 + z) (fun z => by
      rw [abs_le]; constructor <;> linarith [neg_abs_le z, le_abs_self z]) (T / (p - 1) * a) p
    rw [← saddle_euler] at e
    exact e
  · refine ⟨_, ?_, growth_limit (φ := poly4) (fun z hz => ?_) (fun z hz => poly4_le_exp hz) a T hT⟩
    · intro p hp2 times hl
      obtain ⟨g1, g2⟩ := fixed_period hT hp2
      have := C41_rk4_2d he queue ⟨P, T / (p - 1), times⟩ fn hs hp hal _ hv (by simp [hl, hp2]) g1
      simp only [hl, g2] at this
      refine ftle_of_stretch this ?_ (by unfold poly4; positivity)
      have e := maxStretch_hyperbolic poly4_dominated (T / (p - 1) * a) p
      rw [← saddle_rk4] at e
      exact e
    · unfold poly4
      have : 0 ≤ z ^ 2 / 2 + z ^ 3 / 6 + z ^ 4 / 24 := by positivity
      linarith

/-- The hypotheses of C42 are satisfiable. -/
example : ∃ P, mkParticles crossSeed = .ok P ∧ crossSeed.shape = [4 * 1, 2] ∧
    (∀ i < 1, AxisAligned2 crossSeed 1 i) ∧
    Pointwise (4 * 1) 2 (saddleFn 1 0) (fun x => !![(1 : ℝ), 0; 0, -1] *ᵥ x) := by
  obtain ⟨p, h1, -⟩ := mkParticles_2d (show crossSeed.shape = [4 * 1, 2] from rfl)
  exact ⟨p, h1, rfl, crossSeed_aligned, sourceOf_pointwise _ _ _⟩

/-! ## C37: the reported values -/

/-- **C37 is false of the code (values).**  In every run of a stretching flow `a ≠ 0` the value
reported at every point differs from the exponent normalised by the integrated time `p |h|`:
the particles undergo `p` steps of `1 + h A`, `σ` is the stretching they suffer. -/
theorem C37_value_fails {env : Env ℝ FVal} (he : RealEnv env) (queue : Bool)
    (s : AnalyticalSource ℝ) (fn : VelocityFn ℝ) {seed : NDArray ℝ} {N : ℕ}
    (hs : seed.shape = [4 * N, 2]) (hp : mkParticles seed = .ok s.particles)
    (hal : ∀ i < N, AxisAligned2 seed N i) (a : ℝ) (ha : a ≠ 0)
    (hv : Pointwise (4 * N) 2 (fn 0) (fun x => !![a, 0; 0, -a] *ᵥ x))
    (hlen : 2 ≤ s.times.length) (hh : s.timestep ≠ 0) :
    ∃ pos σ v,
      (Integ.steps env.junk (List.replicate s.times.length (fn 0, s.timestep)) (.fresh .euler)
        seed).2 = .ok pos ∧
      AffineImage ((1 + s.timestep • !![a, 0; 0, -a]) ^ s.times.length) 0 (4 * N) seed pos ∧
      IsMaxStretch ((1 + s.timestep • !![a, 0; 0, -a]) ^ s.times.length) σ ∧
      ((⟨.analytical s, .analytical (.fresh (some fn)), .fresh .euler⟩ : Solver ℝ).run env queue
        none).result = .ok (some (List.replicate N (.fin v))) ∧
      v ≠ 1 / (s.times.length * |s.timestep|) * Real.log σ := by
  obtain ⟨pos, h1, h2, h3⟩ := C19_euler_linear env.junk _ hv s.timestep s.times.length hs
  have h := C41_euler_2d he queue s fn hs hp hal _ hv hlen hh
  have e := maxStretch_hyperbolic (φ := fun z => 1 + z) (fun z => by
      rw [abs_le]; constructor <;> linarith [neg_abs_le z, le_abs_self z])
      (s.timestep * a) s.times.length
  rw [← saddle_euler] at e
  have hz : 0 < |s.timestep * a| := abs_pos.2 (mul_ne_zero hh ha)
  refine ⟨pos, _, _, h1, ⟨h2.trans hs.symm, fun r hr c => ?_⟩, e,
    ftle_of_stretch h e (by positivity), ?_⟩
  · rw [Pi.zero_apply, add_zero]; exact congrFun (h3 r hr) c
  · have hl : 0 < Real.log ((1 + |s.timestep * a|) ^ s.times.length) :=
      Real.log_pos (one_lt_pow₀ (by linarith) (by omega))
    intro hc
    have hc := mul_right_cancel₀ hl.ne' hc
    have h0 := abs_pos.2 hh
    have hp2 : (2 : ℝ) ≤ s.times.length := by exact_mod_cast hlen
    rw [div_eq_div_iff (by nlinarith) (by nlinarith)] at hc
    linarith

/-! ## C23: backward runs -/

section
variable {K F : Type} [Zero K] [One K] [Add K] [Sub K] [Mul K] [Div K] [NatCast K] [IntCast K]
  [Min K] [Max K] [NumLits K] [DecidableEq K] [Neg K] [SignSymmetric K]

theorem computeFtle_neg {env : Env K F} (ha : ∀ x, env.abs (-x) = env.abs x) (p : Particles K)
    (n : ℕ) (h : K) : computeFtle env p n (-h) = computeFtle env p n h := by
  unfold computeFtle
  simp only [ha]

/-- **C23 (complete runs).**  A run with time step `-h` in the flow `V` and a run with time
step `h` in the flow `-V` end alike: same field or same exception, for every integrator,
velocity function, seed set and number of snapshots, provided `|−x| = |x|`. -/
theorem C23_backward_run (env : Env K F) (ha : ∀ x, env.abs (-x) = env.abs x) (queue : Bool)
    (k : Kind) (P : Particles K) (h : K) (times : List K) (hne : times ≠ [])
    (fn : VelocityFn K) :
    ((⟨.analytical ⟨P, -h, times⟩, .analytical (.fresh (some fn)), .fresh k⟩ : Solver K).run env
        queue none).result =
      ((⟨.analytical ⟨P, h, times⟩, .analytical (.fresh (some fun t => reversed (fn t))),
        .fresh k⟩ : Solver K).run env queue none).result := by
  rw [analytical_run env queue _ _ _ hne, analytical_run env queue _ _ _ hne]
  have := C23_backward_is_reversed env.junk k (List.replicate times.length (fn 0, h)) P.positions
  simp only [List.map_replicate] at this
  have e : (Integ.steps env.junk (List.replicate times.length
      ((AnalyticalState.fresh (some fn)).interpolate, -h)) (.fresh k) P.positions).2 =
    (Integ.steps env.junk (List.replicate times.length
      ((AnalyticalState.fresh (some fun t => reversed (fn t))).interpolate, h)) (.fresh k)
      P.positions).2 := this
  simp only [e, computeFtle_neg ha]

end

example : ∀ x, realEnv.abs (-x) = realEnv.abs x := fun x => abs_neg x

end Verif
