import Verif.Props.Spacing
import Verif.Props.Pieces
import Verif.Props.Variation
import Verif.Props.Affine
import Mathlib.Analysis.SpecialFunctions.Arsinh

/-!
# C130: the bound cannot be improved, and needs groups that are alike on both sides

In parallel flows, whose velocity is `(0, f x)`, the value of a group can be written down for all
integrators, time steps and distances.
-/

namespace Verif

open Matrix Set Filter Topology

/-- The parallel flow with profile `f`. -/
def parallel (f : ℝ → ℝ) (x : Fin 2 → ℝ) : Fin 2 → ℝ := ![0, f (x 0)]

/-- Maximal stretching of a simple shear. -/
theorem maxStretch_shear (q : ℝ) :
    IsMaxStretch !![1, 0; q, 1] (Real.exp (Real.arsinh (|q| / 2))) := by
  set s := Real.exp (Real.arsinh (|q| / 2)) with hs
  have s0 : 0 < s := Real.exp_pos _
  have s1 : 1 ≤ s := by
    rw [hs, Real.one_le_exp_iff, Real.arsinh_nonneg_iff]
    positivity
  have hq : s ^ 2 - |q| * s - 1 = 0 := by
    have h1 : s = |q| / 2 + √(1 + (|q| / 2) ^ 2) := Real.exp_arsinh _
    have h2 : √(1 + (|q| / 2) ^ 2) ^ 2 = 1 + (|q| / 2) ^ 2 := Real.sq_sqrt (by positivity)
    have h3 : √(1 + (|q| / 2) ^ 2) = s - |q| / 2 := by linarith
    rw [h3] at h2
    nlinarith
  have hl : (s ^ 2) ^ 2 - (2 + q ^ 2) * s ^ 2 + 1 = 0 := by
    have : s ^ 2 - 1 = |q| * s := by linarith
    have h2 : (s ^ 2 - 1) ^ 2 = q ^ 2 * s ^ 2 := by rw [this, mul_pow, sq_abs]
    linarith
  have entry : ∀ v : Fin 2 → ℝ, (!![1, 0; q, 1]ᵀ * !![1, 0; q, 1]) *ᵥ v =
      ![(1 + q ^ 2) * v 0 + q * v 1, q * v 0 + v 1] := by
    intro v
    funext i
    fin_cases i <;> simp [Matrix.mulVec, dotProduct, Fin.sum_univ_two, Matrix.mul_apply]
    left
    ring
  have key : IsGreatest {μ | IsEigenvalue (!![1, 0; q, 1]ᵀ * !![1, 0; q, 1]) μ} (s ^ 2) := by
    constructor
    · by_cases h0 : q = 0
      · have : s = 1 := by rw [hs, h0]; simp
        refine ⟨![1, 0], fun h => by simpa using congrFun h 0, ?_⟩
        rw [entry, this, h0]
        funext i
        fin_cases i <;> simp
      · refine ⟨![q, s ^ 2 - 1 - q ^ 2], fun h => h0 (by simpa using congrFun h 0), ?_⟩
        rw [entry]
        funext i
        fin_cases i
        · simp; ring
        · simp; linarith
    · rintro μ ⟨v, hv, hμ⟩
      rw [entry] at hμ
      have e0 := congrFun hμ 0
      have e1 := congrFun hμ 1
      simp at e0 e1
      have hdet : μ ^ 2 - (2 + q ^ 2) * μ + 1 = 0 := by
        by_contra hne
        refine hv (funext fun i => ?_)
        have d0 : (μ ^ 2 - (2 + q ^ 2) * μ + 1) * v 0 = 0 := by
          linear_combination (1 - μ) * e0 - q * e1
        have d1 : (μ ^ 2 - (2 + q ^ 2) * μ + 1) * v 1 = 0 := by
          linear_combination (1 + q ^ 2 - μ) * e1 - q * e0
        fin_cases i
        · exact (mul_eq_zero.1 d0).resolve_left hne
        · exact (mul_eq_zero.1 d1).resolve_left hne
      by_contra hlt
      push Not at hlt
      have h2 : 1 ≤ s ^ 2 := one_le_pow₀ s1
      have h3 : 0 < μ - s ^ 2 := by linarith
      -- the other root is the inverse
      have h4 : (μ - s ^ 2) * (μ + s ^ 2 - (2 + q ^ 2)) = 0 := by linarith
      have h5 := (mul_eq_zero.1 h4).resolve_left h3.ne'
      have h6 : s ^ 2 * μ = 1 := by
        have : 2 + q ^ 2 = μ + s ^ 2 := by linarith
        rw [this] at hl
        linarith
      nlinarith
  have := (maxStretch_of_greatest key).2
  rwa [Real.sqrt_sq s0.le] at this

/-- In a parallel flow all integrators are exact. -/
theorem flowMap_parallel (k : Kind) (f : ℝ → ℝ) (h : ℝ) (n : ℕ) (x : Fin 2 → ℝ) :
    flowMap k (fun _ => parallel f) h n x = ![x 0, x 1 + n * h * f (x 0)] ∧
    (flowPrev k (fun _ => parallel f) h x n = none ∨
      flowPrev k (fun _ => parallel f) h x n = some ![0, f (x 0)]) := by
  have step : ∀ (prev : Option (Fin 2 → ℝ)) (a b : ℝ), (prev = none ∨ prev = some ![0, f a]) →
      rowStep k (parallel f) h prev ![a, b] = ![a, b + h * f a] ∧
      (nextPrev k (parallel f) ![a, b] = none ∨
        nextPrev k (parallel f) ![a, b] = some ![0, f a]) := by
    intro prev a b hp
    have e1 : (NumLits.six : ℝ) = 6 := rfl
    have e2 : (NumLits.two : ℝ) = 2 := rfl
    have e3 : (NumLits.onePointFive : ℝ) = 3 / 2 := rfl
    have e4 : (NumLits.half : ℝ) = 1 / 2 := rfl
    cases k with
    | euler =>
      refine ⟨?_, .inl rfl⟩
      funext i
      fin_cases i <;> simp [rowStep, parallel]
    | ab2 =>
      refine ⟨?_, .inr (by simp [nextPrev, parallel])⟩
      rcases hp with rfl | rfl
      · funext i
        fin_cases i <;> simp [rowStep, parallel]
      · funext i
        fin_cases i <;> simp [rowStep, parallel, e3, e4]
        left
        ring
    | rk4 =>
      refine ⟨?_, .inl rfl⟩
      funext i
      fin_cases i <;> simp [rowStep, parallel, e1, e2]
      ring
  induction n with
  | zero =>
    refine ⟨?_, .inl rfl⟩
    funext i
    fin_cases i <;> simp [flowMap, rowRun]
  | succ n ih =>
    obtain ⟨s1, s2⟩ := step _ (x 0) (x 1 + n * h * f (x 0)) ih.2
    rw [flowMap_succ, flowPrev, ih.1]
    refine ⟨?_, s2⟩
    rw [s1]
    push_cast
    congr 2
    ring

/-- Where the velocity is evaluated. -/
theorem stages_parallel (k : Kind) (f : ℝ → ℝ) (h : ℝ) {n j : ℕ} (hj : j < n) (x : Fin 2 → ℝ)
    {z : Fin 2 → ℝ}
    (hz : z ∈ stages k (parallel f) h (flowMap k (fun _ => parallel f) h j x)) :
    z 0 = x 0 ∧ |z 1 - x 1| ≤ n * |h| * |f (x 0)| := by
  have key : ∃ θ : ℝ, 0 ≤ θ ∧ θ ≤ 1 ∧ z 0 = x 0 ∧ z 1 = x 1 + (j + θ) * h * f (x 0) := by
    have e4 : (NumLits.half : ℝ) = 1 / 2 := rfl
    rw [(flowMap_parallel k f h j x).1] at hz
    cases k with
    | euler =>
      rw [stages, List.mem_singleton] at hz
      exact ⟨0, le_rfl, one_pos.le, by rw [hz]; rfl, by rw [hz]; simp⟩
    | ab2 =>
      rw [stages, List.mem_singleton] at hz
      exact ⟨0, le_rfl, one_pos.le, by rw [hz]; rfl, by rw [hz]; simp⟩
    | rk4 =>
      simp only [stages, List.mem_cons, List.not_mem_nil, or_false] at hz
      rcases hz with rfl | rfl | rfl | rfl
      · exact ⟨0, le_rfl, one_pos.le, rfl, by simp⟩
      · exact ⟨1 / 2, by norm_num, by norm_num, by simp [parallel], by simp [parallel, e4]; ring⟩
      · exact ⟨1 / 2, by norm_num, by norm_num, by simp [parallel], by simp [parallel, e4]; ring⟩
      · exact ⟨1, by norm_num, le_rfl, by simp [parallel], by simp [parallel]; ring⟩
  obtain ⟨θ, t0, t1, z0, z1⟩ := key
  refine ⟨z0, ?_⟩
  have hjn : (j : ℝ) + 1 ≤ n := by exact_mod_cast hj
  rw [z1, add_sub_cancel_left, abs_mul, abs_mul, abs_of_nonneg (by positivity : 0 ≤ (j : ℝ) + θ)]
  gcongr
  linarith

/-- Parallel flows on a part of the plane. -/
theorem parallel_on {env : Env ℝ FVal} (he : RealEnv env) (queue : Bool) (k : Kind)
    {src : Source ℝ} {I0 : AnyInterp ℝ} (hI : I0.Unused)
    (hup : ∀ i < src.numSteps, (src.updated env I0 (i + 1)).2 = none) {N : ℕ} {f : ℝ → ℝ}
    {S : Set (Fin 2 → ℝ)} (hv : ∀ i < src.numSteps, PointwiseOn S (4 * N)
      ((src.updated env I0 (i + 1)).1.velocity env) (parallel f))
    {id : String} (hid : src.id env = .ok id) {seed : NDArray ℝ} {P : Particles ℝ}
    (hs : seed.shape = [4 * N, 2]) (hp : mkParticles seed = .ok P)
    (hP : src.getParticles env.fs = .ok P) {x y a b c : ℕ → ℝ}
    (hc : ∀ i < N, groupOf seed 4 N 2 i =
      ![![x i - a i, y i], ![x i + b i, y i], ![x i, y i + c i], ![x i, y i - c i]])
    (hab : ∀ i < N, 0 < a i + b i ∧ 0 < c i) (hn : 2 ≤ src.numSteps) (hh : src.timestep ≠ 0)
    (hS : ∀ i < N, ∀ b w, |w - groupOf seed 4 N 2 i b 1| ≤
      src.numSteps * |src.timestep| * |f (groupOf seed 4 N 2 i b 0)| →
      ![groupOf seed 4 N 2 i b 0, w] ∈ S) :
    ((⟨src, I0, .fresh k⟩ : Solver ℝ).run env queue none).result =
      .ok (some ((List.range N).map fun i => .fin (1 / (((src.numSteps : ℝ) - 1) * |src.timestep|) *
        Real.arsinh (|src.numSteps * src.timestep *
          ((f (x i + b i) - f (x i - a i)) / (a i + b i))| / 2)))) := by
  have hT := period_pos hn hh
  have e : runPeriod env src = ((src.numSteps : ℝ) - 1) * |src.timestep| := by
    unfold runPeriod
    rw [he.abs]
    push_cast
    rfl
  set D : ℕ → Matrix (Fin 2) (Fin 2) ℝ := fun i => !![1, 0; src.numSteps * src.timestep *
    ((f (x i + b i) - f (x i - a i)) / (a i + b i)), 1] with hD
  rw [run_flow_on_2d env src hI k (fun _ => parallel f) (fun _ => S) hup N
    hv hid seed P queue hs hp hP (fun i hi b j hj z hz => by
      obtain ⟨z0, z1⟩ := stages_parallel k f _ hj _ hz
      have := hS i hi b _ z1
      rw [← z0] at this
      convert this using 1
      funext c
      fin_cases c <;> rfl),
    pyMap_ok_map (g := D)]
  · obtain ⟨vs, v1, v2, v3⟩ := field_values ftle2_computes (N := N) hT.ne' (D := D)
    simp only [e, he.f2, v1]
    show Except.ok (some vs) = _
    congr 2
    refine List.ext_getElem? fun i => ?_
    by_cases hi : i < N
    · obtain ⟨σ, s1, s2⟩ := v3 i hi
      rw [s2, List.getElem?_map, List.getElem?_range hi, Option.map_some,
        maxStretch_unique s1 (maxStretch_shear _), ftleVal_pos (Real.exp_pos _), Real.log_exp]
    · rw [List.getElem?_eq_none (by omega), List.getElem?_eq_none (by simpa using hi)]
  · intro i hi
    have hi := List.mem_range.1 hi
    have h1 := (hab i hi).1
    have h2 := (hab i hi).2
    simp only [(flowMap_parallel k f _ _ _).1, hc i hi]
    rw [centralDiff2_ok]
    refine ⟨⟨?_, ?_⟩, ?_⟩
    · simp; linarith
    · simp; linarith
    · have e1 : x i + b i - (x i - a i) = a i + b i := by ring
      have e2 : y i + c i - (y i - c i) = c i + c i := by ring
      ext r u
      fin_cases r <;> fin_cases u <;> simp [diffs2, hD, e1, e2]
      · rw [div_self (by linarith)]
      · ring
      · rw [div_self (by linarith)]

/-- **C130 (parallel flows).**  Seeds at `x - a` and `x + b` in the first direction and `c` on both
sides in the second; then the value is `(1/T) arsinh (|q| / 2)`, where `q` is the time of all steps
times the difference of the velocities over the distance. -/
theorem C130_parallel {env : Env ℝ FVal} (he : RealEnv env) (queue : Bool) (k : Kind)
    {src : Source ℝ} {I0 : AnyInterp ℝ} (hI : I0.Unused)
    (hup : ∀ i < src.numSteps, (src.updated env I0 (i + 1)).2 = none) {N : ℕ} {f : ℝ → ℝ}
    (hv : ∀ i < src.numSteps, Pointwise (4 * N) 2
      ((src.updated env I0 (i + 1)).1.velocity env) (parallel f))
    {id : String} (hid : src.id env = .ok id) {seed : NDArray ℝ} {P : Particles ℝ}
    (hs : seed.shape = [4 * N, 2]) (hp : mkParticles seed = .ok P)
    (hP : src.getParticles env.fs = .ok P) {x y a b c : ℕ → ℝ}
    (hc : ∀ i < N, groupOf seed 4 N 2 i =
      ![![x i - a i, y i], ![x i + b i, y i], ![x i, y i + c i], ![x i, y i - c i]])
    (hab : ∀ i < N, 0 < a i + b i ∧ 0 < c i) (hn : 2 ≤ src.numSteps) (hh : src.timestep ≠ 0) :
    ((⟨src, I0, .fresh k⟩ : Solver ℝ).run env queue none).result =
      .ok (some ((List.range N).map fun i => .fin (1 / (((src.numSteps : ℝ) - 1) * |src.timestep|) *
        Real.arsinh (|src.numSteps * src.timestep *
          ((f (x i + b i) - f (x i - a i)) / (a i + b i))| / 2)))) := by
  exact parallel_on he queue k hI hup (S := univ) (fun j hj pos hpos _ => hv j hj pos hpos) hid hs hp hP
    hc hab hn hh fun _ _ _ _ _ => mem_univ _

/-! ## Trajectories and deformation -/

def parallelPath (f : ℝ → ℝ) (x : Fin 2 → ℝ) (t : ℝ) : Fin 2 → ℝ := ![x 0, x 1 + t * f (x 0)]

theorem parallel_trajectory (f : ℝ → ℝ) (x : Fin 2 → ℝ) (U : Set ℝ) :
    IsTrajectory (fun _ => parallel f) U (parallelPath f x) := by
  intro t _
  rw [hasDerivWithinAt_pi]
  intro i
  fin_cases i
  · exact hasDerivWithinAt_const t U (x 0)
  · have := ((hasDerivWithinAt_id t U).mul_const (f (x 0))).const_add (x 1)
    simpa [parallel, parallelPath] using this

theorem parallel_fderiv {f : ℝ → ℝ} {f' : ℝ} {x : Fin 2 → ℝ} (hf : HasDerivAt f f' (x 0))
    (u : Fin 2 → ℝ) : fderiv ℝ (parallel f) x u = ![0, f' * u 0] := by
  have h0 : HasFDerivAt (fun x : Fin 2 → ℝ => x 0)
      (ContinuousLinearMap.proj (R := ℝ) (φ := fun _ : Fin 2 => ℝ) 0) x := hasFDerivAt_apply 0 x
  have : HasFDerivAt (parallel f) (ContinuousLinearMap.pi
      ![0, f' • ContinuousLinearMap.proj (R := ℝ) (φ := fun _ : Fin 2 => ℝ) 0]) x := by
    rw [hasFDerivAt_pi']
    intro i
    fin_cases i
    · exact (hasFDerivAt_const (0 : ℝ) x).congr_fderiv (by ext; simp)
    · exact (hf.comp_hasFDerivAt x h0).congr_fderiv (by ext; simp)
  rw [this.fderiv]
  funext i
  fin_cases i <;> simp

theorem parallel_deformation {f : ℝ → ℝ} {f' : ℝ} {x : Fin 2 → ℝ} (hf : HasDerivAt f f' (x 0))
    (U : Set ℝ) : IsDeformation (fun _ => parallel f) U 0 (parallelPath f x) fun t =>
      !![1, 0; t * f', 1] := by
  constructor
  · ext i j
    fin_cases i <;> fin_cases j <;> simp
  · intro u t _
    rw [parallel_fderiv (show HasDerivAt f f' (parallelPath f x t 0) from hf), hasDerivWithinAt_pi]
    intro i
    fin_cases i
    · simpa [Matrix.mulVec, dotProduct, Fin.sum_univ_two] using hasDerivWithinAt_const t U (u 0)
    · have := (((hasDerivWithinAt_id t U).mul_const f').mul_const (u 0)).add_const (u 1)
      simpa [Matrix.mulVec, dotProduct, Fin.sum_univ_two] using this

/-! ## Runs with analytical sources -/

theorem parallel_run {env : Env ℝ FVal} (he : RealEnv env) (queue : Bool) (k : Kind) {h : ℝ}
    {times : List ℝ} {f : ℝ → ℝ} {seed : NDArray ℝ} {P : Particles ℝ} (hs : seed.shape = [4, 2])
    (hp : mkParticles seed = .ok P) {x y a b c : ℝ}
    (hc : groupOf seed 4 1 2 0 = ![![x - a, y], ![x + b, y], ![x, y + c], ![x, y - c]])
    (hab : 0 < a + b) (hc0 : 0 < c) (hn : 2 ≤ times.length) (hh : h ≠ 0) :
    ((⟨.analytical ⟨P, h, times⟩, .analytical (.fresh (some fun _ => sourceOf 2 (parallel f))),
      .fresh k⟩ : Solver ℝ).run env queue none).result =
      .ok (some [.fin (1 / (((times.length : ℝ) - 1) * |h|) *
        Real.arsinh (|times.length * h * ((f (x + b) - f (x - a)) / (a + b))| / 2))]) := by
  have hupd : ∀ n : ℕ, (Source.analytical ⟨P, h, times⟩ : Source ℝ).updated
      env (.analytical (.fresh (some fun _ => sourceOf 2 (parallel f)))) n =
        (.analytical (.fresh (some fun _ => sourceOf 2 (parallel f))), none) := by
    intro n
    induction n with
    | zero => rfl
    | succ n ih => simp only [Source.updated, ih, Source.updateInterp]
  obtain ⟨id, hid⟩ := analytical_named env (s := ⟨P, h, times⟩) hn
  have := C130_parallel he queue k (src := .analytical ⟨P, h, times⟩)
    (I0 := .analytical (.fresh (some fun _ => sourceOf 2 (parallel f)))) trivial
    (fun i _ => by rw [hupd]) (N := 1) (f := f)
    (fun i _ => by rw [hupd]; exact sourceOf_pointwise _ _ _) hid hs hp rfl (x := fun _ => x)
    (y := fun _ => y) (a := fun _ => a) (b := fun _ => b) (c := fun _ => c)
    (fun i hi => by
      obtain rfl : i = 0 := by omega
      exact hc) (fun _ _ => ⟨hab, hc0⟩) hn hh
  exact this

/-- **C130 (the bound is attained).**  In the parallel flow with profile `x³` the centre at the origin
is at rest and its surroundings are not deformed: its exponent is `0`.  For a cross of arm `δ`, and
velocities off by `ε` at most, the value can be `(1/T) arsinh (n |h| (δ² + ε / δ) / 2)`, whatever the
integrator. -/
theorem C130_attained {env : Env ℝ FVal} (he : RealEnv env) (queue : Bool) (k : Kind) {h δ ε : ℝ}
    {times : List ℝ} (hn : 2 ≤ times.length) (hh : h ≠ 0) (hδ : 0 < δ) (hε : 0 ≤ ε)
    {seed : NDArray ℝ} {P : Particles ℝ} (hs : seed.shape = [4, 2]) (hp : mkParticles seed = .ok P)
    (hc : groupOf seed 4 1 2 0 = cross2 0 δ) :
    SmoothForGroups k (fun _ => parallel fun x => x ^ 3) ∧
    IsTrajectory (fun _ => parallel fun x => x ^ 3) univ (fun _ => 0) ∧
    IsDeformation (fun _ => parallel fun x => x ^ 3) univ 0 (fun _ => 0) (fun _ => 1) ∧
    ∃ g : (Fin 2 → ℝ) → Fin 2 → ℝ, (∀ z, ‖g z - parallel (fun x => x ^ 3) z‖ ≤ ε) ∧
      ((⟨.analytical ⟨P, h, times⟩, .analytical (.fresh (some fun _ => sourceOf 2 g)),
        .fresh k⟩ : Solver ℝ).run env queue none).result =
        .ok (some [.fin (1 / (((times.length : ℝ) - 1) * |h|) *
          Real.arsinh (times.length * |h| * (δ ^ 2 + ε / δ) / 2))]) := by
  have smooth : ∀ m : WithTop ℕ∞, ContDiff ℝ m (parallel fun x => x ^ 3) := by
    intro m
    rw [contDiff_pi]
    intro i
    fin_cases i
    · exact contDiff_const
    · exact (contDiff_apply ℝ ℝ (0 : Fin 2)).pow 3
  have path : parallelPath (fun x => x ^ 3) 0 = fun _ => 0 := by
    funext t i
    fin_cases i <;> simp [parallelPath]
  have cube : HasDerivAt (fun x : ℝ => x ^ 3) 0 ((0 : Fin 2 → ℝ) 0) := by
    have := hasDerivAt_pow 3 (0 : ℝ)
    simpa using this
  refine ⟨?_, ?_, ?_, parallel fun x => x ^ 3 + if x < 0 then -ε else ε, fun z => ?_, ?_⟩
  · cases k with
    | euler => exact (smooth 3).comp contDiff_snd
    | ab2 => exact (smooth 3).comp contDiff_snd
    | rk4 => exact ⟨_, smooth 5, rfl⟩
  · have := parallel_trajectory (fun x => x ^ 3) 0 univ
    rwa [path] at this
  · have := parallel_deformation cube univ
    rw [path] at this
    have e : (fun t : ℝ => !![1, 0; t * 0, 1]) = fun _ => (1 : Matrix (Fin 2) (Fin 2) ℝ) := by
      funext t
      ext i j
      fin_cases i <;> fin_cases j <;> simp
    rwa [e] at this
  · rw [pi_norm_le_iff_of_nonneg hε]
    intro i
    fin_cases i
    · simpa [parallel] using hε
    · simp only [parallel, Fin.mk_one, Pi.sub_apply, Matrix.cons_val_one, Matrix.cons_val_fin_one,
        add_sub_cancel_left]
      split_ifs
      · rw [norm_neg, Real.norm_of_nonneg hε]
      · rw [Real.norm_of_nonneg hε]
  · have e : groupOf seed 4 1 2 0 = ![![0 - δ, 0], ![0 + δ, 0], ![0, 0 + δ], ![0, 0 - δ]] := by
      rw [hc]
      simp [cross2]
    rw [parallel_run he queue k hs hp e (by linarith) hδ hn hh]
    have n1 : ¬ (0 + δ < 0) := by linarith
    have n2 : 0 - δ < 0 := by linarith
    have e2 : ((0 + δ) ^ 3 + (if 0 + δ < 0 then -ε else ε) -
        ((0 - δ) ^ 3 + if 0 - δ < 0 then -ε else ε)) / (δ + δ) = δ ^ 2 + ε / δ := by
      rw [if_neg n1, if_pos n2]
      field_simp
      ring
    have e3 : |times.length * h * (δ ^ 2 + ε / δ)| = times.length * |h| * (δ ^ 2 + ε / δ) := by
      rw [abs_mul, abs_mul, Nat.abs_cast, abs_of_nonneg (by positivity : 0 ≤ δ ^ 2 + ε / δ)]
    simp only [e2, e3]

/-- **C130 fails for groups that are not alike on both sides.**  Seeds at distance `δ` to the left and
`2 δ` to the right of the centre `(1, 0)` in the parallel flow with profile `x²`: over any fixed
number of steps the error is proportional to `δ`, for all integrators, and not of the order `δ²`. -/
theorem C130_uneven_fails {env : Env ℝ FVal} (he : RealEnv env) (queue : Bool) (k : Kind) {h : ℝ}
    {times : List ℝ} (hn : 2 ≤ times.length) (hh : 0 < h) {seed : ℝ → NDArray ℝ}
    {P : ℝ → Particles ℝ} (hs : ∀ δ > 0, (seed δ).shape = [4, 2] ∧ mkParticles (seed δ) = .ok (P δ) ∧
      groupOf (seed δ) 4 1 2 0 = ![![1 - δ, 0], ![1 + 2 * δ, 0], ![1, 0 + δ], ![1, 0 - δ]]) :
    ∃ (M : ℝ → Matrix (Fin 2) (Fin 2) ℝ) (σ : ℝ) (Λ : ℝ → ℝ),
      SmoothForGroups k (fun _ => parallel fun x => x ^ 2) ∧
      IsTrajectory (fun _ => parallel fun x => x ^ 2) univ (fun t => ![1, t]) ∧
      IsDeformation (fun _ => parallel fun x => x ^ 2) univ 0 (fun t => ![1, t]) M ∧
      IsMaxStretch (M (times.length * h)) σ ∧
      (∀ δ > 0, ((⟨.analytical ⟨P δ, h, times⟩,
        .analytical (.fresh (some fun _ => sourceOf 2 (parallel fun x => x ^ 2))),
        .fresh k⟩ : Solver ℝ).run env queue none).result = .ok (some [.fin (Λ δ)])) ∧
      (∃ c ≠ 0, Tendsto (fun δ => (Λ δ - 1 / (((times.length : ℝ) - 1) * h) * Real.log σ) / δ)
        (𝓝[>] 0) (𝓝 c)) ∧
      ¬ ∃ C η, 0 < η ∧ ∀ δ, 0 < δ → δ ≤ η →
        |Λ δ - 1 / (((times.length : ℝ) - 1) * h) * Real.log σ| ≤ C * δ ^ 2 := by
  have smooth : ∀ m : WithTop ℕ∞, ContDiff ℝ m (parallel fun x => x ^ 2) := by
    intro m
    rw [contDiff_pi]
    intro i
    fin_cases i
    · exact contDiff_const
    · exact (contDiff_apply ℝ ℝ (0 : Fin 2)).pow 2
  have path : parallelPath (fun x => x ^ 2) ![1, 0] = fun t => ![1, t] := by
    funext t i
    fin_cases i <;> simp [parallelPath]
  have square : HasDerivAt (fun x : ℝ => x ^ 2) 2 ((![1, 0] : Fin 2 → ℝ) 0) := by
    have := hasDerivAt_pow 2 (1 : ℝ)
    simpa using this
  set n : ℝ := (times.length : ℝ) with hnd
  have hn' : 2 ≤ n := by rw [hnd]; exact_mod_cast hn
  set T := (n - 1) * h with hT
  have hT0 : 0 < T := mul_pos (by linarith) hh
  set Λ : ℝ → ℝ := fun δ => 1 / T * Real.arsinh (n * h * (2 + δ) / 2) with hΛ
  set σ := Real.exp (Real.arsinh (|n * h * 2| / 2)) with hσ
  have hlog : 1 / T * Real.log σ = Λ 0 := by
    rw [hσ, Real.log_exp, abs_of_nonneg (by positivity)]
    simp [hΛ]
  have hder : HasDerivAt Λ (1 / T * ((√(1 + (n * h * (2 + 0) / 2) ^ 2))⁻¹ * (n * h * 1 / 2))) 0 := by
    have h1 : HasDerivAt (fun δ : ℝ => n * h * (2 + δ) / 2) (n * h * 1 / 2) 0 :=
      (((hasDerivAt_id (0 : ℝ)).const_add 2).const_mul (n * h)).div_const 2
    exact ((Real.hasDerivAt_arsinh _).comp (0 : ℝ) h1).const_mul (1 / T)
  set c := 1 / T * ((√(1 + (n * h * (2 + 0) / 2) ^ 2))⁻¹ * (n * h * 1 / 2)) with hc
  have hc0 : 0 < c := by
    have : 0 < √(1 + (n * h * (2 + 0) / 2) ^ 2) := Real.sqrt_pos.2 (by positivity)
    rw [hc]
    positivity
  have hlim : Tendsto (fun δ => (Λ δ - 1 / T * Real.log σ) / δ) (𝓝[>] 0) (𝓝 c) := by
    rw [hlog]
    have := (hasDerivAt_iff_tendsto_slope.1 hder).mono_left
      (nhdsWithin_mono (0 : ℝ) fun x (hx : 0 < x) => hx.ne')
    refine this.congr fun δ => ?_
    rw [slope_def_field, sub_zero]
  refine ⟨fun t => !![1, 0; t * 2, 1], σ, Λ, ?_, ?_, ?_, maxStretch_shear _, fun δ hδ => ?_,
    ⟨c, hc0.ne', hlim⟩, ?_⟩
  · cases k with
    | euler => exact (smooth 3).comp contDiff_snd
    | ab2 => exact (smooth 3).comp contDiff_snd
    | rk4 => exact ⟨_, smooth 5, rfl⟩
  · have := parallel_trajectory (fun x => x ^ 2) ![1, 0] univ
    rwa [path] at this
  · have := parallel_deformation square univ
    rwa [path] at this
  · obtain ⟨s1, s2, s3⟩ := hs δ hδ
    rw [parallel_run he queue k s1 s2 s3 (by linarith) hδ hn hh.ne']
    have e2 : ((1 + 2 * δ) ^ 2 - (1 - δ) ^ 2) / (δ + 2 * δ) = 2 + δ := by
      field_simp
      ring
    rw [e2, abs_of_pos hh, abs_of_nonneg (by positivity)]
  · rintro ⟨C, η, hη, H⟩
    have h1 : Tendsto (fun δ : ℝ => C * δ) (𝓝[>] 0) (𝓝 0) := by
      have : Tendsto (fun δ : ℝ => C * δ) (𝓝 0) (𝓝 (C * 0)) := (continuous_const_mul C).tendsto 0
      rw [mul_zero] at this
      exact this.mono_left nhdsWithin_le_nhds
    refine absurd (le_of_tendsto_of_tendsto hlim h1 ?_) (not_le.2 hc0)
    have h2 : Ioc (0 : ℝ) η ∈ 𝓝[>] (0 : ℝ) := Ioc_mem_nhdsGT hη
    filter_upwards [h2] with δ hδ
    rw [div_le_iff₀ hδ.1]
    have := (le_abs_self _).trans (H δ hδ.1 hδ.2)
    linarith

/-! ## Examples -/

/-- The four seeds of a group. -/
noncomputable def fourSeeds (x : Fin 4 → Fin 2 → ℝ) : NDArray ℝ :=
  ⟨[4, 2], fun i => if h : i.getD 0 0 < 4 then
    (if h' : i.getD 1 0 < 2 then x ⟨i.getD 0 0, h⟩ ⟨i.getD 1 0, h'⟩ else 0) else 0⟩

theorem fourSeeds_group (x : Fin 4 → Fin 2 → ℝ) : groupOf (fourSeeds x) 4 1 2 0 = x := by
  funext b c
  fin_cases b <;> fin_cases c <;> simp [groupOf, rowOf, fourSeeds]

theorem fourSeeds_particles (x : Fin 4 → Fin 2 → ℝ) : ∃ P, mkParticles (fourSeeds x) = .ok P := by
  obtain ⟨p, h, -⟩ := mkParticles_2d (show (fourSeeds x).shape = [4 * 1, 2] from rfl)
  exact ⟨p, h⟩

/-- The hypotheses of `C130_attained` and `C130_uneven_fails` hold. -/
example : ∃ (seed : ℝ → NDArray ℝ) (P : ℝ → Particles ℝ),
    (∀ δ > 0, (seed δ).shape = [4, 2] ∧ mkParticles (seed δ) = .ok (P δ) ∧
      groupOf (seed δ) 4 1 2 0 = cross2 0 δ) ∧ 2 ≤ (List.replicate 5 (0 : ℝ)).length := by
  choose P hP using fun δ => fourSeeds_particles (cross2 0 δ)
  exact ⟨fun δ => fourSeeds (cross2 0 δ), P, fun δ _ => ⟨rfl, hP δ, fourSeeds_group _⟩, by simp⟩

example : ∃ (seed : ℝ → NDArray ℝ) (P : ℝ → Particles ℝ),
    ∀ δ > 0, (seed δ).shape = [4, 2] ∧ mkParticles (seed δ) = .ok (P δ) ∧
      groupOf (seed δ) 4 1 2 0 =
        ![![1 - δ, 0], ![1 + 2 * δ, 0], ![1, 0 + δ], ![1, 0 - δ]] := by
  choose P hP using fun δ : ℝ =>
    fourSeeds_particles ![![1 - δ, 0], ![1 + 2 * δ, 0], ![1, 0 + δ], ![1, 0 - δ]]
  exact ⟨fun δ => fourSeeds ![![1 - δ, 0], ![1 + 2 * δ, 0], ![1, 0 + δ], ![1, 0 - δ]], P,
    fun δ _ => ⟨rfl, hP δ, fourSeeds_group _⟩⟩

theorem shear_smoothForGroups (k : Kind) : SmoothForGroups k fun _ : ℝ => shear := by
  cases k with
  | euler => exact (shear_smooth_any 3).comp contDiff_snd
  | ab2 => exact (shear_smooth_any 3).comp contDiff_snd
  | rk4 => exact ⟨_, shear_smooth_any 5, rfl⟩

/-- The hypotheses of C130 hold for the runs of the shear flow `(0, sin x)` from `0` to `2`, with
crosses around the origin and any number of steps. -/
example (k : Kind) : ∃ C η, 0 < η ∧ ∀ (δ h : ℝ) (P : Particles ℝ) (n : ℕ), 0 < δ → δ ≤ η →
    mkParticles (fourSeeds (cross2 0 δ)) = .ok P → 2 ≤ n → 0 < h → h ≤ η → n * h ≤ 2 →
    ∃ σ Λ : ℝ, IsMaxStretch (shearJ (n * h) 0) σ ∧
      ((⟨.analytical ⟨P, h, List.replicate n 0⟩,
        .analytical (.fresh (some fun _ => sourceOf 2 shear)), .fresh k⟩ : Solver ℝ).run realEnv true
        none).result = .ok (some [.fin Λ]) ∧
      |Λ - 1 / (((n : ℝ) - 1) * |h|) * Real.log σ| ≤
        1 / (((n : ℝ) - 1) * |h|) * (C * (|h| ^ documentedOrder k + δ ^ 2)) := by
  obtain ⟨C, η, hη, H⟩ := C130_spacing_2d_partial k (.inl ⟨rfl, shear_smoothForGroups k⟩)
    (isCompact_Icc (a := (0 : ℝ)) (b := 2)) (convex_Icc _ _) (t0 := 0) ⟨le_rfl, by norm_num⟩
    one_pos (N := 1) (fun _ => shearPath 0) (fun _ _ => (shear_trajectory 0 _).1)
    (fun _ t => shearJ t 0) (fun _ _ => shear_deformation 0 _)
  refine ⟨C, η, hη, fun δ h P n hδ hδη hP hn hh hhη hnh => ?_⟩
  have hupd : ∀ m : ℕ, (Source.analytical ⟨P, h, List.replicate n 0⟩ : Source ℝ).updated
      realEnv (.analytical (.fresh (some fun _ => sourceOf 2 shear))) m =
        (.analytical (.fresh (some fun _ => sourceOf 2 shear)), none) := by
    intro m
    induction m with
    | zero => rfl
    | succ m ih => simp only [Source.updated, ih, Source.updateInterp]
  have hσ := maxStretch_shear (n * h)
  have hM : shearJ (n * h) 0 = !![1, 0; n * h, 1] := by
    ext i j
    fin_cases i <;> fin_cases j <;> simp [shearJ]
  rw [← hM] at hσ
  obtain ⟨Λ, h1, h2⟩ := H realEnv realEnv_ok true (fourSeeds (cross2 0 δ)) P
    (.analytical ⟨P, h, List.replicate n 0⟩) n h 0 δ
    (.analytical (.fresh (some fun _ => sourceOf 2 shear))) (fun _ => shear) (fun _ => univ) rfl hP
    (fun i hi => by
      obtain rfl : i = 0 := by omega
      rw [(shear_trajectory 0 univ).2]
      exact fourSeeds_group _) (by simp [Source.numSteps]) rfl rfl trivial
    (analytical_named realEnv (by simpa using hn)) (fun i _ => by rw [hupd])
    (fun i _ => by rw [hupd]; exact fun pos hpos _ => sourceOf_pointwise _ _ _ pos hpos) hn hh.ne'
    (by rwa [abs_of_pos hh]) hδ hδη le_rfl (by positivity) ⟨by positivity, by linarith⟩
    (fun _ _ _ _ z _ => ⟨mem_univ z, by rw [sub_self, norm_zero]⟩)
    (fun _ => Real.exp (Real.arsinh (|n * h| / 2)))
    (fun _ _ => by rw [zero_add]; exact hσ)
  refine ⟨_, Λ 0, hσ, h1, ?_⟩
  have := h2 0 one_pos
  rwa [zero_div, add_zero] at this

/-- The hypotheses of C130 in three dimensions: the flow `(0, sin x, x)` around the origin. -/
example (k : Kind) : ∃ (v : (Fin 3 → ℝ) → Fin 3 → ℝ) (M : ℝ → Matrix (Fin 3) (Fin 3) ℝ),
    SmoothForGroups k (fun _ : ℝ => v) ∧ IsTrajectory (fun _ => v) (Icc 0 2) (fun _ => 0) ∧
    IsDeformation (fun _ => v) (Icc 0 2) 0 (fun _ => 0) M ∧ M 1 ≠ 1 ∧
    ∀ R, Pointwise R 3 (sourceOf 3 v) v := by
  set v : (Fin 3 → ℝ) → Fin 3 → ℝ := fun x => ![0, Real.sin (x 0), x 0] with hv
  have smooth : ∀ m : WithTop ℕ∞, ContDiff ℝ m v := by
    intro m
    rw [contDiff_pi]
    intro i
    fin_cases i
    · exact contDiff_const
    · exact Real.contDiff_sin.comp (contDiff_apply ℝ ℝ (0 : Fin 3))
    · exact contDiff_apply ℝ ℝ (0 : Fin 3)
  have h0 : HasFDerivAt (fun x : Fin 3 → ℝ => x 0)
      (ContinuousLinearMap.proj (R := ℝ) (φ := fun _ : Fin 3 => ℝ) 0) 0 := hasFDerivAt_apply 0 0
  have hd : ∀ u, fderiv ℝ v 0 u = ![0, u 0, u 0] := by
    intro u
    have : HasFDerivAt v (ContinuousLinearMap.pi
        ![0, ContinuousLinearMap.proj (R := ℝ) (φ := fun _ : Fin 3 => ℝ) 0,
          ContinuousLinearMap.proj (R := ℝ) (φ := fun _ : Fin 3 => ℝ) 0]) 0 := by
      rw [hasFDerivAt_pi']
      intro i
      fin_cases i
      · exact (hasFDerivAt_const (0 : ℝ) 0).congr_fderiv (by ext; simp)
      · exact h0.sin.congr_fderiv (by ext; simp)
      · exact h0.congr_fderiv (by ext; simp)
    rw [this.fderiv]
    funext i
    fin_cases i <;> simp
  refine ⟨v, fun t => !![1, 0, 0; t, 1, 0; t, 0, 1], ?_, ?_, ⟨?_, ?_⟩, ?_, fun R =>
    sourceOf_pointwise _ _ _⟩
  · cases k with
    | euler => exact (smooth 3).comp contDiff_snd
    | ab2 => exact (smooth 3).comp contDiff_snd
    | rk4 => exact ⟨_, smooth 5, rfl⟩
  · intro t _
    have e : v 0 = 0 := by
      funext i
      fin_cases i <;> simp [hv]
    show HasDerivWithinAt (fun _ => (0 : Fin 3 → ℝ)) (v 0) _ _
    rw [e]
    exact hasDerivWithinAt_const _ _ _
  · ext i j
    fin_cases i <;> fin_cases j <;> simp
  · intro u t _
    rw [hd, hasDerivWithinAt_pi]
    intro i
    fin_cases i
    · simpa [Matrix.mulVec, dotProduct, Fin.sum_univ_three] using
        hasDerivWithinAt_const t (Icc (0 : ℝ) 2) (u 0)
    · have := ((hasDerivWithinAt_id t (Icc (0 : ℝ) 2)).mul_const (u 0)).add_const (u 1)
      simpa [Matrix.mulVec, dotProduct, Fin.sum_univ_three] using this
    · have := ((hasDerivWithinAt_id t (Icc (0 : ℝ) 2)).mul_const (u 0)).add_const (u 2)
      simpa [Matrix.mulVec, dotProduct, Fin.sum_univ_three] using this
  · intro h
    have := congrFun (congrFun h 1) 0
    simp at this

end Verif
