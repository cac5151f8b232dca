import Verif.Props.Divergence
import Verif.Props.DualityExample
import Verif.Props.GridSpacingExample
import Verif.Props.ConsecutiveExample

/-!
# C135: space, and runs that meet the hypotheses
-/

namespace Verif

open Matrix Set

theorem euler_frame (h : ℝ) {M : ℕ → Matrix (Fin 3) (Fin 3) ℝ}
    (hM : RunMatrices .euler (fun _ => !![1, 0, 0; 0, 1, 0; 0, 0, -2]) h M) (n : ℕ) :
    M n = !![(1 + h) ^ n, 0, 0; 0, (1 + h) ^ n, 0; 0, 0, (1 - 2 * h) ^ n] := by
  induction n with
  | zero => rw [hM.zero, one_fin_three]; simp
  | succ n ih =>
    rw [hM.euler rfl, ih, one_fin_three]
    ext i j
    fin_cases i <;> fin_cases j <;> simp [Matrix.mul_apply, Fin.sum_univ_three] <;> ring

/-- **C135: no equality in space.**  In the incompressible flow `(x, y, -2 z)`, with any number of steps
`h ≤ 1/4` of Euler's method, the backward value exceeds the forward value: times the period, by at least
`2/3` of the time of the steps. -/
theorem C135_space_fails {env : Env ℝ FVal} (he : RealEnv env) (queue queue' : Bool)
    {fn : VelocityFn ℝ} {s s' : AnalyticalSource ℝ} {seed : NDArray ℝ} (hs : seed.shape = [6, 3])
    (hp : mkParticles seed = .ok s.particles) (hp' : mkParticles seed = .ok s'.particles)
    (hal : AxisAligned3 seed 1 0)
    (hv : Pointwise 6 3 (fn 0) (fun x => ![x 0, x 1, -2 * x 2])) {n : ℕ} (hn2 : 2 ≤ n)
    (hn : s.times.length = n) (hn' : s'.times.length = n) {h : ℝ} (h0 : 0 < h) (h4 : h ≤ 1 / 4)
    (ht : s.timestep = h) (ht' : s'.timestep = -h) :
    Incompressible (fun _ : ℝ => fun x : Fin 3 → ℝ => (![x 0, x 1, -2 * x 2] : Fin 3 → ℝ)) ∧
    ∃ l l', ((⟨.analytical s, .analytical (.fresh (some fn)), .fresh .euler⟩ :
        Solver ℝ).run env queue none).result = .ok (some [.fin l]) ∧
      ((⟨.analytical s', .analytical (.fresh (some fn)), .fresh .euler⟩ :
        Solver ℝ).run env queue' none).result = .ok (some [.fin l']) ∧
      (n - 1) * h * l + 2 / 3 * (n * h) ≤ (n - 1) * h * l' := by
  set A : Matrix (Fin 3) (Fin 3) ℝ := !![1, 0, 0; 0, 1, 0; 0, 0, -2] with hA
  have hAv : (fun x : Fin 3 → ℝ => (![x 0, x 1, -2 * x 2] : Fin 3 → ℝ)) = fun x => A *ᵥ x + 0 := by
    funext x i
    fin_cases i <;> simp [hA, Matrix.mulVec, dotProduct, Fin.sum_univ_three]
  have al : ∀ i < 1, AxisAligned3 seed 1 i := fun i hi => by
    obtain rfl : i = 0 := by omega
    exact hal
  constructor
  · intro _ x
    rw [hAv]
    have : HasFDerivAt (fun x : Fin 3 → ℝ => A *ᵥ x + 0) (Matrix.mulVecLin A).toContinuousLinearMap x := by
      simpa using (Matrix.mulVecLin A).toContinuousLinearMap.hasFDerivAt
    simp only [divergence, this.fderiv]
    simp [hA, Fin.sum_univ_three]
    norm_num
  · rw [hAv] at hv
    have hT : 0 < ((n : ℝ) - 1) * h := by
      have : (2 : ℝ) ≤ n := by exact_mod_cast hn2
      exact mul_pos (by linarith) h0
    have r := C125_function_3d he queue .euler s fn (N := 1) hs hp al hv (by omega)
      (by rw [ht]; exact h0.ne') (runMatrix_ok _ _ _)
    have r' := C125_function_3d he queue' .euler s' fn (N := 1) hs hp' al hv (by omega)
      (by rw [ht']; exact (neg_neg_of_pos h0).ne) (runMatrix_ok _ _ _)
    rw [hn, ht, abs_of_pos h0] at r
    rw [hn', ht', abs_neg, abs_of_pos h0] at r'
    have p1 : 0 < (1 + h) ^ n := by positivity
    have p2 : 0 < (1 + 2 * h) ^ n := by positivity
    have e := reportsNorm_one r (maxStretch_of_frame (s := (1 + h) ^ n)
      (euler_frame h (runMatrix_ok _ _ _) n) (abs_of_pos p1).le (abs_of_pos p1).le (by
        rw [abs_pow]
        refine pow_le_pow_left₀ (abs_nonneg _) ?_ n
        rw [abs_le]
        constructor <;> linarith) (.inl (abs_of_pos p1))) p1
    have e' := reportsNorm_one r' (maxStretch_of_frame (s := (1 + 2 * h) ^ n)
      (euler_frame (-h) (runMatrix_ok _ _ _) n) (by
        rw [abs_pow]
        refine pow_le_pow_left₀ (abs_nonneg _) ?_ n
        rw [abs_le]
        constructor <;> linarith) (by
        rw [abs_pow]
        refine pow_le_pow_left₀ (abs_nonneg _) ?_ n
        rw [abs_le]
        constructor <;> linarith) (by
        rw [abs_pow]
        refine pow_le_pow_left₀ (abs_nonneg _) ?_ n
        rw [abs_le]
        constructor <;> linarith) (.inr (by
        rw [show 1 - 2 * -h = 1 + 2 * h by ring, abs_of_pos p2]))) p2
    refine ⟨_, _, e, e', ?_⟩
    have cancel : ∀ x : ℝ, ((n : ℝ) - 1) * h * (1 / ((n - 1) * h) * x) = x := fun x => by
      rw [← mul_assoc, mul_one_div_cancel hT.ne', one_mul]
    rw [cancel, cancel, Real.log_pow, Real.log_pow]
    have key : Real.log (1 + h) + 2 / 3 * h ≤ Real.log (1 + 2 * h) := by
      have hq : 0 < (1 + h) / (1 + 2 * h) := by positivity
      have h1 := Real.log_le_sub_one_of_pos hq
      rw [Real.log_div (by positivity) (by positivity)] at h1
      have h2 : (1 + h) / (1 + 2 * h) - 1 ≤ -(2 / 3 * h) := by
        rw [div_sub_one (by positivity), div_le_iff₀ (by positivity)]
        nlinarith
      linarith
    have hn0 : (0 : ℝ) ≤ n := by positivity
    nlinarith [mul_le_mul_of_nonneg_left key hn0]

/-- The hypotheses of `C135_space_fails` hold. -/
example : ∃ P : Particles ℝ, mkParticles crossSeed3 = .ok P ∧ AxisAligned3 crossSeed3 1 0 ∧
    Pointwise 6 3 (sourceOf 3 fun x : Fin 3 → ℝ => (![x 0, x 1, -2 * x 2] : Fin 3 → ℝ))
      (fun x => ![x 0, x 1, -2 * x 2]) := by
  obtain ⟨P, hP, -⟩ := mkParticles_3d (show crossSeed3.shape = [6 * 1, 3] from rfl)
  exact ⟨P, hP, crossSeed3_aligned 0 one_pos, sourceOf_pointwise _ _ _⟩

/-- Parallel flows are incompressible. -/
theorem parallel_incompressible {f : ℝ → ℝ} (hf : Differentiable ℝ f) :
    Incompressible fun _ : ℝ => parallel f := by
  intro _ x
  simp only [divergence, parallel_fderiv (hf (x 0)).hasDerivAt]
  simp [Fin.sum_univ_two]

/-- The expanding flow `(x, y)`: the divergence accumulates to `2 t`. -/
example (U : Set ℝ) (X : ℝ → Fin 2 → ℝ) :
    IsExpansion (fun _ x => x) U 0 X fun t => 2 * t := by
  refine ⟨mul_zero 2, fun t _ => ?_⟩
  have : divergence (fun x : Fin 2 → ℝ => x) (X t) = 2 := by
    simp [divergence]
  rw [this]
  simpa using (hasDerivWithinAt_id t U).const_mul 2

noncomputable def cellBack (q n : ℕ) : FileSource ℝ :=
  ⟨List.replicate n "v", List.replicate n "c", "p", -(1 / (q : ℝ)), "v", false⟩

theorem cell_back_samples (f : ℝ → ℝ) (c δ t0 : ℝ) {q : ℕ} (n : ℕ) (hq : 0 < q)
    (hl : ((8 * q + 1 : ℕ) : ℤ) < intLim) :
    Samples2 (cellFiles f q c δ) (cellBack q n) (fun _ => parallel f) t0 (8 * q + 1) (8 * q + 1) (-4)
      (1 / q) (-4) (1 / q) :=
  have h := cell_samples_of f c δ t0 n hq hl
  { fresh := rfl, hnx := h.hnx, hny := h.hny, lnx := h.lnx, lny := h.lny, hdx := h.hdx, hdy := h.hdy
    data := h.data }

/-- The hypotheses of `C135_duality_2d_partial` hold for the flow `(0, sin x)`: forward and backward
windows of duration 1 with every spacing `1/q` and every arm report nearly the same. -/
example (k : Kind) : ∃ C η : ℝ, 0 < η ∧ ∀ (q : ℕ) (δ : ℝ), 2 ≤ q →
    ((8 * q + 1 : ℕ) : ℤ) < intLim → 1 / (q : ℝ) ≤ η → 0 < δ → δ ≤ η → ∃ Λ Λ' : ℝ,
      ((⟨.file (cellSource q q), .highPerf (HighPerf.fresh [8 * q + 1, 8 * q + 1]), .fresh k⟩ :
        Solver ℝ).run { realEnv with fs := cellFiles Real.sin q 0 δ } false none).result =
          .ok (some [.fin Λ]) ∧
      ((⟨.file (cellBack q q), .highPerf (HighPerf.fresh [8 * q + 1, 8 * q + 1]), .fresh k⟩ :
        Solver ℝ).run { realEnv with fs := cellFiles Real.sin q 0 δ } false none).result =
          .ok (some [.fin Λ']) ∧
      |(q - 1) * |1 / (q : ℝ)| * Λ - (q - 1) * |1 / (q : ℝ)| * Λ' - 0| ≤
        C * (|1 / (q : ℝ)| ^ documentedOrder k + δ ^ 2 +
          min (max (1 / (q : ℝ)) (1 / q)) (max (1 / (q : ℝ)) (1 / q) ^ 2 / δ)) := by
  have smooth : ∀ m : WithTop ℕ∞, ContDiff ℝ m (parallel Real.sin) := by
    intro m
    rw [contDiff_pi]
    intro i
    fin_cases i
    · exact contDiff_const
    · exact Real.contDiff_sin.comp (contDiff_apply ℝ ℝ (0 : Fin 2))
  have hsm : SmoothForGroups k fun _ : ℝ => parallel Real.sin := by
    cases k with
    | euler => exact (smooth 3).comp contDiff_snd
    | ab2 => exact (smooth 3).comp contDiff_snd
    | rk4 => exact ⟨_, smooth 5, rfl⟩
  obtain ⟨C, η, hη, H⟩ := C135_duality_2d_partial k (.inl ⟨rfl, hsm⟩) (t0 := 0) (t1 := 1) (by norm_num)
    one_pos (N := 1) (fun _ => parallelPath Real.sin 0) (fun _ _ => parallel_trajectory _ _ _)
    (fun _ _ => 0) (fun _ _ => (parallel_incompressible Real.differentiable_sin).expansion)
  refine ⟨C, η, hη, fun q δ hq hl hqη hδ0 hδη => ?_⟩
  have hq0 : (q : ℝ) ≠ 0 := by positivity
  have hqp : 0 < 1 / (q : ℝ) := by positivity
  have path : ∀ t, parallelPath Real.sin 0 t = 0 := by
    intro t
    funext i
    fin_cases i <;> simp [parallelPath]
  have seeds : ∀ t0, ∃ seed P, seed.shape = [4 * 1, 2] ∧ mkParticles seed = .ok P ∧
      readSeedParticles (cellFiles Real.sin q 0 δ) "p" = .ok P ∧
      ∀ i < 1, groupOf seed 4 1 2 i = cross2 (parallelPath Real.sin 0 t0) δ := fun t0 => by
    obtain ⟨seed, P, s1, s2, s3, s4⟩ := cell_seeds Real.sin q 0 δ
    refine ⟨seed, P, s1, s2, s3, fun i hi => ?_⟩
    obtain rfl : i = 0 := by omega
    rw [s4, path]
    congr 1
    funext i
    fin_cases i <;> rfl
  obtain ⟨Λ, Λ', h1, h2, h3⟩ := H { realEnv with fs := cellFiles Real.sin q 0 δ }
    ⟨rfl, rfl, rfl⟩ (.inl rfl) false (cellSource q q) (cellBack q q) (8 * q + 1)
    (8 * q + 1) (-4) (1 / q) (-4) (1 / q) q (1 / q) δ
    { samples := cell_samples_of _ _ _ _ _ (by omega) hl
      length := by simp [cellSource]
      step := rfl
      steps := hq
      seeds := seeds 0 }
    { samples := cell_back_samples _ _ _ _ _ (by omega) hl
      length := by simp [cellBack]
      step := rfl
      steps := hq
      seeds := seeds 1 }
    (by rw [mul_one_div_cancel hq0, zero_add])
    (by rwa [abs_of_pos hqp]) hδ0 hδη (by rwa [max_self]) (fun i hi j hj z hz => by
      simp only [path, sub_zero] at hz
      have c0 := abs_le.1 ((norm_le_pi_norm z 0).trans hz)
      have c1 := abs_le.1 ((norm_le_pi_norm z 1).trans hz)
      exact ⟨cell_axis (by omega) (by linarith [c0.1]) (by linarith [c0.2]),
        cell_axis (by omega) (by linarith [c1.1]) (by linarith [c1.2])⟩)
  exact ⟨Λ 0, Λ' 0, h1, h2, h3 0 one_pos⟩

/-- The flow of the 3-D example is incompressible. -/
theorem shear3_incompressible : Incompressible fun _ : ℝ => shear3 := by
  intro _ x
  have hd : HasFDerivAt shear3 (ContinuousLinearMap.pi ![0, 0,
      Real.cos (x 0) • ContinuousLinearMap.proj (R := ℝ) (φ := fun _ : Fin 3 => ℝ) 0]) x := by
    rw [hasFDerivAt_pi]
    intro i
    fin_cases i
    · exact hasFDerivAt_const 0 x
    · exact hasFDerivAt_const 0 x
    · exact (Real.hasDerivAt_sin (x 0)).comp_hasFDerivAt x
        (ContinuousLinearMap.proj (R := ℝ) (φ := fun _ : Fin 3 => ℝ) 0).hasFDerivAt
  simp only [divergence, hd.fderiv]
  simp [Fin.sum_univ_three]

noncomputable def shearBack : FileSource ℝ :=
  ⟨["v0", "v1"], ["c0", "c1"], "p", -(1 / 100), "v0", false⟩

/-- The hypotheses of `C135_lower_3d_partial` and `C135_sum_3d_partial` hold: the same two files, read
forward and backward from the seeds around the point at rest. -/
example (k : Kind) : AttainsForGroups k (documentedOrder k) (fun _ => shear3) ∧
    IsTrajectory (fun _ => shear3) (uIcc 0 (1 / 50)) (fun _ => 0) ∧
    IsExpansion (fun _ => shear3) (uIcc 0 (1 / 50)) 0 (fun _ => 0) (fun _ => 0) ∧
    CrossWindow3 { realEnv with fs := shearFiles3 } (fun _ => shear3) 0 shearSource 801 801 (-4) (1 / 100)
      (-4) (1 / 100) (-4) (1 / 100) 1 (fun _ => 0) 1 2 (1 / 100) ∧
    CrossWindow3 { realEnv with fs := shearFiles3 } (fun _ => shear3) (1 / 50) shearBack 801 801 (-4)
      (1 / 100) (-4) (1 / 100) (-4) (1 / 100) 1 (fun _ => 0) 1 2 (-(1 / 100)) := by
  have smooth : ∀ m : WithTop ℕ∞, ContDiff ℝ m shear3 := by
    intro m
    rw [contDiff_pi]
    intro i
    fin_cases i
    · exact contDiff_const
    · exact contDiff_const
    · exact Real.contDiff_sin.comp (contDiff_apply ℝ ℝ (0 : Fin 3))
  have seeds : ∃ seed P, seed.shape = [6 * 1, 3] ∧ mkParticles seed = .ok P ∧
      readSeedParticles shearFiles3 "p" = .ok P ∧ ∀ i < 1, groupOf seed 6 1 3 i = cross3 0 1 := by
    obtain ⟨seed, P, s1, s2, s3, s4⟩ := shear3_seeds
    refine ⟨seed, P, s1, s2, s3, fun i hi => ?_⟩
    obtain rfl : i = 0 := by omega
    exact funext s4
  refine ⟨.inl ⟨rfl, ?_⟩, fun t _ => ?_, shear3_incompressible.expansion,
    ⟨shear3_samples, rfl, rfl, le_rfl, seeds⟩,
    ⟨{ fresh := rfl, hm := shear3_samples.hm, hnz := shear3_samples.hnz, lm := shear3_samples.lm
       lnz := shear3_samples.lnz, lmz := shear3_samples.lmz, hdx := shear3_samples.hdx
       hdy := shear3_samples.hdy, hdz := shear3_samples.hdz, data := shear3_samples.data },
      rfl, rfl, le_rfl, seeds⟩⟩
  · cases k with
    | euler => exact (smooth 3).comp contDiff_snd
    | ab2 => exact (smooth 3).comp contDiff_snd
    | rk4 => exact ⟨_, smooth 5, rfl⟩
  · have e : shear3 0 = 0 := by
      funext i
      fin_cases i <;> simp [shear3]
    show HasDerivWithinAt (fun _ => (0 : Fin 3 → ℝ)) (shear3 0) _ _
    rw [e]
    exact hasDerivWithinAt_const _ _ _

end Verif
