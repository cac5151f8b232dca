import Verif.Props.Consecutive
import Verif.Props.GridSpacingExample
import Verif.Props.DualityExample

/-!
# Runs that meet the hypotheses of C133
-/

namespace Verif

open Matrix Set

/-- The hypotheses of `C133_ab2_fails` hold. -/
example : ∃ s s' : AnalyticalSource ℝ, mkParticles crossSeed = .ok s.particles ∧
    mkParticles crossSeed = .ok s'.particles ∧ crossSeed.shape = [4 * 1, 2] ∧
    (∀ i < 1, AxisAligned2 crossSeed 1 i) ∧
    Pointwise (4 * 1) 2 (saddleFn 1 0) (fun x => !![1, 0; 0, -1] *ᵥ x) ∧ s.times.length = 4 ∧
    s'.times.length = 2 ∧ s.timestep = 1 / 10 ∧ s'.timestep = 1 / 10 := by
  obtain ⟨p, h1, -⟩ := mkParticles_2d (show crossSeed.shape = [4 * 1, 2] from rfl)
  exact ⟨⟨p, 1 / 10, [0, 1 / 10, 2 / 10, 3 / 10]⟩, ⟨p, 1 / 10, [0, 1 / 10]⟩, h1, h1, rfl,
    crossSeed_aligned, sourceOf_pointwise _ _ _, rfl, rfl, rfl, rfl⟩

/-- The shear flow `(0, x)` on the square `[-4, 4]²`, with spacing and time step 1. -/
theorem shear_window (k : Kind) (t0 : ℝ) {n : ℕ} (h2 : 2 ≤ n) (h4 : n ≤ 4) :
    Window2 { realEnv with fs := cellFiles (fun x => x) 1 0 (1 / 2) } k (fun _ => parallel fun x => x) t0
      (cellSource 1 n) 9 9 (-4) 1 (-4) 1 1 where
  samples := by
    have := cell_samples_of (fun x => x) 0 (1 / 2) t0 (q := 1) n one_pos (by norm_num)
    simpa using this
  steps := by simpa [cellSource] using h2
  step := by simp [cellSource]
  seeds := by
    obtain ⟨seed, P, s1, s2, s3, s4⟩ := cell_seeds (fun x => x) 1 0 (1 / 2)
    refine ⟨seed, P, s1, s2, s3, fun i hi => ?_, fun i hi b j hj z hz => ?_⟩
    · obtain rfl : i = 0 := by omega
      have e : ∀ b : Fin 4, ∀ c : Fin 2, pt seed 1 b 0 c = cross2 ![0, 0] (1 / 2) b c := fun b c =>
        congrFun (congrFun s4 b) c
      have := e 0 0; have := e 0 1; have := e 1 0; have := e 1 1
      have := e 2 0; have := e 2 1; have := e 3 0; have := e 3 1
      simp_all [AxisAligned2, cross2]
      norm_num
    · obtain rfl : i = 0 := by omega
      obtain ⟨z0, z1⟩ := stages_parallel k _ _ hj _ hz
      have hx : |groupOf seed 4 1 2 0 b 0| ≤ 1 / 2 ∧ |groupOf seed 4 1 2 0 b 1| ≤ 1 / 2 := by
        rw [s4]
        fin_cases b <;> simp [cross2, abs_of_pos] <;> norm_num
      have hl : (((cellSource 1 n).snapshotFiles.length : ℕ) : ℝ) * |(cellSource 1 n).timestep| ≤ 4 := by
        simp [cellSource]
        exact_mod_cast h4
      have h3 := (abs_le.1 (z1.trans (mul_le_mul hl hx.1 (abs_nonneg _) (by norm_num))))
      have hx0 := abs_le.1 hx.1
      have hx1 := abs_le.1 hx.2
      have hz0 : -4 ≤ z 0 ∧ z 0 < 4 := by rw [z0]; constructor <;> linarith [hx0.1, hx0.2]
      have hz1 : -4 ≤ z 1 ∧ z 1 < 4 := by constructor <;> linarith [h3.1, h3.2, hx1.1, hx1.2]
      have := cell_axis one_pos hz0.1 hz0.2
      have := cell_axis one_pos hz1.1 hz1.2
      simp_all

/-- The hypotheses of `C133_affine_2d_partial` hold: four snapshots, in two halves.  The value of the
whole window is finite. -/
example (k : Kind) (hk : k ≠ .ab2) : ∃ l l1 l2 : ℝ,
    ((⟨.file (cellSource 1 4), .highPerf (HighPerf.fresh [9, 9]), .fresh k⟩ : Solver ℝ).run
      { realEnv with fs := cellFiles (fun x => x) 1 0 (1 / 2) } false none).result =
        .ok (some [.fin l]) ∧
    ((⟨.file (cellSource 1 2), .highPerf (HighPerf.fresh [9, 9]), .fresh k⟩ : Solver ℝ).run
      { realEnv with fs := cellFiles (fun x => x) 1 0 (1 / 2) } false none).result =
        .ok (some [.fin l1]) ∧
    ((⟨.file (cellSource 1 2), .highPerf (HighPerf.fresh [9, 9]), .fresh k⟩ : Solver ℝ).run
      { realEnv with fs := cellFiles (fun x => x) 1 0 (1 / 2) } false none).result =
        .ok (some [.fin l2]) ∧
    ((2 + 2 : ℕ) - 1 : ℝ) * |1| * l ≤ ((2 : ℕ) - 1) * |1| * l1 + ((2 : ℕ) - 1) * |1| * l2 := by
  have aff : IsAffine (fun _ : ℝ => parallel fun x => x) (fun _ => !![0, 0; 1, 0]) (fun _ => 0) := by
    intro t x
    funext c
    fin_cases c
    · simp [parallel]
    · simp [parallel]
      rfl
  have w := shear_window k 0 (n := 2 + 2) (by norm_num) (by norm_num)
  have w1 := shear_window k 0 (n := 2) le_rfl (by norm_num)
  have w2 := shear_window k (0 + (2 : ℕ) * 1) (n := 2) le_rfl (by norm_num)
  have fin : ∃ l : ℝ, ((⟨.file (cellSource 1 (2 + 2)), .highPerf (HighPerf.fresh [9, 9]), .fresh k⟩ :
      Solver ℝ).run { realEnv with fs := cellFiles (fun x => x) 1 0 (1 / 2) } false none).result =
        .ok (some (List.replicate 1 (.fin l))) := by
    obtain ⟨seed, P, a1, a2, a3, a4, a5⟩ := w.seeds
    obtain ⟨σ, -, h2, -⟩ := C125_files_2d (env := { realEnv with fs := cellFiles (fun x => x) 1 0 (1 / 2) })
      ⟨rfl, rfl, rfl⟩ (.inl rfl) false k aff w.samples a1 a2 a3 a4 a5 w.steps w.step (runMatrix_ok k _ _)
    refine ⟨_, (h2 fun h0 => ?_).2⟩
    have hM := runMatrix_ok k (fun _ : ℕ => (!![0, 0; 1, 0] : Matrix (Fin 2) (Fin 2) ℝ)) (1 / (1 : ℕ))
    have sq : (!![0, 0; 1, 0] : Matrix (Fin 2) (Fin 2) ℝ) ^ 2 = 0 := by
      ext i j
      fin_cases i <;> fin_cases j <;> simp [pow_two]
    have cu : (!![0, 0; 1, 0] : Matrix (Fin 2) (Fin 2) ℝ) ^ 3 = 0 := by rw [pow_succ, sq, Matrix.zero_mul]
    have fo : (!![0, 0; 1, 0] : Matrix (Fin 2) (Fin 2) ℝ) ^ 4 = 0 := by rw [pow_succ, cu, Matrix.zero_mul]
    have top : ∀ m, runMatrix k (fun _ : ℕ => (!![0, 0; 1, 0] : Matrix (Fin 2) (Fin 2) ℝ)) (1 / (1 : ℕ))
        m 0 0 = 1 := by
      intro m
      induction m with
      | zero => rw [hM.zero]; rfl
      | succ m ih =>
        cases k with
        | ab2 => exact absurd rfl hk
        | euler =>
          rw [hM.euler rfl]
          simp [Matrix.mul_apply, Fin.sum_univ_two, Matrix.one_apply] at ih ⊢
          exact ih
        | rk4 =>
          rw [hM.rk4 rfl]
          simp only [sq, cu, fo, smul_zero, add_zero]
          simp [Matrix.mul_apply, Fin.sum_univ_two, Matrix.one_apply] at ih ⊢
          exact ih
    have := top (2 + 2)
    have h0' := congrFun (congrFun h0 0) 0
    simp only [cellSource, List.length_replicate] at h0'
    rw [this] at h0'
    exact one_ne_zero h0'
  obtain ⟨l, hl⟩ := fin
  obtain ⟨l1, l2, h1, h2, h3⟩ := C133_affine_2d_partial
    (env := { realEnv with fs := cellFiles (fun x => x) 1 0 (1 / 2) }) ⟨rfl, rfl, rfl⟩ (.inl rfl) false hk
    aff (h := 1) (n1 := 2) (n2 := 2) w w1 w2 rfl rfl rfl ⟨by simp [cellSource], by simp [cellSource],
      by simp [cellSource]⟩ one_pos hl
  exact ⟨l, l1, l2, hl, h1, h2, h3⟩

/-- Windows in three dimensions: a shear growing with time, in a wind. -/
example (k : Kind) : Window3 { realEnv with fs := tiltFiles } k tilt 0 pumpForward 9 9 (-4) 1 (-4) 1 (-4) 1
    1 where
  samples := tilt_samples
  steps := le_rfl
  step := one_ne_zero
  seeds := by
    obtain ⟨seed, P, s1, s2, s3, s4⟩ := tilt_seeds
    have e : ∀ b : Fin 6, ∀ c : Fin 3, pt seed 1 b 0 c = cross3 0 1 b c := fun b c => congrFun (s4 b) c
    refine ⟨seed, P, s1, s2, s3, fun i hi => ?_, fun i hi q j hj => ?_⟩
    · obtain rfl : i = 0 := by omega
      refine ⟨⟨?_, ?_, ?_⟩, ⟨?_, ?_, ?_⟩, ?_, ?_, ?_⟩
      · have := e 1 0; have := e 0 0; simp_all [cross3]; norm_num
      · have := e 1 1; have := e 0 1; simp_all [cross3]
      · have := e 1 2; have := e 0 2; simp_all [cross3]
      · have := e 2 1; have := e 3 1; simp_all [cross3]; norm_num
      · have := e 2 0; have := e 3 0; simp_all [cross3]
      · have := e 2 2; have := e 3 2; simp_all [cross3]
      · have := e 4 2; have := e 5 2; simp_all [cross3]; norm_num
      · have := e 4 0; have := e 5 0; simp_all [cross3]
      · have := e 4 1; have := e 5 1; simp_all [cross3]
    · obtain rfl : i = 0 := by omega
      have hj : j < 2 := hj
      rw [s4]
      interval_cases j <;> cases k <;> fin_cases q <;>
        simp [stages, flowMap, rowRun, rowStep, tilt, cross3, OnAxis, NumLits.half, NumLits.two,
          NumLits.six, pumpForward] <;> norm_num

/-- The same with crosses. -/
example : CrossWindow3 { realEnv with fs := tiltFiles } tilt 0 pumpForward 9 9 (-4) 1 (-4) 1 (-4) 1 1
    (fun _ => 0) 1 2 1 where
  samples := tilt_samples
  length := rfl
  step := rfl
  steps := le_rfl
  seeds := by
    obtain ⟨seed, P, s1, s2, s3, s4⟩ := tilt_seeds
    refine ⟨seed, P, s1, s2, s3, fun i hi => ?_⟩
    obtain rfl : i = 0 := by omega
    exact funext s4

/-- The hypotheses of `C133_smooth_2d_partial` hold for the flow `(0, sin x)`: windows of duration 1 and 2
with every spacing `1/q` and every arm. -/
example (k : Kind) : ∃ C η : ℝ, 0 < η ∧ ∀ (q : ℕ) (δ : ℝ), 2 ≤ q →
    ((8 * q + 1 : ℕ) : ℤ) < intLim → 1 / (q : ℝ) ≤ η → 0 < δ → δ ≤ η → ∃ Λ Λ1 Λ2 : ℝ,
      ((⟨.file (cellSource q (q + q)), .highPerf (HighPerf.fresh [8 * q + 1, 8 * q + 1]), .fresh k⟩ :
        Solver ℝ).run { realEnv with fs := cellFiles Real.sin q 0 δ } false none).result =
          .ok (some [.fin Λ]) ∧
      ((⟨.file (cellSource q q), .highPerf (HighPerf.fresh [8 * q + 1, 8 * q + 1]), .fresh k⟩ :
        Solver ℝ).run { realEnv with fs := cellFiles Real.sin q 0 δ } false none).result =
          .ok (some [.fin Λ1]) ∧
      ((⟨.file (cellSource q q), .highPerf (HighPerf.fresh [8 * q + 1, 8 * q + 1]), .fresh k⟩ :
        Solver ℝ).run { realEnv with fs := cellFiles Real.sin q 0 δ } false none).result =
          .ok (some [.fin Λ2]) ∧
      ((q + q : ℕ) - 1 : ℝ) * |1 / (q : ℝ)| * Λ ≤ (q - 1) * |1 / (q : ℝ)| * Λ1 +
        (q - 1) * |1 / (q : ℝ)| * Λ2 + C * (|1 / (q : ℝ)| ^ documentedOrder k + δ ^ 2 +
          min (max (1 / (q : ℝ)) (1 / q)) (max (1 / (q : ℝ)) (1 / q) ^ 2 / δ)) := by
  have smooth : ∀ m : WithTop ℕ∞, ContDiff ℝ m (parallel Real.sin) := by
    intro m
    rw [contDiff_pi]
    intro i
    fin_cases i
    · exact contDiff_const
    · exact Real.contDiff_sin.comp (contDiff_apply ℝ ℝ (0 : Fin 2))
  have hsm : SmoothForGroups k fun _ : ℝ => parallel Real.sin := by
    cases k with
    | euler => exact (smooth 3).comp contDiff_snd
    | ab2 => exact (smooth 3).comp contDiff_snd
    | rk4 => exact ⟨_, smooth 5, rfl⟩
  obtain ⟨C, η, hη, H⟩ := C133_smooth_2d_partial k (.inl ⟨rfl, hsm⟩) (t0 := 0) (t1 := 1) (te := 2) (by norm_num)
    (by rw [uIcc_of_le (by norm_num)]; constructor <;> norm_num) one_pos (N := 1)
    (fun _ => parallelPath Real.sin 0) (fun _ _ => parallel_trajectory _ _ _)
  refine ⟨C, η, hη, fun q δ hq hl hqη hδ0 hδη => ?_⟩
  have hq0 : (q : ℝ) ≠ 0 := by positivity
  have hqp : 0 < 1 / (q : ℝ) := by positivity
  have path : ∀ t, parallelPath Real.sin 0 t = 0 := by
    intro t
    funext i
    fin_cases i <;> simp [parallelPath]
  have win : ∀ (t0 : ℝ) (n : ℕ), 2 ≤ n →
      CrossWindow2 { realEnv with fs := cellFiles Real.sin q 0 δ } (fun _ => parallel Real.sin) t0
        (cellSource q n) (8 * q + 1) (8 * q + 1) (-4) (1 / q) (-4) (1 / q) 1
        (fun _ => parallelPath Real.sin 0 t0) δ n (1 / q) := fun t0 n hn =>
    { samples := cell_samples_of _ _ _ _ _ (by omega) hl
      length := by simp [cellSource]
      step := rfl
      steps := hn
      seeds := by
        obtain ⟨seed, P, s1, s2, s3, s4⟩ := cell_seeds Real.sin q 0 δ
        refine ⟨seed, P, s1, s2, s3, fun i hi => ?_⟩
        obtain rfl : i = 0 := by omega
        rw [s4, path]
        congr 1
        funext i
        fin_cases i <;> rfl }
  obtain ⟨Λ, Λ1, Λ2, h1, h2, h3, h4⟩ := H { realEnv with fs := cellFiles Real.sin q 0 δ }
    ⟨rfl, rfl, rfl⟩ (.inl rfl) false (cellSource q (q + q)) (cellSource q q) (cellSource q q) (8 * q + 1)
    (8 * q + 1) (-4) (1 / q) (-4) (1 / q) q q (1 / q) δ (win 0 _ (by omega)) (win 0 _ hq) (win 1 _ hq)
    (by rw [mul_one_div_cancel hq0, zero_add])
    (by rw [mul_one_div_cancel hq0, uIcc_of_le (by norm_num)]; constructor <;> norm_num) hqp.ne'
    (by rwa [abs_of_pos hqp]) hδ0 hδη (by rwa [max_self]) (fun i hi j hj z hz => by
      simp only [path, sub_zero] at hz
      have c0 := abs_le.1 ((norm_le_pi_norm z 0).trans hz)
      have c1 := abs_le.1 ((norm_le_pi_norm z 1).trans hz)
      exact ⟨cell_axis (by omega) (by linarith [c0.1]) (by linarith [c0.2]),
        cell_axis (by omega) (by linarith [c1.1]) (by linarith [c1.2])⟩)
  exact ⟨Λ 0, Λ1 0, Λ2 0, h1, h2, h3, h4 0 one_pos⟩

end Verif
