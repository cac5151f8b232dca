import Verif.Props.Order
import Verif.Props.GridErrorExample
import Verif.Lemmas.GridOrder

/-!
# C104: order of accuracy of runs from gridded files

C103 with velocities sampled on a grid: the field is accurate to the order of the integrator in the
time step and to second order in the spacing of the grid.
-/

set_option linter.unusedSectionVars false

namespace Verif

open Matrix Set

/-- Points near finitely many trajectories during a compact time stay in a bounded region. -/
theorem tube_bounded {ι : Type*} [Finite ι] {d : ℕ} {v : ℝ → (Fin d → ℝ) → Fin d → ℝ} {U : Set ℝ}
    (hUc : IsCompact U) {X : ι → ℝ → Fin d → ℝ} (hX : ∀ q, IsTrajectory v U (X q)) (r : ℝ) :
    ∃ R, ∀ q, ∀ t ∈ U, ∀ z, ‖z - X q t‖ ≤ r → ‖z‖ ≤ R := by
  have h1 : ∀ q, ∃ B, 0 ≤ B ∧ ∀ t ∈ U, ‖X q t‖ ≤ B := by
    intro q
    have hc : ContinuousOn (X q) U := fun t ht => (hX q t ht).continuousWithinAt
    obtain ⟨B, hB⟩ := (hUc.image_of_continuousOn hc).isBounded.exists_norm_le
    exact ⟨|B|, abs_nonneg B, fun t ht => (hB _ (mem_image_of_mem _ ht)).trans (le_abs_self B)⟩
  choose B hB0 hB using h1
  cases nonempty_fintype ι
  refine ⟨∑ q, B q + r, fun q t ht z hz => ?_⟩
  have h2 := Finset.single_le_sum (f := B) (fun q _ => hB0 q) (Finset.mem_univ q)
  have h3 := norm_add_le (X q t) (z - X q t)
  rw [add_sub_cancel] at h3
  have := hB q t ht
  linarith

/-- The times of the steps lie between the first and the last. -/
theorem times_mem {U : Set ℝ} (hUv : Convex ℝ U) {t0 h : ℝ} (ht0 : t0 ∈ U) {n j : ℕ}
    (hn : t0 + n * h ∈ U) (hj : j < n) : t0 + j * h ∈ U := by
  have h1 := hUv.segment_subset ht0 hn
  rw [segment_eq_uIcc] at h1
  exact h1 (mem_times hj.le)

/-- The error of the velocities, small if the spacing is. -/
theorem spacing_small {M η δ : ℝ} (hM : 0 ≤ M) (hη : 0 < η) (hδ0 : 0 ≤ δ)
    (hδ : δ ≤ min η (min 1 (η / (M + 1)))) : δ ≤ 1 ∧ 0 ≤ M * δ ^ 2 ∧ M * δ ^ 2 ≤ η := by
  have h1 : δ ≤ 1 := hδ.trans ((min_le_right _ _).trans (min_le_left _ _))
  have h2 : δ ≤ η / (M + 1) := hδ.trans ((min_le_right _ _).trans (min_le_right _ _))
  refine ⟨h1, by positivity, ?_⟩
  rw [le_div_iff₀ (by positivity)] at h2
  nlinarith [mul_nonneg hM hδ0]

/-- From `C (a + M δ²)` to one constant. -/
theorem one_constant {C M a b w : ℝ} (hM : 0 ≤ M) (ha : 0 ≤ a) (hb : 0 ≤ b) (hw : 0 ≤ w) :
    w * (C * (a + M * b)) ≤ w * (|C| * (M + 1) * (a + b)) := by
  refine mul_le_mul_of_nonneg_left ?_ hw
  have h1 : C * (a + M * b) ≤ |C| * (a + M * b) :=
    mul_le_mul_of_nonneg_right (le_abs_self C) (by positivity)
  have h2 : a + M * b ≤ (M + 1) * (a + b) := by nlinarith [mul_nonneg hM ha]
  have h3 := mul_le_mul_of_nonneg_left h2 (abs_nonneg C)
  linarith

/-- **C104 (2-D).**  Groups of seeds with exact trajectories `X` during `U`, and `m > 0`.  There are
constants such that for every run from files that sample the velocity of the flow on a uniform grid
around the trajectories, with step `h` and spacing `dx`, `dy`, interpolated by the fast interpolator:
the run succeeds, and the value of every group differs from `(1/T) ln σ` by at most
`(1/T) C (|h| ^ order + max(dx, dy)²)`.  Here `σ ≥ m` is the maximal stretching of the central
differences of the exact positions after `n` steps, and `T = (n - 1)|h|` the period the code divides
by.  (A grid has less than `2 ^ 31` nodes per direction, so this is no statement about limits.) -/
theorem C104_gridded_2d_partial (k : Kind) {ord : ℕ} {v : ℝ → (Fin 2 → ℝ) → Fin 2 → ℝ}
    (hv : Attains k ord v)
    (hv2 : ContDiff ℝ 2 fun q : ℝ × (Fin 2 → ℝ) => v q.1 q.2) {U : Set ℝ} (hUc : IsCompact U)
    (hUv : Convex ℝ U) {t0 : ℝ} (ht0 : t0 ∈ U) {r : ℝ} (hr : 0 < r) {N : ℕ} {seed : NDArray ℝ}
    (hs : seed.shape = [4 * N, 2]) {P : Particles ℝ} (hp : mkParticles seed = .ok P)
    (X : ℕ → Fin 4 → ℝ → Fin 2 → ℝ)
    (hX : ∀ i < N, ∀ b, IsTrajectory v U (X i b) ∧ X i b t0 = groupOf seed 4 N 2 i b) {m : ℝ}
    (hm : 0 < m) :
    ∃ C η, 0 < η ∧ ∀ (env : Env ℝ FVal), RealEnv env → ExactTarget env.m → ∀ (queue : Bool)
      (s : FileSource ℝ) (nx ny : ℕ) (x0 dx y0 dy : ℝ) (n : ℕ) (h : ℝ),
      Samples2 env.fs s v t0 nx ny x0 dx y0 dy → s.snapshotFiles.length = n → s.timestep = h →
      readSeedParticles env.fs s.particleFile = .ok P →
      2 ≤ n → h ≠ 0 → |h| ≤ η → max dx dy ≤ η → t0 + n * h ∈ U →
      (∀ i < N, ∀ b, ∀ j < n, ∀ z, ‖z - X i b (t0 + j * h)‖ ≤ r →
        OnAxis nx x0 dx (z 0) ∧ OnAxis ny y0 dy (z 1)) →
      ∀ (D : ℕ → Matrix (Fin 2) (Fin 2) ℝ) (σ : ℕ → ℝ),
      (∀ i < N, centralDiff2 (fun b => X i b (t0 + n * h)) (groupOf seed 4 N 2 i) = .ok (D i)) →
      (∀ i < N, IsMaxStretch (D i) (σ i) ∧ m ≤ σ i) →
      ∃ Λ : ℕ → ℝ, ((⟨.file s, .highPerf (HighPerf.fresh [nx, ny]), .fresh k⟩ : Solver ℝ).run env
          queue none).result = .ok (some ((List.range N).map fun i => .fin (Λ i))) ∧
        ∀ i < N, |Λ i - 1 / (((n : ℝ) - 1) * |h|) * Real.log (σ i)| ≤
          1 / (((n : ℝ) - 1) * |h|) * (C * (|h| ^ ord + max dx dy ^ 2)) := by
  obtain ⟨R, hR⟩ := tube_bounded (ι := Fin N × Fin 4) hUc (X := fun q => X q.1 q.2)
    (fun q => (hX q.1 q.1.2 q.2).1) r
  obtain ⟨M, hM0, hM⟩ := nearAffine_of_smooth hv2 hUc R
  obtain ⟨C, η, hη, H⟩ := C103_order_2d_partial k hv hUc hUv ht0 hr hs hp X hX hm
  refine ⟨|C| * (M + 1), min η (min 1 (η / (M + 1))), by positivity, ?_⟩
  intro env he hex queue s nx ny x0 dx y0 dy n h hd hn hh hP hn2 hh0 hhη hdη hnU hin D σ hD hσ
  have hδ0 : 0 ≤ max dx dy := hd.hdx.le.trans (le_max_left _ _)
  obtain ⟨d1, d2, d3⟩ := spacing_small hM0 hη hδ0 hdη
  obtain ⟨Λ, h1, h2⟩ := H env he queue (.file s) n h (M * max dx dy ^ 2)
    (.highPerf (HighPerf.fresh [nx, ny])) (fun j => bilinear v (t0 + j * h) nx ny x0 dx y0 dy) _ hn hh hP
    rfl ⟨_, rfl⟩ (fun i hi => (samples_updated_2d hex hd i (by omega) 0).1)
    (fun j hj => by rw [← hh]; exact (samples_updated_2d hex hd j (by omega) (4 * N)).2)
    hn2 hh0 (hhη.trans (min_le_left _ _)) d2 d3 hnU
    (fun i hi b j hj z hz => ⟨hin i hi b j hj z hz, bilinear_order hd.hdx hd.hdy hM0
      (hM _ (times_mem hUv ht0 hnU hj) z
        (hR (⟨i, hi⟩, b) _ (times_mem hUv ht0 hnU hj) z hz) _ hδ0 d1) (hin i hi b j hj z hz)⟩)
    D σ hD hσ
  refine ⟨Λ, h1, fun i hi => (h2 i hi).trans ?_⟩
  have hn' : (2 : ℝ) ≤ n := by exact_mod_cast hn2
  exact one_constant hM0 (by positivity) (by positivity)
    (div_nonneg one_pos.le (mul_nonneg (by linarith) (abs_nonneg h)))

/-- **C104 (3-D).**  Grids with as many nodes in `x` as in `y`; for others see C30. -/
theorem C104_gridded_3d_partial (k : Kind) {ord : ℕ} {v : ℝ → (Fin 3 → ℝ) → Fin 3 → ℝ}
    (hv : Attains k ord v)
    (hv2 : ContDiff ℝ 2 fun q : ℝ × (Fin 3 → ℝ) => v q.1 q.2) {U : Set ℝ} (hUc : IsCompact U)
    (hUv : Convex ℝ U) {t0 : ℝ} (ht0 : t0 ∈ U) {r : ℝ} (hr : 0 < r) {N : ℕ} {seed : NDArray ℝ}
    (hs : seed.shape = [6 * N, 3]) {P : Particles ℝ} (hp : mkParticles seed = .ok P)
    (X : ℕ → Fin 6 → ℝ → Fin 3 → ℝ)
    (hX : ∀ i < N, ∀ b, IsTrajectory v U (X i b) ∧ X i b t0 = groupOf seed 6 N 3 i b) {m : ℝ}
    (hm : 0 < m) :
    ∃ C η, 0 < η ∧ ∀ (env : Env ℝ FVal), RealEnv env → ExactTarget env.m → ∀ (queue : Bool)
      (s : FileSource ℝ) (nx nz : ℕ) (x0 dx y0 dy z0 dz : ℝ) (n : ℕ) (h : ℝ),
      Samples3 env.fs s v t0 nx nz x0 dx y0 dy z0 dz → s.snapshotFiles.length = n → s.timestep = h →
      readSeedParticles env.fs s.particleFile = .ok P →
      2 ≤ n → h ≠ 0 → |h| ≤ η → max (max dx dy) dz ≤ η → t0 + n * h ∈ U →
      (∀ i < N, ∀ b, ∀ j < n, ∀ z, ‖z - X i b (t0 + j * h)‖ ≤ r →
        OnAxis nx x0 dx (z 0) ∧ OnAxis nx y0 dy (z 1) ∧ OnAxis nz z0 dz (z 2)) →
      ∀ (D : ℕ → Matrix (Fin 3) (Fin 3) ℝ) (σ : ℕ → ℝ),
      (∀ i < N, centralDiff3 (fun b => X i b (t0 + n * h)) (groupOf seed 6 N 3 i) = .ok (D i)) →
      (∀ i < N, IsMaxStretch (D i) (σ i) ∧ m ≤ σ i) →
      ∃ Λ : ℕ → ℝ, ((⟨.file s, .highPerf (HighPerf.fresh [nx, nx, nz]), .fresh k⟩ : Solver ℝ).run env
          queue none).result = .ok (some ((List.range N).map fun i => .fin (Λ i))) ∧
        ∀ i < N, |Λ i - 1 / (((n : ℝ) - 1) * |h|) * Real.log (σ i)| ≤
          1 / (((n : ℝ) - 1) * |h|) *
            (C * (|h| ^ ord + max (max dx dy) dz ^ 2)) := by
  obtain ⟨R, hR⟩ := tube_bounded (ι := Fin N × Fin 6) hUc (X := fun q => X q.1 q.2)
    (fun q => (hX q.1 q.1.2 q.2).1) r
  obtain ⟨M, hM0, hM⟩ := nearAffine_of_smooth hv2 hUc R
  obtain ⟨C, η, hη, H⟩ := C103_order_3d_partial k hv hUc hUv ht0 hr hs hp X hX hm
  refine ⟨|C| * (M + 1), min η (min 1 (η / (M + 1))), by positivity, ?_⟩
  intro env he hex queue s nx nz x0 dx y0 dy z0 dz n h hd hn hh hP hn2 hh0 hhη hdη hnU hin D σ hD hσ
  have hδ0 : 0 ≤ max (max dx dy) dz := hd.hdz.le.trans (le_max_right _ _)
  obtain ⟨d1, d2, d3⟩ := spacing_small hM0 hη hδ0 hdη
  obtain ⟨Λ, h1, h2⟩ := H env he queue (.file s) n h (M * max (max dx dy) dz ^ 2)
    (.highPerf (HighPerf.fresh [nx, nx, nz]))
    (fun j => trilinear v (t0 + j * h) nx nz x0 dx y0 dy z0 dz) _ hn hh hP
    rfl ⟨_, rfl⟩ (fun i hi => (samples_updated_3d hex hd i (by omega) 0).1)
    (fun j hj => by rw [← hh]; exact (samples_updated_3d hex hd j (by omega) (6 * N)).2)
    hn2 hh0 (hhη.trans (min_le_left _ _)) d2 d3 hnU
    (fun i hi b j hj z hz => ⟨hin i hi b j hj z hz, trilinear_order hd.hdx hd.hdy hd.hdz hM0
      (hM _ (times_mem hUv ht0 hnU hj) z
        (hR (⟨i, hi⟩, b) _ (times_mem hUv ht0 hnU hj) z hz) _ hδ0 d1) (hin i hi b j hj z hz)⟩)
    D σ hD hσ
  refine ⟨Λ, h1, fun i hi => (h2 i hi).trans ?_⟩
  have hn' : (2 : ℝ) ≤ n := by exact_mod_cast hn2
  exact one_constant hM0 (by positivity) (by positivity)
    (div_nonneg one_pos.le (mul_nonneg (by linarith) (abs_nonneg h)))

/-! ## A family of runs

The shear flow `(0, sin x)` on the square `[-4, 4]²` with spacing `1/q`, `q + 1` snapshots `1/q`
apart, four seeds at distance 1 from the origin. -/

noncomputable def fineFiles (q : ℕ) : MatFS ℝ := fun path =>
  if path = "c" then some fun key =>
    if key = "coordinate_x" then
      some (listing ((8 * q + 1) * (8 * q + 1)) fun i => -4 + (i % (8 * q + 1) : ℕ) * (1 / (q : ℝ)))
    else if key = "coordinate_y" then
      some (listing ((8 * q + 1) * (8 * q + 1)) fun i => -4 + (i / (8 * q + 1) : ℕ) * (1 / (q : ℝ)))
    else none
  else if path = "v" then some fun key =>
    if key = "velocity_x" then some (listing ((8 * q + 1) * (8 * q + 1)) fun _ => 0)
    else if key = "velocity_y" then
      some (listing ((8 * q + 1) * (8 * q + 1)) fun i =>
        Real.sin (-4 + (i % (8 * q + 1) : ℕ) * (1 / (q : ℝ))))
    else none
  else shearFiles path

noncomputable def fineSource (q : ℕ) : FileSource ℝ :=
  ⟨List.replicate (q + 1) "v", List.replicate (q + 1) "c", "p", 1 / (q : ℝ), "v", false⟩

theorem fine_velocity (q : ℕ) :
    ∃ V, readVelocity (fineFiles q) "v" = .ok V ∧ V.shape = [2, (8 * q + 1) * (8 * q + 1)] ∧
      (∀ i, V.get [0, i] = 0) ∧
      ∀ i : ℕ, V.get [1, i] = Real.sin (-4 + (i % (8 * q + 1) : ℕ) * (1 / (q : ℝ))) := by
  obtain ⟨V, h1, h2, h3, h4⟩ := stack_two ((8 * q + 1) * (8 * q + 1)) (fun _ => (0 : ℝ))
    (fun i => Real.sin (-4 + (i % (8 * q + 1) : ℕ) * (1 / (q : ℝ))))
  refine ⟨V, ?_, h2, h3, h4⟩
  rw [← h1]
  simp [readVelocity, loadmat, fineFiles, readComponents]

theorem fine_coordinate (q : ℕ) :
    ∃ V, readCoordinate (fineFiles q) "c" = .ok V ∧ V.shape = [2, (8 * q + 1) * (8 * q + 1)] ∧
      (∀ i : ℕ, V.get [0, i] = -4 + (i % (8 * q + 1) : ℕ) * (1 / (q : ℝ))) ∧
      ∀ i : ℕ, V.get [1, i] = -4 + (i / (8 * q + 1) : ℕ) * (1 / (q : ℝ)) := by
  obtain ⟨V, h1, h2, h3, h4⟩ := stack_two ((8 * q + 1) * (8 * q + 1))
    (fun i => (-4 : ℝ) + (i % (8 * q + 1) : ℕ) * (1 / (q : ℝ)))
    (fun i => -4 + (i / (8 * q + 1) : ℕ) * (1 / (q : ℝ)))
  refine ⟨V, ?_, h2, h3, h4⟩
  rw [← h1]
  simp [readCoordinate, loadmat, fineFiles, readComponents]

theorem fine_samples {q : ℕ} (hq : 0 < q) (hl : ((8 * q + 1 : ℕ) : ℤ) < intLim) :
    Samples2 (fineFiles q) (fineSource q) (fun _ => shear) 0 (8 * q + 1) (8 * q + 1) (-4) (1 / q) (-4)
      (1 / q) where
  fresh := rfl
  hnx := by omega
  hny := by omega
  lnx := hl
  lny := hl
  hdx := by positivity
  hdy := by positivity
  data := by
    intro j hj
    have hj : j < q + 1 := by simpa [fineSource] using hj
    obtain ⟨V, a1, a2, a3, a4⟩ := fine_velocity q
    obtain ⟨P, b1, b2, b3, b4⟩ := fine_coordinate q
    refine ⟨V, P, ⟨⟨"v", by simp [fineSource, hj], a1⟩,
      ⟨"c", by simp [fineSource, hj], b1⟩⟩, a2, b2, ?_, ?_⟩
    · intro a ha b hb
      rw [b3, b4, Nat.add_mul_mod_self_left, Nat.mod_eq_of_lt ha,
        Nat.add_mul_div_left _ _ (by omega), Nat.div_eq_of_lt ha, Nat.zero_add]
      exact ⟨rfl, rfl⟩
    · intro i hi c
      fin_cases c
      · exact a3 i
      · show V.get [1, i] = Real.sin (P.get [0, i])
        rw [a4, b3]

theorem fine_seeds (q : ℕ) : readSeedParticles (fineFiles q) "p" = readSeedParticles shearFiles "p" := by
  simp [readSeedParticles, loadmat, fineFiles]

/-- The hypotheses of C104 hold for all spacings `1/q` that a grid can have: with constants `C` and
`η` of the flow, every run with `1/q ≤ η` is within `C (q ^ -order + q ^ -2)` of the exponent. -/
example (k : Kind) : ∃ C η : ℝ, 0 < η ∧ ∀ q : ℕ, 0 < q → ((8 * q + 1 : ℕ) : ℤ) < intLim →
    1 / (q : ℝ) ≤ η → ∃ σ Λ : ℝ, 1 ≤ σ ∧
      ((⟨.file (fineSource q), .highPerf (HighPerf.fresh [8 * q + 1, 8 * q + 1]), .fresh k⟩ :
        Solver ℝ).run { realEnv with fs := fineFiles q } false none).result = .ok (some [.fin Λ]) ∧
      |Λ - Real.log σ| ≤ C * ((1 / (q : ℝ)) ^ documentedOrder k + (1 / (q : ℝ)) ^ 2) := by
  obtain ⟨seed, P, s1, s2, s3, s4⟩ := shear_seeds
  set X : ℕ → Fin 4 → ℝ → Fin 2 → ℝ := fun _ b => shearPath (cross2 0 1 b) with hX
  have w1 : groupOf seed 4 1 2 0 1 0 - groupOf seed 4 1 2 0 0 0 = 2 := by
    simp [s4, cross2]; norm_num
  have w2 : groupOf seed 4 1 2 0 2 1 - groupOf seed 4 1 2 0 3 1 = 2 := by
    simp [s4, cross2]; norm_num
  have hsm : SmoothEnough k fun _ : ℝ => shear := by
    cases k with
    | euler => exact (shear_smooth_any 1).comp contDiff_snd
    | ab2 => exact (shear_smooth_any 2).comp contDiff_snd
    | rk4 => exact ⟨shear, shear_smooth_any 4, rfl⟩
  have stretch : ∀ t, ∃ σ, IsMaxStretch (diffs2 (fun b => X 0 b t) (groupOf seed 4 1 2 0)) σ ∧
      1 ≤ σ := by
    intro t
    set D := diffs2 (fun b => X 0 b t) (groupOf seed 4 1 2 0) with hD
    obtain ⟨σ, hσ⟩ := ftle2_computes.exists_stretch D
    have d11 : D 1 1 = 1 := by
      rw [hD]
      simp [diffs2, s4, hX, shearPath, cross2]
    have d01 : D 0 1 = 0 := by
      rw [hD]
      simp [diffs2, s4, hX, shearPath, cross2]
    refine ⟨σ, hσ, ?_⟩
    have h1 := hσ.2 ⟨![0, 1], by simp [len], rfl⟩
    refine le_trans (le_of_eq ?_) h1
    have : D *ᵥ ![0, 1] = ![0, 1] := by
      funext i
      fin_cases i <;> simp [Matrix.mulVec, dotProduct, Fin.sum_univ_two, d11, d01]
    rw [this]
    simp [len]
  obtain ⟨C, η, hη, H⟩ := C104_gridded_2d_partial k (.inl ⟨rfl, hsm⟩) ((shear_smooth_any 2).comp contDiff_snd)
    (isCompact_Icc (a := (0 : ℝ)) (b := 2)) (convex_Icc _ _) (t0 := 0) ⟨le_rfl, by norm_num⟩
    (r := 1 / 2) (by norm_num) (N := 1) s1 s2 X (fun i hi b => by
      obtain rfl : i = 0 := by omega
      exact ⟨(shear_trajectory _ _).1, by rw [s4]; exact (shear_trajectory _ univ).2⟩) one_pos
  refine ⟨C, η, hη, fun q hq hl hqη => ?_⟩
  have hq' : (1 : ℝ) ≤ q := by exact_mod_cast hq
  have hq0 : (q : ℝ) ≠ 0 := by positivity
  have hqp : 0 < 1 / (q : ℝ) := by positivity
  have hq1 : 1 / (q : ℝ) ≤ 1 := by rw [div_le_one (by linarith)]; exact hq'
  have hnh : ((q + 1 : ℕ) : ℝ) * (1 / (q : ℝ)) = 1 + 1 / q := by
    push_cast
    field_simp
  have hrange : ∀ j < q + 1, 0 ≤ (j : ℝ) * (1 / (q : ℝ)) ∧ (j : ℝ) * (1 / (q : ℝ)) ≤ 1 := by
    intro j hj
    refine ⟨by positivity, ?_⟩
    rw [mul_one_div, div_le_one (by linarith)]
    exact_mod_cast (by omega : j ≤ q)
  obtain ⟨σ, hσ, hσ1⟩ := stretch (0 + ((q + 1 : ℕ) : ℝ) * (1 / (q : ℝ)))
  obtain ⟨Λ, h1, h2⟩ := H { realEnv with fs := fineFiles q } ⟨rfl, rfl, rfl⟩ (.inl rfl) false
    (fineSource q) (8 * q + 1) (8 * q + 1) (-4) (1 / q) (-4) (1 / q) (q + 1) (1 / q)
    (fine_samples hq hl) (by simp [fineSource]) rfl ((fine_seeds q).trans s3) (by omega) hqp.ne'
    (by rwa [abs_of_pos hqp]) (by rwa [max_self])
    (by rw [zero_add, hnh]; constructor <;> linarith)
    (fun i hi b j hj z hz => by
      obtain ⟨t0, t1⟩ := hrange j hj
      have h0 := (norm_le_pi_norm (z - X i b (0 + j * (1 / (q : ℝ)))) 0).trans hz
      have h1 := (norm_le_pi_norm (z - X i b (0 + j * (1 / (q : ℝ)))) 1).trans hz
      have hp0 : |X i b (0 + j * (1 / (q : ℝ))) 0| ≤ 1 := by
        rw [hX]; fin_cases b <;> simp [shearPath, cross2]
      have hp1 : |X i b (0 + j * (1 / (q : ℝ))) 1| ≤ 2 := by
        have e : X i b (0 + j * (1 / (q : ℝ))) 1 =
            cross2 0 1 b 1 + (0 + j * (1 / (q : ℝ))) * Real.sin (cross2 0 1 b 0) := rfl
        have c1 : |cross2 0 1 b 1| ≤ 1 := by fin_cases b <;> simp [cross2]
        have c2 : |(0 + (j : ℝ) * (1 / (q : ℝ))) * Real.sin (cross2 0 1 b 0)| ≤ 1 := by
          rw [abs_mul, zero_add, abs_of_nonneg t0]
          have := Real.abs_sin_le_one (cross2 0 1 b 0)
          nlinarith [abs_nonneg (Real.sin (cross2 0 1 b 0))]
        rw [e]
        exact (abs_add_le _ _).trans (by linarith)
      rw [Pi.sub_apply, Real.norm_eq_abs, abs_le] at h0 h1
      rw [abs_le] at hp0 hp1
      have e8 : (-4 : ℝ) + (((8 * q + 1 : ℕ) : ℝ) - 1) * (1 / q) = 4 := by
        have h8 : 8 * (q : ℝ) * (1 / q) = 8 := by field_simp
        push_cast
        rw [add_sub_cancel_right, h8]
        norm_num
      unfold OnAxis
      rw [e8]
      refine ⟨⟨?_, ?_⟩, ?_, ?_⟩ <;> linarith [h0.1, h0.2, h1.1, h1.2, hp0.1, hp0.2, hp1.1, hp1.2])
    (fun _ => diffs2 (fun b => X 0 b (0 + ((q + 1 : ℕ) : ℝ) * (1 / (q : ℝ)))) (groupOf seed 4 1 2 0))
    (fun _ => σ) (fun i hi => by
      obtain rfl : i = 0 := by omega
      exact centralDiff2_ok.2 ⟨⟨by rw [w1]; norm_num, by rw [w2]; norm_num⟩, rfl⟩)
    (fun i hi => ⟨hσ, hσ1⟩)
  refine ⟨σ, Λ 0, hσ1, h1, ?_⟩
  have h3 := h2 0 one_pos
  have hT : 1 / ((((q + 1 : ℕ) : ℝ) - 1) * |1 / (q : ℝ)|) = 1 := by
    rw [abs_of_pos hqp]
    push_cast
    rw [add_sub_cancel_right, mul_one_div_cancel hq0, div_one]
  rw [hT, one_mul, one_mul, max_self, abs_of_pos hqp] at h3
  exact h3

/-- In three dimensions the files of C84 sample a flow as smooth as C104 asks for. -/
example (k : Kind) (x : Fin 3 → ℝ) : SmoothEnough k (fun _ : ℝ => shear3) ∧
    ContDiff ℝ 2 (fun q : ℝ × (Fin 3 → ℝ) => shear3 q.2) ∧
    IsTrajectory (fun _ => shear3) (Icc 0 2) (shearPath3 x) ∧
    Samples3 shearFiles3 shearSource (fun _ => shear3) 0 801 801 (-4) (1 / 100) (-4) (1 / 100) (-4)
      (1 / 100) := by
  have sm : ∀ m : WithTop ℕ∞, ContDiff ℝ m shear3 := by
    intro m
    rw [contDiff_pi]
    intro i
    fin_cases i
    · exact contDiff_const
    · exact contDiff_const
    · exact Real.contDiff_sin.comp (contDiff_apply ℝ ℝ (0 : Fin 3))
  refine ⟨?_, (sm 2).comp contDiff_snd, (shear3_trajectory x _).1, shear3_samples⟩
  cases k with
  | euler => exact (sm 1).comp contDiff_snd
  | ab2 => exact (sm 2).comp contDiff_snd
  | rk4 => exact ⟨shear3, sm 4, rfl⟩

end Verif
