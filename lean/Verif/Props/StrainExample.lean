import Verif.Props.StrainSharp
import Verif.Props.ConsecutiveExample
import Verif.Props.AffineExample

/-!
# Runs that meet the hypotheses of C138
-/

namespace Verif

open Matrix Set

theorem axis_bound {n : ℕ} {q b : ℝ} (hq : InCells n q) {f : ℕ → ℝ} (h : ∀ i, |f i| ≤ b) :
    |axisValue f q| ≤ b := by
  have := axisValue_near (w := 0) (b := b) hq (f := f) fun i _ => by rw [sub_zero]; exact h i
  rwa [sub_zero] at this

theorem sine_stays (k : Kind) (b : Fin 4) {j : ℕ} (hj : j < 3) {t : ℕ → ℝ} :
    ∀ z ∈ stages k (bilinear (fun _ => parallel Real.sin) (t j) (8 * 20 + 1) (8 * 20 + 1) (-4)
        (1 / (20 : ℕ)) (-4) (1 / (20 : ℕ))) (1 / 20)
      (flowMap k (fun j => bilinear (fun _ => parallel Real.sin) (t j) (8 * 20 + 1) (8 * 20 + 1) (-4)
        (1 / (20 : ℕ)) (-4) (1 / (20 : ℕ))) (1 / 20) j (cross2 ![0, 0] (1 / 2) b)),
      OnAxis (8 * 20 + 1) (-4) (1 / (20 : ℕ)) (z 0) ∧ OnAxis (8 * 20 + 1) (-4) (1 / (20 : ℕ)) (z 1) := by
  set x := cross2 ![0, 0] (1 / 2) b with hx
  set ψ : ℝ → ℝ := fun x => axisValue (fun a => Real.sin (-4 + a * (1 / (20 : ℕ))))
    ((x - -4) / (1 / (20 : ℕ))) with hψ
  have hx0 : -(1 / 2) ≤ x 0 ∧ x 0 ≤ 1 / 2 := by
    rw [hx]; fin_cases b <;> norm_num [cross2]
  have hx1 : -(1 / 2) ≤ x 1 ∧ x 1 ≤ 1 / 2 := by
    rw [hx]; fin_cases b <;> norm_num [cross2]
  have ax0 := cell_axis (q := 20) (by norm_num) (show -4 ≤ x 0 by linarith) (by linarith)
  have hb := abs_le.1 (axis_bound (f := fun a => Real.sin (-4 + a * (1 / (20 : ℕ))))
    (ax0.inCells (by norm_num)) fun i => Real.abs_sin_le_one _)
  change -1 ≤ ψ (x 0) ∧ ψ (x 0) ≤ 1 at hb
  have inside : ∀ j : ℕ, j < 3 → ∀ θ ∈ Icc (0 : ℝ) 1,
      OnAxis (8 * 20 + 1) (-4) (1 / (20 : ℕ)) (ahead x (parallel ψ x) (j * (1 / 20) + θ * (1 / 20)) 0) ∧
      OnAxis (8 * 20 + 1) (-4) (1 / (20 : ℕ))
        (ahead x (parallel ψ x) (j * (1 / 20) + θ * (1 / 20)) 1) := by
    intro j hj θ hθ
    have hj' : (j : ℝ) ≤ 2 := by exact_mod_cast (by omega : j ≤ 2)
    have hj0 : (0 : ℝ) ≤ j := by positivity
    have e0 : ahead x (parallel ψ x) (j * (1 / 20) + θ * (1 / 20)) 0 = x 0 := by simp [ahead, parallel]
    have e1 : ahead x (parallel ψ x) (j * (1 / 20) + θ * (1 / 20)) 1 =
      x 1 + (j * (1 / 20) + θ * (1 / 20)) * ψ (x 0) := by simp [ahead, parallel]
    have hτ : 0 ≤ (j : ℝ) * (1 / 20) + θ * (1 / 20) ∧ (j : ℝ) * (1 / 20) + θ * (1 / 20) ≤ 1 := by
      constructor <;> nlinarith [hθ.1, hθ.2]
    rw [e0, e1]
    generalize (j : ℝ) * (1 / 20) + θ * (1 / 20) = τ at hτ
    refine ⟨ax0, cell_axis (q := 20) (by norm_num) ?_ ?_⟩ <;> nlinarith [hτ.1, hτ.2, hb.1, hb.2]
  have same : ∀ j : ℕ, j < 3 → ∀ θ ∈ Icc (0 : ℝ) 1, bilinear (fun _ => parallel Real.sin) (t j) (8 * 20 + 1)
      (8 * 20 + 1) (-4) (1 / (20 : ℕ)) (-4) (1 / (20 : ℕ))
      (ahead x (parallel ψ x) (j * (1 / 20) + θ * (1 / 20))) = parallel ψ x := by
    intro j hj θ hθ
    rw [bilinear_parallel (by norm_num) (by norm_num) (inside j hj θ hθ)]
    simp [parallel, ahead, hψ]
  intro z hz
  rw [flow_ahead k same j hj.le] at hz
  obtain ⟨θ, h1, rfl⟩ := stages_ahead k (same j hj) z hz
  exact inside j hj θ h1

/-- Files with the samples of `(0, sin x)` on `[-4, 4]²`, spacing and time step `1/20`: the value lies
between the bounds for each method. -/
example (queue : Bool) (k : Kind) : ∃ Λ : ℝ,
    ((⟨.file (cellSource 20 3), .highPerf (HighPerf.fresh [161, 161]), .fresh k⟩ :
      Solver ℝ).run { realEnv with fs := cellFiles Real.sin 20 0 (1 / 2) } queue none).result =
        .ok (some [.fin Λ]) ∧
    strainLower k (2 * 1) (1 / 20) 3 ≤ Λ ∧ Λ ≤ strainUpper 2 k (2 * 1) (1 / 20) 3 := by
  obtain ⟨seed, P, s1, s2, s3, s4⟩ := cell_seeds Real.sin 20 0 (1 / 2)
  have hd := cell_samples_of Real.sin 0 (1 / 2) 0 (q := 20) 3 (by norm_num) (by norm_num)
  have ht : (cellSource 20 3).timestep = 1 / 20 := by simp [cellSource]
  have hl : (cellSource 20 3).snapshotFiles.length = 3 := by simp [cellSource]
  have habs : |(1 / 20 : ℝ)| = 1 / 20 := abs_of_pos (by norm_num)
  obtain ⟨Λ, h1, h2⟩ := C138_files_2d (env := { realEnv with fs := cellFiles Real.sin 20 0 (1 / 2) })
    ⟨rfl, rfl, rfl⟩ (.inl rfl) queue k hd one_pos.le
    (fun j hj a ha b hb c => by
      fin_cases c
      · simp [parallel]
      · refine ⟨fun _ => ?_, fun _ => by simp [parallel]⟩
        have := Real.abs_sin_sub_sin_le (-4 + ((a : ℝ) + 1) * (1 / 20)) (-4 + a * (1 / 20))
        have e : (-4 + ((a : ℝ) + 1) * (1 / 20)) - (-4 + a * (1 / 20)) = 1 / 20 := by ring
        rw [e, habs] at this
        simpa [parallel] using this)
    s1 s2 s3 (fun i hi => by
      obtain rfl : i = 0 := by omega
      have e : ∀ b : Fin 4, ∀ c : Fin 2, pt seed 1 b 0 c = cross2 ![0, 0] (1 / 2) b c := fun b c =>
        congrFun (congrFun s4 b) c
      have := e 0 0; have := e 0 1; have := e 1 0; have := e 1 1
      have := e 2 0; have := e 2 1; have := e 3 0; have := e 3 1
      simp_all [AxisAligned2, cross2]
      norm_num)
    (fun i hi b j hj => by
      obtain rfl : i = 0 := by omega
      rw [hl] at hj
      rw [s4, ht]
      exact sine_stays k b hj)
    (by rw [hl]; norm_num) (by rw [ht]; norm_num)
    (by rw [ht, habs]; cases k <;> norm_num [shrink])
    (by intro _; rw [ht, habs]; norm_num)
  refine ⟨Λ 0, ?_, ?_⟩
  · simpa using h1
  · have := h2 0 one_pos
    rwa [ht, hl] at this

theorem fine_axis {x : ℝ} (h0 : -4 ≤ x) (h1 : x < 4) : OnAxis 801 (-4) (1 / 100) x := by
  constructor
  · exact h0
  · norm_num
    exact h1

theorem trilinear_shear3 {t : ℝ} {z : Fin 3 → ℝ}
    (hz : OnAxis 801 (-4) (1 / 100) (z 0) ∧ OnAxis 801 (-4) (1 / 100) (z 1) ∧
      OnAxis 801 (-4) (1 / 100) (z 2)) :
    trilinear (fun _ => shear3) t 801 801 (-4) (1 / 100) (-4) (1 / 100) (-4) (1 / 100) z =
      ![0, 0, axisValue (fun a => Real.sin (-4 + a * (1 / 100))) ((z 0 - -4) / (1 / 100))] := by
  funext c
  unfold trilinear
  rw [cellValue3_lines (hz.1.inCells (by norm_num)) (hz.2.1.inCells (by norm_num))
    (hz.2.2.inCells (by norm_num))]
  fin_cases c
  · simp [shear3, axisValue, lerp]
  · simp [shear3, axisValue, lerp]
  · simp [shear3, axisValue, lerp]
    ring

theorem sine3_stays (k : Kind) (b : Fin 6) {j : ℕ} (hj : j < 2) {t : ℕ → ℝ} :
    ∀ z ∈ stages k (trilinear (fun _ => shear3) (t j) 801 801 (-4) (1 / 100) (-4) (1 / 100) (-4)
        (1 / 100)) (1 / 100)
      (flowMap k (fun j => trilinear (fun _ => shear3) (t j) 801 801 (-4) (1 / 100) (-4) (1 / 100) (-4)
        (1 / 100)) (1 / 100) j (cross3 0 1 b)),
      OnAxis 801 (-4) (1 / 100) (z 0) ∧ OnAxis 801 (-4) (1 / 100) (z 1) ∧
        OnAxis 801 (-4) (1 / 100) (z 2) := by
  set x := cross3 0 1 b with hx
  set ψ : ℝ → ℝ := fun x => axisValue (fun a => Real.sin (-4 + a * (1 / 100)))
    ((x - -4) / (1 / 100)) with hψ
  have hx0 : -1 ≤ x 0 ∧ x 0 ≤ 1 := by rw [hx]; fin_cases b <;> norm_num [cross3]
  have hx1 : -1 ≤ x 1 ∧ x 1 ≤ 1 := by rw [hx]; fin_cases b <;> norm_num [cross3]
  have hx2 : -1 ≤ x 2 ∧ x 2 ≤ 1 := by rw [hx]; fin_cases b <;> simp [cross3]
  have ax0 := fine_axis (show -4 ≤ x 0 by linarith) (by linarith)
  have ax1 := fine_axis (show -4 ≤ x 1 by linarith) (by linarith)
  have hb := abs_le.1 (axis_bound (f := fun a => Real.sin (-4 + a * (1 / 100)))
    (ax0.inCells (by norm_num)) fun i => Real.abs_sin_le_one _)
  change -1 ≤ ψ (x 0) ∧ ψ (x 0) ≤ 1 at hb
  set u : Fin 3 → ℝ := ![0, 0, ψ (x 0)] with hu
  have inside : ∀ j : ℕ, j < 2 → ∀ θ ∈ Icc (0 : ℝ) 1,
      OnAxis 801 (-4) (1 / 100) (ahead x u (j * (1 / 100) + θ * (1 / 100)) 0) ∧
      OnAxis 801 (-4) (1 / 100) (ahead x u (j * (1 / 100) + θ * (1 / 100)) 1) ∧
      OnAxis 801 (-4) (1 / 100) (ahead x u (j * (1 / 100) + θ * (1 / 100)) 2) := by
    intro j hj θ hθ
    have hj' : (j : ℝ) ≤ 1 := by exact_mod_cast (by omega : j ≤ 1)
    have hj0 : (0 : ℝ) ≤ j := by positivity
    have e0 : ahead x u (j * (1 / 100) + θ * (1 / 100)) 0 = x 0 := by simp [ahead, hu]
    have e1 : ahead x u (j * (1 / 100) + θ * (1 / 100)) 1 = x 1 := by simp [ahead, hu]
    have e2 : ahead x u (j * (1 / 100) + θ * (1 / 100)) 2 =
      x 2 + (j * (1 / 100) + θ * (1 / 100)) * ψ (x 0) := by simp [ahead, hu]
    have hτ : 0 ≤ (j : ℝ) * (1 / 100) + θ * (1 / 100) ∧ (j : ℝ) * (1 / 100) + θ * (1 / 100) ≤ 1 := by
      constructor <;> nlinarith [hθ.1, hθ.2]
    rw [e0, e1, e2]
    generalize (j : ℝ) * (1 / 100) + θ * (1 / 100) = τ at hτ
    refine ⟨ax0, ax1, fine_axis ?_ ?_⟩ <;> nlinarith [hτ.1, hτ.2, hb.1, hb.2]
  have same : ∀ j : ℕ, j < 2 → ∀ θ ∈ Icc (0 : ℝ) 1, trilinear (fun _ => shear3) (t j) 801 801 (-4)
      (1 / 100) (-4) (1 / 100) (-4) (1 / 100) (ahead x u (j * (1 / 100) + θ * (1 / 100))) = u := by
    intro j hj θ hθ
    rw [trilinear_shear3 (inside j hj θ hθ)]
    simp [ahead, hψ, hu]
  intro z hz
  rw [flow_ahead k same j hj.le] at hz
  obtain ⟨θ, h1, rfl⟩ := stages_ahead k (same j hj) z hz
  exact inside j hj θ h1

/-- Files with the samples of `(0, 0, sin x)` on `[-4, 4]³`, spacing and time step `1/100`. -/
example (queue : Bool) (k : Kind) : ∃ Λ : ℝ,
    ((⟨.file shearSource, .highPerf (HighPerf.fresh [801, 801, 801]), .fresh k⟩ :
      Solver ℝ).run { realEnv with fs := shearFiles3 } queue none).result = .ok (some [.fin Λ]) ∧
    strainLower k (3 * 1) (1 / 100) 2 ≤ Λ ∧ Λ ≤ strainUpper 3 k (3 * 1) (1 / 100) 2 := by
  obtain ⟨seed, P, s1, s2, s3, s4⟩ := shear3_seeds
  have habs : |(1 / 100 : ℝ)| = 1 / 100 := abs_of_pos (by norm_num)
  obtain ⟨Λ, h1, h2⟩ := C138_files_3d (env := { realEnv with fs := shearFiles3 })
    ⟨rfl, rfl, rfl⟩ (.inl rfl) queue k shear3_samples one_pos.le
    (fun j hj a ha b hb e he c => by
      fin_cases c
      · simp [shear3]
      · simp [shear3]
      · refine ⟨fun _ => ?_, fun _ => by simp [shear3], fun _ => by simp [shear3]⟩
        have := Real.abs_sin_sub_sin_le (-4 + ((a : ℝ) + 1) * (1 / 100)) (-4 + a * (1 / 100))
        have e : (-4 + ((a : ℝ) + 1) * (1 / 100)) - (-4 + a * (1 / 100)) = 1 / 100 := by ring
        rw [e, habs] at this
        simpa [shear3] using this)
    s1 s2 s3 (fun i hi => by
      obtain rfl : i = 0 := by omega
      have e : ∀ b : Fin 6, ∀ c : Fin 3, pt seed 1 b 0 c = cross3 0 1 b c := fun b c =>
        congrFun (s4 b) c
      have := e 0 0; have := e 0 1; have := e 0 2; have := e 1 0; have := e 1 1; have := e 1 2
      have := e 2 0; have := e 2 1; have := e 2 2; have := e 3 0; have := e 3 1; have := e 3 2
      have := e 4 0; have := e 4 1; have := e 4 2; have := e 5 0; have := e 5 1; have := e 5 2
      clear s3 s4
      simp_all [AxisAligned3, cross3]
      norm_num)
    (fun i hi b j hj => by
      obtain rfl : i = 0 := by omega
      rw [s4]
      exact sine3_stays k b hj)
    le_rfl (by norm_num [shearSource])
    (by simp only [shearSource, habs]; cases k <;> norm_num [shrink])
    (by intro _; simp only [shearSource, habs]; norm_num)
  exact ⟨Λ 0, h1, h2 0 one_pos⟩

/-- Without small steps the bound from above remains: the flow `-x`, step 1. -/
example (queue : Bool) (k : Kind) : ∃ (P : Particles ℝ) (Λ : FVal), mkParticles crossSeed = .ok P ∧
    ((⟨.analytical ⟨P, 1, [0, 1]⟩, .analytical (.fresh (some fun _ => sourceOf 2 fun x => -x)),
        .fresh k⟩ : Solver ℝ).run realEnv queue none).result = .ok (some [Λ]) ∧
    (Λ = .negInf ∨ ∃ l ≤ strainUpper 2 k 1 1 2, Λ = .fin l) := by
  obtain ⟨P, hP, -⟩ := mkParticles_2d (show crossSeed.shape = [4 * 1, 2] from rfl)
  obtain ⟨Λ, h1, h2⟩ := C138_upper_2d (env := realEnv) (k := k) (src := .analytical ⟨P, 1, [0, 1]⟩)
    (I0 := .analytical (.fresh (some fun _ => sourceOf 2 fun x => -x))) (N := 1) ⟨rfl, rfl, rfl⟩ queue
    trivial (fun i _ => by rw [analytical_updated]) (S := fun _ => univ) (g := fun _ x => -x)
    (fun i _ => by rw [analytical_updated]; exact fun pos h1 _ => sourceOf_pointwise _ _ _ pos h1) rfl rfl
    hP rfl
    crossSeed_aligned (fun _ _ _ _ _ _ _ => trivial) le_rfl one_ne_zero one_pos.le
    (fun _ _ x _ y _ => by rw [one_mul, neg_sub_neg, norm_sub_rev])
  exact ⟨P, Λ 0, hP, h1, h2 0 one_pos⟩

/-- The same flow with Euler's method: `-∞`. -/
example (queue : Bool) : ∃ P : Particles ℝ, mkParticles crossSeed = .ok P ∧
    ((⟨.analytical ⟨P, 1, [0, 1]⟩, .analytical (.fresh (some fun _ => sourceOf 2 fun x => -x)),
        .fresh .euler⟩ : Solver ℝ).run realEnv queue none).result = .ok (some [.negInf]) := by
  obtain ⟨P, hP, -⟩ := mkParticles_2d (show crossSeed.shape = [4 * 1, 2] from rfl)
  exact ⟨P, hP, C138_collapse (env := realEnv) ⟨rfl, rfl, rfl⟩ queue (s := ⟨P, 1, [0, 1]⟩) (N := 1) rfl hP
    crossSeed_aligned (sourceOf_pointwise _ _ _) le_rfl rfl⟩

/-- In 3-D. -/
example (queue : Bool) (k : Kind) : ∃ (P : Particles ℝ) (Λ : FVal), mkParticles crossSeed3 = .ok P ∧
    ((⟨.analytical ⟨P, 1, [0, 1]⟩, .analytical (.fresh (some fun _ => sourceOf 3 fun x => -x)),
        .fresh k⟩ : Solver ℝ).run realEnv queue none).result = .ok (some [Λ]) ∧
    (Λ = .negInf ∨ ∃ l ≤ strainUpper 3 k 1 1 2, Λ = .fin l) := by
  obtain ⟨P, hP, -⟩ := mkParticles_3d (show crossSeed3.shape = [6 * 1, 3] from rfl)
  obtain ⟨Λ, h1, h2⟩ := C138_upper_3d (env := realEnv) (k := k) (src := .analytical ⟨P, 1, [0, 1]⟩)
    (I0 := .analytical (.fresh (some fun _ => sourceOf 3 fun x => -x))) (N := 1) ⟨rfl, rfl, rfl⟩ queue
    trivial (fun i _ => by rw [analytical_updated]) (S := fun _ => univ) (g := fun _ x => -x)
    (fun i _ => by rw [analytical_updated]; exact fun pos h1 _ => sourceOf_pointwise _ _ _ pos h1) rfl rfl
    hP rfl
    crossSeed3_aligned (fun _ _ _ _ _ _ _ => trivial) le_rfl one_ne_zero one_pos.le
    (fun _ _ x _ y _ => by rw [one_mul, neg_sub_neg, norm_sub_rev])
  exact ⟨P, Λ 0, hP, h1, h2 0 one_pos⟩

/-! ## The edge of the grid -/

/-- Uniform samples `(-1, 0)` on `[-4, 4]²`, spacing 1; the seeds around `(7/2, 0)`. -/
noncomputable def edgeFiles : MatFS ℝ := fun path =>
  if path = "v" then some fun key =>
    if key = "velocity_x" then some (listing (9 * 9) fun _ => -1)
    else if key = "velocity_y" then some (listing (9 * 9) fun _ => 0)
    else none
  else cellFiles (fun _ => 0) 1 (7 / 2) (1 / 2) path

theorem edge_samples (n : ℕ) : Samples2 edgeFiles (cellSource 1 n) (fun _ _ => ![-1, 0]) 0 9 9 (-4) 1
    (-4) 1 where
  fresh := rfl
  hnx := by norm_num
  hny := by norm_num
  lnx := by norm_num
  lny := by norm_num
  hdx := by norm_num
  hdy := by norm_num
  data := by
    intro j hj
    have hj : j < n := by simpa [cellSource] using hj
    obtain ⟨V, h1, a2, a3, a4⟩ := stack_two (9 * 9) (fun _ => (-1 : ℝ)) (fun _ => 0)
    have a1 : readVelocity edgeFiles "v" = .ok V := by
      rw [← h1]
      simp [readVelocity, loadmat, edgeFiles, readComponents]
    obtain ⟨P, h2, b2, b3, b4⟩ := stack_two (9 * 9)
      (fun i => (-4 : ℝ) + (i % 9 : ℕ)) (fun i => -4 + (i / 9 : ℕ))
    have b1 : readCoordinate edgeFiles "c" = .ok P := by
      rw [← h2]
      simp [readCoordinate, loadmat, edgeFiles, cellFiles, readComponents]
    refine ⟨V, P, ⟨⟨"v", by simp [cellSource, hj], a1⟩,
      ⟨"c", by simp [cellSource, hj], b1⟩⟩, a2, b2, ?_, ?_⟩
    · intro a ha b hb
      rw [b3, b4, Nat.add_mul_mod_self_left, Nat.mod_eq_of_lt ha,
        Nat.add_mul_div_left _ _ (by omega), Nat.div_eq_of_lt ha, Nat.zero_add, mul_one, mul_one]
      exact ⟨rfl, rfl⟩
    · intro i hi e
      fin_cases e
      · exact a3 i
      · exact a4 i

/-- All samples are equal; the value is `log 3`, more than `log 2`, the bound for the strain zero. -/
example (queue : Bool) (k : Kind) :
    ((⟨.file (cellSource 1 2), .highPerf (HighPerf.fresh [9, 9]), .fresh k⟩ : Solver ℝ).run
      { realEnv with fs := edgeFiles } queue none).result = .ok (some [.fin (Real.log 3)]) ∧
    strainUpper 2 k 0 1 2 = Real.log 2 ∧ Real.log 2 < Real.log 3 := by
  obtain ⟨seed, P, s1, s2, s3, s4⟩ := cell_seeds (fun _ => 0) 1 (7 / 2) (1 / 2)
  have hl : (cellSource 1 2).snapshotFiles.length = 2 := by simp [cellSource]
  have ht : (cellSource 1 2).timestep = 1 := by simp [cellSource]
  have h := C138_edge_fails (env := { realEnv with fs := edgeFiles }) ⟨rfl, rfl, rfl⟩ (.inl rfl) queue k
    one_pos (edge_samples 2) s1 s2
    (show readSeedParticles edgeFiles "p" = .ok P from s3) (by norm_num : (0 : ℝ) < 1 / 2)
    (fun b => congrFun s4 b) hl.ge (by rw [ht]; norm_num) (by rw [hl, ht]; norm_num) (by norm_num)
    (by norm_num) (by
      have : ((![7 / 2, 0] : Fin 2 → ℝ) 0 + 1 / 2 - -4) / 1 = (8 : ℤ) := by norm_num
      rw [this]
      simp [SafeCoord]) (by norm_num)
  rw [hl, ht] at h
  refine ⟨?_, ?_, Real.log_lt_log (by norm_num) (by norm_num)⟩
  · rw [h]
    norm_num
  · cases k <;> norm_num [strainUpper, growth]

end Verif
