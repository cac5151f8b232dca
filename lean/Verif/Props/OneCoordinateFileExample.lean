import Verif.Props.OneCoordinateFile
import Verif.Props.TwoInterpolatorsExample

/-!
# C146: cases
-/

namespace Verif

open Matrix

/-- The files of the velocity `(0, -x)`, a copy `d` of the coordinates `c`, and a file `w` of the velocity
`(0, -y)`. -/
noncomputable def copyFiles : MatFS ℝ := fun path =>
  if path = "d" then cellFiles (fun x => -x) 20 0 (1 / 2) "c"
  else if path = "w" then swapFiles (fun x => -x) 20 0 (1 / 2) "v"
  else cellFiles (fun x => -x) 20 0 (1 / 2) path

/-- Two snapshots with the coordinates `cs`. -/
noncomputable def pairSource (vs cs : List String) (reuse : Bool) : FileSource ℝ :=
  ⟨vs, cs, "p", 1 / 20, "v", reuse⟩

example : FileSource.create id ["v", "v"] ["c", "c"] "p" (1 / 20 : ℝ) =
    .ok (pairSource ["v", "v"] ["c", "c"] true) := rfl

example : FileSource.create id ["v", "v"] ["c", "d"] "p" (1 / 20 : ℝ) =
    .ok (pairSource ["v", "v"] ["c", "d"] false) := rfl

theorem copy_coordinates {f : String} (h : f = "c" ∨ f = "d") :
    readCoordinate copyFiles f = readCoordinate (cellFiles (fun x => -x) 20 0 (1 / 2)) "c" := by
  rcases h with rfl | rfl <;> simp [readCoordinate, loadmat, copyFiles]

theorem copy_samples {cs : List String} (hc : cs = ["c", "c"] ∨ cs = ["c", "d"]) :
    Samples2 copyFiles (pairSource ["v", "v"] cs false) (fun _ => parallel fun x => -x) 0 (8 * 20 + 1)
      (8 * 20 + 1) (-4) (1 / (20 : ℕ)) (-4) (1 / (20 : ℕ)) := by
  have hd := cell_samples_of (fun x => -x) 0 (1 / 2) 0 (q := 20) 2 (by norm_num) (by norm_num)
  refine ⟨rfl, hd.hnx, hd.hny, hd.lnx, hd.lny, hd.hdx, hd.hdy, fun j hj => ?_⟩
  have hj : j < 2 := hj
  obtain ⟨V, P, ⟨⟨f, f1, f2⟩, g, g1, g2⟩, a2, a3, a4, a5⟩ := hd.data j (by simpa [cellSource] using hj)
  have hf : f = "v" := by
    interval_cases j <;> exact (Option.some.inj f1).symm
  have hg : g = "c" := by
    interval_cases j <;> exact (Option.some.inj g1).symm
  subst hf hg
  obtain ⟨e, e1, e2⟩ : ∃ e, cs[j]? = some e ∧ (e = "c" ∨ e = "d") := by
    rcases hc with rfl | rfl <;> interval_cases j
    exacts [⟨_, rfl, .inl rfl⟩, ⟨_, rfl, .inl rfl⟩, ⟨_, rfl, .inl rfl⟩, ⟨_, rfl, .inr rfl⟩]
  refine ⟨V, P, ⟨⟨"v", ?_, ?_⟩, e, e1, (copy_coordinates e2).trans g2⟩, a2, a3, a4, fun q hq c => a5 q hq c⟩
  · show ["v", "v"][j]? = some "v"
    interval_cases j <;> rfl
  · rw [← f2]
    simp [readVelocity, loadmat, copyFiles]

theorem pair_aligned {seed : NDArray ℝ} (s4 : groupOf seed 4 1 2 0 = cross2 ![0, 0] (1 / 2)) :
    ∀ i < 1, AxisAligned2 seed 1 i := by
  intro i hi
  obtain rfl : i = 0 := by omega
  have e : ∀ b : Fin 4, ∀ c : Fin 2, pt seed 1 b 0 c = cross2 ![0, 0] (1 / 2) b c := by
    intro b c
    rw [← s4]
    rfl
  have e10 : pt seed 1 1 0 0 = _ := e 1 0
  have e00 : pt seed 1 0 0 0 = _ := e 0 0
  have e11 : pt seed 1 1 0 1 = _ := e 1 1
  have e01 : pt seed 1 0 0 1 = _ := e 0 1
  have e21 : pt seed 1 2 0 1 = _ := e 2 1
  have e31 : pt seed 1 3 0 1 = _ := e 3 1
  have e20 : pt seed 1 2 0 0 = _ := e 2 0
  have e30 : pt seed 1 3 0 0 = _ := e 3 0
  unfold AxisAligned2
  rw [e10, e00, e11, e01, e21, e31, e20, e30]
  refine ⟨?_, rfl, ?_, rfl⟩
  · show (0 : ℝ) + 1 / 2 ≠ 0 - 1 / 2
    norm_num
  · show (0 : ℝ) + 1 / 2 ≠ 0 - 1 / 2
    norm_num

/-- Two Euler steps in a linear flow starting with `A = squeeze`. -/
theorem pair_stays {seed : NDArray ℝ} (s4 : groupOf seed 4 1 2 0 = cross2 ![0, 0] (1 / 2))
    {A : ℕ → Matrix (Fin 2) (Fin 2) ℝ} (hA : A 0 = squeeze) : ∀ i < 1, ∀ q, ∀ j < 2,
      ∀ z ∈ stages .euler (fun x => A j *ᵥ x + 0) (1 / 20)
        (flowMap .euler (fun j x => A j *ᵥ x + 0) (1 / 20) j (groupOf seed 4 1 2 i q)),
      OnAxis (8 * 20 + 1) (-4) (1 / (20 : ℕ)) (z 0) ∧
        OnAxis (8 * 20 + 1) (-4) (1 / (20 : ℕ)) (z 1) := by
  intro i hi q j hj z hz
  obtain rfl : i = 0 := by omega
  rw [s4] at hz
  simp only [stages, List.mem_singleton] at hz
  have b0 : -2 ≤ z 0 ∧ z 0 ≤ 2 ∧ -2 ≤ z 1 ∧ z 1 ≤ 2 := by
    subst hz
    interval_cases j <;> fin_cases q <;>
      norm_num [flowMap, rowRun, rowStep, cross2, hA, squeeze, mulVec, dotProduct, Fin.sum_univ_two,
        List.range_succ]
  exact ⟨cell_axis (q := 20) (by norm_num) (by linarith) (by linarith),
    cell_axis (q := 20) (by norm_num) (by linarith) (by linarith)⟩

/-- **C146 is false of the code (2-D).**  The velocity `(0, -x)`, `--interpolator linear`, for every SciPy
that interpolates linearly: with one coordinate file for both snapshots the exponent is positive, with a
copy of this file for the second snapshot it is 0. -/
theorem C146_differs_2d_fails {sp : SciPy ℝ} (hsp : sp.LinearGrid2) (queue : Bool) :
    ∃ Λ > 0,
      ((⟨.file (pairSource ["v", "v"] ["c", "c"] true), .grid (GridState.fresh .linear [161, 161]),
        .fresh .euler⟩ : Solver ℝ).run { realEnv with fs := copyFiles, sp := sp } queue none).result =
          .ok (some [.fin Λ]) ∧
      ((⟨.file (pairSource ["v", "v"] ["c", "d"] false), .grid (GridState.fresh .linear [161, 161]),
        .fresh .euler⟩ : Solver ℝ).run { realEnv with fs := copyFiles, sp := sp } queue none).result =
          .ok (some [.fin 0]) := by
  set env : Env ℝ FVal := { realEnv with fs := copyFiles, sp := sp } with henv
  have he : RealEnv env := ⟨rfl, rfl, rfl⟩
  obtain ⟨seed, P, s1, s2, s3, s4⟩ := cell_seeds (fun x => -x) 20 0 (1 / 2)
  have s3 : readSeedParticles copyFiles "p" = .ok P := by
    rw [← s3]
    simp [readSeedParticles, loadmat, copyFiles]
  have hd1 := copy_samples (.inl rfl)
  have hd2 := samples_exchanged_2d (copy_samples (.inr rfl))
  have hal := pair_aligned s4
  have h20 : (0 : ℝ) < 1 / (20 : ℕ) := by norm_num
  have r1 := C125_affine_2d (src := .file (pairSource ["v", "v"] ["c", "c"] true)) he queue .euler
    (I0 := .grid (GridState.fresh .linear [8 * 20 + 1, 8 * 20 + 1])) trivial
    (fun i hi => (samples_mixed_2d (env := env) hsp rfl hd1 i hi 0).1) (N := 1)
    (A := fun j => if j = 0 then squeeze else slide) (b := fun _ => 0)
    (S := fun _ => {z | OnAxis (8 * 20 + 1) (-4) (1 / (20 : ℕ)) (z 0) ∧
      OnAxis (8 * 20 + 1) (-4) (1 / (20 : ℕ)) (z 1)})
    (fun i hi => (samples_mixed_2d (env := env) hsp rfl hd1 i hi (4 * 1)).2.congr (fun z hz => hz)
      fun z hz => by
        by_cases h0 : i = 0
        · rw [if_pos h0, bilinear_affine squeeze_affine _ h20 h20 hz]
          simp only [if_pos h0]
          exact squeeze_affine 0 z
        · rw [if_neg h0, bilinear_affine slide_affine _ h20 h20 hz]
          simp only [if_neg h0]
          exact slide_affine 0 z) rfl s1 s2 s3 hal
    (pair_stays s4 rfl) (le_refl 2) (by show (1 / 20 : ℝ) ≠ 0; norm_num)
    (M := fun n => if n = 0 then 1 else (1 + (1 / 20 : ℝ) • slide) ^ (n - 1) *
      (1 + (1 / 20 : ℝ) • squeeze))
    ⟨rfl, fun _ n => by
      show _ = (1 + (1 / 20 : ℝ) • _) * _
      rcases n with _ | n
      · simp
      · simp [pow_succ', Matrix.mul_assoc], nofun, nofun, nofun⟩
  have r2 := C125_affine_2d (src := .file (pairSource ["v", "v"] ["c", "d"] false)) he queue .euler
    (I0 := .grid (GridState.fresh .linear [8 * 20 + 1, 8 * 20 + 1])) trivial
    (fun i hi => (scipy_updated_2d (env := env) hsp hd2 i hi 0).1) (N := 1) (A := fun _ => squeeze)
    (b := fun _ => 0)
    (S := fun _ => {z | OnAxis (8 * 20 + 1) (-4) (1 / (20 : ℕ)) (z 0) ∧
      OnAxis (8 * 20 + 1) (-4) (1 / (20 : ℕ)) (z 1)})
    (fun i hi => (scipy_updated_2d (env := env) hsp hd2 i hi (4 * 1)).2.congr (fun z hz => hz)
      fun z hz => by
        rw [bilinear_affine squeeze_affine _ h20 h20 hz]
        exact squeeze_affine 0 z) rfl s1 s2 s3 hal
    (pair_stays s4 rfl) (le_refl 2) (by show (1 / 20 : ℝ) ≠ 0; norm_num)
    (M := fun n => (1 + (1 / 20 : ℝ) • squeeze) ^ n)
    ⟨pow_zero _, fun _ n => by
      rw [pow_succ']
      rfl, nofun, nofun, nofun⟩
  rw [show (Source.file (pairSource ["v", "v"] ["c", "c"] true)).numSteps = 2 from rfl,
    show (Source.file (pairSource ["v", "v"] ["c", "c"] true)).timestep = 1 / 20 from rfl] at r1
  rw [show (Source.file (pairSource ["v", "v"] ["c", "d"] false)).numSteps = 2 from rfl,
    show (Source.file (pairSource ["v", "v"] ["c", "d"] false)).timestep = 1 / 20 from rfl] at r2
  have m1 : (if (2 : ℕ) = 0 then 1 else (1 + (1 / 20 : ℝ) • slide) ^ (2 - 1) *
      (1 + (1 / 20 : ℝ) • squeeze)) = !![1, 0; -(1 / 20), 19 / 20] := by
    ext i j
    fin_cases i <;> fin_cases j <;> norm_num [slide, squeeze, Matrix.mul_apply, Fin.sum_univ_two]
  have m2 : (1 + (1 / 20 : ℝ) • squeeze) ^ 2 = !![1, 0; 0, (19 / 20) ^ 2] := by
    ext i j
    fin_cases i <;> fin_cases j <;> norm_num [pow_two, squeeze, Matrix.mul_apply, Fin.sum_univ_two]
  rw [m1] at r1
  rw [m2] at r2
  obtain ⟨σ, q1, q2, -⟩ := r1
  have gt : 1 < σ := by
    have hle := q1.2 ⟨![1, 0], by simp [len, dotProduct, Fin.sum_univ_two], rfl⟩
    refine lt_of_lt_of_le ?_ hle
    rw [len, Real.lt_sqrt (by norm_num)]
    norm_num [mulVec, dotProduct, Fin.sum_univ_two]
  obtain ⟨-, t1⟩ := q2 fun h => by
    have := congrFun (congrFun h 0) 0
    norm_num at this
  have t2 := reportsNorm_one r2 (maxStretch_diag (by norm_num)) (by norm_num)
  refine ⟨_, ?_, t1, ?_⟩
  · have : 0 < Real.log σ := Real.log_pos gt
    norm_num
    exact this
  · rw [show (0 : ℝ) = 1 / (((2 : ℕ) - 1) * |1 / 20|) * Real.log |1| by norm_num]
    exact t2

example (queue : Bool) := C146_differs_2d_fails linearSciPy_grid2 queue

/-- Samples of `(0, -y)` at time 0 and of `(0, -x)` afterwards. -/
noncomputable def turned (t : ℝ) : (Fin 2 → ℝ) → Fin 2 → ℝ :=
  if t = 0 then exchanged2 (fun _ => parallel fun x => -x) 0 else parallel fun x => -x

theorem turned_samples :
    Samples2 copyFiles (pairSource ["w", "v"] ["c", "d"] false) turned 0 (8 * 20 + 1)
      (8 * 20 + 1) (-4) (1 / (20 : ℕ)) (-4) (1 / (20 : ℕ)) := by
  have hd := copy_samples (.inr rfl)
  have hw := swap_samples (fun x => -x) 0 (1 / 2) 0 (q := 20) 2 (by norm_num) (by norm_num)
  refine ⟨rfl, hd.hnx, hd.hny, hd.lnx, hd.lny, hd.hdx, hd.hdy, fun j hj => ?_⟩
  have hj : j < 2 := hj
  interval_cases j
  · obtain ⟨V, P, ⟨⟨f, f1, f2⟩, g, g1, g2⟩, a2, a3, a4, a5⟩ := hw.data 0 (by simp [cellSource])
    obtain rfl : "v" = f := Option.some.inj f1
    obtain rfl : "c" = g := Option.some.inj g1
    refine ⟨V, P, ⟨⟨"w", rfl, ?_⟩, "c", rfl, ?_⟩, a2, a3, a4, fun q hq c => ?_⟩
    · rw [← f2]
      simp [readVelocity, loadmat, copyFiles]
    · rw [← g2]
      simp [readCoordinate, loadmat, copyFiles, swapFiles]
    · rw [a5 q hq c]
      simp [turned, exchanged2]
  · obtain ⟨V, P, ⟨⟨f, f1, f2⟩, g, g1, g2⟩, a2, a3, a4, a5⟩ := hd.data 1 (by simp [pairSource])
    refine ⟨V, P, ⟨⟨f, f1, f2⟩, g, g1, g2⟩, a2, a3, a4, fun q hq c => ?_⟩
    rw [a5 q hq c]
    simp [turned, pairSource]

/-- The case of `C146_differs_2d_fails` with one coordinate file, and the files with the exchange that it
amounts to. -/
example (queue queue' : Bool) :
    ((⟨.file (pairSource ["v", "v"] ["c", "c"] true), .grid (GridState.fresh .linear [161, 161]),
      .fresh .euler⟩ : Solver ℝ).run { realEnv with fs := copyFiles, sp := linearSciPy } queue'
        none).result =
    ((⟨.file (pairSource ["w", "v"] ["c", "d"] false), .highPerf (HighPerf.fresh [161, 161]),
      .fresh .euler⟩ : Solver ℝ).run { realEnv with fs := copyFiles } queue none).result := by
  obtain ⟨seed, P, s1, s2, s3, s4⟩ := cell_seeds (fun x => -x) 20 0 (1 / 2)
  have s3 : readSeedParticles copyFiles "p" = .ok P := by
    rw [← s3]
    simp [readSeedParticles, loadmat, copyFiles]
  have h20 : (0 : ℝ) < 1 / (20 : ℕ) := by norm_num
  have ht : (pairSource ["w", "v"] ["c", "d"] false).timestep = 1 / 20 := rfl
  have main := C146_mixed_2d_fails (env := { realEnv with fs := copyFiles })
    (env' := { realEnv with fs := copyFiles, sp := linearSciPy }) ⟨rfl, rfl, rfl⟩ ⟨rfl, rfl, rfl⟩
    (.inl rfl) linearSciPy_grid2 queue queue' .euler turned_samples
    (s' := pairSource ["v", "v"] ["c", "c"] true) rfl (copy_samples (.inl rfl)) (by simp [turned])
    (fun j hj => by
      have : (0 : ℝ) + j * (1 / 20) ≠ 0 := by positivity
      simp only [ht, turned, if_neg this]) rfl rfl s1 s2 s3 s3 (fun i hi q j hj z hz => by
      obtain rfl : i = 0 := by omega
      have hj : j < 2 := hj
      rw [s4, ht] at hz
      have on : ∀ q, OnAxis (8 * 20 + 1) (-4) (1 / (20 : ℕ)) (cross2 ![0, 0] (1 / 2) q 0) ∧
          OnAxis (8 * 20 + 1) (-4) (1 / (20 : ℕ)) (cross2 ![0, 0] (1 / 2) q 1) := by
        intro q
        have b0 : -2 ≤ cross2 ![0, 0] (1 / 2) q 0 ∧ cross2 ![0, 0] (1 / 2) q 0 ≤ 2 ∧
            -2 ≤ cross2 ![0, 0] (1 / 2) q 1 ∧ cross2 ![0, 0] (1 / 2) q 1 ≤ 2 := by
          fin_cases q <;> norm_num [cross2]
        exact ⟨cell_axis (q := 20) (by norm_num) (by linarith) (by linarith),
          cell_axis (q := 20) (by norm_num) (by linarith) (by linarith)⟩
      simp only [stages, List.mem_singleton] at hz
      interval_cases j
      · subst hz
        exact on q
      · have e : bilinear turned (0 + (0 : ℕ) * (1 / 20)) (8 * 20 + 1) (8 * 20 + 1) (-4) (1 / (20 : ℕ)) (-4)
            (1 / (20 : ℕ)) (cross2 ![0, 0] (1 / 2) q) = squeeze *ᵥ cross2 ![0, 0] (1 / 2) q + 0 := by
          rw [← squeeze_affine 0, ← bilinear_affine squeeze_affine 0 h20 h20 (on q)]
          funext c
          simp [bilinear, turned]
        have hz' : z = fun c => cross2 ![0, 0] (1 / 2) q c + (1 / 20) *
            (squeeze *ᵥ cross2 ![0, 0] (1 / 2) q + 0) c := by
          rw [hz, ← e]
          rfl
        have b0 : -2 ≤ z 0 ∧ z 0 ≤ 2 ∧ -2 ≤ z 1 ∧ z 1 ≤ 2 := by
          rw [hz']
          fin_cases q <;> norm_num [cross2, squeeze, mulVec, dotProduct, Fin.sum_univ_two]
        exact ⟨cell_axis (q := 20) (by norm_num) (by linarith) (by linarith),
          cell_axis (q := 20) (by norm_num) (by linarith) (by linarith)⟩)
  norm_num at main
  exact main

/-- `shearSource` with one coordinate file. -/
noncomputable def onceSource : FileSource ℝ :=
  { shearSource with coordinateFiles := ["c0", "c0"], reuseCoordinates := true }

/-- Three dimensions: one coordinate file, or two with the same points. -/
example (queue queue' : Bool) (k : Kind) :
    ((⟨.file onceSource, .grid (GridState.fresh .linear [801, 801, 801]), .fresh k⟩ :
      Solver ℝ).run { realEnv with fs := swapFiles3, sp := linearSciPy } queue' none).result =
    ((⟨.file shearSource, .grid (GridState.fresh .linear [801, 801, 801]), .fresh k⟩ :
      Solver ℝ).run { realEnv with fs := swapFiles3, sp := linearSciPy } queue none).result := by
  obtain ⟨seed, P, s1, s2, s3, s4⟩ := shear3_seeds
  have s3' : readSeedParticles swapFiles3 "p" = .ok P := s3
  have ht : shearSource.timestep = 1 / 100 := rfl
  have hl : shearSource.snapshotFiles.length = 2 := rfl
  have back : exchanged3 (exchanged3 fun _ => shear3) = fun _ => shear3 := by
    funext t z
    simp [exchanged3, shear3]
  have hd := samples_exchanged_3d swap3_samples
  rw [back] at hd
  have hd' : NodeValues3 swapFiles3 { onceSource with reuseCoordinates := false } (fun _ => shear3) 0 801
      801 801 (-4) (1 / 100) (-4) (1 / 100) (-4) (1 / 100) := by
    refine ⟨rfl, hd.hnx, hd.hny, hd.hnz, hd.hdx, hd.hdy, hd.hdz, fun j hj => ?_⟩
    obtain ⟨V, P, ⟨f1, g, g1, g2⟩, a2, a3⟩ := hd.data j hj
    have hj : j < 2 := hj
    refine ⟨V, P, ⟨f1, "c0", ?_, ?_⟩, a2, a3⟩
    · show ["c0", "c0"][j]? = some "c0"
      interval_cases j <;> rfl
    · rw [← g2]
      interval_cases j
      · obtain rfl : "c0" = g := Option.some.inj g1
        rfl
      · obtain rfl : "c1" = g := Option.some.inj g1
        simp [readCoordinate, loadmat, swapFiles3, boxFiles3]
  exact C146_space_partial (env := { realEnv with fs := swapFiles3, sp := linearSciPy })
    (env' := { realEnv with fs := swapFiles3, sp := linearSciPy })
    ⟨rfl, rfl, rfl⟩ ⟨rfl, rfl, rfl⟩ linearSciPy_grid3 linearSciPy_grid3 queue queue' k hd rfl hd' rfl rfl
    s1 s2 s3' s3' fun i hi b j hj => by
      obtain rfl : i = 0 := by omega
      rw [hl] at hj
      rw [s4, ht]
      exact sine3_stays k b hj (t := fun j => 0 + (j : ℕ) * (1 / 100))

end Verif
