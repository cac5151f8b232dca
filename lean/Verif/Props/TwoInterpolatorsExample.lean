import Verif.Props.TwoInterpolators
import Verif.Props.AffineExample
import Verif.Props.DualityExample
import Verif.Props.StrainExample
import Verif.Props.ResampleExample

/-!
# C145: cases
-/

namespace Verif

open Matrix

/-! ## A SciPy that interpolates linearly -/

/-- `RegularGridInterpolator` as `SciPy.LinearGrid2` and `SciPy.LinearGrid3` describe it; the rest is
that of `realEnv`. -/
noncomputable def linearSciPy : SciPy ℝ :=
  { realEnv.sp with
    gridBuild := fun _ _ _ => none
    gridCall := fun _ axes A q => match axes with
      | [a, b] => .ok fun r =>
          axisValue (fun j => axisValue (fun i => A.get [i, j]) (gridCoord a (q.get [r, 0])))
            (gridCoord b (q.get [r, 1]))
      | [a, b, e] => .ok fun r =>
          axisValue (fun k => axisValue (fun j => axisValue (fun i => A.get [i, j, k])
            (gridCoord a (q.get [r, 0]))) (gridCoord b (q.get [r, 1]))) (gridCoord e (q.get [r, 2]))
      | _ => .error .valueError }

theorem linearSciPy_grid2 : linearSciPy.LinearGrid2 where
  build _ _ _ _ _ _ := rfl
  call a b A q R _ _ _ _ := by
    refine ⟨_, rfl, fun r _ i j hi hj => ?_⟩
    rw [axisValue_cell _ hj.2.1 hj.2.2, axisValue_cell _ hi.2.1 hi.2.2, axisValue_cell _ hi.2.1 hi.2.2]

theorem linearSciPy_grid3 : linearSciPy.LinearGrid3 where
  build _ _ _ _ _ _ _ _ := rfl
  call a b e A q R _ _ _ _ _ := by
    refine ⟨_, rfl, fun r _ i j k hi hj hk => ?_⟩
    rw [axisValue_cell _ hk.2.1 hk.2.2, axisValue_cell _ hj.2.1 hj.2.2, axisValue_cell _ hj.2.1 hj.2.2,
      axisValue_cell _ hi.2.1 hi.2.2, axisValue_cell _ hi.2.1 hi.2.2, axisValue_cell _ hi.2.1 hi.2.2,
      axisValue_cell _ hi.2.1 hi.2.2]

/-! ## The two interpolators disagree -/

/-- The velocity `(0, -x)`. -/
def slide : Matrix (Fin 2) (Fin 2) ℝ := !![0, 0; -1, 0]

/-- The velocity `(0, -y)`. -/
def squeeze : Matrix (Fin 2) (Fin 2) ℝ := !![0, 0; 0, -1]

theorem slide_affine : IsAffine (fun _ => parallel fun x => -x) (fun _ => slide) fun _ => 0 := by
  intro t z
  funext c
  fin_cases c <;> simp [parallel, slide, dotProduct, Fin.sum_univ_two]

theorem squeeze_affine :
    IsAffine (exchanged2 fun _ => parallel fun x => -x) (fun _ => squeeze) fun _ => 0 := by
  intro t z
  funext c
  fin_cases c <;> simp [exchanged2, parallel, squeeze, dotProduct, Fin.sum_univ_two]

/-- **C145 is false of the code (2-D).**  The velocity `(0, -x)` sampled on 161 × 161 points of
`[-4, 4]²`, the same files and options in both runs, for every SciPy that interpolates linearly:
`--interpolator grid` reports a positive exponent, `--interpolator linear` reports 0. -/
theorem C145_differs_2d_fails {sp : SciPy ℝ} (hsp : sp.LinearGrid2) (queue : Bool) :
    ∃ Λ > 0,
      ((⟨.file (cellSource 20 2), .highPerf (HighPerf.fresh [161, 161]), .fresh .euler⟩ :
        Solver ℝ).run { realEnv with fs := cellFiles (fun x => -x) 20 0 (1 / 2), sp := sp } queue
          none).result = .ok (some [.fin Λ]) ∧
      ((⟨.file (cellSource 20 2), .grid (GridState.fresh .linear [161, 161]), .fresh .euler⟩ :
        Solver ℝ).run { realEnv with fs := cellFiles (fun x => -x) 20 0 (1 / 2), sp := sp } queue
          none).result = .ok (some [.fin 0]) := by
  set env : Env ℝ FVal := { realEnv with fs := cellFiles (fun x => -x) 20 0 (1 / 2), sp := sp } with henv
  have he : RealEnv env := ⟨rfl, rfl, rfl⟩
  obtain ⟨seed, P, s1, s2, s3, s4⟩ := cell_seeds (fun x => -x) 20 0 (1 / 2)
  have hd := cell_samples_of (fun x => -x) 0 (1 / 2) 0 (q := 20) 2 (by norm_num) (by norm_num)
  have hd' := samples_exchanged_2d hd
  have ht : (cellSource 20 2).timestep = 1 / 20 := by simp [cellSource]
  have hl : (cellSource 20 2).snapshotFiles.length = 2 := by simp [cellSource]
  have hal : ∀ i < 1, AxisAligned2 seed 1 i := by
    intro i hi
    obtain rfl : i = 0 := by omega
    have e : ∀ b : Fin 4, ∀ c : Fin 2, pt seed 1 b 0 c = cross2 ![0, 0] (1 / 2) b c := by
      intro b c
      rw [← s4]
      rfl
    have e10 : pt seed 1 1 0 0 = _ := e 1 0
    have e00 : pt seed 1 0 0 0 = _ := e 0 0
    have e11 : pt seed 1 1 0 1 = _ := e 1 1
    have e01 : pt seed 1 0 0 1 = _ := e 0 1
    have e21 : pt seed 1 2 0 1 = _ := e 2 1
    have e31 : pt seed 1 3 0 1 = _ := e 3 1
    have e20 : pt seed 1 2 0 0 = _ := e 2 0
    have e30 : pt seed 1 3 0 0 = _ := e 3 0
    unfold AxisAligned2
    rw [e10, e00, e11, e01, e21, e31, e20, e30]
    refine ⟨?_, rfl, ?_, rfl⟩
    · show (0 : ℝ) + 1 / 2 ≠ 0 - 1 / 2
      norm_num
    · show (0 : ℝ) + 1 / 2 ≠ 0 - 1 / 2
      norm_num
  have stay : ∀ A : Matrix (Fin 2) (Fin 2) ℝ, (A = slide ∨ A = squeeze) → ∀ i < 1, ∀ q, ∀ j < 2,
      ∀ z ∈ stages .euler (fun x => A *ᵥ x + 0) (1 / 20)
        (flowMap .euler (fun _ x => A *ᵥ x + 0) (1 / 20) j (groupOf seed 4 1 2 i q)),
      OnAxis (8 * 20 + 1) (-4) (1 / (20 : ℕ)) (z 0) ∧
        OnAxis (8 * 20 + 1) (-4) (1 / (20 : ℕ)) (z 1) := by
    intro A hA i hi q j hj z hz
    obtain rfl : i = 0 := by omega
    rw [s4] at hz
    simp only [stages, List.mem_singleton] at hz
    have b0 : -2 ≤ z 0 ∧ z 0 ≤ 2 ∧ -2 ≤ z 1 ∧ z 1 ≤ 2 := by
      subst hz
      rcases hA with rfl | rfl <;> interval_cases j <;> fin_cases q <;>
        norm_num [flowMap, rowRun, rowStep, cross2, slide, squeeze, mulVec, dotProduct,
          Fin.sum_univ_two, List.range_succ]
    exact ⟨cell_axis (q := 20) (by norm_num) (by linarith) (by linarith),
      cell_axis (q := 20) (by norm_num) (by linarith) (by linarith)⟩
  have h20 : (0 : ℝ) < 1 / (20 : ℕ) := by norm_num
  have r1 := C125_affine_2d (src := .file (cellSource 20 2)) he queue .euler
    (I0 := .highPerf (HighPerf.fresh [8 * 20 + 1, 8 * 20 + 1]))
    (by exact (rfl : (HighPerf.fresh (K := ℝ) [8 * 20 + 1, 8 * 20 + 1]).uLen = none))
    (fun i hi => (samples_updated_2d (.inl rfl) hd i hi 0).1) (N := 1) (A := fun _ => slide) (b := fun _ => 0)
    (S := fun _ => {z | OnAxis (8 * 20 + 1) (-4) (1 / (20 : ℕ)) (z 0) ∧
      OnAxis (8 * 20 + 1) (-4) (1 / (20 : ℕ)) (z 1)})
    (fun i hi => (samples_updated_2d (.inl rfl) hd i hi (4 * 1)).2.congr (fun z hz => hz) fun z hz => by
      rw [bilinear_affine slide_affine _ h20 h20 hz]
      exact slide_affine 0 z) rfl s1 s2 s3 hal (fun i hi q j hj => by
      have := stay slide (.inl rfl) i hi q j (hl ▸ hj)
      rw [show (Source.file (cellSource 20 2)).timestep = 1 / 20 from ht]
      exact this) (by rw [show (Source.file (cellSource 20 2)).numSteps = 2 from hl])
    (by rw [show (Source.file (cellSource 20 2)).timestep = 1 / 20 from ht]; norm_num)
    (M := fun n => (1 + (1 / 20 : ℝ) • slide) ^ n)
    ⟨pow_zero _, fun _ n => by
      rw [pow_succ', show (Source.file (cellSource 20 2)).timestep = 1 / 20 from ht], nofun, nofun, nofun⟩
  have r2 := C125_affine_2d (src := .file (cellSource 20 2)) he queue .euler
    (I0 := .grid (GridState.fresh .linear [8 * 20 + 1, 8 * 20 + 1])) trivial
    (fun i hi => (scipy_updated_2d (env := env) hsp hd' i hi 0).1) (N := 1) (A := fun _ => squeeze)
    (b := fun _ => 0)
    (S := fun _ => {z | OnAxis (8 * 20 + 1) (-4) (1 / (20 : ℕ)) (z 0) ∧
      OnAxis (8 * 20 + 1) (-4) (1 / (20 : ℕ)) (z 1)})
    (fun i hi => (scipy_updated_2d (env := env) hsp hd' i hi (4 * 1)).2.congr (fun z hz => hz)
      fun z hz => by
        rw [bilinear_affine squeeze_affine _ h20 h20 hz]
        exact squeeze_affine 0 z) rfl s1 s2 s3 hal (fun i hi q j hj => by
      have := stay squeeze (.inr rfl) i hi q j (hl ▸ hj)
      rw [show (Source.file (cellSource 20 2)).timestep = 1 / 20 from ht]
      exact this) (by rw [show (Source.file (cellSource 20 2)).numSteps = 2 from hl])
    (by rw [show (Source.file (cellSource 20 2)).timestep = 1 / 20 from ht]; norm_num)
    (M := fun n => (1 + (1 / 20 : ℝ) • squeeze) ^ n)
    ⟨pow_zero _, fun _ n => by
      rw [pow_succ', show (Source.file (cellSource 20 2)).timestep = 1 / 20 from ht], nofun, nofun, nofun⟩
  rw [show (Source.file (cellSource 20 2)).numSteps = 2 from hl,
    show (Source.file (cellSource 20 2)).timestep = 1 / 20 from ht] at r1 r2
  have m1 : (1 + (1 / 20 : ℝ) • slide) ^ 2 = !![1, 0; -(1 / 10), 1] := by
    ext i j
    fin_cases i <;> fin_cases j <;> norm_num [pow_two, slide, Matrix.mul_apply, Fin.sum_univ_two]
  have m2 : (1 + (1 / 20 : ℝ) • squeeze) ^ 2 = !![1, 0; 0, (19 / 20) ^ 2] := by
    ext i j
    fin_cases i <;> fin_cases j <;> norm_num [pow_two, squeeze, Matrix.mul_apply, Fin.sum_univ_two]
  rw [m1] at r1
  rw [m2] at r2
  have t1 := reportsNorm_one r1 (maxStretch_shear _) (Real.exp_pos _)
  have t2 := reportsNorm_one r2 (maxStretch_diag (by norm_num)) (by norm_num)
  refine ⟨_, ?_, t1, ?_⟩
  · rw [Real.log_exp]
    have : 0 < Real.arsinh (|(-(1 / 10) : ℝ)| / 2) := Real.arsinh_pos_iff.2 (by norm_num)
    norm_num at this ⊢
  · rw [show (0 : ℝ) = 1 / (((2 : ℕ) - 1) * |1 / 20|) * Real.log |1| by norm_num]
    exact t2

example (queue : Bool) : ∃ Λ > 0,
      ((⟨.file (cellSource 20 2), .highPerf (HighPerf.fresh [161, 161]), .fresh .euler⟩ :
        Solver ℝ).run { realEnv with fs := cellFiles (fun x => -x) 20 0 (1 / 2), sp := linearSciPy } queue
          none).result = .ok (some [.fin Λ]) ∧
      ((⟨.file (cellSource 20 2), .grid (GridState.fresh .linear [161, 161]), .fresh .euler⟩ :
        Solver ℝ).run { realEnv with fs := cellFiles (fun x => -x) 20 0 (1 / 2), sp := linearSciPy } queue
          none).result = .ok (some [.fin 0]) :=
  C145_differs_2d_fails linearSciPy_grid2 queue

/-! ## Files that list the nodes in the other order -/

/-- The files of `cellFiles` with the velocity `(0, f y)` instead of `(0, f x)`. -/
noncomputable def swapFiles (f : ℝ → ℝ) (q : ℕ) (c δ : ℝ) : MatFS ℝ := fun path =>
  if path = "v" then some fun key =>
    if key = "velocity_x" then some (listing ((8 * q + 1) * (8 * q + 1)) fun _ => 0)
    else if key = "velocity_y" then
      some (listing ((8 * q + 1) * (8 * q + 1)) fun i =>
        f (-4 + (i / (8 * q + 1) : ℕ) * (1 / (q : ℝ))))
    else none
  else cellFiles f q c δ path

theorem swap_samples (f : ℝ → ℝ) (c δ t0 : ℝ) {q : ℕ} (n : ℕ) (hq : 0 < q)
    (hl : ((8 * q + 1 : ℕ) : ℤ) < intLim) :
    Samples2 (swapFiles f q c δ) (cellSource q n) (exchanged2 fun _ => parallel f) t0 (8 * q + 1)
      (8 * q + 1) (-4) (1 / q) (-4) (1 / q) where
  fresh := rfl
  hnx := by omega
  hny := by omega
  lnx := hl
  lny := hl
  hdx := by positivity
  hdy := by positivity
  data := by
    intro j hj
    have hj : j < n := by simpa [cellSource] using hj
    obtain ⟨V, h1, a2, a3, a4⟩ := stack_two ((8 * q + 1) * (8 * q + 1)) (fun _ => (0 : ℝ))
      (fun i => f (-4 + (i / (8 * q + 1) : ℕ) * (1 / (q : ℝ))))
    have a1 : readVelocity (swapFiles f q c δ) "v" = .ok V := by
      rw [← h1]
      simp [readVelocity, loadmat, swapFiles, readComponents]
    obtain ⟨P, h2, b2, b3, b4⟩ := stack_two ((8 * q + 1) * (8 * q + 1))
      (fun i => (-4 : ℝ) + (i % (8 * q + 1) : ℕ) * (1 / (q : ℝ)))
      (fun i => -4 + (i / (8 * q + 1) : ℕ) * (1 / (q : ℝ)))
    have b1 : readCoordinate (swapFiles f q c δ) "c" = .ok P := by
      rw [← h2]
      simp [readCoordinate, loadmat, swapFiles, cellFiles, readComponents]
    refine ⟨V, P, ⟨⟨"v", by simp [cellSource, hj], a1⟩,
      ⟨"c", by simp [cellSource, hj], b1⟩⟩, a2, b2, ?_, ?_⟩
    · intro a ha b hb
      rw [b3, b4, Nat.add_mul_mod_self_left, Nat.mod_eq_of_lt ha,
        Nat.add_mul_div_left _ _ (by omega), Nat.div_eq_of_lt ha, Nat.zero_add]
      exact ⟨rfl, rfl⟩
    · intro i hi e
      fin_cases e
      · exact a3 i
      · show V.get [1, i] = f (P.get [1, i])
        rw [a4, b4]

/-- `--interpolator grid` with the velocity `(0, sin x)`, `--interpolator linear` with `(0, sin y)`. -/
example (queue queue' : Bool) (k : Kind) :
    ((⟨.file (cellSource 20 3), .grid (GridState.fresh .linear [161, 161]), .fresh k⟩ :
      Solver ℝ).run { realEnv with fs := swapFiles Real.sin 20 0 (1 / 2), sp := linearSciPy } queue'
        none).result =
    ((⟨.file (cellSource 20 3), .highPerf (HighPerf.fresh [161, 161]), .fresh k⟩ :
      Solver ℝ).run { realEnv with fs := cellFiles Real.sin 20 0 (1 / 2) } queue none).result := by
  obtain ⟨seed, P, s1, s2, s3, s4⟩ := cell_seeds Real.sin 20 0 (1 / 2)
  have s3' : readSeedParticles (swapFiles Real.sin 20 0 (1 / 2)) "p" = .ok P := s3
  have ht : (cellSource 20 3).timestep = 1 / 20 := by simp [cellSource]
  have hl : (cellSource 20 3).snapshotFiles.length = 3 := by simp [cellSource]
  have back : exchanged2 (exchanged2 fun _ => parallel Real.sin) = fun _ => parallel Real.sin := by
    funext t z
    simp [exchanged2, parallel]
  have hd := cell_samples_of Real.sin 0 (1 / 2) 0 (q := 20) 3 (by norm_num) (by norm_num)
  rw [← back] at hd
  have main := C145_one_set_2d_fails (env := { realEnv with fs := cellFiles Real.sin 20 0 (1 / 2) })
    (env' := { realEnv with fs := swapFiles Real.sin 20 0 (1 / 2), sp := linearSciPy })
    ⟨rfl, rfl, rfl⟩ ⟨rfl, rfl, rfl⟩ (.inl rfl) linearSciPy_grid2 queue queue' k hd
    (swap_samples Real.sin 0 (1 / 2) 0 (q := 20) 3 (by norm_num) (by norm_num)) rfl rfl s1 s2 s3 s3'
    fun i hi b j hj => by
      obtain rfl : i = 0 := by omega
      rw [hl] at hj
      rw [s4, ht, back]
      exact sine_stays k b hj
  norm_num at main
  exact main

/-- The files of `shearFiles3` with the velocity `(0, 0, sin y)` instead of `(0, 0, sin x)`. -/
noncomputable def swapFiles3 : MatFS ℝ := fun path =>
  if path = "v0" ∨ path = "v1" then some fun key =>
    if key = "velocity_x" then some (listing (801 * 801 * 801) fun _ => 0)
    else if key = "velocity_y" then some (listing (801 * 801 * 801) fun _ => 0)
    else if key = "velocity_z" then
      some (listing (801 * 801 * 801) fun q => Real.sin (-4 + (q / 801 / 801 : ℕ) * (1 / 100)))
    else none
  else boxFiles3 Real.sin 801 801 (1 / 100) (1 / 100) path

theorem swap3_samples : Samples3 swapFiles3 shearSource (exchanged3 fun _ => shear3) 0 801 801 (-4)
    (1 / 100) (-4) (1 / 100) (-4) (1 / 100) where
  fresh := rfl
  hm := by norm_num
  hnz := by norm_num
  lm := by norm_num
  lnz := by norm_num
  lmz := by norm_num
  hdx := by norm_num
  hdy := by norm_num
  hdz := by norm_num
  data := by
    intro j hj
    obtain ⟨V', P, ⟨-, fc, c1, b1⟩, -, b2, b3, -⟩ := (box3_data Real.sin 801 801 (1 / 100) (1 / 100) 0
      (by norm_num) (by norm_num) (by norm_num) (by norm_num) (by norm_num) (by norm_num)
      (by norm_num)).data j hj
    have hj : j < 2 := hj
    obtain ⟨fv, v1, v2⟩ : ∃ f, shearSource.snapshotFiles[j]? = some f ∧ (f = "v0" ∨ f = "v1") := by
      interval_cases j
      · exact ⟨"v0", rfl, .inl rfl⟩
      · exact ⟨"v1", rfl, .inr rfl⟩
    have c2 : fc = "c0" ∨ fc = "c1" := by
      interval_cases j
      · exact .inl (Option.some.inj c1).symm
      · exact .inr (Option.some.inj c1).symm
    obtain ⟨V, h1, a2, a3, a4, a5⟩ := stack_three (801 * 801 * 801) (fun _ => (0 : ℝ)) (fun _ => 0)
      (fun q => Real.sin (-4 + (q / 801 / 801 : ℕ) * (1 / 100)))
    have a1 : readVelocity swapFiles3 fv = .ok V := by
      rw [← h1]
      rcases v2 with rfl | rfl <;> simp [readVelocity, loadmat, swapFiles3, readComponents]
    have b1' : readCoordinate swapFiles3 fc = .ok P := by
      rw [← b1]
      rcases c2 with rfl | rfl <;> simp [readCoordinate, loadmat, swapFiles3]
    refine ⟨V, P, ⟨⟨fv, v1, a1⟩, ⟨fc, c1, b1'⟩⟩, a2, b2, b3, fun q hq c => ?_⟩
    fin_cases c
    · exact a3 q
    · exact a4 q
    · show V.get [2, q] = Real.sin (P.get [1, q])
      have e : q = (q / 801 / 801 * 801 + q / 801 % 801) * 801 + q % 801 := by omega
      have := (b3 (q / 801 % 801) (Nat.mod_lt _ (by norm_num)) (q / 801 / 801) (by omega) (q % 801)
        (Nat.mod_lt _ (by norm_num))).2.1
      rw [← e] at this
      rw [a5, this]

/-- The same in three dimensions. -/
example (queue queue' : Bool) (k : Kind) :
    ((⟨.file shearSource, .grid (GridState.fresh .linear [801, 801, 801]), .fresh k⟩ :
      Solver ℝ).run { realEnv with fs := swapFiles3, sp := linearSciPy } queue' none).result =
    ((⟨.file shearSource, .highPerf (HighPerf.fresh [801, 801, 801]), .fresh k⟩ :
      Solver ℝ).run { realEnv with fs := shearFiles3 } queue none).result := by
  obtain ⟨seed, P, s1, s2, s3, s4⟩ := shear3_seeds
  have s3' : readSeedParticles swapFiles3 "p" = .ok P := s3
  have ht : shearSource.timestep = 1 / 100 := rfl
  have hl : shearSource.snapshotFiles.length = 2 := rfl
  have back : exchanged3 (exchanged3 fun _ => shear3) = fun _ => shear3 := by
    funext t z
    simp [exchanged3, shear3]
  have hd := shear3_samples
  rw [← back] at hd
  exact C145_one_set_3d_fails (env := { realEnv with fs := shearFiles3 })
    (env' := { realEnv with fs := swapFiles3, sp := linearSciPy })
    ⟨rfl, rfl, rfl⟩ ⟨rfl, rfl, rfl⟩ (.inl rfl) linearSciPy_grid3 queue queue' k hd swap3_samples rfl rfl
    s1 s2 s3 s3' fun i hi b j hj => by
      obtain rfl : i = 0 := by omega
      rw [hl] at hj
      rw [s4, ht, back]
      exact sine3_stays k b hj

end Verif
