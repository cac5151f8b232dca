import Verif.Props.SymmetricData
import Verif.Props.OneCoordinateFileExample

/-!
# Symmetric data: cases

The velocity `(0, -(x + y))` on 161 × 161 points of `[-4, 4]²`.
-/

namespace Verif

open Matrix

noncomputable def evenFiles : MatFS ℝ := fun path =>
  if path = "v" then some fun key =>
    if key = "velocity_x" then some (listing ((8 * 20 + 1) * (8 * 20 + 1)) fun _ => 0)
    else if key = "velocity_y" then
      some (listing ((8 * 20 + 1) * (8 * 20 + 1)) fun i =>
        -((-4 + (i % (8 * 20 + 1) : ℕ) * (1 / ((20 : ℕ) : ℝ))) +
          (-4 + (i / (8 * 20 + 1) : ℕ) * (1 / ((20 : ℕ) : ℝ)))))
    else none
  else copyFiles path

/-- The velocity `(0, -(x + y))`. -/
def even (_ : ℝ) (z : Fin 2 → ℝ) : Fin 2 → ℝ := ![0, -(z 0 + z 1)]

theorem even_symmetric (t x y : ℝ) : even t ![y, x] = even t ![x, y] := by
  funext c
  fin_cases c <;> simp [even, add_comm]

theorem even_samples {cs : List String} (hc : cs = ["c", "c"] ∨ cs = ["c", "d"]) :
    Samples2 evenFiles (pairSource ["v", "v"] cs false) even 0 (8 * 20 + 1)
      (8 * 20 + 1) (-4) (1 / (20 : ℕ)) (-4) (1 / (20 : ℕ)) := by
  have hd := copy_samples hc
  refine ⟨rfl, hd.hnx, hd.hny, hd.lnx, hd.lny, hd.hdx, hd.hdy, fun j hj => ?_⟩
  have hj : j < 2 := hj
  obtain ⟨V, h1, a2, a3, a4⟩ := stack_two ((8 * 20 + 1) * (8 * 20 + 1)) (fun _ => (0 : ℝ))
    (fun i => -((-4 + (i % (8 * 20 + 1) : ℕ) * (1 / ((20 : ℕ) : ℝ))) +
      (-4 + (i / (8 * 20 + 1) : ℕ) * (1 / ((20 : ℕ) : ℝ)))))
  have a1 : readVelocity evenFiles "v" = .ok V := by
    rw [← h1]
    simp [readVelocity, loadmat, evenFiles, readComponents]
  obtain ⟨P, h2, b2, b3, b4⟩ := stack_two ((8 * 20 + 1) * (8 * 20 + 1))
    (fun i => (-4 : ℝ) + (i % (8 * 20 + 1) : ℕ) * (1 / ((20 : ℕ) : ℝ)))
    (fun i => -4 + (i / (8 * 20 + 1) : ℕ) * (1 / ((20 : ℕ) : ℝ)))
  have b1 : ∀ e, e = "c" ∨ e = "d" → readCoordinate evenFiles e = .ok P := by
    intro e he
    rw [← h2]
    rcases he with rfl | rfl <;>
      simp [readCoordinate, loadmat, evenFiles, copyFiles, cellFiles, readComponents]
  obtain ⟨e, e1, e2⟩ : ∃ e, cs[j]? = some e ∧ (e = "c" ∨ e = "d") := by
    rcases hc with rfl | rfl <;> interval_cases j
    exacts [⟨_, rfl, .inl rfl⟩, ⟨_, rfl, .inl rfl⟩, ⟨_, rfl, .inl rfl⟩, ⟨_, rfl, .inr rfl⟩]
  refine ⟨V, P, ⟨⟨"v", ?_, a1⟩, e, e1, b1 e e2⟩, a2, b2, ?_, ?_⟩
  · show ["v", "v"][j]? = some "v"
    interval_cases j <;> rfl
  · intro a ha b hb
    rw [b3, b4, Nat.add_mul_mod_self_left, Nat.mod_eq_of_lt ha,
      Nat.add_mul_div_left _ _ (by omega), Nat.div_eq_of_lt ha, Nat.zero_add]
    exact ⟨rfl, rfl⟩
  · intro i hi c
    fin_cases c
    · exact a3 i
    · show V.get [1, i] = -(P.get [0, i] + P.get [1, i])
      rw [a4, b3, b4]

/-- The matrix of `even`. -/
def evenMat : Matrix (Fin 2) (Fin 2) ℝ := !![0, 0; -1, -1]

theorem even_affine : IsAffine even (fun _ => evenMat) fun _ => 0 := by
  intro t z
  funext c
  fin_cases c <;> simp [even, evenMat, dotProduct, Fin.sum_univ_two]
  ring

theorem even_stays {seed : NDArray ℝ} (s4 : groupOf seed 4 1 2 0 = cross2 ![0, 0] (1 / 2)) :
    ∀ i < 1, ∀ q, ∀ j : ℕ, j < 2 → ∀ z ∈ stages .euler
      (bilinear even (0 + j * (1 / 20)) (8 * 20 + 1) (8 * 20 + 1) (-4) (1 / (20 : ℕ)) (-4) (1 / (20 : ℕ)))
      (1 / 20) (flowMap .euler (fun j => bilinear even (0 + (j : ℕ) * (1 / 20)) (8 * 20 + 1) (8 * 20 + 1) (-4)
        (1 / (20 : ℕ)) (-4) (1 / (20 : ℕ))) (1 / 20) j (groupOf seed 4 1 2 i q)),
      OnAxis (8 * 20 + 1) (-4) (1 / (20 : ℕ)) (z 0) ∧ OnAxis (8 * 20 + 1) (-4) (1 / (20 : ℕ)) (z 1) := by
  intro i hi q j hj z hz
  obtain rfl : i = 0 := by omega
  have h20 : (0 : ℝ) < 1 / (20 : ℕ) := by norm_num
  rw [s4] at hz
  have on : ∀ q, OnAxis (8 * 20 + 1) (-4) (1 / (20 : ℕ)) (cross2 ![0, 0] (1 / 2) q 0) ∧
      OnAxis (8 * 20 + 1) (-4) (1 / (20 : ℕ)) (cross2 ![0, 0] (1 / 2) q 1) := by
    intro q
    have b0 : -2 ≤ cross2 ![0, 0] (1 / 2) q 0 ∧ cross2 ![0, 0] (1 / 2) q 0 ≤ 2 ∧
        -2 ≤ cross2 ![0, 0] (1 / 2) q 1 ∧ cross2 ![0, 0] (1 / 2) q 1 ≤ 2 := by
      fin_cases q <;> norm_num [cross2]
    exact ⟨cell_axis (q := 20) (by norm_num) (by linarith) (by linarith),
      cell_axis (q := 20) (by norm_num) (by linarith) (by linarith)⟩
  simp only [stages, List.mem_singleton] at hz
  interval_cases j
  · subst hz
    exact on q
  · have e : bilinear even (0 + (0 : ℕ) * (1 / 20)) (8 * 20 + 1) (8 * 20 + 1) (-4) (1 / (20 : ℕ)) (-4)
        (1 / (20 : ℕ)) (cross2 ![0, 0] (1 / 2) q) = evenMat *ᵥ cross2 ![0, 0] (1 / 2) q + 0 := by
      rw [← even_affine 0, ← bilinear_affine even_affine 0 h20 h20 (on q)]
      funext c
      simp [bilinear, even]
    have hz' : z = fun c => cross2 ![0, 0] (1 / 2) q c + (1 / 20) *
        (evenMat *ᵥ cross2 ![0, 0] (1 / 2) q + 0) c := by
      rw [hz, ← e]
      rfl
    have b0 : -2 ≤ z 0 ∧ z 0 ≤ 2 ∧ -2 ≤ z 1 ∧ z 1 ≤ 2 := by
      rw [hz']
      fin_cases q <;> norm_num [cross2, evenMat, mulVec, dotProduct, Fin.sum_univ_two]
    exact ⟨cell_axis (q := 20) (by norm_num) (by linarith) (by linarith),
      cell_axis (q := 20) (by norm_num) (by linarith) (by linarith)⟩

theorem even_seeds : ∃ (seed : NDArray ℝ) (P : Particles ℝ), seed.shape = [4 * 1, 2] ∧
    mkParticles seed = .ok P ∧ readSeedParticles evenFiles "p" = .ok P ∧
    groupOf seed 4 1 2 0 = cross2 ![0, 0] (1 / 2) := by
  obtain ⟨seed, P, s1, s2, s3, s4⟩ := cell_seeds (fun x => -x) 20 0 (1 / 2)
  refine ⟨seed, P, s1, s2, ?_, s4⟩
  rw [← s3]
  simp [readSeedParticles, loadmat, evenFiles, copyFiles]

/-- The two interpolators on the same files. -/
example (queue queue' : Bool) :
    ((⟨.file (pairSource ["v", "v"] ["c", "d"] false), .grid (GridState.fresh .linear [8 * 20 + 1, 8 * 20 + 1]),
      .fresh .euler⟩ : Solver ℝ).run { realEnv with fs := evenFiles, sp := linearSciPy } queue' none).result =
    ((⟨.file (pairSource ["v", "v"] ["c", "d"] false), .highPerf (HighPerf.fresh [8 * 20 + 1, 8 * 20 + 1]),
      .fresh .euler⟩ : Solver ℝ).run { realEnv with fs := evenFiles, sp := linearSciPy } queue
        none).result := by
  obtain ⟨seed, P, s1, s2, s3, s4⟩ := even_seeds
  exact C145_symmetric_2d_partial (env := { realEnv with fs := evenFiles, sp := linearSciPy })
    ⟨rfl, rfl, rfl⟩ (.inl rfl) linearSciPy_grid2 queue queue' .euler even_symmetric
    (even_samples (.inr rfl)) s1 s2 s3 (even_stays s4)

/-- One coordinate file and two with the same points. -/
example (queue queue' : Bool) :
    ((⟨.file (pairSource ["v", "v"] ["c", "c"] true), .grid (GridState.fresh .linear [8 * 20 + 1, 8 * 20 + 1]),
      .fresh .euler⟩ : Solver ℝ).run { realEnv with fs := evenFiles, sp := linearSciPy } queue' none).result =
    ((⟨.file (pairSource ["v", "v"] ["c", "d"] false), .grid (GridState.fresh .linear [8 * 20 + 1, 8 * 20 + 1]),
      .fresh .euler⟩ : Solver ℝ).run { realEnv with fs := evenFiles, sp := linearSciPy } queue
        none).result := by
  obtain ⟨seed, P, s1, s2, s3, s4⟩ := even_seeds
  exact C146_symmetric_2d_partial (env := { realEnv with fs := evenFiles, sp := linearSciPy })
    (env' := { realEnv with fs := evenFiles, sp := linearSciPy })
    ⟨rfl, rfl, rfl⟩ ⟨rfl, rfl, rfl⟩ linearSciPy_grid2 linearSciPy_grid2 queue queue' .euler even_symmetric
    (even_samples (.inr rfl)) rfl (even_samples (.inl rfl)) rfl rfl s1 s2 s3 s3 (even_stays s4)

/-! ## Three dimensions -/

/-- The velocity `(0, 0, x + y)`. -/
def even3 (_ : ℝ) (z : Fin 3 → ℝ) : Fin 3 → ℝ := ![0, 0, z 0 + z 1]

/-- Its files on `[-4, 4]³`, spacing `1/100`. -/
noncomputable def evenFiles3 : MatFS ℝ := fun path =>
  if path = "v0" ∨ path = "v1" then some fun key =>
    if key = "velocity_x" then some (listing (801 * 801 * 801) fun _ => 0)
    else if key = "velocity_y" then some (listing (801 * 801 * 801) fun _ => 0)
    else if key = "velocity_z" then
      some (listing (801 * 801 * 801) fun q =>
        (-4 + (q / 801 % 801 : ℕ) * (1 / 100)) + (-4 + (q / 801 / 801 : ℕ) * (1 / 100)))
    else none
  else shearFiles3 path

theorem even3_symmetric (t x y z : ℝ) : even3 t ![y, x, z] = even3 t ![x, y, z] := by
  funext c
  fin_cases c <;> simp [even3, add_comm]

theorem even3_samples : Samples3 evenFiles3 shearSource even3 0
    801 801 (-4) (1 / 100) (-4) (1 / 100) (-4) (1 / 100) where
  fresh := rfl
  hm := by norm_num
  hnz := by norm_num
  lm := by norm_num
  lnz := by norm_num
  lmz := by norm_num
  hdx := by norm_num
  hdy := by norm_num
  hdz := by norm_num
  data := by
    intro j hj
    have hj : j < 2 := hj
    obtain ⟨fv, v1, v2⟩ : ∃ f, shearSource.snapshotFiles[j]? = some f ∧ (f = "v0" ∨ f = "v1") := by
      interval_cases j
      · exact ⟨"v0", rfl, .inl rfl⟩
      · exact ⟨"v1", rfl, .inr rfl⟩
    obtain ⟨fc, c1, c2⟩ : ∃ f, shearSource.coordinateFiles[j]? = some f ∧ (f = "c0" ∨ f = "c1") := by
      interval_cases j
      · exact ⟨"c0", rfl, .inl rfl⟩
      · exact ⟨"c1", rfl, .inr rfl⟩
    obtain ⟨V, h1, a2, a3, a4, a5⟩ := stack_three (801 * 801 * 801) (fun _ => (0 : ℝ)) (fun _ => 0)
      (fun q => (-4 + (q / 801 % 801 : ℕ) * (1 / 100)) + (-4 + (q / 801 / 801 : ℕ) * (1 / 100)))
    have a1 : readVelocity evenFiles3 fv = .ok V := by
      rw [← h1]
      simp [readVelocity, loadmat, evenFiles3, v2, readComponents]
    obtain ⟨P, b1, b2, b3, b4, b5⟩ := shear3_coordinate c2
    have b1' : readCoordinate evenFiles3 fc = .ok P := by
      rw [← b1]
      rcases c2 with rfl | rfl <;> simp [readCoordinate, loadmat, evenFiles3]
    refine ⟨V, P, ⟨⟨fv, v1, a1⟩, ⟨fc, c1, b1'⟩⟩, a2, b2, ?_, ?_⟩
    · intro a ha b hb c hc
      have e1 : ((b * 801 + a) * 801 + c) / 801 = b * 801 + a := fold_div _ hc
      have e2 : ((b * 801 + a) * 801 + c) % 801 = c := fold_mod _ hc
      have e3 : (b * 801 + a) / 801 = b := fold_div b ha
      have e4 : (b * 801 + a) % 801 = a := fold_mod b ha
      rw [b3, b4, b5, e1, e2, e3, e4]
      exact ⟨rfl, rfl, rfl⟩
    · intro q hq c
      fin_cases c
      · exact a3 q
      · exact a4 q
      · show V.get [2, q] = P.get [0, q] + P.get [1, q]
        rw [a5, b3, b4]

theorem even3_affine : IsAffine even3 (fun _ => !![0, 0, 0; 0, 0, 0; 1, 1, 0]) fun _ => 0 := by
  intro t z
  funext c
  fin_cases c <;> simp [even3, dotProduct, Fin.sum_univ_three]

example (queue queue' : Bool) :
    ((⟨.file shearSource, .grid (GridState.fresh .linear [801, 801, 801]), .fresh .euler⟩ :
      Solver ℝ).run { realEnv with fs := evenFiles3, sp := linearSciPy } queue' none).result =
    ((⟨.file shearSource, .highPerf (HighPerf.fresh [801, 801, 801]), .fresh .euler⟩ :
      Solver ℝ).run { realEnv with fs := evenFiles3, sp := linearSciPy } queue none).result := by
  obtain ⟨seed, P, s1, s2, s3, s4⟩ := shear3_seeds
  have s3' : readSeedParticles evenFiles3 "p" = .ok P := by
    rw [← s3]
    simp [readSeedParticles, loadmat, evenFiles3]
  have ht : shearSource.timestep = 1 / 100 := rfl
  have hl : shearSource.snapshotFiles.length = 2 := rfl
  have h100 : (0 : ℝ) < 1 / 100 := by norm_num
  exact C145_symmetric_3d_partial (env := { realEnv with fs := evenFiles3, sp := linearSciPy })
    ⟨rfl, rfl, rfl⟩ (.inl rfl) linearSciPy_grid3 queue queue' .euler even3_symmetric even3_samples
    s1 s2 s3' fun i hi b j hj z hz => by
      obtain rfl : i = 0 := by omega
      rw [hl] at hj
      rw [s4, ht] at hz
      have hx0 : -1 ≤ cross3 0 1 b 0 ∧ cross3 0 1 b 0 ≤ 1 := by fin_cases b <;> norm_num [cross3]
      have hx1 : -1 ≤ cross3 0 1 b 1 ∧ cross3 0 1 b 1 ≤ 1 := by fin_cases b <;> norm_num [cross3]
      have hx2 : -1 ≤ cross3 0 1 b 2 ∧ cross3 0 1 b 2 ≤ 1 := by fin_cases b <;> simp [cross3]
      generalize cross3 0 1 b = x at hx0 hx1 hx2 hz
      have on : OnAxis 801 (-4) (1 / 100) (x 0) ∧ OnAxis 801 (-4) (1 / 100) (x 1) ∧
          OnAxis 801 (-4) (1 / 100) (x 2) :=
        ⟨fine_axis (by linarith) (by linarith), fine_axis (by linarith) (by linarith),
          fine_axis (by linarith) (by linarith)⟩
      simp only [stages, List.mem_singleton] at hz
      interval_cases j
      · subst hz
        exact on
      · have hz' : z = fun c => x c + (1 / 100) * even3 (0 + (0 : ℕ) * (1 / 100)) x c := by
          rw [hz, ← trilinear_affine even3_affine _ h100 h100 h100 on]
          rfl
        have z0 : z 0 = x 0 := by simp [hz', even3]
        have z1 : z 1 = x 1 := by simp [hz', even3]
        have z2 : z 2 = x 2 + 1 / 100 * (x 0 + x 1) := by simp [hz', even3]
        rw [z0, z1, z2]
        exact ⟨on.1, on.2.1, fine_axis (by linarith) (by linarith)⟩

end Verif
