import Verif.Props.OwnOrder
import Verif.Props.OneCoordinateFileExample

/-!
# C146 with the data in SciPy's order: a case
-/

namespace Verif

open Matrix

/-- The file `v`, read with the last axis fastest, holds `(0, -y)`, and `w` holds `(0, -x)`. -/
theorem unturned_samples :
    Samples2 copyFiles (pairSource ["v", "w"] ["c", "d"] false) (exchanged2 turned) 0 (8 * 20 + 1)
      (8 * 20 + 1) (-4) (1 / (20 : ℕ)) (-4) (1 / (20 : ℕ)) := by
  have hd := copy_samples (.inr rfl)
  have hw := swap_samples (fun x => -x) 0 (1 / 2) 0 (q := 20) 2 (by norm_num) (by norm_num)
  refine ⟨rfl, hd.hnx, hd.hny, hd.lnx, hd.lny, hd.hdx, hd.hdy, fun j hj => ?_⟩
  have hj : j < 2 := hj
  interval_cases j
  · obtain ⟨V, P, ⟨⟨f, f1, f2⟩, g, g1, g2⟩, a2, a3, a4, a5⟩ := hd.data 0 (by simp [pairSource])
    refine ⟨V, P, ⟨⟨f, f1, f2⟩, g, g1, g2⟩, a2, a3, a4, fun q hq c => ?_⟩
    rw [a5 q hq c]
    simp [turned, exchanged2, parallel]
  · obtain ⟨V, P, ⟨⟨f, f1, f2⟩, g, g1, g2⟩, a2, a3, a4, a5⟩ := hw.data 1 (by simp [cellSource])
    obtain rfl : "v" = f := Option.some.inj f1
    obtain rfl : "c" = g := Option.some.inj g1
    refine ⟨V, P, ⟨⟨"w", rfl, ?_⟩, "d", rfl, ?_⟩, a2, a3, a4, fun q hq c => ?_⟩
    · rw [← f2]
      simp [readVelocity, loadmat, copyFiles]
    · rw [← g2]
      simp [readCoordinate, loadmat, copyFiles, swapFiles]
    · rw [a5 q hq c]
      simp [turned, exchanged2, pairSource]

/-- Samples of `(0, -y)` for both snapshots, one coordinate file: as if the second held `(0, -x)`. -/
example (queue queue' : Bool) :
    ((⟨.file (pairSource ["v", "v"] ["c", "c"] true), .grid (GridState.fresh .linear [161, 161]),
      .fresh .euler⟩ : Solver ℝ).run { realEnv with fs := copyFiles, sp := linearSciPy } queue'
        none).result =
    ((⟨.file (pairSource ["v", "w"] ["c", "d"] false), .grid (GridState.fresh .linear [161, 161]),
      .fresh .euler⟩ : Solver ℝ).run { realEnv with fs := copyFiles, sp := linearSciPy } queue
        none).result := by
  obtain ⟨seed, P, s1, s2, s3, s4⟩ := cell_seeds (fun x => -x) 20 0 (1 / 2)
  have s3 : readSeedParticles copyFiles "p" = .ok P := by
    rw [← s3]
    simp [readSeedParticles, loadmat, copyFiles]
  have h20 : (0 : ℝ) < 1 / (20 : ℕ) := by norm_num
  have ht : (pairSource ["v", "w"] ["c", "d"] false).timestep = 1 / 20 := rfl
  have hd := samples_exchanged_2d unturned_samples
  have back : ∀ w : ℝ → (Fin 2 → ℝ) → Fin 2 → ℝ, exchanged2 (exchanged2 w) = w := by
    intro w
    funext t z
    show w t ![z 0, z 1] = w t z
    congr 1
    funext c
    fin_cases c <;> rfl
  rw [back] at hd
  have main := C146_own_order_2d_fails (env := { realEnv with fs := copyFiles, sp := linearSciPy })
    (env' := { realEnv with fs := copyFiles, sp := linearSciPy }) ⟨rfl, rfl, rfl⟩ ⟨rfl, rfl, rfl⟩
    linearSciPy_grid2 linearSciPy_grid2 queue queue' .euler hd
    (s' := pairSource ["v", "v"] ["c", "c"] true) rfl (samples_exchanged_2d (copy_samples (.inl rfl)))
    (by simp [turned])
    (fun j hj => by
      have : (0 : ℝ) + j * (1 / 20) ≠ 0 := by positivity
      simp only [ht, turned, if_neg this, back]) rfl rfl s1 s2 s3 s3 (fun i hi q j hj z hz => by
      obtain rfl : i = 0 := by omega
      have hj : j < 2 := hj
      rw [s4, ht] at hz
      have on : ∀ q, OnAxis (8 * 20 + 1) (-4) (1 / (20 : ℕ)) (cross2 ![0, 0] (1 / 2) q 0) ∧
          OnAxis (8 * 20 + 1) (-4) (1 / (20 : ℕ)) (cross2 ![0, 0] (1 / 2) q 1) := by
        intro q
        have b0 : -2 ≤ cross2 ![0, 0] (1 / 2) q 0 ∧ cross2 ![0, 0] (1 / 2) q 0 ≤ 2 ∧
            -2 ≤ cross2 ![0, 0] (1 / 2) q 1 ∧ cross2 ![0, 0] (1 / 2) q 1 ≤ 2 := by
          fin_cases q <;> norm_num [cross2]
        exact ⟨cell_axis (q := 20) (by norm_num) (by linarith) (by linarith),
          cell_axis (q := 20) (by norm_num) (by linarith) (by linarith)⟩
      simp only [stages, List.mem_singleton] at hz
      interval_cases j
      · subst hz
        exact on q
      · have e : bilinear turned (0 + (0 : ℕ) * (1 / 20)) (8 * 20 + 1) (8 * 20 + 1) (-4) (1 / (20 : ℕ)) (-4)
            (1 / (20 : ℕ)) (cross2 ![0, 0] (1 / 2) q) = squeeze *ᵥ cross2 ![0, 0] (1 / 2) q + 0 := by
          rw [← squeeze_affine 0, ← bilinear_affine squeeze_affine 0 h20 h20 (on q)]
          funext c
          simp [bilinear, turned]
        have hz' : z = fun c => cross2 ![0, 0] (1 / 2) q c + (1 / 20) *
            (squeeze *ᵥ cross2 ![0, 0] (1 / 2) q + 0) c := by
          rw [hz, ← e]
          rfl
        have b0 : -2 ≤ z 0 ∧ z 0 ≤ 2 ∧ -2 ≤ z 1 ∧ z 1 ≤ 2 := by
          rw [hz']
          fin_cases q <;> norm_num [cross2, squeeze, mulVec, dotProduct, Fin.sum_univ_two]
        exact ⟨cell_axis (q := 20) (by norm_num) (by linarith) (by linarith),
          cell_axis (q := 20) (by norm_num) (by linarith) (by linarith)⟩)
  norm_num at main
  exact main

end Verif
