import Verif.Props.Resample
import Verif.Props.StrainExample

/-!
# C144: cases
-/

namespace Verif

open Matrix

/-- The values of `sin` at the nodes `-4 + a h`, joined by segments. -/
noncomputable def joined (h x : ℝ) : ℝ := axisValue (fun a => Real.sin (-4 + a * h)) ((x - -4) / h)

/-- It is not `sin`: halfway between `-4` and `-4 + h` it is the mean of the two values. -/
theorem joined_mid {h : ℝ} (hh : 0 < h) :
    joined h (-4 + h / 2) = (Real.sin (-4) + Real.sin (-4 + h)) / 2 := by
  have e : (-4 + h / 2 - -4) / h = 1 / 2 := by field_simp; ring
  unfold joined
  rw [e, axisValue_cell _ (c := 0) (by norm_num) (by norm_num)]
  simp [lerp]
  ring

theorem between2_parallel (h : ℝ) : between2 (fun _ => parallel Real.sin) (-4) h (-4) h =
    fun _ => parallel (joined h) := by
  funext t z c
  fin_cases c
  · simp [between2, parallel, axisValue, lerp]
  · simp [between2, parallel, joined, axisValue, lerp]
    ring

/-- The files of the shear flow `(0, sin x)` on 161 × 161 points, and their interpolation on
321 × 321. -/
example (queue queue' : Bool) (k : Kind) :
    ((⟨.file (cellSource 20 3), .highPerf (HighPerf.fresh [321, 321]), .fresh k⟩ :
      Solver ℝ).run { realEnv with fs := cellFiles (joined (1 / 20)) 40 0 (1 / 2) } queue' none).result =
    ((⟨.file (cellSource 20 3), .highPerf (HighPerf.fresh [161, 161]), .fresh k⟩ :
      Solver ℝ).run { realEnv with fs := cellFiles Real.sin 20 0 (1 / 2) } queue none).result := by
  obtain ⟨seed, P, s1, s2, s3, s4⟩ := cell_seeds Real.sin 20 0 (1 / 2)
  have s3' : readSeedParticles (cellFiles (joined (1 / 20)) 40 0 (1 / 2)) "p" = .ok P := s3
  have hd := cell_samples_of Real.sin 0 (1 / 2) 0 (q := 20) 3 (by norm_num) (by norm_num)
  have hf := cell_samples_of (joined (1 / 20)) 0 (1 / 2) 0 (q := 40) 3 (by norm_num) (by norm_num)
  have ht : (cellSource 20 3).timestep = 1 / 20 := by simp [cellSource]
  have hl : (cellSource 20 3).snapshotFiles.length = 3 := by simp [cellSource]
  have hf' : Samples2 (cellFiles (joined (1 / 20)) 40 0 (1 / 2)) (cellSource 20 3)
      (between2 (fun _ => parallel Real.sin) (-4) (1 / (20 : ℕ)) (-4) (1 / (20 : ℕ))) 0
      (2 * (8 * 20 + 1 - 1) + 1) (2 * (8 * 20 + 1 - 1) + 1) (-4) (1 / (20 : ℕ) / (2 : ℕ)) (-4)
      (1 / (20 : ℕ) / (2 : ℕ)) := by
    have e : (1 / (20 : ℕ) : ℝ) / (2 : ℕ) = 1 / (40 : ℕ) := by norm_num
    have e' : (1 / (20 : ℕ) : ℝ) = 1 / 20 := by norm_num
    have e'' : 2 * (8 * 20 + 1 - 1) + 1 = 8 * 40 + 1 := by norm_num
    rw [e, e', e'', between2_parallel]
    exact ⟨rfl, hf.hnx, hf.hny, hf.lnx, hf.lny, hf.hdx, hf.hdy, hf.data⟩
  have main := C144_resampled_2d (env := { realEnv with fs := cellFiles Real.sin 20 0 (1 / 2) })
    (env' := { realEnv with fs := cellFiles (joined (1 / 20)) 40 0 (1 / 2) })
    ⟨rfl, rfl, rfl⟩ ⟨rfl, rfl, rfl⟩ (.inl rfl) (.inl rfl) queue queue' k (r := 2) (r' := 2) (by norm_num)
    (by norm_num) hd hf' rfl rfl s1 s2 s3 s3' fun i hi b j hj => by
      obtain rfl : i = 0 := by omega
      rw [hl] at hj
      rw [s4, ht]
      exact sine_stays k b hj
  norm_num at main
  exact main

/-- The velocity `(0, 0, f x)` on `[-4, 4]³`. -/
noncomputable def boxFiles3 (f : ℝ → ℝ) (m nz : ℕ) (h h' : ℝ) : MatFS ℝ := fun path =>
  if path = "c0" ∨ path = "c1" then some fun key =>
    if key = "coordinate_x" then some (listing (m * m * nz) fun q => -4 + (q / nz % m : ℕ) * h)
    else if key = "coordinate_y" then some (listing (m * m * nz) fun q => -4 + (q / nz / m : ℕ) * h)
    else if key = "coordinate_z" then some (listing (m * m * nz) fun q => -4 + (q % nz : ℕ) * h')
    else none
  else if path = "v0" ∨ path = "v1" then some fun key =>
    if key = "velocity_x" then some (listing (m * m * nz) fun _ => 0)
    else if key = "velocity_y" then some (listing (m * m * nz) fun _ => 0)
    else if key = "velocity_z" then some (listing (m * m * nz) fun q => f (-4 + (q / nz % m : ℕ) * h))
    else none
  else shearFiles3 path

theorem box3_data (f : ℝ → ℝ) (m nz : ℕ) (h h' t0 : ℝ) (hm : 2 ≤ m) (hnz : 2 ≤ nz) (hh : 0 < h)
    (hh' : 0 < h') (lm : (m : ℤ) < intLim) (lnz : (nz : ℤ) < intLim) (lmz : ((m * nz : ℕ) : ℤ) < intLim) :
    Samples3 (boxFiles3 f m nz h h') shearSource (fun _ x => ![0, 0, f (x 0)]) t0 m nz (-4) h (-4) h
      (-4) h' where
  fresh := rfl
  hm := hm
  hnz := hnz
  lm := lm
  lnz := lnz
  lmz := lmz
  hdx := hh
  hdy := hh
  hdz := hh'
  data := by
    intro j hj
    have hj : j < 2 := hj
    obtain ⟨fv, v1, v2⟩ : ∃ f, shearSource.snapshotFiles[j]? = some f ∧ (f = "v0" ∨ f = "v1") := by
      interval_cases j
      · exact ⟨"v0", rfl, .inl rfl⟩
      · exact ⟨"v1", rfl, .inr rfl⟩
    obtain ⟨fc, c1, c2⟩ : ∃ f, shearSource.coordinateFiles[j]? = some f ∧ (f = "c0" ∨ f = "c1") := by
      interval_cases j
      · exact ⟨"c0", rfl, .inl rfl⟩
      · exact ⟨"c1", rfl, .inr rfl⟩
    obtain ⟨V, h1, a2, a3, a4, a5⟩ := stack_three (m * m * nz) (fun _ => (0 : ℝ)) (fun _ => 0)
      (fun q => f (-4 + (q / nz % m : ℕ) * h))
    have a1 : readVelocity (boxFiles3 f m nz h h') fv = .ok V := by
      rw [← h1]
      rcases v2 with rfl | rfl <;> simp [readVelocity, loadmat, boxFiles3, readComponents]
    obtain ⟨P, h2, b2, b3, b4, b5⟩ := stack_three (m * m * nz)
      (fun q => (-4 : ℝ) + (q / nz % m : ℕ) * h) (fun q => -4 + (q / nz / m : ℕ) * h)
      (fun q => -4 + (q % nz : ℕ) * h')
    have b1 : readCoordinate (boxFiles3 f m nz h h') fc = .ok P := by
      rw [← h2]
      rcases c2 with rfl | rfl <;> simp [readCoordinate, loadmat, boxFiles3, readComponents]
    refine ⟨V, P, ⟨⟨fv, v1, a1⟩, ⟨fc, c1, b1⟩⟩, a2, b2, ?_, ?_⟩
    · intro a ha b hb c hc
      have e1 : ((b * m + a) * nz + c) / nz = b * m + a := fold_div _ hc
      have e2 : ((b * m + a) * nz + c) % nz = c := fold_mod _ hc
      have e3 : (b * m + a) / m = b := fold_div b ha
      have e4 : (b * m + a) % m = a := fold_mod b ha
      rw [b3, b4, b5, e1, e2, e3, e4]
      exact ⟨rfl, rfl, rfl⟩
    · intro q hq c
      fin_cases c
      · exact a3 q
      · exact a4 q
      · show V.get [2, q] = f (P.get [0, q])
        rw [a5, b3]

theorem between3_shear (h h' : ℝ) : between3 (fun _ => shear3) (-4) h (-4) h (-4) h' =
    fun _ x => ![0, 0, joined h (x 0)] := by
  funext t z c
  fin_cases c
  · simp [between3, shear3, axisValue, lerp]
  · simp [between3, shear3, axisValue, lerp]
  · simp [between3, shear3, joined, axisValue, lerp]
    ring

/-- In three dimensions: 801³ points, and twice as fine in `x` and `y`. -/
example (queue queue' : Bool) (k : Kind) :
    ((⟨.file shearSource, .highPerf (HighPerf.fresh [1601, 1601, 801]), .fresh k⟩ :
      Solver ℝ).run { realEnv with fs := boxFiles3 (joined (1 / 100)) 1601 801 (1 / 200) (1 / 100) }
        queue' none).result =
    ((⟨.file shearSource, .highPerf (HighPerf.fresh [801, 801, 801]), .fresh k⟩ :
      Solver ℝ).run { realEnv with fs := shearFiles3 } queue none).result := by
  obtain ⟨seed, P, s1, s2, s3, s4⟩ := shear3_seeds
  have s3' : readSeedParticles (boxFiles3 (joined (1 / 100)) 1601 801 (1 / 200) (1 / 100)) "p" = .ok P := s3
  have hf := box3_data (joined (1 / 100)) 1601 801 (1 / 200) (1 / 100) 0 (by norm_num) (by norm_num)
    (by norm_num) (by norm_num) (by norm_num) (by norm_num) (by norm_num)
  have ht : shearSource.timestep = 1 / 100 := rfl
  have hl : shearSource.snapshotFiles.length = 2 := rfl
  have hf' : Samples3 (boxFiles3 (joined (1 / 100)) 1601 801 (1 / 200) (1 / 100)) shearSource
      (between3 (fun _ => shear3) (-4) (1 / 100) (-4) (1 / 100) (-4) (1 / 100)) 0
      (2 * (801 - 1) + 1) (1 * (801 - 1) + 1) (-4) (1 / 100 / (2 : ℕ)) (-4) (1 / 100 / (2 : ℕ)) (-4)
      (1 / 100 / (1 : ℕ)) := by
    have e : (1 / 100 : ℝ) / (2 : ℕ) = 1 / 200 := by norm_num
    have e' : (1 / 100 : ℝ) / (1 : ℕ) = 1 / 100 := by norm_num
    have e'' : 2 * (801 - 1) + 1 = 1601 := by norm_num
    have e3 : 1 * (801 - 1) + 1 = 801 := by norm_num
    rw [between3_shear, e, e', e'', e3]
    exact hf
  have main := C144_resampled_3d (env := { realEnv with fs := shearFiles3 })
    (env' := { realEnv with fs := boxFiles3 (joined (1 / 100)) 1601 801 (1 / 200) (1 / 100) })
    ⟨rfl, rfl, rfl⟩ ⟨rfl, rfl, rfl⟩ (.inl rfl) (.inl rfl) queue queue' k (r := 2) (r' := 1) (by norm_num)
    (by norm_num) shear3_samples hf' rfl rfl s1 s2 s3 s3' fun i hi b j hj => by
      obtain rfl : i = 0 := by omega
      rw [hl] at hj
      rw [s4, ht]
      exact sine3_stays k b hj
  norm_num at main
  exact main

end Verif
