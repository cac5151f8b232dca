import Verif.Props.Duality
import Verif.Props.GridErrorExample

/-!
# C125, C126: cases

The flow `(t x, -t y)` sampled on the square `[-4, 4]²` with spacing 1, at the times 0 and 1; four seeds
at distance 1 from the origin.
-/

namespace Verif

open Matrix Set

/-- Stretching along `x`, growing with time. -/
noncomputable def pump (t : ℝ) (x : Fin 2 → ℝ) : Fin 2 → ℝ := ![t * x 0, -t * x 1]

noncomputable def pumpMat (t : ℝ) : Matrix (Fin 2) (Fin 2) ℝ := !![t, 0; 0, -t]

theorem pump_affine : IsAffine pump pumpMat (fun _ => 0) := by
  intro t x
  funext c
  fin_cases c <;> simp [pump, pumpMat, mulVec, dotProduct, Fin.sum_univ_two]

theorem pump_trace (t : ℝ) : (pumpMat t).trace = 0 := by simp [pumpMat, trace_fin_two]

noncomputable def pumpField (t : ℝ) : String → Option (NDArray ℝ) := fun key =>
  if key = "velocity_x" then some (listing (9 * 9) fun q => t * (-4 + (q % 9 : ℕ) * 1))
  else if key = "velocity_y" then some (listing (9 * 9) fun q => -t * (-4 + (q / 9 : ℕ) * 1))
  else none

noncomputable def pumpFiles : MatFS ℝ := fun path =>
  if path = "c" then some fun key =>
    if key = "coordinate_x" then some (listing (9 * 9) fun q => -4 + (q % 9 : ℕ) * 1)
    else if key = "coordinate_y" then some (listing (9 * 9) fun q => -4 + (q / 9 : ℕ) * 1)
    else none
  else if path = "v0" then some (pumpField 0)
  else if path = "v1" then some (pumpField 1)
  else if path = "p" then some fun key =>
    if key = "left" then some (seedBlock 0 (-1))
    else if key = "right" then some (seedBlock 0 1)
    else if key = "top" then some (seedBlock 1 1)
    else if key = "bottom" then some (seedBlock 1 (-1))
    else none
  else none

noncomputable def pumpEnv : Env ℝ FVal := { realEnv with fs := pumpFiles }

noncomputable def pumpForward : FileSource ℝ := ⟨["v0", "v1"], ["c", "c"], "p", 1, "v0", false⟩

noncomputable def pumpBackward : FileSource ℝ := ⟨["v1", "v0"], ["c", "c"], "p", -1, "v1", false⟩

theorem pump_velocity {f : String} {t : ℝ} (hf : f = "v0" ∧ t = 0 ∨ f = "v1" ∧ t = 1) :
    ∃ V, readVelocity pumpFiles f = .ok V ∧ V.shape = [2, 9 * 9] ∧
      (∀ q : ℕ, V.get [0, q] = t * (-4 + (q % 9 : ℕ) * 1)) ∧
      ∀ q : ℕ, V.get [1, q] = -t * (-4 + (q / 9 : ℕ) * 1) := by
  obtain ⟨V, h1, h2, h3, h4⟩ := stack_two (9 * 9) (fun q => t * (-4 + (q % 9 : ℕ) * (1 : ℝ)))
    (fun q => -t * (-4 + (q / 9 : ℕ) * 1))
  refine ⟨V, ?_, h2, h3, h4⟩
  rw [← h1]
  rcases hf with ⟨rfl, rfl⟩ | ⟨rfl, rfl⟩ <;>
    simp [readVelocity, loadmat, pumpFiles, pumpField, readComponents]

theorem pump_coordinate :
    ∃ V, readCoordinate pumpFiles "c" = .ok V ∧ V.shape = [2, 9 * 9] ∧
      (∀ q : ℕ, V.get [0, q] = -4 + (q % 9 : ℕ) * 1) ∧
      ∀ q : ℕ, V.get [1, q] = -4 + (q / 9 : ℕ) * 1 := by
  obtain ⟨V, h1, h2, h3, h4⟩ := stack_two (9 * 9)
    (fun q => (-4 : ℝ) + (q % 9 : ℕ) * 1) (fun q => -4 + (q / 9 : ℕ) * 1)
  refine ⟨V, ?_, h2, h3, h4⟩
  rw [← h1]
  simp [readCoordinate, loadmat, pumpFiles, readComponents]

theorem pump_samples {s : FileSource ℝ} {t0 : ℝ} (hc : s.coordinateFiles = ["c", "c"])
    (hr : s.reuseCoordinates = false) (hl : s.snapshotFiles.length = 2)
    (hs : ∀ j < 2, ∃ f, s.snapshotFiles[j]? = some f ∧
      (f = "v0" ∧ t0 + (j : ℕ) * s.timestep = 0 ∨ f = "v1" ∧ t0 + (j : ℕ) * s.timestep = 1)) :
    Samples2 pumpFiles s pump t0 9 9 (-4) 1 (-4) 1 where
  fresh := hr
  hnx := by norm_num
  hny := by norm_num
  lnx := by norm_num
  lny := by norm_num
  hdx := by norm_num
  hdy := by norm_num
  data := by
    intro j hj
    rw [hl] at hj
    obtain ⟨fv, v1, v2⟩ := hs j hj
    have c1 : s.coordinateFiles[j]? = some "c" := by
      rw [hc]
      interval_cases j <;> rfl
    obtain ⟨V, a1, a2, a3, a4⟩ := pump_velocity v2
    obtain ⟨P, b1, b2, b3, b4⟩ := pump_coordinate
    refine ⟨V, P, ⟨⟨fv, v1, a1⟩, ⟨"c", c1, b1⟩⟩, a2, b2, ?_, ?_⟩
    · intro a ha b hb
      rw [b3, b4, Nat.add_mul_mod_self_left, Nat.mod_eq_of_lt ha,
        Nat.add_mul_div_left _ _ (by norm_num), Nat.div_eq_of_lt ha, Nat.zero_add]
      exact ⟨rfl, rfl⟩
    · intro q hq c
      fin_cases c
      · show V.get [0, q] = _ * P.get [0, q]
        rw [a3, b3]
      · show V.get [1, q] = -_ * P.get [1, q]
        rw [a4, b4]

theorem pump_forward : Samples2 pumpFiles pumpForward pump 0 9 9 (-4) 1 (-4) 1 :=
  pump_samples rfl rfl rfl fun j hj => by
    interval_cases j
    · exact ⟨"v0", rfl, .inl ⟨rfl, by simp [pumpForward]⟩⟩
    · exact ⟨"v1", rfl, .inr ⟨rfl, by simp [pumpForward]⟩⟩

theorem pump_backward : Samples2 pumpFiles pumpBackward pump 1 9 9 (-4) 1 (-4) 1 :=
  pump_samples rfl rfl rfl fun j hj => by
    interval_cases j
    · exact ⟨"v1", rfl, .inr ⟨rfl, by simp [pumpBackward]⟩⟩
    · exact ⟨"v0", rfl, .inl ⟨rfl, by simp [pumpBackward]⟩⟩

theorem pump_seeds : ∃ seed P, seed.shape = [4 * 1, 2] ∧ mkParticles seed = .ok P ∧
    readSeedParticles pumpFiles "p" = .ok P ∧ ∀ b, groupOf seed 4 1 2 0 b = cross2 0 1 b := by
  obtain ⟨A, a1, a2, a3⟩ := concat0_eq (m := 1) (rest := [2])
    [seedBlock 0 (-1), seedBlock 0 1, seedBlock 1 1, seedBlock 1 (-1)] (by simp) (by simp [seedBlock])
  obtain ⟨P, p1, -⟩ := mkParticles_2d (show A.shape = [4 * 1, 2] from a2)
  refine ⟨A, P, a2, p1, ?_, fun b => ?_⟩
  · simp [readSeedParticles, loadmat, pumpFiles, a1, p1]
  · have g0 := a3 0 (by simp) 0
    have g1 := a3 1 (by simp) 0
    have g2 := a3 2 (by simp) 0
    have g3 := a3 3 (by simp) 0
    funext c
    fin_cases b <;> fin_cases c <;> simp [groupOf, rowOf, cross2, seedBlock] at g0 g1 g2 g3 ⊢ <;>
      simp [g0, g1, g2, g3]

theorem cross2_aligned {seed : NDArray ℝ} (h : ∀ b, groupOf seed 4 1 2 0 b = cross2 0 1 b) :
    ∀ i < 1, AxisAligned2 seed 1 i := by
  intro i hi
  obtain rfl : i = 0 := by omega
  have e : ∀ b : Fin 4, ∀ c : Fin 2, pt seed 1 b 0 c = cross2 0 1 b c := fun b c => congrFun (h b) c
  refine ⟨?_, ?_, ?_, ?_⟩
  · have := e 1 0; have := e 0 0; simp_all [cross2]; norm_num
  · have := e 1 1; have := e 0 1; simp_all [cross2]
  · have := e 2 1; have := e 3 1; simp_all [cross2]; norm_num
  · have := e 2 0; have := e 3 0; simp_all [cross2]

theorem pump_inside {k : Kind} {t0 h : ℝ} (hth : t0 = 0 ∧ h = 1 ∨ t0 = 1 ∧ h = -1) (q : Fin 4) :
    ∀ j < 2, ∀ z ∈ stages k (pump (t0 + (j : ℕ) * h)) h (flowMap k
      (fun j => pump (t0 + (j : ℕ) * h)) h j (cross2 0 1 q)),
      OnAxis 9 (-4) 1 (z 0) ∧ OnAxis 9 (-4) 1 (z 1) := by
  intro j hj
  rcases hth with ⟨rfl, rfl⟩ | ⟨rfl, rfl⟩ <;> interval_cases j <;> cases k <;> fin_cases q <;>
    simp [stages, flowMap, rowRun, rowStep, pump, cross2, OnAxis, NumLits.half, NumLits.two,
      NumLits.six] <;> norm_num

/-- What C125 says of one group, for a matrix whose greatest stretching is known. -/
theorem reportsNorm_one {d : ℕ} {r : Py (Option (List FVal))} {M : Matrix (Fin d) (Fin d) ℝ} {s T : ℝ}
    (h : ReportsNorm r 1 M T) (hs : IsMaxStretch M s) (h0 : 0 < s) :
    r = .ok (some [.fin (1 / T * Real.log s)]) := by
  obtain ⟨t, h1, h2, -⟩ := h
  have e := h1.unique hs
  subst e
  refine (h2 fun hM => ?_).2
  rw [(maxStretch_eq_zero_iff h1).2 hM] at h0
  exact lt_irrefl _ h0

/-- The hypotheses of C125 hold for files: the exponent of the flow `(t x, -t y)` by Euler's method is
log 2. -/
theorem pump_euler : ((⟨.file pumpForward, .highPerf (HighPerf.fresh [9, 9]), .fresh .euler⟩ :
    Solver ℝ).run pumpEnv false none).result = .ok (some [.fin (Real.log 2)]) := by
  obtain ⟨seed, P, s1, s2, s3, s4⟩ := pump_seeds
  have r := C125_files_2d (env := pumpEnv) (t0 := 0) (s := pumpForward) ⟨rfl, rfl, rfl⟩ (.inl rfl) false
    .euler pump_affine pump_forward s1 s2 s3 (cross2_aligned s4)
    (fun i hi q => by
      obtain rfl : i = 0 := by omega
      rw [s4]
      exact pump_inside (.inl ⟨rfl, rfl⟩) q) le_rfl one_ne_zero (runMatrix_ok _ _ _)
  have hM := runMatrix_ok .euler (fun j : ℕ => pumpMat (0 + j * pumpForward.timestep))
    pumpForward.timestep
  have e : runMatrix .euler (fun j : ℕ => pumpMat (0 + j * pumpForward.timestep))
      pumpForward.timestep 2 = !![2, 0; 0, 0] := by
    rw [hM.euler rfl, hM.euler rfl, hM.zero]
    ext i j
    fin_cases i <;> fin_cases j <;> norm_num [pumpForward, pumpMat, mul_apply, Fin.sum_univ_two]
  rw [show pumpForward.snapshotFiles.length = 2 from rfl, e] at r
  have := reportsNorm_one r (maxStretch_diag (by norm_num)) (by norm_num)
  rw [this]
  norm_num [pumpForward]

/-- The hypotheses of C126 hold: backward, the run reports the same number. -/
theorem pump_both_ways {k : Kind} (hk : k ≠ .ab2) :
    ((⟨.file pumpBackward, .highPerf (HighPerf.fresh [9, 9]), .fresh k⟩ : Solver ℝ).run pumpEnv
        false none).result =
      ((⟨.file pumpForward, .highPerf (HighPerf.fresh [9, 9]), .fresh k⟩ : Solver ℝ).run pumpEnv
        false none).result := by
  obtain ⟨seed, P, s1, s2, s3, s4⟩ := pump_seeds
  have e : (0 : ℝ) + (pumpForward.snapshotFiles.length - 1) * pumpForward.timestep = 1 := by
    norm_num [pumpForward]
  refine C126_files_partial (env := pumpEnv) (t0 := 0) ⟨rfl, rfl, rfl⟩ (.inl rfl) false false k
    pump_affine pump_trace (fun h => absurd h hk) pump_forward (s' := pumpBackward) rfl rfl
    (by rw [e]; exact pump_backward) s1 s2 s3 s3 (cross2_aligned s4) ?_ ?_ le_rfl one_ne_zero
  · intro i hi q
    obtain rfl : i = 0 := by omega
    rw [s4]
    exact pump_inside (.inl ⟨rfl, rfl⟩) q
  · intro i hi q
    obtain rfl : i = 0 := by omega
    rw [s4, e]
    exact pump_inside (.inr ⟨rfl, rfl⟩) q

/-- **C126 fails for AB2 in unsteady flows.**  Forward the run reports log (5/2), backward log (3/2). -/
theorem C126_ab2_fails :
    ((⟨.file pumpForward, .highPerf (HighPerf.fresh [9, 9]), .fresh .ab2⟩ : Solver ℝ).run pumpEnv
        false none).result = .ok (some [.fin (Real.log (5 / 2))]) ∧
      ((⟨.file pumpBackward, .highPerf (HighPerf.fresh [9, 9]), .fresh .ab2⟩ : Solver ℝ).run pumpEnv
        false none).result = .ok (some [.fin (Real.log (3 / 2))]) := by
  obtain ⟨seed, P, s1, s2, s3, s4⟩ := pump_seeds
  constructor
  · have r := C125_files_2d (env := pumpEnv) (t0 := 0) (s := pumpForward) ⟨rfl, rfl, rfl⟩ (.inl rfl)
      false .ab2 pump_affine pump_forward s1 s2 s3 (cross2_aligned s4)
      (fun i hi q => by
        obtain rfl : i = 0 := by omega
        rw [s4]
        exact pump_inside (.inl ⟨rfl, rfl⟩) q) le_rfl one_ne_zero (runMatrix_ok _ _ _)
    have hM := runMatrix_ok .ab2 (fun j : ℕ => pumpMat (0 + j * pumpForward.timestep))
      pumpForward.timestep
    have e : runMatrix .ab2 (fun j : ℕ => pumpMat (0 + j * pumpForward.timestep))
        pumpForward.timestep 2 = !![5 / 2, 0; 0, -1 / 2] := by
      rw [hM.ab2 rfl, hM.first rfl, hM.zero, one_fin_two]
      ext i j
      fin_cases i <;> fin_cases j <;> norm_num [pumpForward, pumpMat, mul_apply, Fin.sum_univ_two]
    rw [show pumpForward.snapshotFiles.length = 2 from rfl, e] at r
    have := reportsNorm_one r (maxStretch_diag (by norm_num [abs_of_pos])) (by norm_num)
    rw [this]
    norm_num [pumpForward, abs_of_pos]
  · have r := C125_files_2d (env := pumpEnv) (t0 := 1) (s := pumpBackward) ⟨rfl, rfl, rfl⟩ (.inl rfl)
      false .ab2 pump_affine pump_backward s1 s2 s3 (cross2_aligned s4)
      (fun i hi q => by
        obtain rfl : i = 0 := by omega
        rw [s4]
        exact pump_inside (.inr ⟨rfl, rfl⟩) q) le_rfl (by norm_num [pumpBackward]) (runMatrix_ok _ _ _)
    have hM := runMatrix_ok .ab2 (fun j : ℕ => pumpMat (1 + j * pumpBackward.timestep))
      pumpBackward.timestep
    have e : runMatrix .ab2 (fun j : ℕ => pumpMat (1 + j * pumpBackward.timestep))
        pumpBackward.timestep 2 = !![1 / 2, 0; 0, 3 / 2] := by
      rw [hM.ab2 rfl, hM.first rfl, hM.zero, one_fin_two]
      ext i j
      fin_cases i <;> fin_cases j <;> norm_num [pumpBackward, pumpMat, mul_apply, Fin.sum_univ_two]
    rw [show pumpBackward.snapshotFiles.length = 2 from rfl, e] at r
    have := reportsNorm_one r (maxStretch_diag' (by norm_num [abs_of_pos])) (by norm_num)
    rw [this]
    norm_num [pumpBackward, abs_of_pos]

/-- The hypotheses of C126 hold for functions and all three methods: a vortex in a wind. -/
example (k : Kind) : ∃ P : Particles ℝ, mkParticles crossSeed = .ok P ∧
    ((⟨.analytical ⟨P, -(1 / 10), [0, -1, -2]⟩, .analytical (.fresh (some fun _ => sourceOf 2 fun x =>
        !![1, 2; -3, -1] *ᵥ x + ![1, 0])), .fresh k⟩ : Solver ℝ).run realEnv false none).result =
      ((⟨.analytical ⟨P, 1 / 10, [0, 1, 2]⟩, .analytical (.fresh (some fun _ => sourceOf 2 fun x =>
        !![1, 2; -3, -1] *ᵥ x + ![1, 0])), .fresh k⟩ : Solver ℝ).run realEnv false none).result := by
  obtain ⟨P, hP, -⟩ := mkParticles_2d (show crossSeed.shape = [4 * 1, 2] from rfl)
  exact ⟨P, hP, C126_function realEnv_ok false false k ⟨P, 1 / 10, [0, 1, 2]⟩
    ⟨P, -(1 / 10), [0, -1, -2]⟩ _ (seed := crossSeed) rfl hP rfl rfl rfl crossSeed_aligned
    (by simp [trace_fin_two]) (sourceOf_pointwise _ _ _) (by simp) (by norm_num)⟩

/-! ## Three dimensions -/

theorem maxStretch_of_frame {M : Matrix (Fin 3) (Fin 3) ℝ} {a b c s : ℝ}
    (hM : M = !![a, 0, 0; 0, b, 0; 0, 0, c]) (ha : |a| ≤ s) (hb : |b| ≤ s) (hc : |c| ≤ s)
    (hs : |a| = s ∨ |c| = s) : IsMaxStretch M s := by
  subst hM
  have h0 : 0 ≤ s := (abs_nonneg a).trans ha
  have key : ∀ u : Fin 3 → ℝ, len (!![a, 0, 0; 0, b, 0; 0, 0, c] *ᵥ u) =
      Real.sqrt (a ^ 2 * u 0 ^ 2 + b ^ 2 * u 1 ^ 2 + c ^ 2 * u 2 ^ 2) := by
    intro u
    unfold len
    congr 1
    simp [Matrix.mulVec, dotProduct, Fin.sum_univ_three]
    ring
  refine ⟨?_, ?_⟩
  · rcases hs with h | h
    · refine ⟨![1, 0, 0], by simp [len, dotProduct, Fin.sum_univ_three], ?_⟩
      rw [key, ← h]; simp [Real.sqrt_sq_eq_abs]
    · refine ⟨![0, 0, 1], by simp [len, dotProduct, Fin.sum_univ_three], ?_⟩
      rw [key, ← h]; simp [Real.sqrt_sq_eq_abs]
  · rintro _ ⟨u, hu, rfl⟩
    have hu' : u 0 ^ 2 + u 1 ^ 2 + u 2 ^ 2 = 1 := by
      have := len_sq u
      rw [hu] at this
      simp [dotProduct, Fin.sum_univ_three] at this
      nlinarith
    rw [key, Real.sqrt_le_left h0]
    have h1 : a ^ 2 ≤ s ^ 2 := sq_le_sq.2 (by rwa [abs_of_nonneg h0])
    have h2 : b ^ 2 ≤ s ^ 2 := sq_le_sq.2 (by rwa [abs_of_nonneg h0])
    have h3 : c ^ 2 ≤ s ^ 2 := sq_le_sq.2 (by rwa [abs_of_nonneg h0])
    nlinarith [sq_nonneg (u 0), sq_nonneg (u 1), sq_nonneg (u 2)]

theorem crossSeed3_aligned : ∀ i < 1, AxisAligned3 crossSeed3 1 i := by
  intro i hi
  obtain rfl : i = 0 := by omega
  simp [AxisAligned3, pt, crossSeed3]
  norm_num

/-- **C126 fails in space.**  The flow `(x, y, -2 z)` is incompressible; two steps of Euler's method
over a quarter report log (25/16) forward and log (9/4) backward, times 4. -/
theorem C126_space_fails : ∃ P : Particles ℝ, mkParticles crossSeed3 = .ok P ∧
    (!![1, 0, 0; 0, 1, 0; 0, 0, -2] : Matrix (Fin 3) (Fin 3) ℝ).trace = 0 ∧
    ((⟨.analytical ⟨P, 1 / 4, [0, 1 / 4]⟩, .analytical (.fresh (some fun _ => sourceOf 3 fun x =>
        !![1, 0, 0; 0, 1, 0; 0, 0, -2] *ᵥ x + 0)), .fresh .euler⟩ : Solver ℝ).run realEnv false
        none).result = .ok (some [.fin (4 * Real.log (25 / 16))]) ∧
      ((⟨.analytical ⟨P, -(1 / 4), [0, -(1 / 4)]⟩, .analytical (.fresh (some fun _ =>
        sourceOf 3 fun x => !![1, 0, 0; 0, 1, 0; 0, 0, -2] *ᵥ x + 0)), .fresh .euler⟩ :
        Solver ℝ).run realEnv false none).result = .ok (some [.fin (4 * Real.log (9 / 4))]) := by
  obtain ⟨P, hP, -⟩ := mkParticles_3d (show crossSeed3.shape = [6 * 1, 3] from rfl)
  refine ⟨P, hP, by simp [trace_fin_three]; norm_num, ?_, ?_⟩
  · have r := C125_function_3d realEnv_ok false .euler ⟨P, 1 / 4, [0, 1 / 4]⟩
      (fun _ => sourceOf 3 fun x => !![1, 0, 0; 0, 1, 0; 0, 0, -2] *ᵥ x + 0) (seed := crossSeed3) rfl hP
      crossSeed3_aligned (sourceOf_pointwise _ _ _) le_rfl (by norm_num) (runMatrix_ok _ _ _)
    have hM := runMatrix_ok .euler (fun _ : ℕ => (!![1, 0, 0; 0, 1, 0; 0, 0, -2] :
      Matrix (Fin 3) (Fin 3) ℝ)) (1 / 4)
    have := reportsNorm_one r (maxStretch_of_frame (a := 25 / 16) (b := 25 / 16) (c := 1 / 4)
      (s := 25 / 16) (by
        show runMatrix _ _ _ 2 = _
        rw [hM.euler rfl, hM.euler rfl, hM.zero, one_fin_three]
        ext i j
        fin_cases i <;> fin_cases j <;> norm_num [mul_apply, Fin.sum_univ_three] <;>
          first | exact .inl rfl | exact .inr rfl | (show ((1 / 2) : ℝ) * (1 / 2) = _; norm_num))
      (by norm_num [abs_of_pos]) (by norm_num [abs_of_pos]) (by norm_num [abs_of_pos])
      (.inl (by norm_num [abs_of_pos]))) (by norm_num)
    rw [this]
    norm_num [abs_of_pos]
  · have r := C125_function_3d realEnv_ok false .euler ⟨P, -(1 / 4), [0, -(1 / 4)]⟩
      (fun _ => sourceOf 3 fun x => !![1, 0, 0; 0, 1, 0; 0, 0, -2] *ᵥ x + 0) (seed := crossSeed3) rfl hP
      crossSeed3_aligned (sourceOf_pointwise _ _ _) le_rfl (by norm_num) (runMatrix_ok _ _ _)
    have hM := runMatrix_ok .euler (fun _ : ℕ => (!![1, 0, 0; 0, 1, 0; 0, 0, -2] :
      Matrix (Fin 3) (Fin 3) ℝ)) (-(1 / 4))
    have := reportsNorm_one r (maxStretch_of_frame (a := 9 / 16) (b := 9 / 16) (c := 9 / 4)
      (s := 9 / 4) (by
        show runMatrix _ _ _ 2 = _
        rw [hM.euler rfl, hM.euler rfl, hM.zero, one_fin_three]
        ext i j
        fin_cases i <;> fin_cases j <;> norm_num [mul_apply, Fin.sum_univ_three] <;>
          first | exact .inl rfl | exact .inr rfl | (show ((3 / 2) : ℝ) * (3 / 2) = _; norm_num))
      (by norm_num [abs_of_pos]) (by norm_num [abs_of_pos]) (by norm_num [abs_of_pos])
      (.inr (by norm_num [abs_of_pos]))) (by norm_num)
    rw [this]
    norm_num [abs_of_pos]

/-- A shear growing with time, in a wind. -/
noncomputable def tilt (t : ℝ) (x : Fin 3 → ℝ) : Fin 3 → ℝ := ![0, t * x 0, 1 / 2]

noncomputable def tiltMat (t : ℝ) : Matrix (Fin 3) (Fin 3) ℝ := !![0, 0, 0; t, 0, 0; 0, 0, 0]

theorem tilt_affine : IsAffine tilt tiltMat (fun _ => ![0, 0, 1 / 2]) := by
  intro t x
  funext c
  fin_cases c <;> simp [tilt, tiltMat, dotProduct, Fin.sum_univ_three]

noncomputable def tiltField (t : ℝ) : String → Option (NDArray ℝ) := fun key =>
  if key = "velocity_x" then some (listing (9 * 9 * 9) fun _ => 0)
  else if key = "velocity_y" then some (listing (9 * 9 * 9) fun q => t * (-4 + (q / 9 % 9 : ℕ) * 1))
  else if key = "velocity_z" then some (listing (9 * 9 * 9) fun _ => 1 / 2)
  else none

noncomputable def tiltFiles : MatFS ℝ := fun path =>
  if path = "c" then some fun key =>
    if key = "coordinate_x" then some (listing (9 * 9 * 9) fun q => -4 + (q / 9 % 9 : ℕ) * 1)
    else if key = "coordinate_y" then some (listing (9 * 9 * 9) fun q => -4 + (q / 9 / 9 : ℕ) * 1)
    else if key = "coordinate_z" then some (listing (9 * 9 * 9) fun q => -4 + (q % 9 : ℕ) * 1)
    else none
  else if path = "v0" then some (tiltField 0)
  else if path = "v1" then some (tiltField 1)
  else if path = "p" then some fun key =>
    if key = "left" then some (seedBlock3 0 (-1))
    else if key = "right" then some (seedBlock3 0 1)
    else if key = "top" then some (seedBlock3 1 1)
    else if key = "bottom" then some (seedBlock3 1 (-1))
    else if key = "front" then some (seedBlock3 2 1)
    else if key = "back" then some (seedBlock3 2 (-1))
    else none
  else none

theorem tilt_velocity {f : String} {t : ℝ} (hf : f = "v0" ∧ t = 0 ∨ f = "v1" ∧ t = 1) :
    ∃ V, readVelocity tiltFiles f = .ok V ∧ V.shape = [3, 9 * 9 * 9] ∧ (∀ q, V.get [0, q] = 0) ∧
      (∀ q : ℕ, V.get [1, q] = t * (-4 + (q / 9 % 9 : ℕ) * 1)) ∧ ∀ q, V.get [2, q] = 1 / 2 := by
  obtain ⟨V, h1, h2, h3, h4, h5⟩ := stack_three (9 * 9 * 9) (fun _ => (0 : ℝ))
    (fun q => t * (-4 + (q / 9 % 9 : ℕ) * (1 : ℝ))) (fun _ => 1 / 2)
  refine ⟨V, ?_, h2, h3, h4, h5⟩
  rw [← h1]
  rcases hf with ⟨rfl, rfl⟩ | ⟨rfl, rfl⟩ <;>
    simp [readVelocity, loadmat, tiltFiles, tiltField, readComponents]

theorem tilt_coordinate :
    ∃ V, readCoordinate tiltFiles "c" = .ok V ∧ V.shape = [3, 9 * 9 * 9] ∧
      (∀ q : ℕ, V.get [0, q] = -4 + (q / 9 % 9 : ℕ) * 1) ∧
      (∀ q : ℕ, V.get [1, q] = -4 + (q / 9 / 9 : ℕ) * 1) ∧
      ∀ q : ℕ, V.get [2, q] = -4 + (q % 9 : ℕ) * 1 := by
  obtain ⟨V, h1, h2, h3, h4, h5⟩ := stack_three (9 * 9 * 9)
    (fun q => (-4 : ℝ) + (q / 9 % 9 : ℕ) * 1)
    (fun q => -4 + (q / 9 / 9 : ℕ) * 1) (fun q => -4 + (q % 9 : ℕ) * 1)
  refine ⟨V, ?_, h2, h3, h4, h5⟩
  rw [← h1]
  simp [readCoordinate, loadmat, tiltFiles, readComponents]

theorem tilt_samples : Samples3 tiltFiles pumpForward tilt 0 9 9 (-4) 1 (-4) 1 (-4) 1 where
  fresh := rfl
  hm := by norm_num
  hnz := by norm_num
  lm := by norm_num
  lnz := by norm_num
  lmz := by norm_num
  hdx := by norm_num
  hdy := by norm_num
  hdz := by norm_num
  data := by
    intro j hj
    have hj : j < 2 := hj
    obtain ⟨fv, v1, v2⟩ : ∃ f, pumpForward.snapshotFiles[j]? = some f ∧
        (f = "v0" ∧ (0 : ℝ) + j * pumpForward.timestep = 0 ∨
          f = "v1" ∧ (0 : ℝ) + j * pumpForward.timestep = 1) := by
      interval_cases j
      · exact ⟨"v0", rfl, .inl ⟨rfl, by simp [pumpForward]⟩⟩
      · exact ⟨"v1", rfl, .inr ⟨rfl, by simp [pumpForward]⟩⟩
    have c1 : pumpForward.coordinateFiles[j]? = some "c" := by interval_cases j <;> rfl
    obtain ⟨V, a1, a2, a3, a4, a5⟩ := tilt_velocity v2
    obtain ⟨P, b1, b2, b3, b4, b5⟩ := tilt_coordinate
    refine ⟨V, P, ⟨⟨fv, v1, a1⟩, ⟨"c", c1, b1⟩⟩, a2, b2, ?_, ?_⟩
    · intro a ha b hb c hc
      have e1 : ((b * 9 + a) * 9 + c) / 9 = b * 9 + a := fold_div _ hc
      have e2 : ((b * 9 + a) * 9 + c) % 9 = c := fold_mod _ hc
      have e3 : (b * 9 + a) / 9 = b := fold_div b ha
      have e4 : (b * 9 + a) % 9 = a := fold_mod b ha
      rw [b3, b4, b5, e1, e2, e3, e4]
      exact ⟨rfl, rfl, rfl⟩
    · intro q hq c
      fin_cases c
      · exact a3 q
      · show V.get [1, q] = _ * P.get [0, q]
        rw [a4, b3]
      · exact a5 q

theorem tilt_seeds : ∃ seed P, seed.shape = [6 * 1, 3] ∧ mkParticles seed = .ok P ∧
    readSeedParticles tiltFiles "p" = .ok P ∧ ∀ b, groupOf seed 6 1 3 0 b = cross3 0 1 b := by
  obtain ⟨A, a1, a2, a3⟩ := concat0_eq (m := 1) (rest := [3])
    [seedBlock3 0 (-1), seedBlock3 0 1, seedBlock3 1 1, seedBlock3 1 (-1), seedBlock3 2 1,
      seedBlock3 2 (-1)] (by simp) (by simp [seedBlock3])
  obtain ⟨P, p1, -⟩ := mkParticles_3d (show A.shape = [6 * 1, 3] from a2)
  refine ⟨A, P, a2, p1, ?_, fun b => ?_⟩
  · simp [readSeedParticles, loadmat, tiltFiles, a1, p1]
  · have g0 := a3 0 (by simp) 0
    have g1 := a3 1 (by simp) 0
    have g2 := a3 2 (by simp) 0
    have g3 := a3 3 (by simp) 0
    have g4 := a3 4 (by simp) 0
    have g5 := a3 5 (by simp) 0
    funext c
    fin_cases b <;> fin_cases c <;>
      simp [groupOf, rowOf, cross3, seedBlock3] at g0 g1 g2 g3 g4 g5 ⊢ <;>
      simp [g0, g1, g2, g3, g4, g5]

/-- The hypotheses of C125 hold for files in three dimensions. -/
example (k : Kind) : ReportsNorm ((⟨.file pumpForward, .highPerf (HighPerf.fresh [9, 9, 9]), .fresh k⟩ :
    Solver ℝ).run { realEnv with fs := tiltFiles } false none).result 1
    (runMatrix k (fun j => tiltMat (0 + j * 1)) 1 2) (((2 : ℕ) - 1) * |1|) := by
  obtain ⟨seed, P, s1, s2, s3, s4⟩ := tilt_seeds
  have e : ∀ b : Fin 6, ∀ c : Fin 3, pt seed 1 b 0 c = cross3 0 1 b c := fun b c => congrFun (s4 b) c
  refine C125_files_3d (env := { realEnv with fs := tiltFiles }) (t0 := 0) (s := pumpForward)
    ⟨rfl, rfl, rfl⟩ (.inl rfl) false k tilt_affine tilt_samples s1 s2 s3 (fun i hi => ?_)
    (fun i hi q j hj => ?_) le_rfl one_ne_zero (runMatrix_ok _ _ _)
  · obtain rfl : i = 0 := by omega
    refine ⟨⟨?_, ?_, ?_⟩, ⟨?_, ?_, ?_⟩, ?_, ?_, ?_⟩
    · have := e 1 0; have := e 0 0; simp_all [cross3]; norm_num
    · have := e 1 1; have := e 0 1; simp_all [cross3]
    · have := e 1 2; have := e 0 2; simp_all [cross3]
    · have := e 2 1; have := e 3 1; simp_all [cross3]; norm_num
    · have := e 2 0; have := e 3 0; simp_all [cross3]
    · have := e 2 2; have := e 3 2; simp_all [cross3]
    · have := e 4 2; have := e 5 2; simp_all [cross3]; norm_num
    · have := e 4 0; have := e 5 0; simp_all [cross3]
    · have := e 4 1; have := e 5 1; simp_all [cross3]
  · obtain rfl : i = 0 := by omega
    have hj : j < 2 := hj
    rw [s4]
    interval_cases j <;> cases k <;> fin_cases q <;>
      simp [stages, flowMap, rowRun, rowStep, tilt, cross3, OnAxis, NumLits.half, NumLits.two,
        NumLits.six, pumpForward] <;> norm_num

end Verif
