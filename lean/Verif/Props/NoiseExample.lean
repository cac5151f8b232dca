import Verif.Props.GridErrorExample
import Verif.Props.Noise

/-!
# C141: a case

The files of the case of C84, which hold the shear flow `(0, sin x)`; the fluid moves with the
velocity `(0, sin x + 1/1000)`.
-/

namespace Verif

open Matrix Set

noncomputable def drift (x : Fin 2 → ℝ) : Fin 2 → ℝ := ![0, Real.sin (x 0) + 1 / 1000]

noncomputable def driftPath (x : Fin 2 → ℝ) (t : ℝ) : Fin 2 → ℝ :=
  ![x 0, x 1 + t * (Real.sin (x 0) + 1 / 1000)]

theorem drift_trajectory (x : Fin 2 → ℝ) (U : Set ℝ) :
    IsTrajectory (fun _ => drift) U (driftPath x) ∧ driftPath x 0 = x := by
  constructor
  · intro t _
    rw [hasDerivWithinAt_pi]
    intro i
    fin_cases i
    · exact hasDerivWithinAt_const _ _ _
    · have := ((hasDerivWithinAt_id t U).mul_const (Real.sin (x 0) + 1 / 1000)).const_add (x 1)
      simpa [drift, driftPath] using this
  · funext i
    fin_cases i <;> simp [driftPath]

theorem drift_near (x : Fin 2 → ℝ) : ‖shear x - drift x‖ ≤ 1 / 1000 := by
  rw [pi_norm_le_iff_of_nonneg (by norm_num)]
  intro c
  fin_cases c <;> simp [shear, drift]

theorem drift_lipschitz (w w' : Fin 2 → ℝ) : ‖drift w - drift w'‖ ≤ 1 * ‖w - w'‖ := by
  have : drift w - drift w' = shear w - shear w' := by
    funext c
    fin_cases c <;> simp [drift, shear]
  rw [this]
  exact shear_lipschitz w w'

theorem drift_along (x : Fin 2 → ℝ) (h : ℝ) (n : ℕ) :
    Along (fun _ => drift) 0 h n (1 + 1 / 1000) 0 (driftPath x) where
  trajectory := (drift_trajectory x _).1
  speed := by
    intro t _
    rw [pi_norm_le_iff_of_nonneg (by positivity)]
    intro c
    fin_cases c
    · simp [drift]
      norm_num
    · show |Real.sin (driftPath x t 0) + 1 / 1000| ≤ _
      have := abs_le.1 (Real.abs_sin_le_one (driftPath x t 0))
      rw [abs_le]
      constructor <;> linarith [this.1, this.2]
  accel := by
    intro s _ t _
    have : drift (driftPath x s) = drift (driftPath x t) := by simp [drift, driftPath]
    rw [this]
    simp

theorem drift_small :
    SmallSteps (1 / 1000 + 1 * max (1 / 100) (1 / 100)) 1 (1 + 1 / 1000) 0 (1 / 100) 2 2 where
  eps := by norm_num
  lip := by norm_num
  speed := by norm_num
  accel := by norm_num
  step := by norm_num [abs_of_pos]
  stay := by unfold posError; norm_num [abs_of_pos]
  reach := by norm_num [abs_of_pos]

/-- The hypotheses of C141 hold: the files hold the shear flow, the fluid drifts as well. -/
example (k : Kind) : ∃ σ Λ : ℝ, 1 ≤ σ ∧
    ((⟨.file shearSource, .highPerf (HighPerf.fresh [801, 801]), .fresh k⟩ : Solver ℝ).run shearEnv
      false none).result = .ok (some [.fin Λ]) ∧
    |Λ - 100 * Real.log σ| ≤ 1 / 2 := by
  obtain ⟨seed, P, s1, s2, s3, s4⟩ := shear_seeds
  set X : ℕ → Fin 4 → ℝ → Fin 2 → ℝ := fun _ b => driftPath (cross2 0 1 b) with hX
  set D := diffs2 (fun b => X 0 b (0 + (2 : ℕ) * (1 / 100))) (groupOf seed 4 1 2 0) with hD
  obtain ⟨σ, hσ⟩ := ftle2_computes.exists_stretch D
  have d11 : D 1 1 = 1 := by
    rw [hD]
    simp [diffs2, s4, hX, driftPath, cross2]
  have d01 : D 0 1 = 0 := by
    rw [hD]
    simp [diffs2, s4, hX, driftPath, cross2]
  have hσ1 : 1 ≤ σ := by
    have h1 := hσ.2 ⟨![0, 1], by simp [len], rfl⟩
    refine le_trans (le_of_eq ?_) h1
    have : D *ᵥ ![0, 1] = ![0, 1] := by
      funext i
      fin_cases i <;> simp [Matrix.mulVec, dotProduct, Fin.sum_univ_two, d11, d01]
    rw [this]
    simp [len]
  have w1 : groupOf seed 4 1 2 0 1 0 - groupOf seed 4 1 2 0 0 0 = 2 := by
    simp [s4, cross2]; norm_num
  have w2 : groupOf seed 4 1 2 0 2 1 - groupOf seed 4 1 2 0 3 1 = 2 := by
    simp [s4, cross2]; norm_num
  obtain ⟨Λ, h1, h2⟩ := C141_noise_2d (env := shearEnv) ⟨rfl, rfl, rfl⟩ (.inl rfl) false k
    (u := fun _ => shear) (v := fun _ => drift) (t0 := 0) (s := shearSource) shear_samples (n := 2) rfl le_rfl
    (h := 1 / 100) rfl (by norm_num) (η := 1 / 1000)
    (fun j _ a _ b _ => drift_near _) drift_small (N := 1) s1 s2 s3 X
    (fun i hi b => by
      obtain rfl : i = 0 := by omega
      exact ⟨drift_along _ _ _, by rw [s4]; exact (drift_trajectory _ univ).2⟩)
    (fun j hj w _ w' _ => drift_lipschitz w w')
    (fun i hi b j hj z hz => by
      have h0 := (norm_le_pi_norm (z - X i b (0 + j * (1 / 100))) 0).trans hz
      have h1 := (norm_le_pi_norm (z - X i b (0 + j * (1 / 100))) 1).trans hz
      have hp0 : |X i b (0 + j * (1 / 100)) 0| ≤ 1 := by
        rw [hX]; fin_cases b <;> simp [driftPath, cross2]
      have hp1 : |X i b (0 + j * (1 / 100)) 1| ≤ 1 + 2 / 100 := by
        have hj' : (j : ℝ) ≤ 1 := by exact_mod_cast (by omega : j ≤ 1)
        have hj0 : (0 : ℝ) ≤ j := by positivity
        have e : X i b (0 + j * (1 / 100)) 1 =
            cross2 0 1 b 1 + (0 + j * (1 / 100)) * (Real.sin (cross2 0 1 b 0) + 1 / 1000) := rfl
        have c1 : |cross2 0 1 b 1| ≤ 1 := by fin_cases b <;> simp [cross2]
        have c2 : |(0 + (j : ℝ) * (1 / 100)) * (Real.sin (cross2 0 1 b 0) + 1 / 1000)| ≤ 2 / 100 := by
          rw [abs_mul]
          have c3 : |Real.sin (cross2 0 1 b 0) + 1 / 1000| ≤ 2 := by
            have := abs_le.1 (Real.abs_sin_le_one (cross2 0 1 b 0))
            rw [abs_le]
            constructor <;> linarith [this.1, this.2]
          have : |0 + (j : ℝ) * (1 / 100)| ≤ 1 / 100 := by
            rw [abs_of_nonneg (by positivity)]; linarith
          nlinarith [abs_nonneg (Real.sin (cross2 0 1 b 0) + 1 / 1000),
            abs_nonneg (0 + (j : ℝ) * (1 / 100))]
        rw [e]
        exact (abs_add_le _ _).trans (add_le_add c1 c2)
      rw [Pi.sub_apply, Real.norm_eq_abs, abs_le] at h0 h1
      rw [abs_le] at hp0 hp1
      unfold OnAxis
      norm_num
      refine ⟨⟨?_, ?_⟩, ?_, ?_⟩ <;> linarith [h0.1, h0.2, h1.1, h1.2, hp0.1, hp0.2, hp1.1, hp1.2])
    (fun _ => D) (fun i hi => by
      obtain rfl : i = 0 := by omega
      exact centralDiff2_ok.2 ⟨⟨by rw [w1]; norm_num, by rw [w2]; norm_num⟩, rfl⟩)
    (fun _ => σ) _ (fun i => rfl) (fun i hi => by
      obtain rfl : i = 0 := by omega
      refine ⟨hσ, lt_of_lt_of_le ?_ hσ1⟩
      rw [w1, w2]
      unfold posError
      norm_num [abs_of_pos])
  refine ⟨σ, Λ 0, hσ1, h1, ?_⟩
  have h3 := h2 0 one_pos
  rw [w1, w2] at h3
  have hb : 4 * posError (1 / 1000 + 1 * max (1 / 100) (1 / 100)) 1 (1 + 1 / 1000) 0 (1 / 100) 2 *
      (1 / |(2 : ℝ)| + 1 / |(2 : ℝ)|) ≤ 1 / 350 := by
    unfold posError; norm_num [abs_of_pos]
  set β := 4 * posError (1 / 1000 + 1 * max (1 / 100) (1 / 100)) 1 (1 + 1 / 1000) 0 (1 / 100) 2 *
      (1 / |(2 : ℝ)| + 1 / |(2 : ℝ)|)
  have hT : 1 / ((((2 : ℕ) : ℝ) - 1) * |(1 / 100 : ℝ)|) = 100 := by norm_num [abs_of_pos]
  rw [hT] at h3
  refine h3.trans ?_
  have : β / (σ - β) ≤ 1 / 200 := by
    rw [div_le_div_iff₀ (by linarith) (by norm_num)]
    linarith
  linarith

/-! ## Three dimensions -/

noncomputable def drift3 (x : Fin 3 → ℝ) : Fin 3 → ℝ := ![0, 0, Real.sin (x 0) + 1 / 1000]

noncomputable def driftPath3 (x : Fin 3 → ℝ) (t : ℝ) : Fin 3 → ℝ :=
  ![x 0, x 1, x 2 + t * (Real.sin (x 0) + 1 / 1000)]

theorem drift3_trajectory (x : Fin 3 → ℝ) (U : Set ℝ) :
    IsTrajectory (fun _ => drift3) U (driftPath3 x) ∧ driftPath3 x 0 = x := by
  constructor
  · intro t _
    rw [hasDerivWithinAt_pi]
    intro i
    fin_cases i
    · exact hasDerivWithinAt_const _ _ _
    · exact hasDerivWithinAt_const _ _ _
    · have := ((hasDerivWithinAt_id t U).mul_const (Real.sin (x 0) + 1 / 1000)).const_add (x 2)
      simpa [drift3, driftPath3] using this
  · funext i
    fin_cases i <;> simp [driftPath3]

theorem drift3_near (x : Fin 3 → ℝ) : ‖shear3 x - drift3 x‖ ≤ 1 / 1000 := by
  rw [pi_norm_le_iff_of_nonneg (by norm_num)]
  intro c
  fin_cases c <;> simp [shear3, drift3]

theorem drift3_lipschitz (w w' : Fin 3 → ℝ) : ‖drift3 w - drift3 w'‖ ≤ 1 * ‖w - w'‖ := by
  have : drift3 w - drift3 w' = shear3 w - shear3 w' := by
    funext c
    fin_cases c <;> simp [drift3, shear3]
  rw [this]
  exact shear3_lipschitz w w'

theorem drift3_along (x : Fin 3 → ℝ) (h : ℝ) (n : ℕ) :
    Along (fun _ => drift3) 0 h n (1 + 1 / 1000) 0 (driftPath3 x) where
  trajectory := (drift3_trajectory x _).1
  speed := by
    intro t _
    rw [pi_norm_le_iff_of_nonneg (by positivity)]
    intro c
    fin_cases c
    · simp [drift3]
      norm_num
    · simp [drift3]
      norm_num
    · show |Real.sin (driftPath3 x t 0) + 1 / 1000| ≤ _
      have := abs_le.1 (Real.abs_sin_le_one (driftPath3 x t 0))
      rw [abs_le]
      constructor <;> linarith [this.1, this.2]
  accel := by
    intro s _ t _
    have : drift3 (driftPath3 x s) = drift3 (driftPath3 x t) := by simp [drift3, driftPath3]
    rw [this]
    simp

/-- The hypotheses of C141 hold in three dimensions. -/
example (k : Kind) : ∃ σ Λ : ℝ, 1 ≤ σ ∧
    ((⟨.file shearSource, .highPerf (HighPerf.fresh [801, 801, 801]), .fresh k⟩ : Solver ℝ).run
      shearEnv3 false none).result = .ok (some [.fin Λ]) ∧
    |Λ - 100 * Real.log σ| ≤ 1 := by
  obtain ⟨seed, P, s1, s2, s3, s4⟩ := shear3_seeds
  set X : ℕ → Fin 6 → ℝ → Fin 3 → ℝ := fun _ b => driftPath3 (cross3 0 1 b) with hX
  set D := diffs3 (fun b => X 0 b (0 + (2 : ℕ) * (1 / 100))) (groupOf seed 6 1 3 0) with hD
  obtain ⟨σ, hσ⟩ := ftle3_computes.exists_stretch D
  have d2 : ∀ r, D r 2 = if r = 2 then 1 else 0 := by
    intro r
    rw [hD]
    fin_cases r <;> simp [diffs3, s4, hX, driftPath3, cross3]
  have hσ1 : 1 ≤ σ := by
    have h1 := hσ.2 ⟨![0, 0, 1], by simp [len], rfl⟩
    refine le_trans (le_of_eq ?_) h1
    have : D *ᵥ ![0, 0, 1] = ![0, 0, 1] := by
      funext i
      fin_cases i <;> simp [Matrix.mulVec, dotProduct, Fin.sum_univ_three, d2]
    rw [this]
    simp [len]
  have w1 : groupOf seed 6 1 3 0 1 0 - groupOf seed 6 1 3 0 0 0 = 2 := by
    simp [s4, cross3]; norm_num
  have w2 : groupOf seed 6 1 3 0 2 1 - groupOf seed 6 1 3 0 3 1 = 2 := by
    simp [s4, cross3]; norm_num
  have w3 : groupOf seed 6 1 3 0 4 2 - groupOf seed 6 1 3 0 5 2 = 2 := by
    simp [s4, cross3]; norm_num
  have small : SmallSteps (1 / 1000 + 1 * max (max (1 / 100) (1 / 100)) (1 / 100)) 1 (1 + 1 / 1000) 0 (1 / 100) 2 2 := by
    rw [max_self]; exact drift_small
  obtain ⟨Λ, h1, h2⟩ := C141_noise_3d (env := shearEnv3) ⟨rfl, rfl, rfl⟩ (.inl rfl) false k
    (u := fun _ => shear3) (v := fun _ => drift3) (t0 := 0) (s := shearSource) shear3_samples (n := 2) rfl le_rfl
    (h := 1 / 100) rfl (by norm_num) (η := 1 / 1000)
    (fun j _ a _ b _ e _ => drift3_near _) small (N := 1) s1 s2 s3 X
    (fun i hi b => by
      obtain rfl : i = 0 := by omega
      exact ⟨drift3_along _ _ _, by rw [s4]; exact (drift3_trajectory _ univ).2⟩)
    (fun j hj w _ w' _ => drift3_lipschitz w w')
    (fun i hi b j hj z hz => by
      have h0 := (norm_le_pi_norm (z - X i b (0 + j * (1 / 100))) 0).trans hz
      have h1 := (norm_le_pi_norm (z - X i b (0 + j * (1 / 100))) 1).trans hz
      have h2 := (norm_le_pi_norm (z - X i b (0 + j * (1 / 100))) 2).trans hz
      have hp0 : |X i b (0 + j * (1 / 100)) 0| ≤ 1 := by
        rw [hX]; fin_cases b <;> simp [driftPath3, cross3]
      have hp1 : |X i b (0 + j * (1 / 100)) 1| ≤ 1 := by
        rw [hX]; fin_cases b <;> simp [driftPath3, cross3]
      have hp2 : |X i b (0 + j * (1 / 100)) 2| ≤ 1 + 2 / 100 := by
        have hj' : (j : ℝ) ≤ 1 := by exact_mod_cast (by omega : j ≤ 1)
        have hj0 : (0 : ℝ) ≤ j := by positivity
        have e : X i b (0 + j * (1 / 100)) 2 =
            cross3 0 1 b 2 + (0 + j * (1 / 100)) * (Real.sin (cross3 0 1 b 0) + 1 / 1000) := rfl
        have c1 : |cross3 0 1 b 2| ≤ 1 := by fin_cases b <;> simp [cross3]
        have c2 : |(0 + (j : ℝ) * (1 / 100)) * (Real.sin (cross3 0 1 b 0) + 1 / 1000)| ≤ 2 / 100 := by
          rw [abs_mul]
          have c3 : |Real.sin (cross3 0 1 b 0) + 1 / 1000| ≤ 2 := by
            have := abs_le.1 (Real.abs_sin_le_one (cross3 0 1 b 0))
            rw [abs_le]
            constructor <;> linarith [this.1, this.2]
          have : |0 + (j : ℝ) * (1 / 100)| ≤ 1 / 100 := by
            rw [abs_of_nonneg (by positivity)]; linarith
          nlinarith [abs_nonneg (Real.sin (cross3 0 1 b 0) + 1 / 1000),
            abs_nonneg (0 + (j : ℝ) * (1 / 100))]
        rw [e]
        exact (abs_add_le _ _).trans (add_le_add c1 c2)
      rw [Pi.sub_apply, Real.norm_eq_abs, abs_le] at h0 h1 h2
      rw [abs_le] at hp0 hp1 hp2
      unfold OnAxis
      norm_num
      refine ⟨⟨?_, ?_⟩, ⟨?_, ?_⟩, ?_, ?_⟩ <;>
        linarith [h0.1, h0.2, h1.1, h1.2, h2.1, h2.2, hp0.1, hp0.2, hp1.1, hp1.2, hp2.1, hp2.2])
    (fun _ => D) (fun i hi => by
      obtain rfl : i = 0 := by omega
      exact centralDiff3_ok.2 ⟨⟨by rw [w1]; norm_num, by rw [w2]; norm_num, by rw [w3]; norm_num⟩,
        rfl⟩)
    (fun _ => σ) _ (fun i => rfl) (fun i hi => by
      obtain rfl : i = 0 := by omega
      refine ⟨hσ, lt_of_lt_of_le ?_ hσ1⟩
      rw [w1, w2, w3]
      unfold posError
      norm_num [abs_of_pos])
  refine ⟨σ, Λ 0, hσ1, h1, ?_⟩
  have h3 := h2 0 one_pos
  rw [w1, w2, w3] at h3
  have hb : 6 * posError (1 / 1000 + 1 * max (max (1 / 100) (1 / 100)) (1 / 100)) 1 (1 + 1 / 1000) 0 (1 / 100) 2 *
      (1 / |(2 : ℝ)| + 1 / |(2 : ℝ)| + 1 / |(2 : ℝ)|) ≤ 1 / 150 := by
    unfold posError; norm_num [abs_of_pos]
  set β := 6 * posError (1 / 1000 + 1 * max (max (1 / 100) (1 / 100)) (1 / 100)) 1 (1 + 1 / 1000) 0 (1 / 100) 2 *
      (1 / |(2 : ℝ)| + 1 / |(2 : ℝ)| + 1 / |(2 : ℝ)|)
  have hT : 1 / ((((2 : ℕ) : ℝ) - 1) * |(1 / 100 : ℝ)|) = 100 := by norm_num [abs_of_pos]
  rw [hT] at h3
  refine h3.trans ?_
  have : β / (σ - β) ≤ 1 / 100 := by
    rw [div_le_div_iff₀ (by linarith) (by norm_num)]
    linarith
  linarith

end Verif
