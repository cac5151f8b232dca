import Verif.Props.GridError
import Verif.Props.Readers
import Mathlib.Analysis.SpecialFunctions.Trigonometric.Bounds

/-!
# C84: a gridded case

The shear flow `(0, sin x)` sampled on the square `[-4, 4]²` with spacing `1/100`, two snapshots
`1/100` apart, four seeds at distance 1 from the origin.
-/

namespace Verif

open Matrix Set

/-- An array listed in one dimension. -/
def listing {α : Type} (n : ℕ) (f : ℕ → α) : NDArray α := ⟨[n], fun idx => f (idx.headD 0)⟩

/-- One point on the axis `c`. -/
def seedBlock (c : ℕ) (x : ℝ) : NDArray ℝ := ⟨[1, 2], fun i => if i.getD 1 0 = c then x else 0⟩

noncomputable def shearFiles : MatFS ℝ := fun path =>
  if path = "c0" ∨ path = "c1" then some fun key =>
    if key = "coordinate_x" then some (listing (801 * 801) fun q => -4 + (q % 801 : ℕ) * (1 / 100))
    else if key = "coordinate_y" then some (listing (801 * 801) fun q => -4 + (q / 801 : ℕ) * (1 / 100))
    else none
  else if path = "v0" ∨ path = "v1" then some fun key =>
    if key = "velocity_x" then some (listing (801 * 801) fun _ => 0)
    else if key = "velocity_y" then
      some (listing (801 * 801) fun q => Real.sin (-4 + (q % 801 : ℕ) * (1 / 100)))
    else none
  else if path = "p" then some fun key =>
    if key = "left" then some (seedBlock 0 (-1))
    else if key = "right" then some (seedBlock 0 1)
    else if key = "top" then some (seedBlock 1 1)
    else if key = "bottom" then some (seedBlock 1 (-1))
    else none
  else none

noncomputable def shearEnv : Env ℝ FVal := { realEnv with fs := shearFiles }

noncomputable def shearSource : FileSource ℝ :=
  ⟨["v0", "v1"], ["c0", "c1"], "p", 1 / 100, "v0", false⟩

theorem stack_two {α : Type} (n : ℕ) (f g : ℕ → α) :
    ∃ V, NDArray.stack (listing n f).ravelC [(listing n g).ravelC] = .ok V ∧ V.shape = [2, n] ∧
      (∀ q, V.get [0, q] = f q) ∧ ∀ q, V.get [1, q] = g q := by
  refine ⟨_, by simp only [NDArray.stack]; rw [if_pos (by simp [ravelC_shape, listing, NDArray.size])], ?_, ?_, ?_⟩
  · simp [NDArray.ravelC, NDArray.ofFn1, NDArray.size, listing]
  · intro q; simp [NDArray.ravelC, NDArray.ofFn1, decC, listing]
  · intro q; simp [NDArray.ravelC, NDArray.ofFn1, decC, listing]

theorem shear_velocity {f : String} (hf : f = "v0" ∨ f = "v1") :
    ∃ V, readVelocity shearFiles f = .ok V ∧ V.shape = [2, 801 * 801] ∧
      (∀ q, V.get [0, q] = 0) ∧ ∀ q : ℕ, V.get [1, q] = Real.sin (-4 + (q % 801 : ℕ) * (1 / 100)) := by
  obtain ⟨V, h1, h2, h3, h4⟩ := stack_two (801 * 801) (fun _ => (0 : ℝ))
    (fun q => Real.sin (-4 + (q % 801 : ℕ) * (1 / 100)))
  refine ⟨V, ?_, h2, h3, h4⟩
  rw [← h1]
  rcases hf with rfl | rfl <;>
    simp [readVelocity, loadmat, shearFiles, readComponents]

theorem shear_coordinate {f : String} (hf : f = "c0" ∨ f = "c1") :
    ∃ V, readCoordinate shearFiles f = .ok V ∧ V.shape = [2, 801 * 801] ∧
      (∀ q : ℕ, V.get [0, q] = -4 + (q % 801 : ℕ) * (1 / 100)) ∧
      ∀ q : ℕ, V.get [1, q] = -4 + (q / 801 : ℕ) * (1 / 100) := by
  obtain ⟨V, h1, h2, h3, h4⟩ := stack_two (801 * 801)
    (fun q => (-4 : ℝ) + (q % 801 : ℕ) * (1 / 100)) (fun q => -4 + (q / 801 : ℕ) * (1 / 100))
  refine ⟨V, ?_, h2, h3, h4⟩
  rw [← h1]
  rcases hf with rfl | rfl <;>
    simp [readCoordinate, loadmat, shearFiles, readComponents]

theorem shear_samples :
    Samples2 shearFiles shearSource (fun _ => shear) 0 801 801 (-4) (1 / 100) (-4) (1 / 100) where
  fresh := rfl
  hnx := by norm_num
  hny := by norm_num
  lnx := by norm_num
  lny := by norm_num
  hdx := by norm_num
  hdy := by norm_num
  data := by
    intro j hj
    have hj : j < 2 := hj
    obtain ⟨fv, v1, v2⟩ : ∃ f, shearSource.snapshotFiles[j]? = some f ∧ (f = "v0" ∨ f = "v1") := by
      interval_cases j
      · exact ⟨"v0", rfl, .inl rfl⟩
      · exact ⟨"v1", rfl, .inr rfl⟩
    obtain ⟨fc, c1, c2⟩ : ∃ f, shearSource.coordinateFiles[j]? = some f ∧ (f = "c0" ∨ f = "c1") := by
      interval_cases j
      · exact ⟨"c0", rfl, .inl rfl⟩
      · exact ⟨"c1", rfl, .inr rfl⟩
    obtain ⟨V, a1, a2, a3, a4⟩ := shear_velocity v2
    obtain ⟨P, b1, b2, b3, b4⟩ := shear_coordinate c2
    refine ⟨V, P, ⟨⟨fv, v1, a1⟩, ⟨fc, c1, b1⟩⟩, a2, b2, ?_, ?_⟩
    · intro a ha b hb
      rw [b3, b4, Nat.add_mul_mod_self_left, Nat.mod_eq_of_lt ha,
        Nat.add_mul_div_left _ _ (by norm_num), Nat.div_eq_of_lt ha, Nat.zero_add]
      exact ⟨rfl, rfl⟩
    · intro q hq c
      fin_cases c
      · exact a3 q
      · show V.get [1, q] = Real.sin (P.get [0, q])
        rw [a4, b3]

/-- The seeds as read from the file. -/
theorem shear_seeds : ∃ seed P, seed.shape = [4 * 1, 2] ∧ mkParticles seed = .ok P ∧
    readSeedParticles shearFiles "p" = .ok P ∧
    ∀ b, groupOf seed 4 1 2 0 b = cross2 0 1 b := by
  obtain ⟨A, a1, a2, a3⟩ := concat0_eq (m := 1) (rest := [2])
    [seedBlock 0 (-1),
      seedBlock 0 1,
      seedBlock 1 1,
      seedBlock 1 (-1)] (by simp) (by simp [seedBlock])
  obtain ⟨P, p1, -⟩ := mkParticles_2d (show A.shape = [4 * 1, 2] from a2)
  refine ⟨A, P, a2, p1, ?_, fun b => ?_⟩
  · simp [readSeedParticles, loadmat, shearFiles, a1, p1]
  · have g0 := a3 0 (by simp) 0
    have g1 := a3 1 (by simp) 0
    have g2 := a3 2 (by simp) 0
    have g3 := a3 3 (by simp) 0
    funext c
    fin_cases b <;> fin_cases c <;> simp [groupOf, rowOf, cross2, seedBlock] at g0 g1 g2 g3 ⊢ <;>
      simp [g0, g1, g2, g3]

theorem shear_lipschitz (w w' : Fin 2 → ℝ) : ‖shear w - shear w'‖ ≤ 1 * ‖w - w'‖ := by
  rw [pi_norm_le_iff_of_nonneg (by positivity), one_mul]
  intro c
  fin_cases c
  · simp [shear]
  · show |Real.sin (w 0) - Real.sin (w' 0)| ≤ _
    exact (Real.abs_sin_sub_sin_le (w 0) (w' 0)).trans (norm_le_pi_norm (w - w') 0)

theorem shear_along (x : Fin 2 → ℝ) (h : ℝ) (n : ℕ) :
    Along (fun _ => shear) 0 h n 1 0 (shearPath x) where
  trajectory := (shear_trajectory x _).1
  speed := by
    intro t _
    rw [pi_norm_le_iff_of_nonneg (by positivity)]
    intro c
    fin_cases c
    · simp [shear]
    · exact Real.abs_sin_le_one _
  accel := by
    intro s _ t _
    have : shear (shearPath x s) = shear (shearPath x t) := by simp [shear, shearPath]
    rw [this]
    simp

theorem shear_small : SmallSteps (1 * max (1 / 100) (1 / 100)) 1 1 0 (1 / 100) 2 2 where
  eps := by norm_num
  lip := by norm_num
  speed := by norm_num
  accel := by norm_num
  step := by norm_num [abs_of_pos]
  stay := by unfold posError; norm_num [abs_of_pos]
  reach := by norm_num [abs_of_pos]

/-- The hypotheses of C84 hold; the error is below 3 per thousand of the stretching over the
period. -/
example (k : Kind) : ∃ σ Λ : ℝ, 1 ≤ σ ∧
    ((⟨.file shearSource, .highPerf (HighPerf.fresh [801, 801]), .fresh k⟩ : Solver ℝ).run shearEnv
      false none).result = .ok (some [.fin Λ]) ∧
    |Λ - 100 * Real.log σ| ≤ 1 / 2 := by
  obtain ⟨seed, P, s1, s2, s3, s4⟩ := shear_seeds
  set X : ℕ → Fin 4 → ℝ → Fin 2 → ℝ := fun _ b => shearPath (cross2 0 1 b) with hX
  set D := diffs2 (fun b => X 0 b (0 + (2 : ℕ) * (1 / 100))) (groupOf seed 4 1 2 0) with hD
  obtain ⟨σ, hσ⟩ := ftle2_computes.exists_stretch D
  have d11 : D 1 1 = 1 := by
    rw [hD]
    simp [diffs2, s4, hX, shearPath, cross2]
  have d01 : D 0 1 = 0 := by
    rw [hD]
    simp [diffs2, s4, hX, shearPath, cross2]
  have hσ1 : 1 ≤ σ := by
    have h1 := hσ.2 ⟨![0, 1], by simp [len], rfl⟩
    refine le_trans (le_of_eq ?_) h1
    have : D *ᵥ ![0, 1] = ![0, 1] := by
      funext i
      fin_cases i <;> simp [Matrix.mulVec, dotProduct, Fin.sum_univ_two, d11, d01]
    rw [this]
    simp [len]
  have w1 : groupOf seed 4 1 2 0 1 0 - groupOf seed 4 1 2 0 0 0 = 2 := by
    simp [s4, cross2]; norm_num
  have w2 : groupOf seed 4 1 2 0 2 1 - groupOf seed 4 1 2 0 3 1 = 2 := by
    simp [s4, cross2]; norm_num
  obtain ⟨Λ, h1, h2⟩ := C84_gridded_2d (env := shearEnv) ⟨rfl, rfl, rfl⟩ (.inl rfl) false k
    (v := fun _ => shear) (t0 := 0) (s := shearSource) shear_samples (n := 2) rfl le_rfl
    (h := 1 / 100) rfl (by norm_num) shear_small (N := 1) s1 s2 s3 X
    (fun i hi b => by
      obtain rfl : i = 0 := by omega
      exact ⟨shear_along _ _ _, by rw [s4]; exact (shear_trajectory _ univ).2⟩)
    (fun j hj w _ w' _ => shear_lipschitz w w')
    (fun i hi b j hj z hz => by
      have h0 := (norm_le_pi_norm (z - X i b (0 + j * (1 / 100))) 0).trans hz
      have h1 := (norm_le_pi_norm (z - X i b (0 + j * (1 / 100))) 1).trans hz
      have hp0 : |X i b (0 + j * (1 / 100)) 0| ≤ 1 := by
        rw [hX]; fin_cases b <;> simp [shearPath, cross2]
      have hp1 : |X i b (0 + j * (1 / 100)) 1| ≤ 1 + 1 / 100 := by
        have hj' : (j : ℝ) ≤ 1 := by exact_mod_cast (by omega : j ≤ 1)
        have hj0 : (0 : ℝ) ≤ j := by positivity
        have e : X i b (0 + j * (1 / 100)) 1 =
            cross2 0 1 b 1 + (0 + j * (1 / 100)) * Real.sin (cross2 0 1 b 0) := rfl
        have c1 : |cross2 0 1 b 1| ≤ 1 := by fin_cases b <;> simp [cross2]
        have c2 : |(0 + (j : ℝ) * (1 / 100)) * Real.sin (cross2 0 1 b 0)| ≤ 1 / 100 := by
          rw [abs_mul]
          have := Real.abs_sin_le_one (cross2 0 1 b 0)
          have : |0 + (j : ℝ) * (1 / 100)| ≤ 1 / 100 := by
            rw [abs_of_nonneg (by positivity)]; linarith
          nlinarith [abs_nonneg (Real.sin (cross2 0 1 b 0)), abs_nonneg (0 + (j : ℝ) * (1 / 100))]
        rw [e]
        exact (abs_add_le _ _).trans (add_le_add c1 c2)
      rw [Pi.sub_apply, Real.norm_eq_abs, abs_le] at h0 h1
      rw [abs_le] at hp0 hp1
      unfold OnAxis
      norm_num
      refine ⟨⟨?_, ?_⟩, ?_, ?_⟩ <;> linarith [h0.1, h0.2, h1.1, h1.2, hp0.1, hp0.2, hp1.1, hp1.2])
    (fun _ => D) (fun i hi => by
      obtain rfl : i = 0 := by omega
      exact centralDiff2_ok.2 ⟨⟨by rw [w1]; norm_num, by rw [w2]; norm_num⟩, rfl⟩)
    (fun _ => σ) _ (fun i => rfl) (fun i hi => by
      obtain rfl : i = 0 := by omega
      refine ⟨hσ, lt_of_lt_of_le ?_ hσ1⟩
      rw [w1, w2]
      unfold posError
      norm_num [abs_of_pos])
  refine ⟨σ, Λ 0, hσ1, h1, ?_⟩
  have h3 := h2 0 one_pos
  rw [w1, w2] at h3
  have hb : 4 * posError (1 * max (1 / 100) (1 / 100)) 1 1 0 (1 / 100) 2 * (1 / |(2 : ℝ)| + 1 / |(2 : ℝ)|) ≤
      1 / 400 := by
    unfold posError; norm_num [abs_of_pos]
  set β := 4 * posError (1 * max (1 / 100) (1 / 100)) 1 1 0 (1 / 100) 2 * (1 / |(2 : ℝ)| + 1 / |(2 : ℝ)|)
  have hT : 1 / ((((2 : ℕ) : ℝ) - 1) * |(1 / 100 : ℝ)|) = 100 := by norm_num [abs_of_pos]
  rw [hT] at h3
  refine h3.trans ?_
  have : β / (σ - β) ≤ 1 / 200 := by
    rw [div_le_div_iff₀ (by linarith) (by norm_num)]
    linarith
  linarith

/-! ## Three dimensions

The shear flow `(0, 0, sin x)` on the cube `[-4, 4]³`. -/

noncomputable def shear3 (x : Fin 3 → ℝ) : Fin 3 → ℝ := ![0, 0, Real.sin (x 0)]

noncomputable def shearPath3 (x : Fin 3 → ℝ) (t : ℝ) : Fin 3 → ℝ :=
  ![x 0, x 1, x 2 + t * Real.sin (x 0)]

theorem shear3_trajectory (x : Fin 3 → ℝ) (U : Set ℝ) :
    IsTrajectory (fun _ => shear3) U (shearPath3 x) ∧ shearPath3 x 0 = x := by
  constructor
  · intro t _
    rw [hasDerivWithinAt_pi]
    intro i
    fin_cases i
    · exact hasDerivWithinAt_const _ _ _
    · exact hasDerivWithinAt_const _ _ _
    · have := ((hasDerivWithinAt_id t U).mul_const (Real.sin (x 0))).const_add (x 2)
      simpa [shear3, shearPath3] using this
  · funext i
    fin_cases i <;> simp [shearPath3]

theorem shear3_lipschitz (w w' : Fin 3 → ℝ) : ‖shear3 w - shear3 w'‖ ≤ 1 * ‖w - w'‖ := by
  rw [pi_norm_le_iff_of_nonneg (by positivity), one_mul]
  intro c
  fin_cases c
  · simp [shear3]
  · simp [shear3]
  · show |Real.sin (w 0) - Real.sin (w' 0)| ≤ _
    exact (Real.abs_sin_sub_sin_le (w 0) (w' 0)).trans (norm_le_pi_norm (w - w') 0)

theorem shear3_along (x : Fin 3 → ℝ) (h : ℝ) (n : ℕ) :
    Along (fun _ => shear3) 0 h n 1 0 (shearPath3 x) where
  trajectory := (shear3_trajectory x _).1
  speed := by
    intro t _
    rw [pi_norm_le_iff_of_nonneg (by positivity)]
    intro c
    fin_cases c
    · simp [shear3]
    · simp [shear3]
    · exact Real.abs_sin_le_one _
  accel := by
    intro s _ t _
    have : shear3 (shearPath3 x s) = shear3 (shearPath3 x t) := by simp [shear3, shearPath3]
    rw [this]
    simp

def seedBlock3 (c : ℕ) (x : ℝ) : NDArray ℝ := ⟨[1, 3], fun i => if i.getD 1 0 = c then x else 0⟩

noncomputable def shearFiles3 : MatFS ℝ := fun path =>
  if path = "c0" ∨ path = "c1" then some fun key =>
    if key = "coordinate_x" then
      some (listing (801 * 801 * 801) fun q => -4 + (q / 801 % 801 : ℕ) * (1 / 100))
    else if key = "coordinate_y" then
      some (listing (801 * 801 * 801) fun q => -4 + (q / 801 / 801 : ℕ) * (1 / 100))
    else if key = "coordinate_z" then
      some (listing (801 * 801 * 801) fun q => -4 + (q % 801 : ℕ) * (1 / 100))
    else none
  else if path = "v0" ∨ path = "v1" then some fun key =>
    if key = "velocity_x" then some (listing (801 * 801 * 801) fun _ => 0)
    else if key = "velocity_y" then some (listing (801 * 801 * 801) fun _ => 0)
    else if key = "velocity_z" then
      some (listing (801 * 801 * 801) fun q => Real.sin (-4 + (q / 801 % 801 : ℕ) * (1 / 100)))
    else none
  else if path = "p" then some fun key =>
    if key = "left" then some (seedBlock3 0 (-1))
    else if key = "right" then some (seedBlock3 0 1)
    else if key = "top" then some (seedBlock3 1 1)
    else if key = "bottom" then some (seedBlock3 1 (-1))
    else if key = "front" then some (seedBlock3 2 1)
    else if key = "back" then some (seedBlock3 2 (-1))
    else none
  else none

noncomputable def shearEnv3 : Env ℝ FVal := { realEnv with fs := shearFiles3 }

theorem stack_three {α : Type} (n : ℕ) (f g e : ℕ → α) :
    ∃ V, NDArray.stack (listing n f).ravelC [(listing n g).ravelC, (listing n e).ravelC] = .ok V ∧
      V.shape = [3, n] ∧ (∀ q, V.get [0, q] = f q) ∧ (∀ q, V.get [1, q] = g q) ∧
      ∀ q, V.get [2, q] = e q := by
  refine ⟨_, by
    simp only [NDArray.stack]
    rw [if_pos (by simp [ravelC_shape, listing, NDArray.size])], ?_, ?_, ?_, ?_⟩
  · simp [NDArray.ravelC, NDArray.ofFn1, NDArray.size, listing]
  · intro q; simp [NDArray.ravelC, NDArray.ofFn1, decC, listing]
  · intro q; simp [NDArray.ravelC, NDArray.ofFn1, decC, listing]
  · intro q; simp [NDArray.ravelC, NDArray.ofFn1, decC, listing]

theorem shear3_velocity {f : String} (hf : f = "v0" ∨ f = "v1") :
    ∃ V, readVelocity shearFiles3 f = .ok V ∧ V.shape = [3, 801 * 801 * 801] ∧
      (∀ q, V.get [0, q] = 0) ∧ (∀ q, V.get [1, q] = 0) ∧
      ∀ q : ℕ, V.get [2, q] = Real.sin (-4 + (q / 801 % 801 : ℕ) * (1 / 100)) := by
  obtain ⟨V, h1, h2, h3, h4, h5⟩ := stack_three (801 * 801 * 801) (fun _ => (0 : ℝ)) (fun _ => 0)
    (fun q => Real.sin (-4 + (q / 801 % 801 : ℕ) * (1 / 100)))
  refine ⟨V, ?_, h2, h3, h4, h5⟩
  rw [← h1]
  rcases hf with rfl | rfl <;>
    simp [readVelocity, loadmat, shearFiles3, readComponents]

theorem shear3_coordinate {f : String} (hf : f = "c0" ∨ f = "c1") :
    ∃ V, readCoordinate shearFiles3 f = .ok V ∧ V.shape = [3, 801 * 801 * 801] ∧
      (∀ q : ℕ, V.get [0, q] = -4 + (q / 801 % 801 : ℕ) * (1 / 100)) ∧
      (∀ q : ℕ, V.get [1, q] = -4 + (q / 801 / 801 : ℕ) * (1 / 100)) ∧
      ∀ q : ℕ, V.get [2, q] = -4 + (q % 801 : ℕ) * (1 / 100) := by
  obtain ⟨V, h1, h2, h3, h4, h5⟩ := stack_three (801 * 801 * 801)
    (fun q => (-4 : ℝ) + (q / 801 % 801 : ℕ) * (1 / 100))
    (fun q => -4 + (q / 801 / 801 : ℕ) * (1 / 100)) (fun q => -4 + (q % 801 : ℕ) * (1 / 100))
  refine ⟨V, ?_, h2, h3, h4, h5⟩
  rw [← h1]
  rcases hf with rfl | rfl <;>
    simp [readCoordinate, loadmat, shearFiles3, readComponents]

theorem fold_div {m a : ℕ} (b : ℕ) (ha : a < m) : (b * m + a) / m = b := by
  rw [Nat.add_comm, Nat.add_mul_div_right _ _ (by omega), Nat.div_eq_of_lt ha, Nat.zero_add]

theorem fold_mod {m a : ℕ} (b : ℕ) (ha : a < m) : (b * m + a) % m = a := by
  rw [Nat.add_comm, Nat.add_mul_mod_self_right, Nat.mod_eq_of_lt ha]

theorem shear3_samples : Samples3 shearFiles3 shearSource (fun _ => shear3) 0 801 801 (-4) (1 / 100)
    (-4) (1 / 100) (-4) (1 / 100) where
  fresh := rfl
  hm := by norm_num
  hnz := by norm_num
  lm := by norm_num
  lnz := by norm_num
  lmz := by norm_num
  hdx := by norm_num
  hdy := by norm_num
  hdz := by norm_num
  data := by
    intro j hj
    have hj : j < 2 := hj
    obtain ⟨fv, v1, v2⟩ : ∃ f, shearSource.snapshotFiles[j]? = some f ∧ (f = "v0" ∨ f = "v1") := by
      interval_cases j
      · exact ⟨"v0", rfl, .inl rfl⟩
      · exact ⟨"v1", rfl, .inr rfl⟩
    obtain ⟨fc, c1, c2⟩ : ∃ f, shearSource.coordinateFiles[j]? = some f ∧ (f = "c0" ∨ f = "c1") := by
      interval_cases j
      · exact ⟨"c0", rfl, .inl rfl⟩
      · exact ⟨"c1", rfl, .inr rfl⟩
    obtain ⟨V, a1, a2, a3, a4, a5⟩ := shear3_velocity v2
    obtain ⟨P, b1, b2, b3, b4, b5⟩ := shear3_coordinate c2
    refine ⟨V, P, ⟨⟨fv, v1, a1⟩, ⟨fc, c1, b1⟩⟩, a2, b2, ?_, ?_⟩
    · intro a ha b hb c hc
      have e1 : ((b * 801 + a) * 801 + c) / 801 = b * 801 + a := fold_div _ hc
      have e2 : ((b * 801 + a) * 801 + c) % 801 = c := fold_mod _ hc
      have e3 : (b * 801 + a) / 801 = b := fold_div b ha
      have e4 : (b * 801 + a) % 801 = a := fold_mod b ha
      rw [b3, b4, b5, e1, e2, e3, e4]
      exact ⟨rfl, rfl, rfl⟩
    · intro q hq c
      fin_cases c
      · exact a3 q
      · exact a4 q
      · show V.get [2, q] = Real.sin (P.get [0, q])
        rw [a5, b3]

theorem shear3_seeds : ∃ seed P, seed.shape = [6 * 1, 3] ∧ mkParticles seed = .ok P ∧
    readSeedParticles shearFiles3 "p" = .ok P ∧
    ∀ b, groupOf seed 6 1 3 0 b = cross3 0 1 b := by
  obtain ⟨A, a1, a2, a3⟩ := concat0_eq (m := 1) (rest := [3])
    [seedBlock3 0 (-1), seedBlock3 0 1, seedBlock3 1 1, seedBlock3 1 (-1), seedBlock3 2 1,
      seedBlock3 2 (-1)] (by simp) (by simp [seedBlock3])
  obtain ⟨P, p1, -⟩ := mkParticles_3d (show A.shape = [6 * 1, 3] from a2)
  refine ⟨A, P, a2, p1, ?_, fun b => ?_⟩
  · simp [readSeedParticles, loadmat, shearFiles3, a1, p1]
  · have g0 := a3 0 (by simp) 0
    have g1 := a3 1 (by simp) 0
    have g2 := a3 2 (by simp) 0
    have g3 := a3 3 (by simp) 0
    have g4 := a3 4 (by simp) 0
    have g5 := a3 5 (by simp) 0
    funext c
    fin_cases b <;> fin_cases c <;>
      simp [groupOf, rowOf, cross3, seedBlock3] at g0 g1 g2 g3 g4 g5 ⊢ <;>
      simp [g0, g1, g2, g3, g4, g5]

/-- The hypotheses of C84 hold for gridded files in three dimensions. -/
example (k : Kind) : ∃ σ Λ : ℝ, 1 ≤ σ ∧
    ((⟨.file shearSource, .highPerf (HighPerf.fresh [801, 801, 801]), .fresh k⟩ : Solver ℝ).run
      shearEnv3 false none).result = .ok (some [.fin Λ]) ∧
    |Λ - 100 * Real.log σ| ≤ 1 := by
  obtain ⟨seed, P, s1, s2, s3, s4⟩ := shear3_seeds
  set X : ℕ → Fin 6 → ℝ → Fin 3 → ℝ := fun _ b => shearPath3 (cross3 0 1 b) with hX
  set D := diffs3 (fun b => X 0 b (0 + (2 : ℕ) * (1 / 100))) (groupOf seed 6 1 3 0) with hD
  obtain ⟨σ, hσ⟩ := ftle3_computes.exists_stretch D
  have d2 : ∀ r, D r 2 = if r = 2 then 1 else 0 := by
    intro r
    rw [hD]
    fin_cases r <;> simp [diffs3, s4, hX, shearPath3, cross3]
  have hσ1 : 1 ≤ σ := by
    have h1 := hσ.2 ⟨![0, 0, 1], by simp [len], rfl⟩
    refine le_trans (le_of_eq ?_) h1
    have : D *ᵥ ![0, 0, 1] = ![0, 0, 1] := by
      funext i
      fin_cases i <;> simp [Matrix.mulVec, dotProduct, Fin.sum_univ_three, d2]
    rw [this]
    simp [len]
  have w1 : groupOf seed 6 1 3 0 1 0 - groupOf seed 6 1 3 0 0 0 = 2 := by
    simp [s4, cross3]; norm_num
  have w2 : groupOf seed 6 1 3 0 2 1 - groupOf seed 6 1 3 0 3 1 = 2 := by
    simp [s4, cross3]; norm_num
  have w3 : groupOf seed 6 1 3 0 4 2 - groupOf seed 6 1 3 0 5 2 = 2 := by
    simp [s4, cross3]; norm_num
  have small : SmallSteps (1 * max (max (1 / 100) (1 / 100)) (1 / 100)) 1 1 0 (1 / 100) 2 2 := by
    rw [max_self]; exact shear_small
  obtain ⟨Λ, h1, h2⟩ := C84_gridded_3d (env := shearEnv3) ⟨rfl, rfl, rfl⟩ (.inl rfl) false k
    (v := fun _ => shear3) (t0 := 0) (s := shearSource) shear3_samples (n := 2) rfl le_rfl
    (h := 1 / 100) rfl (by norm_num) small (N := 1) s1 s2 s3 X
    (fun i hi b => by
      obtain rfl : i = 0 := by omega
      exact ⟨shear3_along _ _ _, by rw [s4]; exact (shear3_trajectory _ univ).2⟩)
    (fun j hj w _ w' _ => shear3_lipschitz w w')
    (fun i hi b j hj z hz => by
      have h0 := (norm_le_pi_norm (z - X i b (0 + j * (1 / 100))) 0).trans hz
      have h1 := (norm_le_pi_norm (z - X i b (0 + j * (1 / 100))) 1).trans hz
      have h2 := (norm_le_pi_norm (z - X i b (0 + j * (1 / 100))) 2).trans hz
      have hp0 : |X i b (0 + j * (1 / 100)) 0| ≤ 1 := by
        rw [hX]; fin_cases b <;> simp [shearPath3, cross3]
      have hp1 : |X i b (0 + j * (1 / 100)) 1| ≤ 1 := by
        rw [hX]; fin_cases b <;> simp [shearPath3, cross3]
      have hp2 : |X i b (0 + j * (1 / 100)) 2| ≤ 1 + 1 / 100 := by
        have hj' : (j : ℝ) ≤ 1 := by exact_mod_cast (by omega : j ≤ 1)
        have hj0 : (0 : ℝ) ≤ j := by positivity
        have e : X i b (0 + j * (1 / 100)) 2 =
            cross3 0 1 b 2 + (0 + j * (1 / 100)) * Real.sin (cross3 0 1 b 0) := rfl
        have c1 : |cross3 0 1 b 2| ≤ 1 := by fin_cases b <;> simp [cross3]
        have c2 : |(0 + (j : ℝ) * (1 / 100)) * Real.sin (cross3 0 1 b 0)| ≤ 1 / 100 := by
          rw [abs_mul]
          have := Real.abs_sin_le_one (cross3 0 1 b 0)
          have : |0 + (j : ℝ) * (1 / 100)| ≤ 1 / 100 := by
            rw [abs_of_nonneg (by positivity)]; linarith
          nlinarith [abs_nonneg (Real.sin (cross3 0 1 b 0)), abs_nonneg (0 + (j : ℝ) * (1 / 100))]
        rw [e]
        exact (abs_add_le _ _).trans (add_le_add c1 c2)
      rw [Pi.sub_apply, Real.norm_eq_abs, abs_le] at h0 h1 h2
      rw [abs_le] at hp0 hp1 hp2
      unfold OnAxis
      norm_num
      refine ⟨⟨?_, ?_⟩, ⟨?_, ?_⟩, ?_, ?_⟩ <;>
        linarith [h0.1, h0.2, h1.1, h1.2, h2.1, h2.2, hp0.1, hp0.2, hp1.1, hp1.2, hp2.1, hp2.2])
    (fun _ => D) (fun i hi => by
      obtain rfl : i = 0 := by omega
      exact centralDiff3_ok.2 ⟨⟨by rw [w1]; norm_num, by rw [w2]; norm_num, by rw [w3]; norm_num⟩,
        rfl⟩)
    (fun _ => σ) _ (fun i => rfl) (fun i hi => by
      obtain rfl : i = 0 := by omega
      refine ⟨hσ, lt_of_lt_of_le ?_ hσ1⟩
      rw [w1, w2, w3]
      unfold posError
      norm_num [abs_of_pos])
  refine ⟨σ, Λ 0, hσ1, h1, ?_⟩
  have h3 := h2 0 one_pos
  rw [w1, w2, w3] at h3
  have hb : 6 * posError (1 * max (max (1 / 100) (1 / 100)) (1 / 100)) 1 1 0 (1 / 100) 2 *
      (1 / |(2 : ℝ)| + 1 / |(2 : ℝ)| + 1 / |(2 : ℝ)|) ≤ 1 / 150 := by
    unfold posError; norm_num [abs_of_pos]
  set β := 6 * posError (1 * max (max (1 / 100) (1 / 100)) (1 / 100)) 1 1 0 (1 / 100) 2 *
      (1 / |(2 : ℝ)| + 1 / |(2 : ℝ)| + 1 / |(2 : ℝ)|)
  have hT : 1 / ((((2 : ℕ) : ℝ) - 1) * |(1 / 100 : ℝ)|) = 100 := by norm_num [abs_of_pos]
  rw [hT] at h3
  refine h3.trans ?_
  have : β / (σ - β) ≤ 1 / 100 := by
    rw [div_le_div_iff₀ (by linarith) (by norm_num)]
    linarith
  linarith

end Verif
