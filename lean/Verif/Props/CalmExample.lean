import Verif.Props.Calm
import Verif.Props.StrainExample

/-!
# C142: cases
-/

namespace Verif

open Matrix Set

theorem nearZero_abs {v : FVal} {T e c : ℝ} (hT : 0 < T) (he : 0 ≤ e) (h1 : e < 1)
    (hc : e / (1 - e) ≤ c * T) (h : NearZero v T e) : ∃ l, v = .fin l ∧ |l| ≤ c := by
  obtain ⟨l, hl, h2, h3⟩ := h.2 h1
  have p : 0 < 1 - e := by linarith
  have u1 : Real.log (1 + e) ≤ c * T := by
    refine (Real.log_le_sub_one_of_pos (by linarith)).trans (le_trans ?_ hc)
    rw [add_sub_cancel_left, le_div_iff₀ p]
    nlinarith
  have u2 : -(c * T) ≤ Real.log (1 - e) := by
    refine le_trans ?_ (Real.one_sub_inv_le_log_of_pos p)
    have : 1 - (1 - e)⁻¹ = -(e / (1 - e)) := by field_simp; ring
    rw [this]
    linarith
  refine ⟨l, hl, abs_le.2 ⟨le_trans ?_ h2, h3.trans ?_⟩⟩
  · rw [one_div, ← div_eq_inv_mul, le_div_iff₀ hT]
    linarith
  · rw [one_div, ← div_eq_inv_mul, div_le_iff₀ hT]
    exact u1

/-- A fluid that moves upward with speed 1, measured with errors up to 1/1000. -/
noncomputable def ripple (x : ℝ) : ℝ := 1 + Real.sin x / 1000

theorem ripple_near (x : ℝ) : |ripple x - 1| ≤ 1 / 1000 := by
  have : ripple x - 1 = Real.sin x / 1000 := by unfold ripple; ring
  rw [this, abs_div, abs_of_pos (by norm_num : (0 : ℝ) < 1000)]
  exact div_le_div_of_nonneg_right (Real.abs_sin_le_one x) (by norm_num)

theorem ripple_le (x : ℝ) : |ripple x| ≤ 2 := by
  have := abs_le.1 (ripple_near x)
  rw [abs_le]
  constructor <;> linarith [this.1, this.2]

/-- Grid spacing and time step `1/20`, three snapshots: whatever the distance of the seeds, the value is a
number between -1 and 1. -/
theorem ripple_value (queue : Bool) (k : Kind) {δ : ℝ} (h0 : 0 < δ) (h1 : δ ≤ 1) : ∃ l : ℝ,
    ((⟨.file (cellSource 20 3), .highPerf (HighPerf.fresh [161, 161]), .fresh k⟩ :
      Solver ℝ).run { realEnv with fs := cellFiles ripple 20 0 δ } queue none).result =
        .ok (some [.fin l]) ∧ |l| ≤ 1 := by
  obtain ⟨seed, P, s1, s2, s3, s4⟩ := cell_seeds ripple 20 0 δ
  have hd := cell_samples_of ripple 0 δ 0 (q := 20) 3 (by norm_num) (by norm_num)
  have ht : (cellSource 20 3).timestep = 1 / 20 := by simp [cellSource]
  have hl : (cellSource 20 3).snapshotFiles.length = 3 := by simp [cellSource]
  have habs : |(1 / 20 : ℝ)| = 1 / 20 := abs_of_pos (by norm_num)
  obtain ⟨Λ, h2, h3⟩ := C142_noise_2d (env := { realEnv with fs := cellFiles ripple 20 0 δ })
    ⟨rfl, rfl, rfl⟩ (.inl rfl) queue k hd (w := fun _ => ![0, 1]) (W := 1) (η := 1 / 1000)
    (fun j _ => by
      rw [pi_norm_le_iff_of_nonneg (by norm_num)]
      intro c
      fin_cases c <;> simp)
    (fun j _ a _ b _ => by
      rw [pi_norm_le_iff_of_nonneg (by norm_num)]
      intro c
      fin_cases c
      · simp [parallel]
      · exact ripple_near _)
    s1 s2 s3 (fun i hi => by
      obtain rfl : i = 0 := by omega
      have e : ∀ b : Fin 4, ∀ c : Fin 2, pt seed 1 b 0 c = cross2 ![0, 0] δ b c := fun b c =>
        congrFun (congrFun s4 b) c
      refine ⟨?_, ?_, ?_, ?_⟩
      · show pt seed 1 (1 : Fin 4) 0 (0 : Fin 2) ≠ pt seed 1 (0 : Fin 4) 0 (0 : Fin 2)
        rw [e, e]
        simp [cross2]
        linarith
      · exact (e 1 1).trans (e 0 1).symm
      · show pt seed 1 (2 : Fin 4) 0 (1 : Fin 2) ≠ pt seed 1 (3 : Fin 4) 0 (1 : Fin 2)
        rw [e, e]
        simp [cross2]
        linarith
      · exact (e 2 0).trans (e 3 0).symm)
    (fun i hi b z hz => by
      obtain rfl : i = 0 := by omega
      rw [s4, ht, hl, habs] at hz
      have c0 : |cross2 ![0, 0] δ b 0| ≤ 1 := by
        rw [abs_le]; fin_cases b <;> simp [cross2] <;> constructor <;> linarith
      have c1 : |cross2 ![0, 0] δ b 1| ≤ 1 := by
        rw [abs_le]; fin_cases b <;> simp [cross2] <;> constructor <;> linarith
      have z0 := (norm_le_pi_norm (z - cross2 ![0, 0] δ b) 0).trans hz
      have z1 := (norm_le_pi_norm (z - cross2 ![0, 0] δ b) 1).trans hz
      rw [Pi.sub_apply, Real.norm_eq_abs, abs_le] at z0 z1
      rw [abs_le] at c0 c1
      norm_num at z0 z1
      exact ⟨cell_axis (q := 20) (by norm_num) (by linarith [z0.1, c0.1]) (by linarith [z0.2, c0.2]),
        cell_axis (q := 20) (by norm_num) (by linarith [z1.1, c1.1]) (by linarith [z1.2, c1.2])⟩)
    (by rw [hl]; norm_num) (by rw [ht]; norm_num)
  have h4 := h3 0 one_pos
  rw [ht, hl, habs] at h4
  obtain ⟨l, e1, e2⟩ := nearZero_abs (c := 1) (by norm_num) (by cases k <;> norm_num [growth])
    (by cases k <;> norm_num [growth]) (by cases k <;> norm_num [growth]) h4
  refine ⟨l, ?_, e2⟩
  rw [← e1]
  exact h2

/-- Half a unit apart. -/
example := ripple_value true .rk4 (δ := 1 / 2) (by norm_num) (by norm_num)

/-! ## Three dimensions -/

/-- The velocity `(0, 0, f x)` on `[-4, 4]³`, spacing `1/100`. -/
noncomputable def lineFiles3 (f : ℝ → ℝ) : MatFS ℝ := fun path =>
  if path = "v0" ∨ path = "v1" then some fun key =>
    if key = "velocity_x" then some (listing (801 * 801 * 801) fun _ => 0)
    else if key = "velocity_y" then some (listing (801 * 801 * 801) fun _ => 0)
    else if key = "velocity_z" then
      some (listing (801 * 801 * 801) fun q => f (-4 + (q / 801 % 801 : ℕ) * (1 / 100)))
    else none
  else shearFiles3 path

theorem line3_samples (f : ℝ → ℝ) : Samples3 (lineFiles3 f) shearSource (fun _ x => ![0, 0, f (x 0)]) 0
    801 801 (-4) (1 / 100) (-4) (1 / 100) (-4) (1 / 100) where
  fresh := rfl
  hm := by norm_num
  hnz := by norm_num
  lm := by norm_num
  lnz := by norm_num
  lmz := by norm_num
  hdx := by norm_num
  hdy := by norm_num
  hdz := by norm_num
  data := by
    intro j hj
    have hj : j < 2 := hj
    obtain ⟨fv, v1, v2⟩ : ∃ f, shearSource.snapshotFiles[j]? = some f ∧ (f = "v0" ∨ f = "v1") := by
      interval_cases j
      · exact ⟨"v0", rfl, .inl rfl⟩
      · exact ⟨"v1", rfl, .inr rfl⟩
    obtain ⟨fc, c1, c2⟩ : ∃ f, shearSource.coordinateFiles[j]? = some f ∧ (f = "c0" ∨ f = "c1") := by
      interval_cases j
      · exact ⟨"c0", rfl, .inl rfl⟩
      · exact ⟨"c1", rfl, .inr rfl⟩
    obtain ⟨V, h1, a2, a3, a4, a5⟩ := stack_three (801 * 801 * 801) (fun _ => (0 : ℝ)) (fun _ => 0)
      (fun q => f (-4 + (q / 801 % 801 : ℕ) * (1 / 100)))
    have a1 : readVelocity (lineFiles3 f) fv = .ok V := by
      rw [← h1]
      simp [readVelocity, loadmat, lineFiles3, v2, readComponents]
    obtain ⟨P, b1, b2, b3, b4, b5⟩ := shear3_coordinate c2
    have b1' : readCoordinate (lineFiles3 f) fc = .ok P := by
      rw [← b1]
      rcases c2 with rfl | rfl <;> simp [readCoordinate, loadmat, lineFiles3]
    refine ⟨V, P, ⟨⟨fv, v1, a1⟩, ⟨fc, c1, b1'⟩⟩, a2, b2, ?_, ?_⟩
    · intro a ha b hb c hc
      have e1 : ((b * 801 + a) * 801 + c) / 801 = b * 801 + a := fold_div _ hc
      have e2 : ((b * 801 + a) * 801 + c) % 801 = c := fold_mod _ hc
      have e3 : (b * 801 + a) / 801 = b := fold_div b ha
      have e4 : (b * 801 + a) % 801 = a := fold_mod b ha
      rw [b3, b4, b5, e1, e2, e3, e4]
      exact ⟨rfl, rfl, rfl⟩
    · intro q hq c
      fin_cases c
      · exact a3 q
      · exact a4 q
      · show V.get [2, q] = f (P.get [0, q])
        rw [a5, b3]

/-- Grid spacing and time step `1/100`, two snapshots. -/
theorem ripple3_value (queue : Bool) (k : Kind) : ∃ l : ℝ,
    ((⟨.file shearSource, .highPerf (HighPerf.fresh [801, 801, 801]), .fresh k⟩ :
      Solver ℝ).run { realEnv with fs := (lineFiles3 ripple) } queue none).result =
        .ok (some [.fin l]) ∧ |l| ≤ 10 := by
  obtain ⟨seed, P, s1, s2, s3, s4⟩ := shear3_seeds
  have ht : shearSource.timestep = 1 / 100 := rfl
  have hl : shearSource.snapshotFiles.length = 2 := rfl
  have habs : |(1 / 100 : ℝ)| = 1 / 100 := abs_of_pos (by norm_num)
  obtain ⟨Λ, h2, h3⟩ := C142_noise_3d (env := { realEnv with fs := (lineFiles3 ripple) })
    ⟨rfl, rfl, rfl⟩ (.inl rfl) queue k (line3_samples ripple) (w := fun _ => ![0, 0, 1]) (W := 1) (η := 1 / 1000)
    (fun j _ => by
      rw [pi_norm_le_iff_of_nonneg (by norm_num)]
      intro c
      fin_cases c <;> simp)
    (fun j _ a _ b _ e _ => by
      rw [pi_norm_le_iff_of_nonneg (by norm_num)]
      intro c
      fin_cases c
      · simp
      · simp
      · exact ripple_near _)
    s1 s2 (show readSeedParticles (lineFiles3 ripple) "p" = .ok P from s3) (fun i hi => by
      obtain rfl : i = 0 := by omega
      have e : ∀ b : Fin 6, ∀ c : Fin 3, pt seed 1 b 0 c = cross3 0 1 b c := fun b c =>
        congrFun (s4 b) c
      have := e 0 0; have := e 0 1; have := e 0 2; have := e 1 0; have := e 1 1; have := e 1 2
      have := e 2 0; have := e 2 1; have := e 2 2; have := e 3 0; have := e 3 1; have := e 3 2
      have := e 4 0; have := e 4 1; have := e 4 2; have := e 5 0; have := e 5 1; have := e 5 2
      clear s3 s4
      simp_all [AxisAligned3, cross3]
      norm_num)
    (fun i hi b z hz => by
      obtain rfl : i = 0 := by omega
      rw [s4, ht, hl, habs] at hz
      have c0 : |cross3 0 1 b 0| ≤ 1 := by fin_cases b <;> simp [cross3]
      have c1 : |cross3 0 1 b 1| ≤ 1 := by fin_cases b <;> simp [cross3]
      have c2 : |cross3 0 1 b 2| ≤ 1 := by fin_cases b <;> simp [cross3]
      have z0 := (norm_le_pi_norm (z - cross3 0 1 b) 0).trans hz
      have z1 := (norm_le_pi_norm (z - cross3 0 1 b) 1).trans hz
      have z2 := (norm_le_pi_norm (z - cross3 0 1 b) 2).trans hz
      rw [Pi.sub_apply, Real.norm_eq_abs, abs_le] at z0 z1 z2
      rw [abs_le] at c0 c1 c2
      norm_num at z0 z1 z2
      exact ⟨fine_axis (by linarith [z0.1, c0.1]) (by linarith [z0.2, c0.2]),
        fine_axis (by linarith [z1.1, c1.1]) (by linarith [z1.2, c1.2]),
        fine_axis (by linarith [z2.1, c2.1]) (by linarith [z2.2, c2.2])⟩)
    (by rw [hl]) (by rw [ht]; norm_num)
  have h4 := h3 0 one_pos
  rw [ht, hl, habs] at h4
  obtain ⟨l, e1, e2⟩ := nearZero_abs (c := 10) (by norm_num) (by cases k <;> norm_num [growth])
    (by cases k <;> norm_num [growth]) (by cases k <;> norm_num [growth]) h4
  refine ⟨l, ?_, e2⟩
  rw [← e1]
  exact h2

example := ripple3_value true .rk4

/-- Weak strain of an analytical velocity: the flow `x / 100`, step 1, two snapshots. -/
example (queue : Bool) (k : Kind) : ∃ (P : Particles ℝ) (Λ : FVal), mkParticles crossSeed = .ok P ∧
    ((⟨.analytical ⟨P, 1, [0, 1]⟩, .analytical (.fresh (some fun _ => sourceOf 2 fun x => (1 / 100 : ℝ) • x)),
        .fresh k⟩ : Solver ℝ).run realEnv queue none).result = .ok (some [Λ]) ∧
    ∃ l, Λ = .fin l ∧ |l| ≤ 1 / 10 := by
  obtain ⟨P, hP, -⟩ := mkParticles_2d (show crossSeed.shape = [4 * 1, 2] from rfl)
  obtain ⟨Λ, h1, h2⟩ := C142_strain_2d (env := realEnv) (k := k) (src := .analytical ⟨P, 1, [0, 1]⟩)
    (I0 := .analytical (.fresh (some fun _ => sourceOf 2 fun x => (1 / 100 : ℝ) • x))) (N := 1)
    ⟨rfl, rfl, rfl⟩ queue
    trivial (fun i _ => by rw [analytical_updated]) (S := fun _ => univ) (g := fun _ x => (1 / 100 : ℝ) • x)
    (fun i _ => by rw [analytical_updated]; exact fun pos h1 _ => sourceOf_pointwise _ _ _ pos h1) rfl rfl
    hP rfl
    crossSeed_aligned (fun _ _ _ _ _ _ _ => trivial) le_rfl one_ne_zero (L := 1 / 100) (by norm_num)
    (fun _ _ x _ y _ => by
      rw [← smul_sub, norm_smul, Real.norm_eq_abs, abs_of_pos (by norm_num : (0 : ℝ) < 1 / 100)])
  have h3 := h2 0 one_pos
  refine ⟨P, Λ 0, hP, h1, ?_⟩
  have e0 : (Source.analytical ⟨P, (1 : ℝ), [0, 1]⟩).numSteps = 2 := rfl
  have e1 : (Source.analytical ⟨P, (1 : ℝ), [0, 1]⟩).timestep = 1 := rfl
  rw [e0, e1] at h3
  exact nearZero_abs (by norm_num) (by cases k <;> norm_num [growth])
    (by cases k <;> norm_num [growth]) (by cases k <;> norm_num [growth]) h3

/-- In 3-D. -/
example (queue : Bool) (k : Kind) : ∃ (P : Particles ℝ) (Λ : FVal), mkParticles crossSeed3 = .ok P ∧
    ((⟨.analytical ⟨P, 1, [0, 1]⟩, .analytical (.fresh (some fun _ => sourceOf 3 fun x => (1 / 100 : ℝ) • x)),
        .fresh k⟩ : Solver ℝ).run realEnv queue none).result = .ok (some [Λ]) ∧
    ∃ l, Λ = .fin l ∧ |l| ≤ 1 / 5 := by
  obtain ⟨P, hP, -⟩ := mkParticles_3d (show crossSeed3.shape = [6 * 1, 3] from rfl)
  obtain ⟨Λ, h1, h2⟩ := C142_strain_3d (env := realEnv) (k := k) (src := .analytical ⟨P, 1, [0, 1]⟩)
    (I0 := .analytical (.fresh (some fun _ => sourceOf 3 fun x => (1 / 100 : ℝ) • x))) (N := 1)
    ⟨rfl, rfl, rfl⟩ queue
    trivial (fun i _ => by rw [analytical_updated]) (S := fun _ => univ) (g := fun _ x => (1 / 100 : ℝ) • x)
    (fun i _ => by rw [analytical_updated]; exact fun pos h1 _ => sourceOf_pointwise _ _ _ pos h1) rfl rfl
    hP rfl
    crossSeed3_aligned (fun _ _ _ _ _ _ _ => trivial) le_rfl one_ne_zero (L := 1 / 100) (by norm_num)
    (fun _ _ x _ y _ => by
      rw [← smul_sub, norm_smul, Real.norm_eq_abs, abs_of_pos (by norm_num : (0 : ℝ) < 1 / 100)])
  have h3 := h2 0 one_pos
  refine ⟨P, Λ 0, hP, h1, ?_⟩
  have e0 : (Source.analytical ⟨P, (1 : ℝ), [0, 1]⟩).numSteps = 2 := rfl
  have e1 : (Source.analytical ⟨P, (1 : ℝ), [0, 1]⟩).timestep = 1 := rfl
  rw [e0, e1] at h3
  exact nearZero_abs (by norm_num) (by cases k <;> norm_num [growth])
    (by cases k <;> norm_num [growth]) (by cases k <;> norm_num [growth]) h3

end Verif
