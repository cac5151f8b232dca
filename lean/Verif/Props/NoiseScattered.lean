import Verif.Props.NoiseExample
import Verif.Props.ScatteredExample

/-!
# C141: scattered velocities with errors
-/

namespace Verif

open Matrix Set

/-- **C141 (scattered data).**  The files hold the values `u` at arbitrary points of the plane, within
`η` of those of the flow `v`; the interpolator blends values from within `Δ`.  The field is that of `v`
up to the error bound of C116 with `η + L Δ` for the error of the velocities. -/
theorem C141_scattered {env : Env ℝ FVal} (he : RealEnv env) (queue : Bool) (k : Kind) {me : Scatter}
    {u v : ℝ → (Fin 2 → ℝ) → Fin 2 → ℝ} {t0 L B M r Δ η : ℝ} {s : FileSource ℝ}
    {p : ℕ → NDArray ℝ} {n : ℕ → ℕ} (hd : ScatterSamples env.fs s u t0 p n)
    {R : ℕ → Set (Fin 2 → ℝ)} {m : ℕ} (hn : s.snapshotFiles.length = m) (hn2 : 2 ≤ m)
    (hb : ∀ j < m, env.sp.Blends me (p j) (n j) (R j) Δ) {h : ℝ} (hh : s.timestep = h) (hh0 : h ≠ 0)
    (hη : ∀ j < m, ∀ k < n j, ‖u (t0 + j * h) (samplePoint (p j) k) -
      v (t0 + j * h) (samplePoint (p j) k)‖ ≤ η)
    (small : SmallSteps (η + L * Δ) L B M h m r) {N : ℕ} {seed : NDArray ℝ}
    (hs : seed.shape = [4 * N, 2]) {P : Particles ℝ} (hp : mkParticles seed = .ok P)
    (hP : readSeedParticles env.fs s.particleFile = .ok P)
    (X : ℕ → Fin 4 → ℝ → Fin 2 → ℝ)
    (hX : ∀ i < N, ∀ b, Along v t0 h m B M (X i b) ∧ X i b t0 = groupOf seed 4 N 2 i b)
    (hL : ∀ i < N, ∀ b, ∀ j < m, ∀ k < n j,
      ‖v (t0 + j * h) (samplePoint (p j) k) - v (t0 + j * h) (X i b (t0 + j * h))‖ ≤
        L * ‖samplePoint (p j) k - X i b (t0 + j * h)‖)
    (hin : ∀ i < N, ∀ b, ∀ j < m, ∀ z, ‖z - X i b (t0 + j * h)‖ ≤ r → z ∈ R j)
    (D : ℕ → Matrix (Fin 2) (Fin 2) ℝ)
    (hD : ∀ i < N, centralDiff2 (fun b => X i b (t0 + m * h)) (groupOf seed 4 N 2 i) = .ok (D i))
    (σ b : ℕ → ℝ) (hb' : ∀ i, b i = 4 * posError (η + L * Δ) L B M h m *
      (1 / |groupOf seed 4 N 2 i 1 0 - groupOf seed 4 N 2 i 0 0| +
        1 / |groupOf seed 4 N 2 i 2 1 - groupOf seed 4 N 2 i 3 1|))
    (hσ : ∀ i < N, IsMaxStretch (D i) (σ i) ∧ b i < σ i) :
    ∃ Λ : ℕ → ℝ, ((⟨.file s, .scatter (.fresh me), .fresh k⟩ : Solver ℝ).run env
        queue none).result = .ok (some ((List.range N).map fun i => .fin (Λ i))) ∧
      ∀ i < N, |Λ i - 1 / (((m : ℝ) - 1) * |h|) * Real.log (σ i)| ≤
        1 / (((m : ℝ) - 1) * |h|) * (b i / (σ i - b i)) := by
  have all := fun j (hj : j < m) => scatter_samples (env := env) (me := me) hd
    (fun j hj => hb j (by omega)) j (by omega) (rows := 4 * N) (by omega)
  choose! hup W w1 w2 using all
  refine C84_error_2d (src := .file s) he queue k hn hn2 hh hh0 small hs hp hP X hX
    (I0 := .scatter (.fresh me)) trivial rfl hup _ R w2
    (fun i hi b j hj z hz => ⟨hin i hi b j hj z hz, ?_⟩) D hD σ b hb' hσ
  obtain ⟨a1, a2, a3⟩ := w1 j hj z (hin i hi b j hj z hz)
  have hL0 := small.lip
  have hε := small.eps
  rw [hh]
  refine blend_error a1 a2 (fun k hk hw => ?_) (by positivity)
  have h3 := norm_add_le (u (t0 + j * h) (samplePoint (p j) k) - v (t0 + j * h) (samplePoint (p j) k))
    (v (t0 + j * h) (samplePoint (p j) k) - v (t0 + j * h) (X i b (t0 + j * h)))
  rw [sub_add_sub_cancel] at h3
  have h4 := hL i hi b j hj k hk
  have h5 := hη j hj k hk
  have h1 := a3 k hk hw
  have h2 := norm_add_le (samplePoint (p j) k - z) (z - X i b (t0 + j * h))
  rw [sub_add_sub_cancel] at h2
  have := mul_le_mul_of_nonneg_left (h2.trans (add_le_add_left h1 _)) hL0
  linarith

/-! ## A case -/

/-- The files of the shear flow, as scattered data with one coordinate file. -/
noncomputable def noisySource : FileSource ℝ :=
  ⟨["v0", "v1"], ["c0", "c0"], "p", 1 / 100, "v0", true⟩

theorem noisySamples {P : Particles ℝ} (hP : readSeedParticles shearFiles "p" = .ok P) :
    ∃ C : NDArray ℝ, ScatterSamples shearFiles noisySource (fun _ => shear) 0 (fun _ => C)
      (fun _ => 801 * 801) ∧
      ∀ z : Fin 2 → ℝ, OnAxis 801 (-4) (1 / 100) (z 0) ∧ OnAxis 801 (-4) (1 / 100) (z 1) →
        ∃ k < 801 * 801, ‖samplePoint C k - z‖ ≤ max (1 / 100) (1 / 100) := by
  obtain ⟨C, sv, cover⟩ := scatData hP
  rw [one_mul] at cover
  obtain ⟨c, c1, c2, c3⟩ := sv.points 0 (by simp [scatExperiment, surveyExperiment])
  obtain rfl : "c0".toList = c := Option.some.inj c1
  refine ⟨C, ⟨fun _ _ _ => rfl, fun j hj => ?_⟩, cover⟩
  have hj : j < 2 := hj
  obtain ⟨f, f1, f2⟩ : ∃ f : Str, noisySource.snapshotFiles[j]? = some (String.ofList f) ∧
      scatExperiment.velocity[j]? = some f := by
    interval_cases j
    · exact ⟨"v0".toList, rfl, rfl⟩
    · exact ⟨"v1".toList, rfl, rfl⟩
  obtain ⟨V, v1, v2, v3⟩ := sv.samples j f f2
  refine ⟨V, ⟨⟨_, f1, v1⟩, _, ?_, c2⟩, v2, c3, fun k hk e => v3 k hk e⟩
  interval_cases j <;> rfl

/-- The hypotheses of C141 hold for interpolation by the nearest point. -/
example (k : Kind) : ∃ σ Λ : ℝ, 1 ≤ σ ∧
    ((⟨.file noisySource, .scatter (.fresh .nearest), .fresh k⟩ : Solver ℝ).run scatEnv
      false none).result = .ok (some [.fin Λ]) ∧
    |Λ - 100 * Real.log σ| ≤ 1 / 2 := by
  obtain ⟨seed, P, s1, s2, s3, s4⟩ := shear_seeds
  obtain ⟨C, sam, cover⟩ := noisySamples s3
  set X : ℕ → Fin 4 → ℝ → Fin 2 → ℝ := fun _ b => driftPath (cross2 0 1 b) with hX
  set D := diffs2 (fun b => X 0 b (0 + (2 : ℕ) * (1 / 100))) (groupOf seed 4 1 2 0) with hD
  obtain ⟨σ, hσ⟩ := ftle2_computes.exists_stretch D
  have d11 : D 1 1 = 1 := by
    rw [hD]
    simp [diffs2, s4, hX, driftPath, cross2]
  have d01 : D 0 1 = 0 := by
    rw [hD]
    simp [diffs2, s4, hX, driftPath, cross2]
  have hσ1 : 1 ≤ σ := by
    have h1 := hσ.2 ⟨![0, 1], by simp [len], rfl⟩
    refine le_trans (le_of_eq ?_) h1
    have : D *ᵥ ![0, 1] = ![0, 1] := by
      funext i
      fin_cases i <;> simp [Matrix.mulVec, dotProduct, Fin.sum_univ_two, d11, d01]
    rw [this]
    simp [len]
  have w1 : groupOf seed 4 1 2 0 1 0 - groupOf seed 4 1 2 0 0 0 = 2 := by
    simp [s4, cross2]; norm_num
  have w2 : groupOf seed 4 1 2 0 2 1 - groupOf seed 4 1 2 0 3 1 = 2 := by
    simp [s4, cross2]; norm_num
  obtain ⟨Λ, h1, h2⟩ := C141_scattered (env := scatEnv) ⟨rfl, rfl, rfl⟩ false k
    (u := fun _ => shear) (v := fun _ => drift) (t0 := 0) (s := noisySource) sam (m := 2) rfl le_rfl
    (fun j _ => nearestSciPy_blends .nearest C (by norm_num) (max (1 / 100) (1 / 100)))
    (h := 1 / 100) rfl (by norm_num) (η := 1 / 1000)
    (fun j _ k _ => drift_near _) drift_small (N := 1) s1 s2 s3 X
    (fun i hi b => by
      obtain rfl : i = 0 := by omega
      exact ⟨drift_along _ _ _, by rw [s4]; exact (drift_trajectory _ univ).2⟩)
    (fun i hi b j hj k hk => drift_lipschitz _ _)
    (fun i hi b j hj z hz => cover z <| by
      have h0 := (norm_le_pi_norm (z - X i b (0 + j * (1 / 100))) 0).trans hz
      have h1 := (norm_le_pi_norm (z - X i b (0 + j * (1 / 100))) 1).trans hz
      have hp0 : |X i b (0 + j * (1 / 100)) 0| ≤ 1 := by
        rw [hX]; fin_cases b <;> simp [driftPath, cross2]
      have hp1 : |X i b (0 + j * (1 / 100)) 1| ≤ 1 + 2 / 100 := by
        have hj' : (j : ℝ) ≤ 1 := by exact_mod_cast (by omega : j ≤ 1)
        have hj0 : (0 : ℝ) ≤ j := by positivity
        have e : X i b (0 + j * (1 / 100)) 1 =
            cross2 0 1 b 1 + (0 + j * (1 / 100)) * (Real.sin (cross2 0 1 b 0) + 1 / 1000) := rfl
        have c1 : |cross2 0 1 b 1| ≤ 1 := by fin_cases b <;> simp [cross2]
        have c2 : |(0 + (j : ℝ) * (1 / 100)) * (Real.sin (cross2 0 1 b 0) + 1 / 1000)| ≤ 2 / 100 := by
          rw [abs_mul]
          have c3 : |Real.sin (cross2 0 1 b 0) + 1 / 1000| ≤ 2 := by
            have := abs_le.1 (Real.abs_sin_le_one (cross2 0 1 b 0))
            rw [abs_le]
            constructor <;> linarith [this.1, this.2]
          have : |0 + (j : ℝ) * (1 / 100)| ≤ 1 / 100 := by
            rw [abs_of_nonneg (by positivity)]; linarith
          nlinarith [abs_nonneg (Real.sin (cross2 0 1 b 0) + 1 / 1000),
            abs_nonneg (0 + (j : ℝ) * (1 / 100))]
        rw [e]
        exact (abs_add_le _ _).trans (add_le_add c1 c2)
      rw [Pi.sub_apply, Real.norm_eq_abs, abs_le] at h0 h1
      rw [abs_le] at hp0 hp1
      unfold OnAxis
      norm_num
      refine ⟨⟨?_, ?_⟩, ?_, ?_⟩ <;> linarith [h0.1, h0.2, h1.1, h1.2, hp0.1, hp0.2, hp1.1, hp1.2])
    (fun _ => D) (fun i hi => by
      obtain rfl : i = 0 := by omega
      exact centralDiff2_ok.2 ⟨⟨by rw [w1]; norm_num, by rw [w2]; norm_num⟩, rfl⟩)
    (fun _ => σ) _ (fun i => rfl) (fun i hi => by
      obtain rfl : i = 0 := by omega
      refine ⟨hσ, lt_of_lt_of_le ?_ hσ1⟩
      rw [w1, w2]
      unfold posError
      norm_num [abs_of_pos])
  refine ⟨σ, Λ 0, hσ1, h1, ?_⟩
  have h3 := h2 0 one_pos
  rw [w1, w2] at h3
  have hb : 4 * posError (1 / 1000 + 1 * max (1 / 100) (1 / 100)) 1 (1 + 1 / 1000) 0 (1 / 100) 2 *
      (1 / |(2 : ℝ)| + 1 / |(2 : ℝ)|) ≤ 1 / 350 := by
    unfold posError; norm_num [abs_of_pos]
  set β := 4 * posError (1 / 1000 + 1 * max (1 / 100) (1 / 100)) 1 (1 + 1 / 1000) 0 (1 / 100) 2 *
      (1 / |(2 : ℝ)| + 1 / |(2 : ℝ)|)
  have hT : 1 / ((((2 : ℕ) : ℝ) - 1) * |(1 / 100 : ℝ)|) = 100 := by norm_num [abs_of_pos]
  rw [hT] at h3
  refine h3.trans ?_
  have : β / (σ - β) ≤ 1 / 200 := by
    rw [div_le_div_iff₀ (by linarith) (by norm_num)]
    linarith
  linarith

end Verif
