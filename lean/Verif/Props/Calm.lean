import Verif.Lemmas.Deviation
import Verif.Props.Strain

/-!
# C142: weak strain, and errors of the data where nothing stretches

C138 bounds the exponent by the strain, but its bound does not vanish with the strain.  The one here
does: a run that sees little strain reports values near zero.  Data of a fluid that moves without
deformation, with errors at the nodes, are such a case: the values are small however close together the
seeds are.
-/

namespace Verif

open Matrix

/-- The value is at most `log (1 + e) / T`, and if `e < 1` it is a number between `log (1 - e) / T` and
`log (1 + e) / T`. -/
def NearZero (v : FVal) (T e : ℝ) : Prop :=
  (v = .negInf ∨ ∃ l ≤ 1 / T * Real.log (1 + e), v = .fin l) ∧
  (e < 1 → ∃ l, v = .fin l ∧ 1 / T * Real.log (1 - e) ≤ l ∧ l ≤ 1 / T * Real.log (1 + e))

theorem nearZero_of {S T e : ℝ} (hT : 0 < T) (h0 : 0 ≤ S) (h1 : 1 - e ≤ S) (h2 : S ≤ 1 + e) :
    NearZero (ftleVal S T) T e := by
  have hT' : 0 ≤ 1 / T := by positivity
  have up : 0 < S → 1 / T * Real.log S ≤ 1 / T * Real.log (1 + e) := fun h =>
    mul_le_mul_of_nonneg_left (Real.log_le_log h h2) hT'
  refine ⟨?_, fun he => ?_⟩
  · rcases h0.lt_or_eq with h | h
    · exact .inr ⟨_, up h, ftleVal_pos h⟩
    · exact .inl (by rw [← h]; exact ftleVal_zero_pos hT)
  · have h : 0 < S := by linarith
    exact ⟨_, ftleVal_pos h, mul_le_mul_of_nonneg_left (Real.log_le_log (by linarith) h1) hT', up h⟩

/-- Quotients of differences along an axis, compared with those of the identity. -/
theorem quotient_near {d : ℕ} {X Y x y : Fin d → ℝ} {j : Fin d} {e : ℝ}
    (h : ‖X - Y - (x - y)‖ ≤ e * ‖x - y‖) (hj : x j ≠ y j) (ho : ∀ i, i ≠ j → x i = y i) (i : Fin d) :
    |(X i - Y i) / (x j - y j) - (1 : Matrix (Fin d) (Fin d) ℝ) i j| ≤ e := by
  have e1 : X - Y - (x - y) = (X - x) - (Y - y) := by abel
  rw [e1] at h
  have := quotient_le h hj ho i
  have e2 : (X i - Y i) / (x j - y j) - (1 : Matrix (Fin d) (Fin d) ℝ) i j =
      ((X - x) i - (Y - y) i) / (x j - y j) := by
    have hne := sub_ne_zero.2 hj
    by_cases hij : i = j
    · subst hij
      simp only [one_apply_eq, Pi.sub_apply]
      field_simp
      ring
    · simp only [one_apply_ne hij, Pi.sub_apply, ho i hij]
      ring
  rwa [e2]

section
variable {env : Env ℝ FVal} {k : Kind} {src : Source ℝ} {I0 : AnyInterp ℝ} {N : ℕ} {id : String}
  {seed : NDArray ℝ} {P : Particles ℝ} {L : ℝ}

/-- **C142 (2-D).**  Velocities at distance `r` differ by at most `L r`: the values are those of a
stretching that differs from 1 by at most `2 (G ^ n - 1)`, with the growth factor `G` of the method. -/
theorem C142_strain_2d (he : RealEnv env) (queue : Bool) (hI : I0.Unused)
    (hup : ∀ i < src.numSteps, (src.updated env I0 (i + 1)).2 = none)
    {g : ℕ → (Fin 2 → ℝ) → Fin 2 → ℝ} {S : ℕ → Set (Fin 2 → ℝ)}
    (hv : ∀ i < src.numSteps, PointwiseOn (S i) (4 * N)
      ((src.updated env I0 (i + 1)).1.velocity env) (g i)) (hid : src.id env = .ok id)
    (hs : seed.shape = [4 * N, 2]) (hp : mkParticles seed = .ok P)
    (hP : src.getParticles env.fs = .ok P) (hal : ∀ i < N, AxisAligned2 seed N i)
    (hS : ∀ i < N, ∀ q, ∀ j < src.numSteps, ∀ z ∈ stages k (g j) src.timestep
      (flowMap k g src.timestep j (groupOf seed 4 N 2 i q)), z ∈ S j)
    (hn : 2 ≤ src.numSteps) (hh : src.timestep ≠ 0) (hL : 0 ≤ L)
    (hg : ∀ j < src.numSteps, Strained (S j) (g j) L) :
    ∃ Λ : ℕ → FVal, ((⟨src, I0, .fresh k⟩ : Solver ℝ).run env queue none).result =
        .ok (some ((List.range N).map Λ)) ∧
      ∀ i < N, NearZero (Λ i) ((src.numSteps - 1) * |src.timestep|)
        (2 * (growth k (|src.timestep| * L) ^ src.numSteps - 1)) := by
  obtain ⟨V, h1, h2⟩ := strain_run_2d (k := k) he queue hI hup hv hid hs hp hP hal hS hn hh
  refine ⟨_, h2, fun i hi => ?_⟩
  have ha : 0 ≤ |src.timestep| * L := by positivity
  have he0 : 0 ≤ growth k (|src.timestep| * L) ^ src.numSteps - 1 :=
    sub_nonneg.2 (one_le_pow₀ (growth_one_le k ha))
  obtain ⟨S', hS'⟩ := ftle2_computes.exists_stretch (diffs2 (fun b => flowMap k g src.timestep
    src.numSteps (groupOf seed 4 N 2 i b)) (groupOf seed 4 N 2 i) - 1)
  have dev := fun b b' => flow_deviation (k := k) hL hg (hS i hi b) (hS i hi b')
  have near := maxStretch_near_one (h1 i) hS' he0 fun r c => by
    obtain ⟨a1, a2, a3, a4⟩ := hal i hi
    have c0 := quotient_near (dev 1 0) (j := 0) a1 (by intro l hl; fin_cases l; exacts [absurd rfl hl, a2]) r
    have c1 := quotient_near (dev 2 3) (j := 1) a3 (by intro l hl; fin_cases l; exacts [a4, absurd rfl hl]) r
    fin_cases c <;> fin_cases r <;> first | exact c0 | exact c1
  exact nearZero_of (period_pos hn hh) (maxStretch_nonneg (h1 i)) (by simpa using near.1)
    (by simpa using near.2)

/-- **C142 (3-D).**  Velocities at distance `r` differ by at most `L r`: the values are those of a
stretching that differs from 1 by at most `3 (G ^ n - 1)`, with the growth factor `G` of the method. -/
theorem C142_strain_3d (he : RealEnv env) (queue : Bool) (hI : I0.Unused)
    (hup : ∀ i < src.numSteps, (src.updated env I0 (i + 1)).2 = none)
    {g : ℕ → (Fin 3 → ℝ) → Fin 3 → ℝ} {S : ℕ → Set (Fin 3 → ℝ)}
    (hv : ∀ i < src.numSteps, PointwiseOn (S i) (6 * N)
      ((src.updated env I0 (i + 1)).1.velocity env) (g i)) (hid : src.id env = .ok id)
    (hs : seed.shape = [6 * N, 3]) (hp : mkParticles seed = .ok P)
    (hP : src.getParticles env.fs = .ok P) (hal : ∀ i < N, AxisAligned3 seed N i)
    (hS : ∀ i < N, ∀ q, ∀ j < src.numSteps, ∀ z ∈ stages k (g j) src.timestep
      (flowMap k g src.timestep j (groupOf seed 6 N 3 i q)), z ∈ S j)
    (hn : 2 ≤ src.numSteps) (hh : src.timestep ≠ 0) (hL : 0 ≤ L)
    (hg : ∀ j < src.numSteps, Strained (S j) (g j) L) :
    ∃ Λ : ℕ → FVal, ((⟨src, I0, .fresh k⟩ : Solver ℝ).run env queue none).result =
        .ok (some ((List.range N).map Λ)) ∧
      ∀ i < N, NearZero (Λ i) ((src.numSteps - 1) * |src.timestep|)
        (3 * (growth k (|src.timestep| * L) ^ src.numSteps - 1)) := by
  obtain ⟨V, h1, h2⟩ := strain_run_3d (k := k) he queue hI hup hv hid hs hp hP hal hS hn hh
  refine ⟨_, h2, fun i hi => ?_⟩
  have ha : 0 ≤ |src.timestep| * L := by positivity
  have he0 : 0 ≤ growth k (|src.timestep| * L) ^ src.numSteps - 1 :=
    sub_nonneg.2 (one_le_pow₀ (growth_one_le k ha))
  obtain ⟨S', hS'⟩ := ftle3_computes.exists_stretch (diffs3 (fun b => flowMap k g src.timestep
    src.numSteps (groupOf seed 6 N 3 i b)) (groupOf seed 6 N 3 i) - 1)
  have dev := fun b b' => flow_deviation (k := k) hL hg (hS i hi b) (hS i hi b')
  have near := maxStretch_near_one (h1 i) hS' he0 fun r c => by
    obtain ⟨⟨a1, a2, a3⟩, ⟨b1, b2, b3⟩, ⟨e1, e2, e3⟩⟩ := hal i hi
    have c0 := quotient_near (dev 1 0) (j := 0) a1
      (by intro l hl; fin_cases l; exacts [absurd rfl hl, a2, a3]) r
    have c1 := quotient_near (dev 2 3) (j := 1) b1
      (by intro l hl; fin_cases l; exacts [b2, absurd rfl hl, b3]) r
    have c2 := quotient_near (dev 4 5) (j := 2) e1
      (by intro l hl; fin_cases l; exacts [e2, e3, absurd rfl hl]) r
    fin_cases c
    exacts [c0, c1, c2]
  exact nearZero_of (period_pos hn hh) (maxStretch_nonneg (h1 i)) (by simpa using near.1)
    (by simpa using near.2)

end

/-- **C142 (gridded files, 2-D).**  In every snapshot the fluid moves as a whole, with a speed of at
most `W`; the velocities in the files are within `η` of that motion.  The seeds keep a distance of
`2 n |h| (W + η)` to the border of the grid.  The distances of the seeds of a group do not matter. -/
theorem C142_noise_2d {env : Env ℝ FVal} (he : RealEnv env) (hm : ExactTarget env.m) (queue : Bool)
    (k : Kind) {u : ℝ → (Fin 2 → ℝ) → Fin 2 → ℝ} {t0 : ℝ} {s : FileSource ℝ} {nx ny : ℕ}
    {x0 dx y0 dy : ℝ} (hd : Samples2 env.fs s u t0 nx ny x0 dx y0 dy)
    {w : ℕ → Fin 2 → ℝ} {W η : ℝ} (hw : ∀ j < s.snapshotFiles.length, ‖w j‖ ≤ W)
    (hη : ∀ j < s.snapshotFiles.length, ∀ a < nx, ∀ b < ny,
      ‖u (t0 + j * s.timestep) ![x0 + a * dx, y0 + b * dy] - w j‖ ≤ η)
    {N : ℕ} {seed : NDArray ℝ} {P : Particles ℝ} (hs : seed.shape = [4 * N, 2])
    (hp : mkParticles seed = .ok P) (hP : readSeedParticles env.fs s.particleFile = .ok P)
    (hal : ∀ i < N, AxisAligned2 seed N i)
    (hin : ∀ i < N, ∀ b, ∀ z : Fin 2 → ℝ, ‖z - groupOf seed 4 N 2 i b‖ ≤
      2 * s.snapshotFiles.length * (|s.timestep| * (W + η)) →
      OnAxis nx x0 dx (z 0) ∧ OnAxis ny y0 dy (z 1))
    (hn : 2 ≤ s.snapshotFiles.length) (hh : s.timestep ≠ 0) :
    ∃ Λ : ℕ → FVal, ((⟨.file s, .highPerf (HighPerf.fresh [nx, ny]), .fresh k⟩ : Solver ℝ).run env queue
        none).result = .ok (some ((List.range N).map Λ)) ∧
      ∀ i < N, NearZero (Λ i) ((s.snapshotFiles.length - 1) * |s.timestep|)
        (2 * (growth k (|s.timestep| * (2 * (2 * η / min dx dy))) ^ s.snapshotFiles.length - 1)) := by
  have nx1 : 0 < nx := by have := hd.hnx; omega
  have ny1 : 0 < ny := by have := hd.hny; omega
  have hη0 : 0 ≤ η := (norm_nonneg _).trans (hη 0 (by omega) 0 nx1 0 ny1)
  have hW0 : 0 ≤ W := (norm_nonneg _).trans (hw 0 (by omega))
  have hmin : 0 < min dx dy := lt_min hd.hdx hd.hdy
  have ha : 0 ≤ 2 * η / (min dx dy) := by positivity
  have pair : ∀ j < s.snapshotFiles.length, ∀ a < nx, ∀ b < ny, ∀ a' < nx, ∀ b' < ny, ∀ c,
      |u (t0 + j * s.timestep) ![x0 + (a : ℝ) * dx, y0 + (b : ℝ) * dy] c -
        u (t0 + j * s.timestep) ![x0 + (a' : ℝ) * dx, y0 + (b' : ℝ) * dy] c| ≤ 2 * η := by
    intro j hj a hA b hB a' hA' b' hB' c
    have e1 := (norm_le_pi_norm (_ - w j) c).trans (hη j hj a hA b hB)
    have e2 := (norm_le_pi_norm (_ - w j) c).trans (hη j hj a' hA' b' hB')
    rw [Pi.sub_apply, Real.norm_eq_abs, abs_le] at e1 e2
    rw [abs_le]
    constructor <;> linarith [e1.1, e1.2, e2.1, e2.2]
  have slope : ∀ {q : ℝ}, min dx dy ≤ q → 2 * η ≤ 2 * η / min dx dy * q := by
    intro q hq
    rw [div_mul_eq_mul_div, le_div_iff₀ hmin]
    exact mul_le_mul_of_nonneg_left hq (by positivity)
  have slopes : ∀ j < s.snapshotFiles.length,
      Slopes2 (u (t0 + j * s.timestep)) nx ny x0 dx y0 dy (2 * η / min dx dy) := by
    intro j hj a hA b hB c
    refine ⟨fun h => ?_, fun h => ?_⟩
    · have := pair j hj (a + 1) h b hB a hA b hB c
      push_cast at this
      exact this.trans (slope (min_le_left _ _))
    · have := pair j hj a hA (b + 1) h a hA b hB c
      push_cast at this
      exact this.trans (slope (min_le_right _ _))
  have speed : ∀ j < s.snapshotFiles.length, ∀ z : Fin 2 → ℝ,
      OnAxis nx x0 dx (z 0) ∧ OnAxis ny y0 dy (z 1) →
      ‖bilinear u (t0 + j * s.timestep) nx ny x0 dx y0 dy z‖ ≤ W + η := by
    intro j hj z hz
    rw [pi_norm_le_iff_of_nonneg (by positivity)]
    intro c
    have := cellValue2_error (w := 0) (δ := W + η)
      (f := fun a b => u (t0 + j * s.timestep) ![x0 + a * dx, y0 + b * dy] c)
      (hz.1.inCells hd.hdx) (hz.2.inCells hd.hdy) fun a b hA hB _ _ => by
        have e1 := (norm_le_pi_norm (_ - w j) c).trans (hη j hj a hA b hB)
        have e2 := (norm_le_pi_norm (w j) c).trans (hw j hj)
        rw [Real.norm_eq_abs, abs_le] at e1 e2
        rw [Pi.sub_apply] at e1
        rw [sub_zero, abs_le]
        constructor <;> linarith [e1.1, e1.2, e2.1, e2.2]
    rwa [sub_zero] at this
  exact C142_strain_2d (src := .file s) he queue
    (by exact (rfl : (HighPerf.fresh (K := ℝ) [nx, ny]).uLen = none))
    (fun i hi => (samples_updated_2d hm hd i hi 0).1)
    (g := fun j => bilinear u (t0 + j * s.timestep) nx ny x0 dx y0 dy)
    (S := fun _ => {z | OnAxis nx x0 dx (z 0) ∧ OnAxis ny y0 dy (z 1)})
    (fun i hi => (samples_updated_2d hm hd i hi (4 * N)).2) rfl hs hp hP hal
    (fun i hi b j hj z hz => hin i hi b z (slow_near k (by positivity)
      (fun j hj z hz => speed j hj z (hin i hi b z hz)) j hj z hz)) hn hh (by positivity)
    (fun j hj => bilinear_strained hd.hdx hd.hdy ha (slopes j hj))

/-- **C142 (gridded files, 3-D).**  In every snapshot the fluid moves as a whole, with a speed of at
most `W`; the velocities in the files are within `η` of that motion.  The seeds keep a distance of
`2 n |h| (W + η)` to the border of the grid.  The distances of the seeds of a group do not matter. -/
theorem C142_noise_3d {env : Env ℝ FVal} (he : RealEnv env) (hm : ExactTarget env.m) (queue : Bool)
    (k : Kind) {u : ℝ → (Fin 3 → ℝ) → Fin 3 → ℝ} {t0 : ℝ} {s : FileSource ℝ} {m nz : ℕ}
    {x0 dx y0 dy z0 dz : ℝ} (hd : Samples3 env.fs s u t0 m nz x0 dx y0 dy z0 dz)
    {w : ℕ → Fin 3 → ℝ} {W η : ℝ} (hw : ∀ j < s.snapshotFiles.length, ‖w j‖ ≤ W)
    (hη : ∀ j < s.snapshotFiles.length, ∀ a < m, ∀ b < m, ∀ e < nz,
      ‖u (t0 + j * s.timestep) ![x0 + a * dx, y0 + b * dy, z0 + e * dz] - w j‖ ≤ η)
    {N : ℕ} {seed : NDArray ℝ} {P : Particles ℝ} (hs : seed.shape = [6 * N, 3])
    (hp : mkParticles seed = .ok P) (hP : readSeedParticles env.fs s.particleFile = .ok P)
    (hal : ∀ i < N, AxisAligned3 seed N i)
    (hin : ∀ i < N, ∀ b, ∀ z : Fin 3 → ℝ, ‖z - groupOf seed 6 N 3 i b‖ ≤
      2 * s.snapshotFiles.length * (|s.timestep| * (W + η)) →
      OnAxis m x0 dx (z 0) ∧ OnAxis m y0 dy (z 1) ∧ OnAxis nz z0 dz (z 2))
    (hn : 2 ≤ s.snapshotFiles.length) (hh : s.timestep ≠ 0) :
    ∃ Λ : ℕ → FVal, ((⟨.file s, .highPerf (HighPerf.fresh [m, m, nz]), .fresh k⟩ : Solver ℝ).run env queue
        none).result = .ok (some ((List.range N).map Λ)) ∧
      ∀ i < N, NearZero (Λ i) ((s.snapshotFiles.length - 1) * |s.timestep|)
        (3 * (growth k (|s.timestep| * (3 * (2 * η / min (min dx dy) dz))) ^ s.snapshotFiles.length - 1)) := by
  have m1 : 0 < m := by have := hd.hm; omega
  have nz1 : 0 < nz := by have := hd.hnz; omega
  have hη0 : 0 ≤ η := (norm_nonneg _).trans (hη 0 (by omega) 0 m1 0 m1 0 nz1)
  have hW0 : 0 ≤ W := (norm_nonneg _).trans (hw 0 (by omega))
  have hmin : 0 < min (min dx dy) dz := lt_min (lt_min hd.hdx hd.hdy) hd.hdz
  have ha : 0 ≤ 2 * η / (min (min dx dy) dz) := by positivity
  have pair : ∀ j < s.snapshotFiles.length, ∀ a < m, ∀ b < m, ∀ e < nz, ∀ a' < m, ∀ b' < m,
      ∀ e' < nz, ∀ c,
      |u (t0 + j * s.timestep) ![x0 + (a : ℝ) * dx, y0 + (b : ℝ) * dy, z0 + (e : ℝ) * dz] c -
        u (t0 + j * s.timestep) ![x0 + (a' : ℝ) * dx, y0 + (b' : ℝ) * dy, z0 + (e' : ℝ) * dz] c| ≤
        2 * η := by
    intro j hj a hA b hB e hE a' hA' b' hB' e' hE' c
    have e1 := (norm_le_pi_norm (_ - w j) c).trans (hη j hj a hA b hB e hE)
    have e2 := (norm_le_pi_norm (_ - w j) c).trans (hη j hj a' hA' b' hB' e' hE')
    rw [Pi.sub_apply, Real.norm_eq_abs, abs_le] at e1 e2
    rw [abs_le]
    constructor <;> linarith [e1.1, e1.2, e2.1, e2.2]
  have slope : ∀ {q : ℝ}, min (min dx dy) dz ≤ q → 2 * η ≤ 2 * η / min (min dx dy) dz * q := by
    intro q hq
    rw [div_mul_eq_mul_div, le_div_iff₀ hmin]
    exact mul_le_mul_of_nonneg_left hq (by positivity)
  have slopes : ∀ j < s.snapshotFiles.length, Slopes3 (u (t0 + j * s.timestep)) m nz x0 dx y0 dy z0 dz
      (2 * η / min (min dx dy) dz) := by
    intro j hj a hA b hB e hE c
    refine ⟨fun h => ?_, fun h => ?_, fun h => ?_⟩
    · have := pair j hj (a + 1) h b hB e hE a hA b hB e hE c
      push_cast at this
      exact this.trans (slope ((min_le_left _ _).trans (min_le_left _ _)))
    · have := pair j hj a hA (b + 1) h e hE a hA b hB e hE c
      push_cast at this
      exact this.trans (slope ((min_le_left _ _).trans (min_le_right _ _)))
    · have := pair j hj a hA b hB (e + 1) h a hA b hB e hE c
      push_cast at this
      exact this.trans (slope (min_le_right _ _))
  have speed : ∀ j < s.snapshotFiles.length, ∀ z : Fin 3 → ℝ,
      OnAxis m x0 dx (z 0) ∧ OnAxis m y0 dy (z 1) ∧ OnAxis nz z0 dz (z 2) →
      ‖trilinear u (t0 + j * s.timestep) m nz x0 dx y0 dy z0 dz z‖ ≤ W + η := by
    intro j hj z hz
    rw [pi_norm_le_iff_of_nonneg (by positivity)]
    intro c
    have := cellValue3_error (w := 0) (δ := W + η)
      (f := fun a b e => u (t0 + j * s.timestep) ![x0 + a * dx, y0 + b * dy, z0 + e * dz] c)
      (hz.1.inCells hd.hdx) (hz.2.1.inCells hd.hdy) (hz.2.2.inCells hd.hdz)
      fun a b e hA hB hE _ _ _ => by
        have e1 := (norm_le_pi_norm (_ - w j) c).trans (hη j hj a hA b hB e hE)
        have e2 := (norm_le_pi_norm (w j) c).trans (hw j hj)
        rw [Real.norm_eq_abs, abs_le] at e1 e2
        rw [Pi.sub_apply] at e1
        rw [sub_zero, abs_le]
        constructor <;> linarith [e1.1, e1.2, e2.1, e2.2]
    rwa [sub_zero] at this
  exact C142_strain_3d (src := .file s) he queue
    (by exact (rfl : (HighPerf.fresh (K := ℝ) [m, m, nz]).uLen = none))
    (fun i hi => (samples_updated_3d hm hd i hi 0).1)
    (g := fun j => trilinear u (t0 + j * s.timestep) m nz x0 dx y0 dy z0 dz)
    (S := fun _ => {z | OnAxis m x0 dx (z 0) ∧ OnAxis m y0 dy (z 1) ∧ OnAxis nz z0 dz (z 2)})
    (fun i hi => (samples_updated_3d hm hd i hi (6 * N)).2) rfl hs hp hP hal
    (fun i hi b j hj z hz => hin i hi b z (slow_near k (by positivity)
      (fun j hj z hz => speed j hj z (hin i hi b z hz)) j hj z hz)) hn hh (by positivity)
    (fun j hj => trilinear_strained hd.hdx hd.hdy hd.hdz ha (slopes j hj))

end Verif
