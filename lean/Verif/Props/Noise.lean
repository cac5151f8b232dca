import Verif.Props.GridError

/-!
# C141: files with errors in the velocities

The velocities in the files are not those of the flow but measurements of them, each within `η` of
the velocity of the flow at its node; nothing else is assumed of the errors: they may differ from
node to node and from snapshot to snapshot.  The field of the run is compared to the flow itself.
-/

set_option linter.unusedSectionVars false

namespace Verif

open Matrix Set

theorem bilinear_noise {u v : ℝ → (Fin 2 → ℝ) → Fin 2 → ℝ} {t : ℝ} {nx ny : ℕ} {x0 dx y0 dy : ℝ}
    (hdx : 0 < dx) (hdy : 0 < dy) {L η : ℝ} (hL0 : 0 ≤ L)
    (hη : ∀ a < nx, ∀ b < ny, ‖u t ![x0 + a * dx, y0 + b * dy] - v t ![x0 + a * dx, y0 + b * dy]‖ ≤ η)
    (hη0 : 0 ≤ η)
    (hL : ∀ w ∈ Rect2 nx ny x0 dx y0 dy, ∀ w' ∈ Rect2 nx ny x0 dx y0 dy,
      ‖v t w - v t w'‖ ≤ L * ‖w - w'‖) {y z : Fin 2 → ℝ} (hy : y ∈ Rect2 nx ny x0 dx y0 dy)
    (hz : OnAxis nx x0 dx (z 0) ∧ OnAxis ny y0 dy (z 1)) :
    ‖bilinear u t nx ny x0 dx y0 dy z - v t y‖ ≤ (η + L * max dx dy) + L * ‖z - y‖ := by
  have hm : 0 ≤ max dx dy := hdx.le.trans (le_max_left _ _)
  rw [pi_norm_le_iff_of_nonneg (by positivity)]
  intro c
  refine cellValue2_error (hz.1.inCells hdx) (hz.2.inCells hdy) fun i j hi hj h1 h2 => ?_
  have n1 := node_near hdx h1
  have n2 := node_near hdy h2
  have hi' : (i : ℝ) ≤ (nx : ℝ) - 1 := by
    have : ((i + 1 : ℕ) : ℝ) ≤ nx := by exact_mod_cast hi
    push_cast at this; linarith
  have hj' : (j : ℝ) ≤ (ny : ℝ) - 1 := by
    have : ((j + 1 : ℕ) : ℝ) ≤ ny := by exact_mod_cast hj
    push_cast at this; linarith
  set w : Fin 2 → ℝ := ![x0 + i * dx, y0 + j * dy] with hw
  have w0 : w 0 = x0 + i * dx := rfl
  have w1 : w 1 = y0 + j * dy := rfl
  have hwR : w ∈ Rect2 nx ny x0 dx y0 dy := by
    have := mul_nonneg (Nat.cast_nonneg (α := ℝ) i) hdx.le
    have := mul_nonneg (Nat.cast_nonneg (α := ℝ) j) hdy.le
    have := mul_le_mul_of_nonneg_right hi' hdx.le
    have := mul_le_mul_of_nonneg_right hj' hdy.le
    refine ⟨?_, ?_, ?_, ?_⟩ <;> simp only [w0, w1] <;> linarith
  have hwz : ‖w - z‖ ≤ max dx dy := by
    rw [pi_norm_le_iff_of_nonneg hm]
    intro c
    fin_cases c
    · exact n1.trans (le_max_left _ _)
    · exact n2.trans (le_max_right _ _)
  have hwy : ‖w - y‖ ≤ max dx dy + ‖z - y‖ := by
    have := norm_add_le (w - z) (z - y)
    rw [sub_add_sub_cancel] at this
    linarith
  refine (norm_le_pi_norm (u t w - v t y) c).trans ?_
  have h3 := norm_add_le (u t w - v t w) (v t w - v t y)
  rw [sub_add_sub_cancel] at h3
  have h4 := hL w hwR y hy
  have h5 : ‖u t w - v t w‖ ≤ η := hη i hi j hj
  have := mul_le_mul_of_nonneg_left hwy hL0
  linarith

/-- **C141 (2-D).**  The files hold the values `u` on a uniform grid, within `η` of those of the
flow `v`; the field is that of `v` up to the error bound of C84 with `η + L · max(dx, dy)` for the
error of the velocities.  Only `v` need be Lipschitz. -/
theorem C141_noise_2d {env : Env ℝ FVal} (he : RealEnv env) (hm : ExactTarget env.m) (queue : Bool)
    (k : Kind) {u v : ℝ → (Fin 2 → ℝ) → Fin 2 → ℝ} {t0 L B M r η : ℝ} {s : FileSource ℝ}
    {nx ny : ℕ} {x0 dx y0 dy : ℝ} (hd : Samples2 env.fs s u t0 nx ny x0 dx y0 dy) {n : ℕ}
    (hn : s.snapshotFiles.length = n) (hn2 : 2 ≤ n) {h : ℝ} (hh : s.timestep = h) (hh0 : h ≠ 0)
    (hη : ∀ j < n, ∀ a < nx, ∀ b < ny, ‖u (t0 + j * h) ![x0 + a * dx, y0 + b * dy] -
      v (t0 + j * h) ![x0 + a * dx, y0 + b * dy]‖ ≤ η)
    (small : SmallSteps (η + L * max dx dy) L B M h n r) {N : ℕ} {seed : NDArray ℝ}
    (hs : seed.shape = [4 * N, 2]) {P : Particles ℝ} (hp : mkParticles seed = .ok P)
    (hP : readSeedParticles env.fs s.particleFile = .ok P)
    (X : ℕ → Fin 4 → ℝ → Fin 2 → ℝ)
    (hX : ∀ i < N, ∀ b, Along v t0 h n B M (X i b) ∧ X i b t0 = groupOf seed 4 N 2 i b)
    (hL : ∀ j < n, ∀ w ∈ Rect2 nx ny x0 dx y0 dy, ∀ w' ∈ Rect2 nx ny x0 dx y0 dy,
      ‖v (t0 + j * h) w - v (t0 + j * h) w'‖ ≤ L * ‖w - w'‖)
    (hin : ∀ i < N, ∀ b, ∀ j < n, ∀ z, ‖z - X i b (t0 + j * h)‖ ≤ r →
      OnAxis nx x0 dx (z 0) ∧ OnAxis ny y0 dy (z 1))
    (D : ℕ → Matrix (Fin 2) (Fin 2) ℝ)
    (hD : ∀ i < N, centralDiff2 (fun b => X i b (t0 + n * h)) (groupOf seed 4 N 2 i) = .ok (D i))
    (σ b : ℕ → ℝ) (hb : ∀ i, b i = 4 * posError (η + L * max dx dy) L B M h n *
      (1 / |groupOf seed 4 N 2 i 1 0 - groupOf seed 4 N 2 i 0 0| +
        1 / |groupOf seed 4 N 2 i 2 1 - groupOf seed 4 N 2 i 3 1|))
    (hσ : ∀ i < N, IsMaxStretch (D i) (σ i) ∧ b i < σ i) :
    ∃ Λ : ℕ → ℝ, ((⟨.file s, .highPerf (HighPerf.fresh [nx, ny]), .fresh k⟩ : Solver ℝ).run env
        queue none).result = .ok (some ((List.range N).map fun i => .fin (Λ i))) ∧
      ∀ i < N, |Λ i - 1 / (((n : ℝ) - 1) * |h|) * Real.log (σ i)| ≤
        1 / (((n : ℝ) - 1) * |h|) * (b i / (σ i - b i)) := by
  have hη0 : 0 ≤ η := (norm_nonneg _).trans
    (hη 0 (by omega) 0 (by have := hd.hnx; omega) 0 (by have := hd.hny; omega))
  have hr0 : 0 ≤ r := by
    have h1 := small.reach
    have h2 := small.stay
    have : 0 ≤ posError (η + L * max dx dy) L B M h n := by
      rw [posError_eq]
      have := small.eps
      have := small.lip
      have := small.speed
      have := small.accel
      exact errBound_nonneg small.lip (by positivity) n
    linarith
  have hX0 : ∀ i < N, ∀ b, ∀ j < n, X i b (t0 + j * h) ∈ Rect2 nx ny x0 dx y0 dy := by
    intro i hi b j hj
    obtain ⟨⟨a1, a2⟩, ⟨a3, a4⟩⟩ := hin i hi b j hj _ (by rw [sub_self, norm_zero]; exact hr0)
    exact ⟨a1, a2.le, a3, a4.le⟩
  refine C84_error_2d (src := .file s) he queue k hn hn2 hh hh0 small hs hp hP X hX
    (I0 := .highPerf (HighPerf.fresh [nx, ny])) rfl rfl
    (fun i hi => (samples_updated_2d hm hd i (by omega) 0).1)
    (fun j => bilinear u (t0 + j * h) nx ny x0 dx y0 dy) _
    (fun j hj => by rw [← hh]; exact (samples_updated_2d hm hd j (by omega) (4 * N)).2)
    (fun i hi b j hj z hz => ⟨hin i hi b j hj z hz, ?_⟩) D hD σ b hb hσ
  exact bilinear_noise hd.hdx hd.hdy small.lip (hη j hj) hη0 (hL j hj) (hX0 i hi b j hj) (hin i hi b j hj z hz)

theorem trilinear_noise {u v : ℝ → (Fin 3 → ℝ) → Fin 3 → ℝ} {t : ℝ} {m nz : ℕ}
    {x0 dx y0 dy z0 dz : ℝ} (hdx : 0 < dx) (hdy : 0 < dy) (hdz : 0 < dz) {L η : ℝ} (hL0 : 0 ≤ L)
    (hη : ∀ a < m, ∀ b < m, ∀ e < nz, ‖u t ![x0 + a * dx, y0 + b * dy, z0 + e * dz] -
      v t ![x0 + a * dx, y0 + b * dy, z0 + e * dz]‖ ≤ η) (hη0 : 0 ≤ η)
    (hL : ∀ w ∈ Box3 m nz x0 dx y0 dy z0 dz, ∀ w' ∈ Box3 m nz x0 dx y0 dy z0 dz,
      ‖v t w - v t w'‖ ≤ L * ‖w - w'‖) {y z : Fin 3 → ℝ} (hy : y ∈ Box3 m nz x0 dx y0 dy z0 dz)
    (hz : OnAxis m x0 dx (z 0) ∧ OnAxis m y0 dy (z 1) ∧ OnAxis nz z0 dz (z 2)) :
    ‖trilinear u t m nz x0 dx y0 dy z0 dz z - v t y‖ ≤
      (η + L * max (max dx dy) dz) + L * ‖z - y‖ := by
  have hmx : 0 ≤ max (max dx dy) dz := hdz.le.trans (le_max_right _ _)
  rw [pi_norm_le_iff_of_nonneg (by positivity)]
  intro c
  refine cellValue3_error (hz.1.inCells hdx) (hz.2.1.inCells hdy) (hz.2.2.inCells hdz)
    fun i j k hi hj hk h1 h2 h3 => ?_
  have n1 := node_near hdx h1
  have n2 := node_near hdy h2
  have n3 := node_near hdz h3
  have cast : ∀ {i n : ℕ}, i < n → (i : ℝ) ≤ (n : ℝ) - 1 := by
    intro i n hi
    have : ((i + 1 : ℕ) : ℝ) ≤ n := by exact_mod_cast hi
    push_cast at this; linarith
  set w : Fin 3 → ℝ := ![x0 + i * dx, y0 + j * dy, z0 + k * dz] with hw
  have w0 : w 0 = x0 + i * dx := rfl
  have w1 : w 1 = y0 + j * dy := rfl
  have w2 : w 2 = z0 + k * dz := rfl
  have hwB : w ∈ Box3 m nz x0 dx y0 dy z0 dz := by
    have := mul_nonneg (Nat.cast_nonneg (α := ℝ) i) hdx.le
    have := mul_nonneg (Nat.cast_nonneg (α := ℝ) j) hdy.le
    have := mul_nonneg (Nat.cast_nonneg (α := ℝ) k) hdz.le
    have := mul_le_mul_of_nonneg_right (cast hi) hdx.le
    have := mul_le_mul_of_nonneg_right (cast hj) hdy.le
    have := mul_le_mul_of_nonneg_right (cast hk) hdz.le
    refine ⟨?_, ?_, ?_, ?_, ?_, ?_⟩ <;> simp only [w0, w1, w2] <;> linarith
  have hwz : ‖w - z‖ ≤ max (max dx dy) dz := by
    rw [pi_norm_le_iff_of_nonneg hmx]
    intro c
    fin_cases c
    · exact n1.trans ((le_max_left _ _).trans (le_max_left _ _))
    · exact n2.trans ((le_max_right _ _).trans (le_max_left _ _))
    · exact n3.trans (le_max_right _ _)
  have hwy : ‖w - y‖ ≤ max (max dx dy) dz + ‖z - y‖ := by
    have := norm_add_le (w - z) (z - y)
    rw [sub_add_sub_cancel] at this
    linarith
  refine (norm_le_pi_norm (u t w - v t y) c).trans ?_
  have h4' := norm_add_le (u t w - v t w) (v t w - v t y)
  rw [sub_add_sub_cancel] at h4'
  have h4 := hL w hwB y hy
  have h5 : ‖u t w - v t w‖ ≤ η := hη i hi j hj k hk
  have := mul_le_mul_of_nonneg_left hwy hL0
  linarith

/-- **C141 (3-D).** -/
theorem C141_noise_3d {env : Env ℝ FVal} (he : RealEnv env) (hm : ExactTarget env.m) (queue : Bool)
    (k : Kind) {u v : ℝ → (Fin 3 → ℝ) → Fin 3 → ℝ} {t0 L B M r η : ℝ} {s : FileSource ℝ}
    {m nz : ℕ} {x0 dx y0 dy z0 dz : ℝ} (hd : Samples3 env.fs s u t0 m nz x0 dx y0 dy z0 dz) {n : ℕ}
    (hn : s.snapshotFiles.length = n) (hn2 : 2 ≤ n) {h : ℝ} (hh : s.timestep = h) (hh0 : h ≠ 0)
    (hη : ∀ j < n, ∀ a < m, ∀ b < m, ∀ e < nz,
      ‖u (t0 + j * h) ![x0 + a * dx, y0 + b * dy, z0 + e * dz] -
        v (t0 + j * h) ![x0 + a * dx, y0 + b * dy, z0 + e * dz]‖ ≤ η)
    (small : SmallSteps (η + L * max (max dx dy) dz) L B M h n r) {N : ℕ} {seed : NDArray ℝ}
    (hs : seed.shape = [6 * N, 3]) {P : Particles ℝ} (hp : mkParticles seed = .ok P)
    (hP : readSeedParticles env.fs s.particleFile = .ok P)
    (X : ℕ → Fin 6 → ℝ → Fin 3 → ℝ)
    (hX : ∀ i < N, ∀ b, Along v t0 h n B M (X i b) ∧ X i b t0 = groupOf seed 6 N 3 i b)
    (hL : ∀ j < n, ∀ w ∈ Box3 m nz x0 dx y0 dy z0 dz, ∀ w' ∈ Box3 m nz x0 dx y0 dy z0 dz,
      ‖v (t0 + j * h) w - v (t0 + j * h) w'‖ ≤ L * ‖w - w'‖)
    (hin : ∀ i < N, ∀ b, ∀ j < n, ∀ z, ‖z - X i b (t0 + j * h)‖ ≤ r →
      OnAxis m x0 dx (z 0) ∧ OnAxis m y0 dy (z 1) ∧ OnAxis nz z0 dz (z 2))
    (D : ℕ → Matrix (Fin 3) (Fin 3) ℝ)
    (hD : ∀ i < N, centralDiff3 (fun b => X i b (t0 + n * h)) (groupOf seed 6 N 3 i) = .ok (D i))
    (σ b : ℕ → ℝ) (hb : ∀ i, b i = 6 * posError (η + L * max (max dx dy) dz) L B M h n *
      (1 / |groupOf seed 6 N 3 i 1 0 - groupOf seed 6 N 3 i 0 0| +
        1 / |groupOf seed 6 N 3 i 2 1 - groupOf seed 6 N 3 i 3 1| +
        1 / |groupOf seed 6 N 3 i 4 2 - groupOf seed 6 N 3 i 5 2|))
    (hσ : ∀ i < N, IsMaxStretch (D i) (σ i) ∧ b i < σ i) :
    ∃ Λ : ℕ → ℝ, ((⟨.file s, .highPerf (HighPerf.fresh [m, m, nz]), .fresh k⟩ : Solver ℝ).run env
        queue none).result = .ok (some ((List.range N).map fun i => .fin (Λ i))) ∧
      ∀ i < N, |Λ i - 1 / (((n : ℝ) - 1) * |h|) * Real.log (σ i)| ≤
        1 / (((n : ℝ) - 1) * |h|) * (b i / (σ i - b i)) := by
  have hη0 : 0 ≤ η := (norm_nonneg _).trans (hη 0 (by omega) 0 (by have := hd.hm; omega) 0
    (by have := hd.hm; omega) 0 (by have := hd.hnz; omega))
  have hr0 : 0 ≤ r := by
    have h1 := small.reach
    have h2 := small.stay
    have : 0 ≤ posError (η + L * max (max dx dy) dz) L B M h n := by
      rw [posError_eq]
      have := small.eps
      have := small.lip
      have := small.speed
      have := small.accel
      exact errBound_nonneg small.lip (by positivity) n
    linarith
  have hX0 : ∀ i < N, ∀ b, ∀ j < n, X i b (t0 + j * h) ∈ Box3 m nz x0 dx y0 dy z0 dz := by
    intro i hi b j hj
    obtain ⟨⟨a1, a2⟩, ⟨a3, a4⟩, ⟨a5, a6⟩⟩ := hin i hi b j hj _
      (by rw [sub_self, norm_zero]; exact hr0)
    exact ⟨a1, a2.le, a3, a4.le, a5, a6.le⟩
  refine C84_error_3d (src := .file s) he queue k hn hn2 hh hh0 small hs hp hP X hX
    (I0 := .highPerf (HighPerf.fresh [m, m, nz])) rfl rfl
    (fun i hi => (samples_updated_3d hm hd i (by omega) 0).1)
    (fun j => trilinear u (t0 + j * h) m nz x0 dx y0 dy z0 dz) _
    (fun j hj => by rw [← hh]; exact (samples_updated_3d hm hd j (by omega) (6 * N)).2)
    (fun i hi b j hj z hz => ⟨hin i hi b j hj z hz, ?_⟩) D hD σ b hb hσ
  exact trilinear_noise hd.hdx hd.hdy hd.hdz small.lip (hη j hj) hη0 (hL j hj) (hX0 i hi b j hj)
    (hin i hi b j hj z hz)

end Verif
