import Verif.Props.Spacing
import Verif.Props.GridOrder
import Verif.Lemmas.GridSlope

/-!
# C132: time step, distance of the seeds and spacing of the grid together

C104 compares a run from gridded files with the central differences of the exact positions; its
constant depends on the seeds.  Here the run is compared with the deformation along the trajectory of
the centre, with one constant for all time steps, distances of the seeds and spacings of the grid,
also for groups much smaller than the cells.
-/

namespace Verif

open Matrix Set


/-- **C132 (2-D).**  Centres with trajectories `X` and deformations `M` during `U`.  There are
constants such that for every run from files that sample the velocity of the flow on a uniform grid
around the trajectories, with step `h` and largest spacing `Δ = max(dx, dy)`, interpolated by the fast
interpolator, whose seeds are crosses of arm `δ` around the centres: the run succeeds, and the value
of every group differs from `(1/T) ln σ` by at most
`(1/T) C (|h| ^ order + δ² + min(Δ, Δ² / δ))`.  Here `σ` is the maximal stretching of the deformation
along the trajectory of the centre after `n` steps, and `T = (n - 1)|h|` the period the code divides
by.  Nothing is asked of `δ` compared with `Δ`. -/
theorem C132_gridded_2d_partial (k : Kind) {ord : ℕ} {v : ℝ → (Fin 2 → ℝ) → Fin 2 → ℝ}
    (hv : AttainsForGroups k ord v) {U : Set ℝ} (hUc : IsCompact U) (hUv : Convex ℝ U) {t0 : ℝ}
    (ht0 : t0 ∈ U) {r : ℝ} (hr : 0 < r) {N : ℕ} (X : ℕ → ℝ → Fin 2 → ℝ)
    (hX : ∀ i < N, IsTrajectory v U (X i)) (M : ℕ → ℝ → Matrix (Fin 2) (Fin 2) ℝ)
    (hM : ∀ i < N, IsDeformation v U t0 (X i) (M i)) :
    ∃ C η, 0 < η ∧ ∀ (env : Env ℝ FVal), RealEnv env → ExactTarget env.m → ∀ (queue : Bool)
      (seed : NDArray ℝ) (P : Particles ℝ) (s : FileSource ℝ) (nx ny : ℕ) (x0 dx y0 dy : ℝ) (n : ℕ)
      (h δ : ℝ), seed.shape = [4 * N, 2] → mkParticles seed = .ok P →
      (∀ i < N, groupOf seed 4 N 2 i = cross2 (X i t0) δ) →
      Samples2 env.fs s v t0 nx ny x0 dx y0 dy → s.snapshotFiles.length = n → s.timestep = h →
      readSeedParticles env.fs s.particleFile = .ok P →
      2 ≤ n → h ≠ 0 → |h| ≤ η → 0 < δ → δ ≤ η → max dx dy ≤ η → t0 + n * h ∈ U →
      (∀ i < N, ∀ j < n, ∀ z, ‖z - X i (t0 + j * h)‖ ≤ r →
        OnAxis nx x0 dx (z 0) ∧ OnAxis ny y0 dy (z 1)) →
      ∀ σ : ℕ → ℝ, (∀ i < N, IsMaxStretch (M i (t0 + n * h)) (σ i)) →
      ∃ Λ : ℕ → ℝ, ((⟨.file s, .highPerf (HighPerf.fresh [nx, ny]), .fresh k⟩ : Solver ℝ).run env
          queue none).result = .ok (some ((List.range N).map fun i => .fin (Λ i))) ∧
        ∀ i < N, |Λ i - 1 / (((n : ℝ) - 1) * |h|) * Real.log (σ i)| ≤
          1 / (((n : ℝ) - 1) * |h|) * (C * (|h| ^ ord + δ ^ 2 +
            min (max dx dy) (max dx dy ^ 2 / δ))) := by
  have hv2 : ContDiff ℝ 2 fun q : ℝ × (Fin 2 → ℝ) => v q.1 q.2 :=
    (smoothForGroups_three hv).of_le (by norm_num)
  obtain ⟨R, hR⟩ := tube_bounded (ι := Fin N) hUc (X := fun q => X q) (fun q => hX q q.2) r
  obtain ⟨A, hA0, hA⟩ := nearAffine_of_smooth hv2 hUc R
  obtain ⟨L, hL0, hL⟩ := slowSlope_of_smooth hv2 hUc (R + 1)
  obtain ⟨C, η, hη, H⟩ := spacing_2d k hv hUc hUv ht0 hr X hX M hM
  set K := 2 * A + 6 * L with hK
  have hK0 : 0 ≤ K := by positivity
  refine ⟨|C| * (K + 1), min η (min 1 (η / (K + 1))), by positivity, ?_⟩
  intro env he hex queue seed P s nx ny x0 dx y0 dy n h δ hs hp hc hd hn hh hP hn2 hh0 hhη hδ0 hδη hdη
    hnU hin σ hσ
  have hΔ0 : 0 ≤ max dx dy := hd.hdx.le.trans (le_max_left _ _)
  have hΔ1 : max dx dy ≤ 1 := hdη.trans ((min_le_right _ _).trans (min_le_left _ _))
  have hδ1 : δ ≤ 1 := hδη.trans ((min_le_right _ _).trans (min_le_left _ _))
  have hΔK : max dx dy ≤ η / (K + 1) := hdη.trans ((min_le_right _ _).trans (min_le_right _ _))
  have hm0 : 0 ≤ min (max dx dy) (max dx dy ^ 2 / δ) := le_min hΔ0 (by positivity)
  have hmK : K * min (max dx dy) (max dx dy ^ 2 / δ) ≤ η := by
    have h1 := mul_le_mul_of_nonneg_left ((min_le_left (max dx dy) (max dx dy ^ 2 / δ)).trans hΔK) hK0
    refine h1.trans ?_
    rw [mul_div_assoc', div_le_iff₀ (by positivity)]
    nlinarith
  obtain ⟨Λ, h1, h2⟩ := H env he queue seed P (.file s) n h
    (K * min (max dx dy) (max dx dy ^ 2 / δ)) δ (.highPerf (HighPerf.fresh [nx, ny]))
    (fun j => bilinear v (t0 + j * h) nx ny x0 dx y0 dy) _ hs hp hc hn hh hP rfl ⟨_, rfl⟩
    (fun i hi => (samples_updated_2d hex hd i (by omega) 0).1)
    (fun j hj => by rw [← hh]; exact (samples_updated_2d hex hd j (by omega) (4 * N)).2)
    hn2 hh0 (hhη.trans (min_le_left _ _)) hδ0 (hδη.trans (min_le_left _ _)) (by positivity) hmK hnU
    (fun i hi j hj => by
      have hjU := times_mem hUv ht0 hnU hj
      have bd := fun z hz => hR ⟨i, hi⟩ _ hjU z hz
      refine ⟨fun z hz => hin i hi j hj z hz, ?_⟩
      refine nearWith_of_order hδ0 hδ1 hΔ0 hΔ1 hA0 (by positivity) (fun z hz => ?_)
        fun z hz z' hz' => ?_
      · exact bilinear_order hd.hdx hd.hdy hA0 (hA _ hjU z (bd z hz) _ hΔ0 hΔ1) (hin i hi j hj z hz)
      · exact bilinear_lipschitz hd.hdx hd.hdy hΔ1 hL0 (hL _ hjU) (bd z hz) (bd z' hz')
          (hin i hi j hj z hz) (hin i hi j hj z' hz'))
    σ hσ
  refine ⟨Λ, h1, fun i hi => (h2 i hi).trans ?_⟩
  have hn' : (2 : ℝ) ≤ n := by exact_mod_cast hn2
  exact one_constant hK0 (by positivity) hm0
    (div_nonneg one_pos.le (mul_nonneg (by linarith) (abs_nonneg h)))

/-- **C132 (3-D).**  Grids with as many nodes in `x` as in `y`; for others see C30. -/
theorem C132_gridded_3d_partial (k : Kind) {ord : ℕ} {v : ℝ → (Fin 3 → ℝ) → Fin 3 → ℝ}
    (hv : AttainsForGroups k ord v) {U : Set ℝ} (hUc : IsCompact U) (hUv : Convex ℝ U) {t0 : ℝ}
    (ht0 : t0 ∈ U) {r : ℝ} (hr : 0 < r) {N : ℕ} (X : ℕ → ℝ → Fin 3 → ℝ)
    (hX : ∀ i < N, IsTrajectory v U (X i)) (M : ℕ → ℝ → Matrix (Fin 3) (Fin 3) ℝ)
    (hM : ∀ i < N, IsDeformation v U t0 (X i) (M i)) :
    ∃ C η, 0 < η ∧ ∀ (env : Env ℝ FVal), RealEnv env → ExactTarget env.m → ∀ (queue : Bool)
      (seed : NDArray ℝ) (P : Particles ℝ) (s : FileSource ℝ) (nx nz : ℕ)
      (x0 dx y0 dy z0 dz : ℝ) (n : ℕ) (h δ : ℝ), seed.shape = [6 * N, 3] → mkParticles seed = .ok P →
      (∀ i < N, groupOf seed 6 N 3 i = cross3 (X i t0) δ) →
      Samples3 env.fs s v t0 nx nz x0 dx y0 dy z0 dz → s.snapshotFiles.length = n → s.timestep = h →
      readSeedParticles env.fs s.particleFile = .ok P →
      2 ≤ n → h ≠ 0 → |h| ≤ η → 0 < δ → δ ≤ η → max (max dx dy) dz ≤ η → t0 + n * h ∈ U →
      (∀ i < N, ∀ j < n, ∀ z, ‖z - X i (t0 + j * h)‖ ≤ r →
        OnAxis nx x0 dx (z 0) ∧ OnAxis nx y0 dy (z 1) ∧ OnAxis nz z0 dz (z 2)) →
      ∀ σ : ℕ → ℝ, (∀ i < N, IsMaxStretch (M i (t0 + n * h)) (σ i)) →
      ∃ Λ : ℕ → ℝ, ((⟨.file s, .highPerf (HighPerf.fresh [nx, nx, nz]), .fresh k⟩ : Solver ℝ).run env
          queue none).result = .ok (some ((List.range N).map fun i => .fin (Λ i))) ∧
        ∀ i < N, |Λ i - 1 / (((n : ℝ) - 1) * |h|) * Real.log (σ i)| ≤
          1 / (((n : ℝ) - 1) * |h|) * (C * (|h| ^ ord + δ ^ 2 +
            min (max (max dx dy) dz) (max (max dx dy) dz ^ 2 / δ))) := by
  have hv2 : ContDiff ℝ 2 fun q : ℝ × (Fin 3 → ℝ) => v q.1 q.2 :=
    (smoothForGroups_three hv).of_le (by norm_num)
  obtain ⟨R, hR⟩ := tube_bounded (ι := Fin N) hUc (X := fun q => X q) (fun q => hX q q.2) r
  obtain ⟨A, hA0, hA⟩ := nearAffine_of_smooth hv2 hUc R
  obtain ⟨L, hL0, hL⟩ := slowSlope_of_smooth hv2 hUc (R + 1)
  obtain ⟨C, η, hη, H⟩ := spacing_3d k hv hUc hUv ht0 hr X hX M hM
  set K := 2 * A + 12 * L with hK
  have hK0 : 0 ≤ K := by positivity
  refine ⟨|C| * (K + 1), min η (min 1 (η / (K + 1))), by positivity, ?_⟩
  intro env he hex queue seed P s nx nz x0 dx y0 dy z0 dz n h δ hs hp hc hd hn hh hP hn2 hh0 hhη hδ0
    hδη hdη hnU hin σ hσ
  set Δ := max (max dx dy) dz with hΔ
  have hΔ0 : 0 ≤ Δ := hd.hdz.le.trans (le_max_right _ _)
  have hΔ1 : Δ ≤ 1 := hdη.trans ((min_le_right _ _).trans (min_le_left _ _))
  have hδ1 : δ ≤ 1 := hδη.trans ((min_le_right _ _).trans (min_le_left _ _))
  have hΔK : Δ ≤ η / (K + 1) := hdη.trans ((min_le_right _ _).trans (min_le_right _ _))
  have hm0 : 0 ≤ min Δ (Δ ^ 2 / δ) := le_min hΔ0 (by positivity)
  have hmK : K * min Δ (Δ ^ 2 / δ) ≤ η := by
    have h1 := mul_le_mul_of_nonneg_left ((min_le_left Δ (Δ ^ 2 / δ)).trans hΔK) hK0
    refine h1.trans ?_
    rw [mul_div_assoc', div_le_iff₀ (by positivity)]
    nlinarith
  obtain ⟨Λ, h1, h2⟩ := H env he queue seed P (.file s) n h
    (K * min Δ (Δ ^ 2 / δ)) δ (.highPerf (HighPerf.fresh [nx, nx, nz]))
    (fun j => trilinear v (t0 + j * h) nx nz x0 dx y0 dy z0 dz) _ hs hp hc hn hh hP rfl ⟨_, rfl⟩
    (fun i hi => (samples_updated_3d hex hd i (by omega) 0).1)
    (fun j hj => by rw [← hh]; exact (samples_updated_3d hex hd j (by omega) (6 * N)).2)
    hn2 hh0 (hhη.trans (min_le_left _ _)) hδ0 (hδη.trans (min_le_left _ _)) (by positivity) hmK hnU
    (fun i hi j hj => by
      have hjU := times_mem hUv ht0 hnU hj
      have bd := fun z hz => hR ⟨i, hi⟩ _ hjU z hz
      refine ⟨fun z hz => hin i hi j hj z hz, ?_⟩
      refine nearWith_of_order hδ0 hδ1 hΔ0 hΔ1 hA0 (by positivity) (fun z hz => ?_)
        fun z hz z' hz' => ?_
      · exact trilinear_order hd.hdx hd.hdy hd.hdz hA0 (hA _ hjU z (bd z hz) _ hΔ0 hΔ1)
          (hin i hi j hj z hz)
      · exact trilinear_lipschitz hd.hdx hd.hdy hd.hdz hΔ1 hL0 (hL _ hjU) (bd z hz) (bd z' hz')
          (hin i hi j hj z hz) (hin i hi j hj z' hz'))
    σ hσ
  refine ⟨Λ, h1, fun i hi => (h2 i hi).trans ?_⟩
  have hn' : (2 : ℝ) ≤ n := by exact_mod_cast hn2
  exact one_constant hK0 (by positivity) hm0
    (div_nonneg one_pos.le (mul_nonneg (by linarith) (abs_nonneg h)))

end Verif
