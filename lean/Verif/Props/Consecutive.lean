import Verif.Lemmas.Consecutive
import Verif.Props.Affine
import Verif.Props.GridSpacing

/-!
# C133: consecutive windows

A window of `n₁ + n₂` snapshots, and the two windows of its first `n₁` and its last `n₂` snapshots:
what was stretched in the whole window was stretched in one of the parts.
-/

namespace Verif

open Matrix Set

/-- A run from gridded files that sample the flow `v` from the time `t0` on: axis-aligned groups, and the
method asks for velocities inside the grid only. -/
structure Window2 (env : Env ℝ FVal) (k : Kind) (v : ℝ → (Fin 2 → ℝ) → Fin 2 → ℝ) (t0 : ℝ)
    (s : FileSource ℝ) (nx ny : ℕ) (x0 dx y0 dy : ℝ) (N : ℕ) : Prop where
  samples : Samples2 env.fs s v t0 nx ny x0 dx y0 dy
  steps : 2 ≤ s.snapshotFiles.length
  step : s.timestep ≠ 0
  seeds : ∃ seed P, seed.shape = [4 * N, 2] ∧ mkParticles seed = .ok P ∧
    readSeedParticles env.fs s.particleFile = .ok P ∧ (∀ i < N, AxisAligned2 seed N i) ∧
    ∀ i < N, ∀ q, ∀ j < s.snapshotFiles.length, ∀ z ∈ stages k (v (t0 + j * s.timestep))
      s.timestep (flowMap k (fun j => v (t0 + (j : ℕ) * s.timestep)) s.timestep j
        (groupOf seed 4 N 2 i q)), OnAxis nx x0 dx (z 0) ∧ OnAxis ny y0 dy (z 1)

/-- The same in three dimensions. -/
structure Window3 (env : Env ℝ FVal) (k : Kind) (v : ℝ → (Fin 3 → ℝ) → Fin 3 → ℝ) (t0 : ℝ)
    (s : FileSource ℝ) (m nz : ℕ) (x0 dx y0 dy z0 dz : ℝ) (N : ℕ) : Prop where
  samples : Samples3 env.fs s v t0 m nz x0 dx y0 dy z0 dz
  steps : 2 ≤ s.snapshotFiles.length
  step : s.timestep ≠ 0
  seeds : ∃ seed P, seed.shape = [6 * N, 3] ∧ mkParticles seed = .ok P ∧
    readSeedParticles env.fs s.particleFile = .ok P ∧ (∀ i < N, AxisAligned3 seed N i) ∧
    ∀ i < N, ∀ q, ∀ j < s.snapshotFiles.length, ∀ z ∈ stages k (v (t0 + j * s.timestep))
      s.timestep (flowMap k (fun j => v (t0 + (j : ℕ) * s.timestep)) s.timestep j
        (groupOf seed 6 N 3 i q)),
      OnAxis m x0 dx (z 0) ∧ OnAxis m y0 dy (z 1) ∧ OnAxis nz z0 dz (z 2)

theorem norms_chain {d : ℕ} {r r1 r2 : Py (Option (List FVal))} {N N1 N2 : ℕ}
    {A B : Matrix (Fin d) (Fin d) ℝ} {T T1 T2 : ℝ} (hT : 0 < T) (hT1 : 0 < T1) (hT2 : 0 < T2)
    (h : ReportsNorm r N (A * B) T) (h1 : ReportsNorm r1 N1 B T1) (h2 : ReportsNorm r2 N2 A T2)
    {l : ℝ} (hN : 0 < N) (hr : r = .ok (some (List.replicate N (.fin l)))) :
    ∃ l1 l2, r1 = .ok (some (List.replicate N1 (.fin l1))) ∧
      r2 = .ok (some (List.replicate N2 (.fin l2))) ∧ T * l ≤ T1 * l1 + T2 * l2 := by
  obtain ⟨σ, a1, a2, a3⟩ := h
  obtain ⟨σ1, b1, b2, -⟩ := h1
  obtain ⟨σ2, c1, c2, -⟩ := h2
  obtain ⟨N, rfl⟩ : ∃ m, N = m + 1 := ⟨N - 1, by omega⟩
  have hne : A * B ≠ 0 := fun e => by
    have := (a3 e).symm.trans hr
    simp [List.replicate_succ] at this
  obtain ⟨p, e⟩ := a2 hne
  obtain ⟨p1, e1⟩ := b2 fun hB => hne (by rw [hB, Matrix.mul_zero])
  obtain ⟨p2, e2⟩ := c2 fun hA => hne (by rw [hA, Matrix.zero_mul])
  refine ⟨_, _, e1, e2, ?_⟩
  have hl : l = 1 / T * Real.log σ := by
    have := hr.symm.trans e
    simp [List.replicate_succ] at this
    rw [one_div]
    exact this.1
  have hle := Real.log_le_log p (maxStretch_mul_le c1 b1 a1)
  rw [Real.log_mul p2.ne' p1.ne'] at hle
  have f : ∀ {T x : ℝ}, 0 < T → T * (1 / T * x) = x := fun hT => by
    rw [← mul_assoc, mul_one_div_cancel hT.ne', one_mul]
  rw [hl, f hT, f hT1, f hT2]
  linarith

/-- **C133 (affine flows, 2-D).**  Euler and RK4, gridded files that sample an affine flow whose matrix
and constant may change from snapshot to snapshot.  With `T` the normalisation of a window, which is one
step short of its duration (C37), `T λ ≤ T₁ λ₁ + T₂ λ₂`; whenever the whole window has finite values, so
have the parts.  The groups of the three runs need not be the same.  Missing: Adams-Bashforth
(`C133_ab2_fails`). -/
theorem C133_affine_2d_partial {env : Env ℝ FVal} (he : RealEnv env) (hm : ExactTarget env.m)
    (queue : Bool) {k : Kind} (hk : k ≠ .ab2) {v : ℝ → (Fin 2 → ℝ) → Fin 2 → ℝ}
    {A : ℝ → Matrix (Fin 2) (Fin 2) ℝ} {b : ℝ → Fin 2 → ℝ} (hv : IsAffine v A b) {t0 h : ℝ}
    {s s1 s2 : FileSource ℝ} {n1 n2 nx ny : ℕ} {x0 dx y0 dy : ℝ} {N N1 N2 : ℕ}
    (hw : Window2 env k v t0 s nx ny x0 dx y0 dy N)
    (hw1 : Window2 env k v t0 s1 nx ny x0 dx y0 dy N1)
    (hw2 : Window2 env k v (t0 + n1 * h) s2 nx ny x0 dx y0 dy N2)
    (hn : s.snapshotFiles.length = n1 + n2) (hn1 : s1.snapshotFiles.length = n1)
    (hn2 : s2.snapshotFiles.length = n2)
    (hh : s.timestep = h ∧ s1.timestep = h ∧ s2.timestep = h) (hN : 0 < N) {l : ℝ}
    (hl : ((⟨.file s, .highPerf (HighPerf.fresh [nx, ny]), .fresh k⟩ : Solver ℝ).run env queue
      none).result = .ok (some (List.replicate N (.fin l)))) :
    ∃ l1 l2, ((⟨.file s1, .highPerf (HighPerf.fresh [nx, ny]), .fresh k⟩ : Solver ℝ).run env queue
        none).result = .ok (some (List.replicate N1 (.fin l1))) ∧
      ((⟨.file s2, .highPerf (HighPerf.fresh [nx, ny]), .fresh k⟩ : Solver ℝ).run env queue
        none).result = .ok (some (List.replicate N2 (.fin l2))) ∧
      ((n1 + n2 : ℕ) - 1 : ℝ) * |h| * l ≤ (n1 - 1) * |h| * l1 + (n2 - 1) * |h| * l2 := by
  obtain ⟨seed, P, a1, a2, a3, a4, a5⟩ := hw.seeds
  obtain ⟨seed1, P1, b1, b2, b3, b4, b5⟩ := hw1.seeds
  obtain ⟨seed2, P2, c1, c2, c3, c4, c5⟩ := hw2.seeds
  have r := C125_files_2d he hm queue k hv hw.samples a1 a2 a3 a4 a5 hw.steps hw.step
    (runMatrix_ok k _ _)
  have r1 := C125_files_2d he hm queue k hv hw1.samples b1 b2 b3 b4 b5 hw1.steps hw1.step
    (runMatrix_ok k _ _)
  have r2 := C125_files_2d he hm queue k hv hw2.samples c1 c2 c3 c4 c5 hw2.steps hw2.step
    (runMatrix_ok k _ _)
  have p := period_pos hw.steps hw.step
  have p1 := period_pos hw1.steps hw1.step
  have p2 := period_pos hw2.steps hw2.step
  rw [hn, hh.1] at r p
  rw [hn1, hh.2.1] at r1 p1
  rw [hn2, hh.2.2] at r2 p2
  have e : (fun j : ℕ => A (t0 + n1 * h + j * h)) = fun j => A (t0 + (n1 + j : ℕ) * h) := by
    funext j
    congr 1
    push_cast
    ring
  rw [e] at r2
  rw [runMatrices_split hk (runMatrix_ok k (fun j => A (t0 + j * h)) h) (runMatrix_ok k _ h) n2] at r
  exact norms_chain p p1 p2 r r1 r2 hN hl

/-- **C133 (affine flows, 3-D).** -/
theorem C133_affine_3d_partial {env : Env ℝ FVal} (he : RealEnv env) (hm : ExactTarget env.m)
    (queue : Bool) {k : Kind} (hk : k ≠ .ab2) {v : ℝ → (Fin 3 → ℝ) → Fin 3 → ℝ}
    {A : ℝ → Matrix (Fin 3) (Fin 3) ℝ} {b : ℝ → Fin 3 → ℝ} (hv : IsAffine v A b) {t0 h : ℝ}
    {s s1 s2 : FileSource ℝ} {n1 n2 m nz : ℕ} {x0 dx y0 dy z0 dz : ℝ} {N N1 N2 : ℕ}
    (hw : Window3 env k v t0 s m nz x0 dx y0 dy z0 dz N)
    (hw1 : Window3 env k v t0 s1 m nz x0 dx y0 dy z0 dz N1)
    (hw2 : Window3 env k v (t0 + n1 * h) s2 m nz x0 dx y0 dy z0 dz N2)
    (hn : s.snapshotFiles.length = n1 + n2) (hn1 : s1.snapshotFiles.length = n1)
    (hn2 : s2.snapshotFiles.length = n2)
    (hh : s.timestep = h ∧ s1.timestep = h ∧ s2.timestep = h) (hN : 0 < N) {l : ℝ}
    (hl : ((⟨.file s, .highPerf (HighPerf.fresh [m, m, nz]), .fresh k⟩ : Solver ℝ).run env queue
      none).result = .ok (some (List.replicate N (.fin l)))) :
    ∃ l1 l2, ((⟨.file s1, .highPerf (HighPerf.fresh [m, m, nz]), .fresh k⟩ : Solver ℝ).run env queue
        none).result = .ok (some (List.replicate N1 (.fin l1))) ∧
      ((⟨.file s2, .highPerf (HighPerf.fresh [m, m, nz]), .fresh k⟩ : Solver ℝ).run env queue
        none).result = .ok (some (List.replicate N2 (.fin l2))) ∧
      ((n1 + n2 : ℕ) - 1 : ℝ) * |h| * l ≤ (n1 - 1) * |h| * l1 + (n2 - 1) * |h| * l2 := by
  obtain ⟨seed, P, a1, a2, a3, a4, a5⟩ := hw.seeds
  obtain ⟨seed1, P1, b1, b2, b3, b4, b5⟩ := hw1.seeds
  obtain ⟨seed2, P2, c1, c2, c3, c4, c5⟩ := hw2.seeds
  have r := C125_files_3d he hm queue k hv hw.samples a1 a2 a3 a4 a5 hw.steps hw.step
    (runMatrix_ok k _ _)
  have r1 := C125_files_3d he hm queue k hv hw1.samples b1 b2 b3 b4 b5 hw1.steps hw1.step
    (runMatrix_ok k _ _)
  have r2 := C125_files_3d he hm queue k hv hw2.samples c1 c2 c3 c4 c5 hw2.steps hw2.step
    (runMatrix_ok k _ _)
  have p := period_pos hw.steps hw.step
  have p1 := period_pos hw1.steps hw1.step
  have p2 := period_pos hw2.steps hw2.step
  rw [hn, hh.1] at r p
  rw [hn1, hh.2.1] at r1 p1
  rw [hn2, hh.2.2] at r2 p2
  have e : (fun j : ℕ => A (t0 + n1 * h + j * h)) = fun j => A (t0 + (n1 + j : ℕ) * h) := by
    funext j
    congr 1
    push_cast
    ring
  rw [e] at r2
  rw [runMatrices_split hk (runMatrix_ok k (fun j => A (t0 + j * h)) h) (runMatrix_ok k _ h) n2] at r
  exact norms_chain p p1 p2 r r1 r2 hN hl

/-- **C133 (Adams-Bashforth).**  Every window starts with an Euler step.  In the flow `(x, -y)`, with every
step `h`, the window of four steps stretches more than its two halves together. -/
theorem C133_ab2_fails {env : Env ℝ FVal} (he : RealEnv env) (queue : Bool) {fn : VelocityFn ℝ}
    {s s' : AnalyticalSource ℝ} {seed : NDArray ℝ} {N : ℕ} (hs : seed.shape = [4 * N, 2])
    (hp : mkParticles seed = .ok s.particles) (hp' : mkParticles seed = .ok s'.particles)
    (hal : ∀ i < N, AxisAligned2 seed N i)
    (hv : Pointwise (4 * N) 2 (fn 0) (fun x => !![1, 0; 0, -1] *ᵥ x)) (hn : s.times.length = 4)
    (hn' : s'.times.length = 2) {h : ℝ} (hh : 0 < h) (ht : s.timestep = h) (ht' : s'.timestep = h) :
    ∃ l l', ((⟨.analytical s, .analytical (.fresh (some fn)), .fresh .ab2⟩ :
        Solver ℝ).run env queue none).result = .ok (some (List.replicate N (.fin l))) ∧
      ((⟨.analytical s', .analytical (.fresh (some fn)), .fresh .ab2⟩ :
        Solver ℝ).run env queue none).result = .ok (some (List.replicate N (.fin l'))) ∧
      (2 - 1) * h * l' + (2 - 1) * h * l' < (4 - 1) * h * l := by
  have hv' : Pointwise (4 * N) 2 (fn 0) (fun x => !![1, 0; 0, -1] *ᵥ x + 0) := by simpa using hv
  obtain ⟨σ, a1, a2, -⟩ := C125_function_2d he queue .ab2 s fn hs hp hal hv' (by omega)
    (by rw [ht]; exact hh.ne') (runMatrix_ok .ab2 _ _)
  obtain ⟨σ', b1, b2, -⟩ := C125_function_2d he queue .ab2 s' fn hs hp' hal hv' (by omega)
    (by rw [ht']; exact hh.ne') (runMatrix_ok .ab2 _ _)
  rw [hn, ht] at a1 a2
  rw [hn', ht'] at b1 b2
  have m2 : runMatrix .ab2 (fun _ => !![(1 : ℝ), 0; 0, -1]) h 2 =
      !![1 + 2 * h + 3 / 2 * h ^ 2, 0; 0, 1 - 2 * h + 3 / 2 * h ^ 2] := by
    simp only [runMatrix, Matrix.one_fin_two]
    ext i j
    fin_cases i <;> fin_cases j <;> simp <;> ring
  have m4 : runMatrix .ab2 (fun _ => !![(1 : ℝ), 0; 0, -1]) h 4 =
      !![1 + 4 * h + 15 / 2 * h ^ 2 + 15 / 2 * h ^ 3 + 27 / 8 * h ^ 4, 0;
        0, 1 - 4 * h + 15 / 2 * h ^ 2 - 15 / 2 * h ^ 3 + 27 / 8 * h ^ 4] := by
    simp only [runMatrix, Matrix.one_fin_two]
    ext i j
    fin_cases i <;> fin_cases j <;> simp <;> ring
  have h2 := pow_pos hh 2
  have h3 := pow_pos hh 3
  have h4 := pow_pos hh 4
  have p2 : 0 < 1 + 2 * h + 3 / 2 * h ^ 2 := by positivity
  have p4 : 0 < 1 + 4 * h + 15 / 2 * h ^ 2 + 15 / 2 * h ^ 3 + 27 / 8 * h ^ 4 := by positivity
  have n2 : runMatrix .ab2 (fun _ => !![(1 : ℝ), 0; 0, -1]) h 2 ≠ 0 := fun e => by
    rw [m2] at e
    have := congrFun (congrFun e 0) 0
    simp at this
    linarith
  have n4 : runMatrix .ab2 (fun _ => !![(1 : ℝ), 0; 0, -1]) h 4 ≠ 0 := fun e => by
    rw [m4] at e
    have := congrFun (congrFun e 0) 0
    simp at this
    linarith
  have s2 := maxStretch_unique b1 (by
    rw [m2]
    exact maxStretch_diag (by rw [abs_of_pos p2, abs_le]; constructor <;> linarith))
  have s4 := maxStretch_unique a1 (by
    rw [m4]
    exact maxStretch_diag (by rw [abs_of_pos p4, abs_le]; constructor <;> linarith))
  refine ⟨_, _, (a2 n4).2, (b2 n2).2, ?_⟩
  rw [s2, s4, abs_of_pos p2, abs_of_pos p4, abs_of_pos hh]
  have lt : Real.log ((1 + 2 * h + 3 / 2 * h ^ 2) * (1 + 2 * h + 3 / 2 * h ^ 2)) <
      Real.log (1 + 4 * h + 15 / 2 * h ^ 2 + 15 / 2 * h ^ 3 + 27 / 8 * h ^ 4) :=
    Real.log_lt_log (by positivity) (by nlinarith)
  rw [Real.log_mul p2.ne' p2.ne'] at lt
  push_cast
  have e : ∀ c x : ℝ, 0 < c → c * h * (1 / (c * h) * x) = x := fun c x hc => by
    rw [← mul_assoc, mul_one_div_cancel (mul_pos hc hh).ne', one_mul]
  rw [e _ _ (by norm_num), e _ _ (by norm_num)]
  exact lt

/-- A run of `n` snapshots with step `h` from gridded files that sample the flow `v` from the time `t0` on,
with crosses of arm `δ` around the points `c i`. -/
structure CrossWindow2 (env : Env ℝ FVal) (v : ℝ → (Fin 2 → ℝ) → Fin 2 → ℝ) (t0 : ℝ)
    (s : FileSource ℝ) (nx ny : ℕ) (x0 dx y0 dy : ℝ) (N : ℕ) (c : ℕ → Fin 2 → ℝ) (δ : ℝ) (n : ℕ)
    (h : ℝ) : Prop where
  samples : Samples2 env.fs s v t0 nx ny x0 dx y0 dy
  length : s.snapshotFiles.length = n
  step : s.timestep = h
  steps : 2 ≤ n
  seeds : ∃ seed P, seed.shape = [4 * N, 2] ∧ mkParticles seed = .ok P ∧
    readSeedParticles env.fs s.particleFile = .ok P ∧ ∀ i < N, groupOf seed 4 N 2 i = cross2 (c i) δ

/-- **C133 (smooth flows, 2-D).**  The second window starts at the time `t1`, with crosses around the points
the centres of the first have been carried to.  Then `T λ ≤ T₁ λ₁ + T₂ λ₂` up to the errors of the
method, with one constant for all steps `h`, arms `δ` and spacings `Δ` of the grid, group by group.
RK4 has order one in unsteady flows (as in C132). -/
theorem C133_smooth_2d_partial (k : Kind) {ord : ℕ} {v : ℝ → (Fin 2 → ℝ) → Fin 2 → ℝ}
    (hv : AttainsForGroups k ord v) {t0 t1 te : ℝ} (hne : t0 ≠ te) (ht1 : t1 ∈ uIcc t0 te) {r : ℝ}
    (hr : 0 < r) {N : ℕ} (X : ℕ → ℝ → Fin 2 → ℝ)
    (hX : ∀ i < N, IsTrajectory v (uIcc t0 te) (X i)) :
    ∃ C η, 0 < η ∧ ∀ (env : Env ℝ FVal), RealEnv env → ExactTarget env.m → ∀ (queue : Bool)
      (s s1 s2 : FileSource ℝ) (nx ny : ℕ) (x0 dx y0 dy : ℝ) (n1 n2 : ℕ) (h δ : ℝ),
      CrossWindow2 env v t0 s nx ny x0 dx y0 dy N (fun i => X i t0) δ (n1 + n2) h →
      CrossWindow2 env v t0 s1 nx ny x0 dx y0 dy N (fun i => X i t0) δ n1 h →
      CrossWindow2 env v t1 s2 nx ny x0 dx y0 dy N (fun i => X i t1) δ n2 h →
      t1 = t0 + n1 * h → t1 + n2 * h ∈ uIcc t0 te →
      h ≠ 0 → |h| ≤ η → 0 < δ → δ ≤ η → max dx dy ≤ η →
      (∀ i < N, ∀ j < n1 + n2, ∀ z, ‖z - X i (t0 + j * h)‖ ≤ r →
        OnAxis nx x0 dx (z 0) ∧ OnAxis ny y0 dy (z 1)) →
      ∃ Λ Λ1 Λ2 : ℕ → ℝ,
        ((⟨.file s, .highPerf (HighPerf.fresh [nx, ny]), .fresh k⟩ : Solver ℝ).run env
          queue none).result = .ok (some ((List.range N).map fun i => .fin (Λ i))) ∧
        ((⟨.file s1, .highPerf (HighPerf.fresh [nx, ny]), .fresh k⟩ : Solver ℝ).run env
          queue none).result = .ok (some ((List.range N).map fun i => .fin (Λ1 i))) ∧
        ((⟨.file s2, .highPerf (HighPerf.fresh [nx, ny]), .fresh k⟩ : Solver ℝ).run env
          queue none).result = .ok (some ((List.range N).map fun i => .fin (Λ2 i))) ∧
        ∀ i < N, ((n1 + n2 : ℕ) - 1 : ℝ) * |h| * Λ i ≤
          (n1 - 1) * |h| * Λ1 i + (n2 - 1) * |h| * Λ2 i +
            C * (|h| ^ ord + δ ^ 2 + min (max dx dy) ((max dx dy) ^ 2 / δ)) := by
  have hv1 : ContDiff ℝ 1 fun q : ℝ × (Fin 2 → ℝ) => v q.1 q.2 :=
    (smoothForGroups_three hv).of_le (by norm_num)
  have hM : ∀ i, ∃ M L : ℝ → Matrix (Fin 2) (Fin 2) ℝ, i < N →
      IsDeformation v (uIcc t0 te) t0 (X i) M ∧ IsDeformation v (uIcc t0 te) t1 (X i) L ∧
      ∀ t, M t = L t * M t1 := by
    intro i
    by_cases hi : i < N
    · obtain ⟨M, m1⟩ := deformation_exists hv1 hne (hX i hi)
      obtain ⟨L, l1, l2⟩ := deformation_since hv1 hne ht1 (hX i hi) m1
      exact ⟨M, L, fun _ => ⟨m1, l1, l2⟩⟩
    · exact ⟨fun _ => 0, fun _ => 0, fun h => absurd h hi⟩
  choose M L hM using hM
  obtain ⟨C, η, hη, H⟩ := C132_gridded_2d_partial k hv isCompact_uIcc (convex_uIcc t0 te)
    (t0 := t0) left_mem_uIcc hr X hX M (fun i hi => (hM i hi).1)
  obtain ⟨C', η', hη', H'⟩ := C132_gridded_2d_partial k hv isCompact_uIcc (convex_uIcc t0 te)
    (t0 := t1) ht1 hr X hX L (fun i hi => (hM i hi).2.1)
  refine ⟨2 * C + C', min η η', by positivity, ?_⟩
  intro env he hex queue s s1 s2 nx ny x0 dx y0 dy n1 n2 h δ w w1 w2 e1 hU hh0 hhη hδ0 hδη hdη hin
  rw [le_min_iff] at hhη hδη hdη
  obtain ⟨seed, P, a1, a2, a3, a4⟩ := w.seeds
  obtain ⟨seed1, P1, b1, b2, b3, b4⟩ := w1.seeds
  obtain ⟨seed2, P2, c1, c2, c3, c4⟩ := w2.seeds
  have stretch : ∀ A : Matrix (Fin 2) (Fin 2) ℝ, ∃ σ, IsMaxStretch A σ := fun A => by
    obtain ⟨σ, h1, -⟩ := field_replicate ftle2_computes A 1 one_ne_zero
    exact ⟨σ, h1⟩
  choose τ hτ using stretch
  have e2 : t0 + ((n1 + n2 : ℕ) : ℝ) * h = t1 + n2 * h := by
    rw [e1]
    push_cast
    ring
  obtain ⟨Λ, r1, r2⟩ := H env he hex queue seed P s nx ny x0 dx y0 dy (n1 + n2) h δ a1 a2 a4 w.samples
    w.length w.step a3 w.steps hh0 hhη.1 hδ0 hδη.1 hdη.1 (by rw [e2]; exact hU) hin
    (fun i => τ (M i (t0 + ((n1 + n2 : ℕ) : ℝ) * h))) (fun _ _ => hτ _)
  obtain ⟨Λ1, r3, r4⟩ := H env he hex queue seed1 P1 s1 nx ny x0 dx y0 dy n1 h δ b1 b2 b4 w1.samples
    w1.length w1.step b3 w1.steps hh0 hhη.1 hδ0 hδη.1 hdη.1 (by rw [← e1]; exact ht1)
    (fun i hi j hj => hin i hi j (by omega)) (fun i => τ (M i (t0 + n1 * h))) (fun _ _ => hτ _)
  obtain ⟨Λ2, r5, r6⟩ := H' env he hex queue seed2 P2 s2 nx ny x0 dx y0 dy n2 h δ c1 c2 c4 w2.samples
    w2.length w2.step c3 w2.steps hh0 hhη.2 hδ0 hδη.2 hdη.2 hU
    (fun i hi j hj z hz => hin i hi (n1 + j) (by omega) z (by
      have : t0 + ((n1 + j : ℕ) : ℝ) * h = t1 + j * h := by
        rw [e1]
        push_cast
        ring
      rwa [this])) (fun i => τ (L i (t1 + n2 * h))) (fun _ _ => hτ _)
  refine ⟨Λ, Λ1, Λ2, r1, r3, r5, fun i hi => ?_⟩
  have q := r2 i hi
  have q1 := r4 i hi
  have q2 := r6 i hi
  have hp := period_pos w.steps hh0
  have hp1 := period_pos w1.steps hh0
  have hp2 := period_pos w2.steps hh0
  have f : ∀ {T l x B : ℝ}, 0 < T → |l - 1 / T * x| ≤ 1 / T * B → |T * l - x| ≤ B := by
    intro T l x B hT h
    have := mul_le_mul_of_nonneg_left h hT.le
    rw [← mul_assoc, mul_one_div_cancel hT.ne', one_mul] at this
    refine le_trans (le_of_eq ?_) this
    rw [← abs_of_pos hT, ← abs_mul, abs_of_pos hT, mul_sub, ← mul_assoc, mul_one_div_cancel hT.ne',
      one_mul]
  replace q := abs_le.1 (f hp q)
  replace q1 := abs_le.1 (f hp1 q1)
  replace q2 := abs_le.1 (f hp2 q2)
  rw [e2] at q
  rw [← e1] at q1
  obtain ⟨m1, m2, m3⟩ := hM i hi
  have ht2 : t1 + n2 * h ∈ uIcc t0 te := hU
  have pos : ∀ t ∈ uIcc t0 te, 0 < τ (M i t) := fun t ht => by
    obtain ⟨m, m0, hm⟩ := deformation_stretch_ge hv1 isCompact_uIcc (convex_uIcc t0 te) left_mem_uIcc
      (hX i hi) m1
    exact m0.trans_le (hm t ht _ (hτ _))
  have posL : 0 < τ (L i (t1 + n2 * h)) := by
    obtain ⟨m, m0, hm⟩ := deformation_stretch_ge hv1 isCompact_uIcc (convex_uIcc t0 te) ht1
      (hX i hi) m2
    exact m0.trans_le (hm _ hU _ (hτ _))
  have hle : τ (M i (t1 + n2 * h)) ≤ τ (L i (t1 + n2 * h)) * τ (M i t1) := by
    have hs := hτ (M i (t1 + n2 * h))
    have hs' : IsMaxStretch (L i (t1 + n2 * h) * M i t1) (τ (M i (t1 + n2 * h))) := by
      rw [← m3]
      exact hs
    exact maxStretch_mul_le (hτ _) (hτ _) hs'
  have hlog := Real.log_le_log (pos _ hU) hle
  rw [Real.log_mul posL.ne' (pos _ ht1).ne'] at hlog
  generalize |h| ^ ord + δ ^ 2 + min (max dx dy) ((max dx dy) ^ 2 / δ) = B at *
  have hC : (2 * C + C') * B = C * B + C * B + C' * B := by ring
  rw [hC]
  linarith [q.2, q1.1, q2.1]

/-- The same in three dimensions. -/
structure CrossWindow3 (env : Env ℝ FVal) (v : ℝ → (Fin 3 → ℝ) → Fin 3 → ℝ) (t0 : ℝ)
    (s : FileSource ℝ) (nx nz : ℕ) (x0 dx y0 dy z0 dz : ℝ) (N : ℕ) (c : ℕ → Fin 3 → ℝ) (δ : ℝ) (n : ℕ)
    (h : ℝ) : Prop where
  samples : Samples3 env.fs s v t0 nx nz x0 dx y0 dy z0 dz
  length : s.snapshotFiles.length = n
  step : s.timestep = h
  steps : 2 ≤ n
  seeds : ∃ seed P, seed.shape = [6 * N, 3] ∧ mkParticles seed = .ok P ∧
    readSeedParticles env.fs s.particleFile = .ok P ∧ ∀ i < N, groupOf seed 6 N 3 i = cross3 (c i) δ

/-- **C133 (smooth flows, 3-D).** -/
theorem C133_smooth_3d_partial (k : Kind) {ord : ℕ} {v : ℝ → (Fin 3 → ℝ) → Fin 3 → ℝ}
    (hv : AttainsForGroups k ord v) {t0 t1 te : ℝ} (hne : t0 ≠ te) (ht1 : t1 ∈ uIcc t0 te) {r : ℝ}
    (hr : 0 < r) {N : ℕ} (X : ℕ → ℝ → Fin 3 → ℝ)
    (hX : ∀ i < N, IsTrajectory v (uIcc t0 te) (X i)) :
    ∃ C η, 0 < η ∧ ∀ (env : Env ℝ FVal), RealEnv env → ExactTarget env.m → ∀ (queue : Bool)
      (s s1 s2 : FileSource ℝ) (nx nz : ℕ) (x0 dx y0 dy z0 dz : ℝ) (n1 n2 : ℕ) (h δ : ℝ),
      CrossWindow3 env v t0 s nx nz x0 dx y0 dy z0 dz N (fun i => X i t0) δ (n1 + n2) h →
      CrossWindow3 env v t0 s1 nx nz x0 dx y0 dy z0 dz N (fun i => X i t0) δ n1 h →
      CrossWindow3 env v t1 s2 nx nz x0 dx y0 dy z0 dz N (fun i => X i t1) δ n2 h →
      t1 = t0 + n1 * h → t1 + n2 * h ∈ uIcc t0 te →
      h ≠ 0 → |h| ≤ η → 0 < δ → δ ≤ η → max (max dx dy) dz ≤ η →
      (∀ i < N, ∀ j < n1 + n2, ∀ z, ‖z - X i (t0 + j * h)‖ ≤ r →
        OnAxis nx x0 dx (z 0) ∧ OnAxis nx y0 dy (z 1) ∧ OnAxis nz z0 dz (z 2)) →
      ∃ Λ Λ1 Λ2 : ℕ → ℝ,
        ((⟨.file s, .highPerf (HighPerf.fresh [nx, nx, nz]), .fresh k⟩ : Solver ℝ).run env
          queue none).result = .ok (some ((List.range N).map fun i => .fin (Λ i))) ∧
        ((⟨.file s1, .highPerf (HighPerf.fresh [nx, nx, nz]), .fresh k⟩ : Solver ℝ).run env
          queue none).result = .ok (some ((List.range N).map fun i => .fin (Λ1 i))) ∧
        ((⟨.file s2, .highPerf (HighPerf.fresh [nx, nx, nz]), .fresh k⟩ : Solver ℝ).run env
          queue none).result = .ok (some ((List.range N).map fun i => .fin (Λ2 i))) ∧
        ∀ i < N, ((n1 + n2 : ℕ) - 1 : ℝ) * |h| * Λ i ≤
          (n1 - 1) * |h| * Λ1 i + (n2 - 1) * |h| * Λ2 i +
            C * (|h| ^ ord + δ ^ 2 + min (max (max dx dy) dz) ((max (max dx dy) dz) ^ 2 / δ)) := by
  have hv1 : ContDiff ℝ 1 fun q : ℝ × (Fin 3 → ℝ) => v q.1 q.2 :=
    (smoothForGroups_three hv).of_le (by norm_num)
  have hM : ∀ i, ∃ M L : ℝ → Matrix (Fin 3) (Fin 3) ℝ, i < N →
      IsDeformation v (uIcc t0 te) t0 (X i) M ∧ IsDeformation v (uIcc t0 te) t1 (X i) L ∧
      ∀ t, M t = L t * M t1 := by
    intro i
    by_cases hi : i < N
    · obtain ⟨M, m1⟩ := deformation_exists hv1 hne (hX i hi)
      obtain ⟨L, l1, l2⟩ := deformation_since hv1 hne ht1 (hX i hi) m1
      exact ⟨M, L, fun _ => ⟨m1, l1, l2⟩⟩
    · exact ⟨fun _ => 0, fun _ => 0, fun h => absurd h hi⟩
  choose M L hM using hM
  obtain ⟨C, η, hη, H⟩ := C132_gridded_3d_partial k hv isCompact_uIcc (convex_uIcc t0 te)
    (t0 := t0) left_mem_uIcc hr X hX M (fun i hi => (hM i hi).1)
  obtain ⟨C', η', hη', H'⟩ := C132_gridded_3d_partial k hv isCompact_uIcc (convex_uIcc t0 te)
    (t0 := t1) ht1 hr X hX L (fun i hi => (hM i hi).2.1)
  refine ⟨2 * C + C', min η η', by positivity, ?_⟩
  intro env he hex queue s s1 s2 nx nz x0 dx y0 dy z0 dz n1 n2 h δ w w1 w2 e1 hU hh0 hhη hδ0 hδη hdη hin
  rw [le_min_iff] at hhη hδη hdη
  obtain ⟨seed, P, a1, a2, a3, a4⟩ := w.seeds
  obtain ⟨seed1, P1, b1, b2, b3, b4⟩ := w1.seeds
  obtain ⟨seed2, P2, c1, c2, c3, c4⟩ := w2.seeds
  have stretch : ∀ A : Matrix (Fin 3) (Fin 3) ℝ, ∃ σ, IsMaxStretch A σ := fun A => by
    obtain ⟨σ, h1, -⟩ := field_replicate ftle3_computes A 1 one_ne_zero
    exact ⟨σ, h1⟩
  choose τ hτ using stretch
  have e2 : t0 + ((n1 + n2 : ℕ) : ℝ) * h = t1 + n2 * h := by
    rw [e1]
    push_cast
    ring
  obtain ⟨Λ, r1, r2⟩ := H env he hex queue seed P s nx nz x0 dx y0 dy z0 dz (n1 + n2) h δ a1 a2 a4 w.samples
    w.length w.step a3 w.steps hh0 hhη.1 hδ0 hδη.1 hdη.1 (by rw [e2]; exact hU) hin
    (fun i => τ (M i (t0 + ((n1 + n2 : ℕ) : ℝ) * h))) (fun _ _ => hτ _)
  obtain ⟨Λ1, r3, r4⟩ := H env he hex queue seed1 P1 s1 nx nz x0 dx y0 dy z0 dz n1 h δ b1 b2 b4 w1.samples
    w1.length w1.step b3 w1.steps hh0 hhη.1 hδ0 hδη.1 hdη.1 (by rw [← e1]; exact ht1)
    (fun i hi j hj => hin i hi j (by omega)) (fun i => τ (M i (t0 + n1 * h))) (fun _ _ => hτ _)
  obtain ⟨Λ2, r5, r6⟩ := H' env he hex queue seed2 P2 s2 nx nz x0 dx y0 dy z0 dz n2 h δ c1 c2 c4 w2.samples
    w2.length w2.step c3 w2.steps hh0 hhη.2 hδ0 hδη.2 hdη.2 hU
    (fun i hi j hj z hz => hin i hi (n1 + j) (by omega) z (by
      have : t0 + ((n1 + j : ℕ) : ℝ) * h = t1 + j * h := by
        rw [e1]
        push_cast
        ring
      rwa [this])) (fun i => τ (L i (t1 + n2 * h))) (fun _ _ => hτ _)
  refine ⟨Λ, Λ1, Λ2, r1, r3, r5, fun i hi => ?_⟩
  have q := r2 i hi
  have q1 := r4 i hi
  have q2 := r6 i hi
  have hp := period_pos w.steps hh0
  have hp1 := period_pos w1.steps hh0
  have hp2 := period_pos w2.steps hh0
  have f : ∀ {T l x B : ℝ}, 0 < T → |l - 1 / T * x| ≤ 1 / T * B → |T * l - x| ≤ B := by
    intro T l x B hT h
    have := mul_le_mul_of_nonneg_left h hT.le
    rw [← mul_assoc, mul_one_div_cancel hT.ne', one_mul] at this
    refine le_trans (le_of_eq ?_) this
    rw [← abs_of_pos hT, ← abs_mul, abs_of_pos hT, mul_sub, ← mul_assoc, mul_one_div_cancel hT.ne',
      one_mul]
  replace q := abs_le.1 (f hp q)
  replace q1 := abs_le.1 (f hp1 q1)
  replace q2 := abs_le.1 (f hp2 q2)
  rw [e2] at q
  rw [← e1] at q1
  obtain ⟨m1, m2, m3⟩ := hM i hi
  have ht2 : t1 + n2 * h ∈ uIcc t0 te := hU
  have pos : ∀ t ∈ uIcc t0 te, 0 < τ (M i t) := fun t ht => by
    obtain ⟨m, m0, hm⟩ := deformation_stretch_ge hv1 isCompact_uIcc (convex_uIcc t0 te) left_mem_uIcc
      (hX i hi) m1
    exact m0.trans_le (hm t ht _ (hτ _))
  have posL : 0 < τ (L i (t1 + n2 * h)) := by
    obtain ⟨m, m0, hm⟩ := deformation_stretch_ge hv1 isCompact_uIcc (convex_uIcc t0 te) ht1
      (hX i hi) m2
    exact m0.trans_le (hm _ hU _ (hτ _))
  have hle : τ (M i (t1 + n2 * h)) ≤ τ (L i (t1 + n2 * h)) * τ (M i t1) := by
    have hs := hτ (M i (t1 + n2 * h))
    have hs' : IsMaxStretch (L i (t1 + n2 * h) * M i t1) (τ (M i (t1 + n2 * h))) := by
      rw [← m3]
      exact hs
    exact maxStretch_mul_le (hτ _) (hτ _) hs'
  have hlog := Real.log_le_log (pos _ hU) hle
  rw [Real.log_mul posL.ne' (pos _ ht1).ne'] at hlog
  generalize |h| ^ ord + δ ^ 2 + min (max (max dx dy) dz) ((max (max dx dy) dz) ^ 2 / δ) = B at *
  have hC : (2 * C + C') * B = C * B + C * B + C' * B := by ring
  rw [hC]
  linarith [q.2, q1.1, q2.1]

end Verif
