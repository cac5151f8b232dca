import Verif.Props.Affine

/-!
# C126: forward and backward time in incompressible planar flows

In the plane an incompressible flow stretches as much forward as backward in time: the inverse of a matrix
of determinant 1 has the same greatest stretching.  The matrices of the methods do not have determinant
1, and the matrix of the run backward is not the inverse of that of the run forward; it is its adjugate,
which has the same greatest stretching too.
-/

namespace Verif

open Matrix

/-! ## The adjugate of a matrix of the plane -/

theorem maxStretch_adjugate {M : Matrix (Fin 2) (Fin 2) ℝ} {s : ℝ} (h : IsMaxStretch M s) :
    IsMaxStretch M.adjugate s := by
  obtain ⟨l, a1, -, a3⟩ := entry2 M
  obtain ⟨m, b1, -, b3⟩ := entry2 M.adjugate
  have e1 : trace2 (cauchyGreen2 M.adjugate) = trace2 (cauchyGreen2 M) := by
    simp [trace2, cauchyGreen2, adjugate_fin_two]; ring
  have e2 : disc2 4 (cauchyGreen2 M.adjugate) = disc2 4 (cauchyGreen2 M) := by
    simp [disc2, trace2, cauchyGreen2, adjugate_fin_two]; ring
  have e : maxEig2 (cauchyGreen2 M.adjugate) = maxEig2 (cauchyGreen2 M) := by
    unfold maxEig2
    rw [e1, e2]
  rw [e, a1] at b1
  cases b1
  rw [h.unique a3]
  exact b3

theorem reportsNorm_adjugate {r r' : Py (Option (List FVal))} {N : ℕ} {M : Matrix (Fin 2) (Fin 2) ℝ}
    {T : ℝ} (h : ReportsNorm r N M T) (h' : ReportsNorm r' N M.adjugate T) : r = r' := by
  obtain ⟨s, h1, h2, h3⟩ := h
  obtain ⟨t, k1, k2, k3⟩ := h'
  have e := k1.unique (maxStretch_adjugate h1)
  subst e
  have back : M.adjugate.adjugate = M := by
    ext i j
    fin_cases i <;> fin_cases j <;> simp [adjugate_fin_two]
  by_cases hM : M = 0
  · subst hM
    rw [h3 rfl, k3 (by ext i j; fin_cases i <;> fin_cases j <;> simp [adjugate_fin_two])]
  · rw [(h2 hM).2, (k2 fun h0 => hM (by
      rw [← back, h0]; ext i j; fin_cases i <;> fin_cases j <;> simp [adjugate_fin_two])).2]

/-! ## The matrices of the two runs -/

/-- `A` has trace 0. -/
theorem traceless_sq {A : Matrix (Fin 2) (Fin 2) ℝ} (h : A.trace = 0) :
    A ^ 2 = (-A.det) • (1 : Matrix (Fin 2) (Fin 2) ℝ) := by
  rw [trace_fin_two] at h
  have h' : A 1 1 = -A 0 0 := by linarith
  ext i j
  fin_cases i <;> fin_cases j <;>
    simp [pow_two, mul_apply, Fin.sum_univ_two, det_fin_two, h'] <;> ring

theorem adjugate_traceless {A : Matrix (Fin 2) (Fin 2) ℝ} (h : A.trace = 0) (a b : ℝ) :
    (a • (1 : Matrix (Fin 2) (Fin 2) ℝ) + b • A).adjugate = a • 1 - b • A := by
  rw [trace_fin_two] at h
  have h' : A 1 1 = -A 0 0 := by linarith
  ext i j
  fin_cases i <;> fin_cases j <;> simp [adjugate_fin_two, h', sub_eq_add_neg]

theorem adjugate_eulerMat {A : Matrix (Fin 2) (Fin 2) ℝ} (hA : A.trace = 0) (h : ℝ) :
    (1 + h • A).adjugate = 1 + (-h) • A := by
  have := adjugate_traceless hA 1 h
  simpa [sub_eq_add_neg] using this

theorem adjugate_rk4Mat {A : Matrix (Fin 2) (Fin 2) ℝ} (hA : A.trace = 0) (h : ℝ) :
    (1 + h • A + (h ^ 2 / 2) • A ^ 2 + (h ^ 3 / 6) • A ^ 3 + (h ^ 4 / 24) • A ^ 4).adjugate =
      1 + (-h) • A + ((-h) ^ 2 / 2) • A ^ 2 + ((-h) ^ 3 / 6) • A ^ 3 + ((-h) ^ 4 / 24) • A ^ 4 := by
  set q := -A.det with hq
  have h2 : A ^ 2 = q • (1 : Matrix (Fin 2) (Fin 2) ℝ) := traceless_sq hA
  have h3 : A ^ 3 = q • A := by rw [pow_succ A 2, h2, smul_mul_assoc, one_mul]
  have h4 : A ^ 4 = (q * q) • (1 : Matrix (Fin 2) (Fin 2) ℝ) := by
    rw [pow_succ A 3, h3, smul_mul_assoc, ← sq, h2, smul_smul]
  have e1 : (1 + h • A + (h ^ 2 / 2) • A ^ 2 + (h ^ 3 / 6) • A ^ 3 + (h ^ 4 / 24) • A ^ 4) =
      (1 + h ^ 2 / 2 * q + h ^ 4 / 24 * (q * q)) • (1 : Matrix (Fin 2) (Fin 2) ℝ) +
        (h + h ^ 3 / 6 * q) • A := by
    rw [h2, h3, h4]; module
  rw [e1, adjugate_traceless hA, h2, h3, h4]
  module

theorem runMatrices_back {k : Kind} (hk : k ≠ .ab2) {A : ℕ → Matrix (Fin 2) (Fin 2) ℝ}
    (hA : ∀ j, (A j).trace = 0) {h : ℝ} {n : ℕ} {M M' : ℕ → Matrix (Fin 2) (Fin 2) ℝ}
    (hM : RunMatrices k A h M) {B : ℕ → Matrix (Fin 2) (Fin 2) ℝ} (hB : ∀ j < n, B j = A (n - 1 - j))
    (hM' : RunMatrices k B (-h) M') : M' n = (M n).adjugate := by
  obtain ⟨p, hp, hp'⟩ : ∃ p : ℕ → Matrix (Fin 2) (Fin 2) ℝ, (∀ j, M (j + 1) = p j * M j) ∧
      ∀ j < n, M' (j + 1) = (p (n - 1 - j)).adjugate * M' j := by
    cases k with
    | ab2 => exact absurd rfl hk
    | euler => exact ⟨_, hM.euler rfl, fun j hj => by
      rw [hM'.euler rfl, hB j hj, adjugate_eulerMat (hA _)]⟩
    | rk4 => exact ⟨_, hM.rk4 rfl, fun j hj => by
      rw [hM'.rk4 rfl, hB j hj, adjugate_rk4Mat (hA _)]⟩
  have key : ∀ j ≤ n, (M (n - j)).adjugate * M' j = (M n).adjugate := by
    intro j
    induction j with
    | zero => intro _; rw [hM'.zero, mul_one, Nat.sub_zero]
    | succ j ih =>
      intro hj
      rw [← ih (by omega), hp' j (by omega), ← mul_assoc, ← adjugate_mul_distrib,
        show n - (j + 1) = n - 1 - j by omega, ← hp, show n - 1 - j + 1 = n - j by omega]
  have := key n le_rfl
  rwa [Nat.sub_self, hM.zero, adjugate_one, one_mul] at this

theorem runMatrices_back_ab2 {A : Matrix (Fin 2) (Fin 2) ℝ} (hA : A.trace = 0) {h : ℝ}
    {M M' : ℕ → Matrix (Fin 2) (Fin 2) ℝ} (hM : RunMatrices .ab2 (fun _ => A) h M)
    (hM' : RunMatrices .ab2 (fun _ => A) (-h) M') (n : ℕ) : M' n = (M n).adjugate := by
  have key : ∀ n, ∃ a b c e : ℝ, M n = a • 1 + b • A ∧ M' n = a • 1 - b • A ∧
      M (n + 1) = c • 1 + e • A ∧ M' (n + 1) = c • 1 - e • A := by
    intro n
    induction n with
    | zero =>
      refine ⟨1, 0, 1, h, by simp [hM.zero], by simp [hM'.zero], ?_, ?_⟩
      · rw [Nat.zero_add, hM.first rfl, one_smul]
      · rw [Nat.zero_add, hM'.first rfl]; module
    | succ n ih =>
      obtain ⟨a, b, c, e, h1, h2, h3, h4⟩ := ih
      have hs := traceless_sq hA
      rw [sq] at hs
      refine ⟨c, e, c + h * (3 / 2 * (e * -A.det) - 1 / 2 * (b * -A.det)),
        e + h * (3 / 2 * c - 1 / 2 * a), h3, h4, ?_, ?_⟩
      · rw [hM.ab2 rfl, h1, h3]
        simp only [mul_add, mul_smul_comm, mul_one, hs]
        module
      · rw [hM'.ab2 rfl, h2, h4]
        simp only [mul_sub, mul_smul_comm, mul_one, hs]
        module
  obtain ⟨a, b, -, -, h1, h2, -⟩ := key n
  rw [h1, h2, adjugate_traceless hA]

/-! ## C126 -/

/-- **C126 (functions).**  The run with the opposite time step reports the same numbers. -/
theorem C126_function {env : Env ℝ FVal} (he : RealEnv env) (queue queue' : Bool) (k : Kind)
    (s s' : AnalyticalSource ℝ) (fn : VelocityFn ℝ) {seed : NDArray ℝ} {N : ℕ}
    (hs : seed.shape = [4 * N, 2]) (hp : mkParticles seed = .ok s.particles)
    (hp' : s'.particles = s.particles) (hl : s'.times.length = s.times.length)
    (hst : s'.timestep = -s.timestep) (hal : ∀ i < N, AxisAligned2 seed N i)
    {A : Matrix (Fin 2) (Fin 2) ℝ} {b : Fin 2 → ℝ} (hA : A.trace = 0)
    (hv : Pointwise (4 * N) 2 (fn 0) (fun x => A *ᵥ x + b)) (hlen : 2 ≤ s.times.length)
    (hh : s.timestep ≠ 0) :
    ((⟨.analytical s', .analytical (.fresh (some fn)), .fresh k⟩ : Solver ℝ).run env queue'
        none).result =
      ((⟨.analytical s, .analytical (.fresh (some fn)), .fresh k⟩ : Solver ℝ).run env queue
        none).result := by
  have r := C125_function_2d he queue k s fn hs hp hal hv hlen hh (runMatrix_ok k (fun _ => A) s.timestep)
  have r' := C125_function_2d he queue' k s' fn hs (hp'.symm ▸ hp) hal hv (hl ▸ hlen)
    (by rw [hst]; exact neg_ne_zero.2 hh) (runMatrix_ok k (fun _ => A) s'.timestep)
  rw [hl, hst, abs_neg] at r'
  refine (reportsNorm_adjugate r ?_).symm
  convert r' using 2
  symm
  by_cases hk : k = .ab2
  · subst hk
    exact runMatrices_back_ab2 hA (runMatrix_ok _ _ _) (runMatrix_ok _ _ _) _
  · exact runMatrices_back (A := fun _ => A) hk (fun _ => hA) (runMatrix_ok _ _ _) (fun _ _ => rfl)
      (runMatrix_ok _ _ _)

/-- **C126 (gridded files).**  `s` lists the snapshots from `t0` on, `s'` the same instants in the
opposite order.  With Euler and RK4 the flow may be unsteady; with AB2 its gradient is constant
in time. -/
theorem C126_files_partial {env : Env ℝ FVal} (he : RealEnv env) (hm : ExactTarget env.m)
    (queue queue' : Bool) (k : Kind) {v : ℝ → (Fin 2 → ℝ) → Fin 2 → ℝ}
    {A : ℝ → Matrix (Fin 2) (Fin 2) ℝ} {b : ℝ → Fin 2 → ℝ} (hv : IsAffine v A b)
    (hA : ∀ t, (A t).trace = 0) (hk : k = .ab2 → ∀ t t', A t = A t') {t0 : ℝ} {s s' : FileSource ℝ}
    {nx ny : ℕ} {x0 dx y0 dy : ℝ} (hd : Samples2 env.fs s v t0 nx ny x0 dx y0 dy)
    (hl : s'.snapshotFiles.length = s.snapshotFiles.length) (hst : s'.timestep = -s.timestep)
    (hd' : Samples2 env.fs s' v (t0 + (s.snapshotFiles.length - 1) * s.timestep) nx ny x0 dx y0 dy)
    {N : ℕ} {seed : NDArray ℝ} {P : Particles ℝ} (hs : seed.shape = [4 * N, 2])
    (hp : mkParticles seed = .ok P) (hP : readSeedParticles env.fs s.particleFile = .ok P)
    (hP' : readSeedParticles env.fs s'.particleFile = .ok P) (hal : ∀ i < N, AxisAligned2 seed N i)
    (hin : ∀ i < N, ∀ q, ∀ j < s.snapshotFiles.length, ∀ z ∈ stages k (v (t0 + j * s.timestep))
      s.timestep (flowMap k (fun j => v (t0 + (j : ℕ) * s.timestep)) s.timestep j
        (groupOf seed 4 N 2 i q)), OnAxis nx x0 dx (z 0) ∧ OnAxis ny y0 dy (z 1))
    (hin' : ∀ i < N, ∀ q, ∀ j < s.snapshotFiles.length,
      ∀ z ∈ stages k (v (t0 + (s.snapshotFiles.length - 1) * s.timestep + j * -s.timestep))
        (-s.timestep) (flowMap k (fun j => v (t0 + (s.snapshotFiles.length - 1) * s.timestep +
          (j : ℕ) * -s.timestep)) (-s.timestep) j (groupOf seed 4 N 2 i q)),
        OnAxis nx x0 dx (z 0) ∧ OnAxis ny y0 dy (z 1))
    (hn : 2 ≤ s.snapshotFiles.length) (hh : s.timestep ≠ 0) :
    ((⟨.file s', .highPerf (HighPerf.fresh [nx, ny]), .fresh k⟩ : Solver ℝ).run env queue' none).result =
      ((⟨.file s, .highPerf (HighPerf.fresh [nx, ny]), .fresh k⟩ : Solver ℝ).run env queue
        none).result := by
  set n := s.snapshotFiles.length with hnn
  have r := C125_files_2d he hm queue k hv hd hs hp hP hal hin hn hh (runMatrix_ok k _ s.timestep)
  have r' := C125_files_2d he hm queue' k hv hd' hs hp hP' hal (by rw [hl, hst]; exact hin')
    (hl ▸ hn) (by rw [hst]; exact neg_ne_zero.2 hh) (runMatrix_ok k _ s'.timestep)
  rw [hl, hst, abs_neg] at r'
  refine (reportsNorm_adjugate r ?_).symm
  convert r' using 2
  symm
  by_cases hk' : k = .ab2
  · subst hk'
    have e1 : (fun j : ℕ => A (t0 + j * s.timestep)) = fun _ => A t0 := funext fun j => hk rfl _ _
    have e2 : (fun j : ℕ => A (t0 + (n - 1) * s.timestep + j * -s.timestep)) = fun _ => A t0 :=
      funext fun j => hk rfl _ _
    rw [← hnn, e1, e2]
    exact runMatrices_back_ab2 (hA t0) (runMatrix_ok _ _ _) (runMatrix_ok _ _ _) _
  · refine runMatrices_back (A := fun j : ℕ => A (t0 + j * s.timestep)) hk' (fun _ => hA _)
      (runMatrix_ok _ _ _) (fun j hj => ?_) (runMatrix_ok _ _ _)
    have e : ((n - 1 - j : ℕ) : ℝ) = n - 1 - j := by
      rw [Nat.cast_sub (by omega), Nat.cast_sub (by omega), Nat.cast_one]
    congr 1
    rw [e]
    ring

end Verif
