import Verif.Lemmas.Liouville
import Verif.Props.Consecutive
import Verif.Props.Duality

/-!
# C135: expansion of the fluid, forward and backward windows of smooth flows
-/

namespace Verif

open Matrix Set

/-- Every matrix has a maximal stretching. -/
theorem stretch_exists_2 (A : Matrix (Fin 2) (Fin 2) ℝ) : ∃ σ, IsMaxStretch A σ := by
  obtain ⟨σ, h1, -⟩ := field_replicate ftle2_computes A 1 one_ne_zero
  exact ⟨σ, h1⟩

theorem stretch_exists_3 (A : Matrix (Fin 3) (Fin 3) ℝ) : ∃ σ, IsMaxStretch A σ := by
  obtain ⟨σ, h1, -⟩ := field_replicate ftle3_computes A 1 one_ne_zero
  exact ⟨σ, h1⟩

theorem stretch_det {d : ℕ} [NeZero d] {A : Matrix (Fin d) (Fin d) ℝ} {σ D : ℝ}
    (h : IsMaxStretch A σ) (hA : A.det = Real.exp D) : 0 < σ ∧ D / d ≤ Real.log σ := by
  have h1 := abs_det_le_maxStretch_pow h
  rw [hA, abs_of_pos (Real.exp_pos D)] at h1
  have h0 : 0 < σ := by
    refine lt_of_le_of_ne (maxStretch_nonneg h) fun e => ?_
    rw [← e, zero_pow (NeZero.ne d)] at h1
    exact absurd h1 (not_le.2 (Real.exp_pos D))
  refine ⟨h0, ?_⟩
  have h2 := Real.log_le_log (Real.exp_pos D) h1
  rw [Real.log_exp, Real.log_pow] at h2
  have hd : (0 : ℝ) < d := by exact_mod_cast Nat.pos_of_ne_zero (NeZero.ne d)
  rw [div_le_iff₀ hd]
  linarith

theorem scaled_error {T l x B : ℝ} (hT : 0 < T) (h : |l - 1 / T * x| ≤ 1 / T * B) :
    |T * l - x| ≤ B := by
  have := mul_le_mul_of_nonneg_left h hT.le
  rw [← mul_assoc, mul_one_div_cancel hT.ne', one_mul] at this
  refine le_trans (le_of_eq ?_) this
  rw [← abs_of_pos hT, ← abs_mul, abs_of_pos hT, mul_sub, ← mul_assoc, mul_one_div_cancel hT.ne',
    one_mul]

/-- **C135 (lower bound, 2-D).**  Where the area of the fluid has grown by the factor `exp D`, the value
times the period is at least `D / 2`, up to the errors of the method; in incompressible flows no value
is below zero by more than these errors. -/
theorem C135_lower_2d_partial (k : Kind) {ord : ℕ} {v : ℝ → (Fin 2 → ℝ) → Fin 2 → ℝ}
    (hv : AttainsForGroups k ord v) {t0 te : ℝ} (hne : t0 ≠ te) {r : ℝ} (hr : 0 < r) {N : ℕ}
    (X : ℕ → ℝ → Fin 2 → ℝ) (hX : ∀ i < N, IsTrajectory v (uIcc t0 te) (X i)) (D : ℕ → ℝ → ℝ)
    (hD : ∀ i < N, IsExpansion v (uIcc t0 te) t0 (X i) (D i)) :
    ∃ C η, 0 < η ∧ ∀ (env : Env ℝ FVal), RealEnv env → ExactTarget env.m → ∀ (queue : Bool)
      (s : FileSource ℝ) (nx ny : ℕ) (x0 dx y0 dy : ℝ) (n : ℕ) (h δ : ℝ),
      CrossWindow2 env v t0 s nx ny x0 dx y0 dy N (fun i => X i t0) δ n h →
      t0 + n * h ∈ uIcc t0 te → h ≠ 0 → |h| ≤ η → 0 < δ → δ ≤ η → max dx dy ≤ η →
      (∀ i < N, ∀ j < n, ∀ z, ‖z - X i (t0 + j * h)‖ ≤ r →
        OnAxis nx x0 dx (z 0) ∧ OnAxis ny y0 dy (z 1)) →
      ∃ Λ : ℕ → ℝ, ((⟨.file s, .highPerf (HighPerf.fresh [nx, ny]), .fresh k⟩ : Solver ℝ).run env
          queue none).result = .ok (some ((List.range N).map fun i => .fin (Λ i))) ∧
        ∀ i < N, D i (t0 + n * h) / 2 -
          C * (|h| ^ ord + δ ^ 2 + min (max dx dy) ((max dx dy) ^ 2 / δ)) ≤ (n - 1) * |h| * Λ i := by
  have hv1 : ContDiff ℝ 1 fun q : ℝ × (Fin 2 → ℝ) => v q.1 q.2 :=
    (smoothForGroups_three hv).of_le (by norm_num)
  have hM : ∀ i, ∃ M : ℝ → Matrix (Fin 2) (Fin 2) ℝ, i < N →
      IsDeformation v (uIcc t0 te) t0 (X i) M := fun i => by
    by_cases hi : i < N
    · obtain ⟨M, m1⟩ := deformation_exists hv1 hne (hX i hi)
      exact ⟨M, fun _ => m1⟩
    · exact ⟨fun _ => 0, fun h => absurd h hi⟩
  choose M hM using hM
  obtain ⟨C, η, hη, H⟩ := C132_gridded_2d_partial k hv isCompact_uIcc (convex_uIcc t0 te)
    (t0 := t0) left_mem_uIcc hr X hX M hM
  refine ⟨C, η, hη, ?_⟩
  intro env he hex queue s nx ny x0 dx y0 dy n h δ w hU hh0 hhη hδ0 hδη hdη hin
  obtain ⟨seed, P, a1, a2, a3, a4⟩ := w.seeds
  choose τ hτ using stretch_exists_2
  obtain ⟨Λ, r1, r2⟩ := H env he hex queue seed P s nx ny x0 dx y0 dy n h δ a1 a2 a4 w.samples
    w.length w.step a3 w.steps hh0 hhη hδ0 hδη hdη hU hin (fun i => τ (M i (t0 + n * h)))
    (fun _ _ => hτ _)
  refine ⟨Λ, r1, fun i hi => ?_⟩
  have q := abs_le.1 (scaled_error (period_pos w.steps hh0) (r2 i hi))
  have := (stretch_det (hτ _) (det_deformation_2 (convex_uIcc t0 te) left_mem_uIcc (hM i hi) (hD i hi)
    hU)).2
  push_cast at this
  linarith [q.1]

/-- **C135 (lower bound, 3-D).** -/
theorem C135_lower_3d_partial (k : Kind) {ord : ℕ} {v : ℝ → (Fin 3 → ℝ) → Fin 3 → ℝ}
    (hv : AttainsForGroups k ord v) {t0 te : ℝ} (hne : t0 ≠ te) {r : ℝ} (hr : 0 < r) {N : ℕ}
    (X : ℕ → ℝ → Fin 3 → ℝ) (hX : ∀ i < N, IsTrajectory v (uIcc t0 te) (X i)) (D : ℕ → ℝ → ℝ)
    (hD : ∀ i < N, IsExpansion v (uIcc t0 te) t0 (X i) (D i)) :
    ∃ C η, 0 < η ∧ ∀ (env : Env ℝ FVal), RealEnv env → ExactTarget env.m → ∀ (queue : Bool)
      (s : FileSource ℝ) (nx nz : ℕ) (x0 dx y0 dy z0 dz : ℝ) (n : ℕ) (h δ : ℝ),
      CrossWindow3 env v t0 s nx nz x0 dx y0 dy z0 dz N (fun i => X i t0) δ n h →
      t0 + n * h ∈ uIcc t0 te → h ≠ 0 → |h| ≤ η → 0 < δ → δ ≤ η → max (max dx dy) dz ≤ η →
      (∀ i < N, ∀ j < n, ∀ z, ‖z - X i (t0 + j * h)‖ ≤ r →
        OnAxis nx x0 dx (z 0) ∧ OnAxis nx y0 dy (z 1) ∧ OnAxis nz z0 dz (z 2)) →
      ∃ Λ : ℕ → ℝ, ((⟨.file s, .highPerf (HighPerf.fresh [nx, nx, nz]), .fresh k⟩ :
          Solver ℝ).run env queue none).result =
            .ok (some ((List.range N).map fun i => .fin (Λ i))) ∧
        ∀ i < N, D i (t0 + n * h) / 3 -
          C * (|h| ^ ord + δ ^ 2 + min (max (max dx dy) dz) ((max (max dx dy) dz) ^ 2 / δ)) ≤
            (n - 1) * |h| * Λ i := by
  have hv1 : ContDiff ℝ 1 fun q : ℝ × (Fin 3 → ℝ) => v q.1 q.2 :=
    (smoothForGroups_three hv).of_le (by norm_num)
  have hM : ∀ i, ∃ M : ℝ → Matrix (Fin 3) (Fin 3) ℝ, i < N →
      IsDeformation v (uIcc t0 te) t0 (X i) M := fun i => by
    by_cases hi : i < N
    · obtain ⟨M, m1⟩ := deformation_exists hv1 hne (hX i hi)
      exact ⟨M, fun _ => m1⟩
    · exact ⟨fun _ => 0, fun h => absurd h hi⟩
  choose M hM using hM
  obtain ⟨C, η, hη, H⟩ := C132_gridded_3d_partial k hv isCompact_uIcc (convex_uIcc t0 te)
    (t0 := t0) left_mem_uIcc hr X hX M hM
  refine ⟨C, η, hη, ?_⟩
  intro env he hex queue s nx nz x0 dx y0 dy z0 dz n h δ w hU hh0 hhη hδ0 hδη hdη hin
  obtain ⟨seed, P, a1, a2, a3, a4⟩ := w.seeds
  choose τ hτ using stretch_exists_3
  obtain ⟨Λ, r1, r2⟩ := H env he hex queue seed P s nx nz x0 dx y0 dy z0 dz n h δ a1 a2 a4 w.samples
    w.length w.step a3 w.steps hh0 hhη hδ0 hδη hdη hU hin (fun i => τ (M i (t0 + n * h)))
    (fun _ _ => hτ _)
  refine ⟨Λ, r1, fun i hi => ?_⟩
  have q := abs_le.1 (scaled_error (period_pos w.steps hh0) (r2 i hi))
  have := (stretch_det (hτ _) (det_deformation_3 (convex_uIcc t0 te) left_mem_uIcc (hM i hi) (hD i hi)
    hU)).2
  push_cast at this
  linarith [q.1]

/-- **C135 (forward and backward, 2-D).**  A forward window over the times from `t0` to `t1`, and a
backward window from `t1` to `t0` with crosses around the points the centres were carried to.  The two
values, times the period, differ by the accumulated divergence, up to the errors of the method; in
incompressible flows the two windows report the same. -/
theorem C135_duality_2d_partial (k : Kind) {ord : ℕ} {v : ℝ → (Fin 2 → ℝ) → Fin 2 → ℝ}
    (hv : AttainsForGroups k ord v) {t0 t1 : ℝ} (hne : t0 ≠ t1) {r : ℝ} (hr : 0 < r) {N : ℕ}
    (X : ℕ → ℝ → Fin 2 → ℝ) (hX : ∀ i < N, IsTrajectory v (uIcc t0 t1) (X i)) (D : ℕ → ℝ → ℝ)
    (hD : ∀ i < N, IsExpansion v (uIcc t0 t1) t0 (X i) (D i)) :
    ∃ C η, 0 < η ∧ ∀ (env : Env ℝ FVal), RealEnv env → ExactTarget env.m → ∀ (queue : Bool)
      (s s' : FileSource ℝ) (nx ny : ℕ) (x0 dx y0 dy : ℝ) (n : ℕ) (h δ : ℝ),
      CrossWindow2 env v t0 s nx ny x0 dx y0 dy N (fun i => X i t0) δ n h →
      CrossWindow2 env v t1 s' nx ny x0 dx y0 dy N (fun i => X i t1) δ n (-h) →
      t1 = t0 + n * h → |h| ≤ η → 0 < δ → δ ≤ η → max dx dy ≤ η →
      (∀ i < N, ∀ j ≤ n, ∀ z, ‖z - X i (t0 + j * h)‖ ≤ r →
        OnAxis nx x0 dx (z 0) ∧ OnAxis ny y0 dy (z 1)) →
      ∃ Λ Λ' : ℕ → ℝ,
        ((⟨.file s, .highPerf (HighPerf.fresh [nx, ny]), .fresh k⟩ : Solver ℝ).run env
          queue none).result = .ok (some ((List.range N).map fun i => .fin (Λ i))) ∧
        ((⟨.file s', .highPerf (HighPerf.fresh [nx, ny]), .fresh k⟩ : Solver ℝ).run env
          queue none).result = .ok (some ((List.range N).map fun i => .fin (Λ' i))) ∧
        ∀ i < N, |(n - 1) * |h| * Λ i - (n - 1) * |h| * Λ' i - D i t1| ≤
          C * (|h| ^ ord + δ ^ 2 + min (max dx dy) ((max dx dy) ^ 2 / δ)) := by
  have hv1 : ContDiff ℝ 1 fun q : ℝ × (Fin 2 → ℝ) => v q.1 q.2 :=
    (smoothForGroups_three hv).of_le (by norm_num)
  have hM : ∀ i, ∃ M L : ℝ → Matrix (Fin 2) (Fin 2) ℝ, i < N →
      IsDeformation v (uIcc t0 t1) t0 (X i) M ∧ IsDeformation v (uIcc t0 t1) t1 (X i) L ∧
      ∀ t, M t = L t * M t1 := by
    intro i
    by_cases hi : i < N
    · obtain ⟨M, m1⟩ := deformation_exists hv1 hne (hX i hi)
      obtain ⟨L, l1, l2⟩ := deformation_since hv1 hne right_mem_uIcc (hX i hi) m1
      exact ⟨M, L, fun _ => ⟨m1, l1, l2⟩⟩
    · exact ⟨fun _ => 0, fun _ => 0, fun h => absurd h hi⟩
  choose M L hM using hM
  obtain ⟨C, η, hη, H⟩ := C132_gridded_2d_partial k hv isCompact_uIcc (convex_uIcc t0 t1)
    (t0 := t0) left_mem_uIcc hr X hX M (fun i hi => (hM i hi).1)
  obtain ⟨C', η', hη', H'⟩ := C132_gridded_2d_partial k hv isCompact_uIcc (convex_uIcc t0 t1)
    (t0 := t1) right_mem_uIcc hr X hX L (fun i hi => (hM i hi).2.1)
  refine ⟨C + C', min η η', by positivity, ?_⟩
  intro env he hex queue s s' nx ny x0 dx y0 dy n h δ w w' e1 hhη hδ0 hδη hdη hin
  rw [le_min_iff] at hhη hδη hdη
  obtain ⟨seed, P, a1, a2, a3, a4⟩ := w.seeds
  obtain ⟨seed', P', b1, b2, b3, b4⟩ := w'.seeds
  have hh0 : h ≠ 0 := fun e => hne (by rw [e1, e, mul_zero, add_zero])
  choose τ hτ using stretch_exists_2
  have e2 : t1 + n * -h = t0 := by rw [e1]; ring
  obtain ⟨Λ, r1, r2⟩ := H env he hex queue seed P s nx ny x0 dx y0 dy n h δ a1 a2 a4 w.samples
    w.length w.step a3 w.steps hh0 hhη.1 hδ0 hδη.1 hdη.1 (by rw [← e1]; exact right_mem_uIcc)
    (fun i hi j hj => hin i hi j hj.le) (fun i => τ (M i (t0 + n * h))) (fun _ _ => hτ _)
  obtain ⟨Λ', r3, r4⟩ := H' env he hex queue seed' P' s' nx ny x0 dx y0 dy n (-h) δ b1 b2 b4 w'.samples
    w'.length w'.step b3 w'.steps (neg_ne_zero.2 hh0) (by rw [abs_neg]; exact hhη.2) hδ0 hδη.2 hdη.2
    (by rw [e2]; exact left_mem_uIcc)
    (fun i hi j hj z hz => hin i hi (n - j) (by omega) z (by
      have : t0 + ((n - j : ℕ) : ℝ) * h = t1 + j * -h := by
        rw [e1, Nat.cast_sub hj.le]
        ring
      rwa [this])) (fun i => τ (L i (t1 + n * -h))) (fun _ _ => hτ _)
  refine ⟨Λ, Λ', r1, r3, fun i hi => ?_⟩
  have q := abs_le.1 (scaled_error (period_pos w.steps hh0) (r2 i hi))
  have q' := r4 i hi
  rw [abs_neg] at q'
  replace q' := abs_le.1 (scaled_error (period_pos w.steps hh0) q')
  rw [e2] at q'
  rw [← e1] at q
  obtain ⟨m1, m2, m3⟩ := hM i hi
  have hdet := det_deformation_2 (convex_uIcc t0 t1) left_mem_uIcc m1 (hD i hi) right_mem_uIcc
  have hinv : L i t0 = Real.exp (-D i t1) • (M i t1).adjugate := by
    have h1 : L i t0 * M i t1 = 1 := by rw [← m3, m1.1]
    have h2 : (Real.exp (-D i t1) • (M i t1).adjugate) * M i t1 = 1 := by
      rw [Matrix.smul_mul, Matrix.adjugate_mul, hdet, smul_smul, ← Real.exp_add, neg_add_cancel,
        Real.exp_zero, one_smul]
    calc L i t0 = L i t0 * (M i t1 * (Real.exp (-D i t1) • (M i t1).adjugate)) := by
          rw [mul_eq_one_comm.1 h2, Matrix.mul_one]
      _ = Real.exp (-D i t1) • (M i t1).adjugate := by rw [← Matrix.mul_assoc, h1, Matrix.one_mul]
  have hs : τ (L i t0) = |Real.exp (-D i t1)| * τ (M i t1) := by
    have := maxStretch_smul (c := Real.exp (-D i t1)) (maxStretch_adjugate (hτ (M i t1)))
    rw [← hinv] at this
    exact maxStretch_unique (hτ _) this
  have pos := (stretch_det (hτ (M i t1)) hdet).1
  have hlog : Real.log (τ (L i t0)) = -D i t1 + Real.log (τ (M i t1)) := by
    rw [hs, abs_of_pos (Real.exp_pos _), Real.log_mul (Real.exp_ne_zero _) pos.ne', Real.log_exp]
  rw [hlog] at q'
  generalize |h| ^ ord + δ ^ 2 + min (max dx dy) ((max dx dy) ^ 2 / δ) = B at *
  have hC : (C + C') * B = C * B + C' * B := by ring
  rw [hC, abs_le]
  constructor <;> linarith [q.1, q.2, q'.1, q'.2]

/-- **C135 (forward and backward, 3-D).**  In space only the sum of the two values is bounded from
below. -/
theorem C135_sum_3d_partial (k : Kind) {ord : ℕ} {v : ℝ → (Fin 3 → ℝ) → Fin 3 → ℝ}
    (hv : AttainsForGroups k ord v) {t0 t1 : ℝ} (hne : t0 ≠ t1) {r : ℝ} (hr : 0 < r) {N : ℕ}
    (X : ℕ → ℝ → Fin 3 → ℝ) (hX : ∀ i < N, IsTrajectory v (uIcc t0 t1) (X i)) :
    ∃ C η, 0 < η ∧ ∀ (env : Env ℝ FVal), RealEnv env → ExactTarget env.m → ∀ (queue : Bool)
      (s s' : FileSource ℝ) (nx nz : ℕ) (x0 dx y0 dy z0 dz : ℝ) (n : ℕ) (h δ : ℝ),
      CrossWindow3 env v t0 s nx nz x0 dx y0 dy z0 dz N (fun i => X i t0) δ n h →
      CrossWindow3 env v t1 s' nx nz x0 dx y0 dy z0 dz N (fun i => X i t1) δ n (-h) →
      t1 = t0 + n * h → |h| ≤ η → 0 < δ → δ ≤ η → max (max dx dy) dz ≤ η →
      (∀ i < N, ∀ j ≤ n, ∀ z, ‖z - X i (t0 + j * h)‖ ≤ r →
        OnAxis nx x0 dx (z 0) ∧ OnAxis nx y0 dy (z 1) ∧ OnAxis nz z0 dz (z 2)) →
      ∃ Λ Λ' : ℕ → ℝ,
        ((⟨.file s, .highPerf (HighPerf.fresh [nx, nx, nz]), .fresh k⟩ : Solver ℝ).run env
          queue none).result = .ok (some ((List.range N).map fun i => .fin (Λ i))) ∧
        ((⟨.file s', .highPerf (HighPerf.fresh [nx, nx, nz]), .fresh k⟩ : Solver ℝ).run env
          queue none).result = .ok (some ((List.range N).map fun i => .fin (Λ' i))) ∧
        ∀ i < N, -(C * (|h| ^ ord + δ ^ 2 +
            min (max (max dx dy) dz) ((max (max dx dy) dz) ^ 2 / δ))) ≤
          (n - 1) * |h| * Λ i + (n - 1) * |h| * Λ' i := by
  have hv1 : ContDiff ℝ 1 fun q : ℝ × (Fin 3 → ℝ) => v q.1 q.2 :=
    (smoothForGroups_three hv).of_le (by norm_num)
  have hM : ∀ i, ∃ M L : ℝ → Matrix (Fin 3) (Fin 3) ℝ, i < N →
      IsDeformation v (uIcc t0 t1) t0 (X i) M ∧ IsDeformation v (uIcc t0 t1) t1 (X i) L ∧
      ∀ t, M t = L t * M t1 := by
    intro i
    by_cases hi : i < N
    · obtain ⟨M, m1⟩ := deformation_exists hv1 hne (hX i hi)
      obtain ⟨L, l1, l2⟩ := deformation_since hv1 hne right_mem_uIcc (hX i hi) m1
      exact ⟨M, L, fun _ => ⟨m1, l1, l2⟩⟩
    · exact ⟨fun _ => 0, fun _ => 0, fun h => absurd h hi⟩
  choose M L hM using hM
  obtain ⟨C, η, hη, H⟩ := C132_gridded_3d_partial k hv isCompact_uIcc (convex_uIcc t0 t1)
    (t0 := t0) left_mem_uIcc hr X hX M (fun i hi => (hM i hi).1)
  obtain ⟨C', η', hη', H'⟩ := C132_gridded_3d_partial k hv isCompact_uIcc (convex_uIcc t0 t1)
    (t0 := t1) right_mem_uIcc hr X hX L (fun i hi => (hM i hi).2.1)
  refine ⟨C + C', min η η', by positivity, ?_⟩
  intro env he hex queue s s' nx nz x0 dx y0 dy z0 dz n h δ w w' e1 hhη hδ0 hδη hdη hin
  rw [le_min_iff] at hhη hδη hdη
  obtain ⟨seed, P, a1, a2, a3, a4⟩ := w.seeds
  obtain ⟨seed', P', b1, b2, b3, b4⟩ := w'.seeds
  have hh0 : h ≠ 0 := fun e => hne (by rw [e1, e, mul_zero, add_zero])
  choose τ hτ using stretch_exists_3
  have e2 : t1 + n * -h = t0 := by rw [e1]; ring
  obtain ⟨Λ, r1, r2⟩ := H env he hex queue seed P s nx nz x0 dx y0 dy z0 dz n h δ a1 a2 a4 w.samples
    w.length w.step a3 w.steps hh0 hhη.1 hδ0 hδη.1 hdη.1 (by rw [← e1]; exact right_mem_uIcc)
    (fun i hi j hj => hin i hi j hj.le) (fun i => τ (M i (t0 + n * h))) (fun _ _ => hτ _)
  obtain ⟨Λ', r3, r4⟩ := H' env he hex queue seed' P' s' nx nz x0 dx y0 dy z0 dz n (-h) δ b1 b2 b4
    w'.samples w'.length w'.step b3 w'.steps (neg_ne_zero.2 hh0) (by rw [abs_neg]; exact hhη.2) hδ0
    hδη.2 hdη.2 (by rw [e2]; exact left_mem_uIcc)
    (fun i hi j hj z hz => hin i hi (n - j) (by omega) z (by
      have : t0 + ((n - j : ℕ) : ℝ) * h = t1 + j * -h := by
        rw [e1, Nat.cast_sub hj.le]
        ring
      rwa [this])) (fun i => τ (L i (t1 + n * -h))) (fun _ _ => hτ _)
  refine ⟨Λ, Λ', r1, r3, fun i hi => ?_⟩
  have q := abs_le.1 (scaled_error (period_pos w.steps hh0) (r2 i hi))
  have q' := r4 i hi
  rw [abs_neg] at q'
  replace q' := abs_le.1 (scaled_error (period_pos w.steps hh0) q')
  rw [e2] at q'
  rw [← e1] at q
  obtain ⟨m1, m2, m3⟩ := hM i hi
  have h1 : L i t0 * M i t1 = 1 := by rw [← m3, m1.1]
  have hle : 1 ≤ τ (L i t0) * τ (M i t1) := maxStretch_mul_le (hτ _) (hτ _) (by
    rw [h1]
    exact maxStretch_one)
  have pM : 0 < τ (M i t1) := lt_of_le_of_ne (maxStretch_nonneg (hτ _)) fun e => by
    rw [← e, mul_zero] at hle
    linarith
  have pL : 0 < τ (L i t0) := lt_of_le_of_ne (maxStretch_nonneg (hτ _)) fun e => by
    rw [← e, zero_mul] at hle
    linarith
  have hlog := Real.log_nonneg hle
  rw [Real.log_mul pL.ne' pM.ne'] at hlog
  generalize |h| ^ ord + δ ^ 2 + min (max (max dx dy) dz) ((max (max dx dy) dz) ^ 2 / δ) = B at *
  have hC : (C + C') * B = C * B + C' * B := by ring
  rw [hC]
  linarith [q.1, q'.1]

end Verif
