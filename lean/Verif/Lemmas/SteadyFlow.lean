import Verif.Props.Order
import Mathlib.Analysis.ODE.ExistUnique
import Mathlib.Analysis.ODE.Gronwall

/-!
# Trajectories of bounded Lipschitz velocities, and what the code makes of them
-/

namespace Verif

open Set Filter Metric
open scoped NNReal Topology

variable {d : ℕ} {w : (Fin d → ℝ) → Fin d → ℝ} {K L : ℝ≥0}

/-- A bounded Lipschitz velocity has a trajectory through every point, as long as one likes. -/
theorem exists_trajectory (hK : LipschitzWith K w) (hL : ∀ x, ‖w x‖ ≤ L) {T : ℝ} (hT : 0 ≤ T)
    (c : Fin d → ℝ) : ∃ X, IsTrajectory (fun _ => w) (Icc (-T) T) X ∧ X 0 = c := by
  have h0 : (0 : ℝ) ∈ Icc (-T) T := ⟨by linarith, hT⟩
  have hp : IsPicardLindelof (fun _ => w) (⟨0, h0⟩ : Icc (-T) T) c (L * T.toNNReal) 0 L K :=
    { lipschitzOnWith := fun t _ => hK.lipschitzOnWith
      continuousOn := fun x _ => continuousOn_const
      norm_le := fun t _ x _ => hL x
      mul_max_le := by
        rw [NNReal.coe_mul, Real.coe_toNNReal _ hT]
        simp }
  obtain ⟨X, h1, h2⟩ := hp.exists_eq_forall_mem_Icc_hasDerivWithinAt₀
  exact ⟨X, h2, h1⟩

/-- Two trajectories come no closer than exponentially. -/
theorem trajectories_apart (hK : LipschitzWith K w) {T : ℝ} {X Y : ℝ → Fin d → ℝ}
    (hX : IsTrajectory (fun _ => w) (Icc (-T) T) X) (hY : IsTrajectory (fun _ => w) (Icc (-T) T) Y)
    {t : ℝ} (ht : t ∈ Icc (-T) T) : ‖X 0 - Y 0‖ ≤ ‖X t - Y t‖ * Real.exp (K * |t|) := by
  obtain ⟨e, he, hte⟩ : ∃ e : ℝ, |e| = 1 ∧ t = e * |t| := by
    rcases le_total 0 t with h | h
    · exact ⟨1, by simp, by rw [abs_of_nonneg h, one_mul]⟩
    · exact ⟨-1, by simp, by rw [abs_of_nonpos h]; ring⟩
  have htT : |t| ≤ T := abs_le.2 ht
  have hin : ∀ s ∈ Icc 0 |t|, t - e * s ∈ Icc (-T) T := by
    intro s hs
    rw [mem_Icc, ← abs_le]
    rw [show t - e * s = e * (|t| - s) by rw [mul_sub, ← hte], abs_mul, he, one_mul,
      abs_of_nonneg (by linarith [hs.2])]
    linarith [hs.1]
  have hd : ∀ Z : ℝ → Fin d → ℝ, IsTrajectory (fun _ => w) (Icc (-T) T) Z → ∀ s ∈ Icc 0 |t|,
      HasDerivWithinAt (fun s => Z (t - e * s)) ((-e) • w (Z (t - e * s))) (Icc 0 |t|) s := by
    intro Z hZ s hs
    have h1 := hZ _ (hin s hs)
    have h2 : HasDerivWithinAt (fun s : ℝ => t - e * s) (-e) (Icc 0 |t|) s := by
      have := ((hasDerivWithinAt_id s (Icc 0 |t|)).const_mul e).const_sub t
      simpa using this
    exact h1.scomp s h2 fun s hs => hin s hs
  have hl : LipschitzWith K fun x => (-e) • w x := by
    refine LipschitzWith.of_dist_le_mul fun x y => ?_
    rw [dist_eq_norm, ← smul_sub, norm_smul, norm_neg, Real.norm_eq_abs, he, one_mul, ← dist_eq_norm]
    exact hK.dist_le_mul x y
  have hr : ∀ Z : ℝ → Fin d → ℝ, IsTrajectory (fun _ => w) (Icc (-T) T) Z → ∀ s ∈ Ico 0 |t|,
      HasDerivWithinAt (fun s => Z (t - e * s)) ((-e) • w (Z (t - e * s))) (Ici s) s := by
    intro Z hZ s hs
    exact (hd Z hZ s (Ico_subset_Icc_self hs)).mono_of_mem_nhdsWithin (Icc_mem_nhdsGE_of_mem hs)
  have := dist_le_of_trajectories_ODE (v := fun _ x => (-e) • w x) (fun _ => hl)
    (fun s hs => (hd X hX s hs).continuousWithinAt) (hr X hX)
    (fun s hs => (hd Y hY s hs).continuousWithinAt) (hr Y hY) (le_refl _) |t|
    ⟨abs_nonneg t, le_refl _⟩
  simp only [mul_zero, sub_zero, ← hte, sub_self, dist_eq_norm] at this
  exact this

theorem abs_coord_le_len (v : Fin d → ℝ) (r : Fin d) : |v r| ≤ len v := by
  unfold len
  rw [← Real.sqrt_sq_eq_abs]
  refine Real.sqrt_le_sqrt ?_
  rw [dotProduct, sq]
  exact Finset.single_le_sum (f := fun r => v r * v r) (fun r _ => mul_self_nonneg _)
    (Finset.mem_univ r)

/-- No entry exceeds the maximal stretching. -/
theorem abs_entry_le_maxStretch {F : Matrix (Fin d) (Fin d) ℝ} {σ : ℝ} (h : IsMaxStretch F σ)
    (r c : Fin d) : |F r c| ≤ σ := by
  have h1 := maxStretch_bound h (Pi.single c 1)
  have h2 : len (Pi.single c (1 : ℝ) : Fin d → ℝ) = 1 := by simp [len]
  rw [h2, mul_one] at h1
  have h3 := abs_coord_le_len (F.mulVec (Pi.single c 1)) r
  rw [Matrix.mulVec_single_one] at h1 h3
  exact h3.trans h1

/-- A matrix with a column of differences of two exact positions stretches at least so much. -/
theorem stretch_lower (hK : LipschitzWith K w) {T : ℝ} {X Y : ℝ → Fin d → ℝ}
    (hX : IsTrajectory (fun _ => w) (Icc (-T) T) X) (hY : IsTrajectory (fun _ => w) (Icc (-T) T) Y)
    {c : Fin d} (hδ : X 0 c - Y 0 c ≠ 0) {t σ : ℝ} (ht : t ∈ Icc (-T) T)
    {F : Matrix (Fin d) (Fin d) ℝ} (hF : ∀ r, F r c = (X t r - Y t r) / (X 0 c - Y 0 c))
    (hσ : IsMaxStretch F σ) : Real.exp (-(K * T)) ≤ σ := by
  have h1 := trajectories_apart hK hX hY ht
  have hσ0 := maxStretch_nonneg hσ
  have hs0 : 0 < |X 0 c - Y 0 c| := abs_pos.2 hδ
  have hn : |X 0 c - Y 0 c| ≤ ‖X 0 - Y 0‖ := norm_le_pi_norm (X 0 - Y 0) c
  have hu : ‖X t - Y t‖ ≤ σ * |X 0 c - Y 0 c| := by
    refine (pi_norm_le_iff_of_nonneg (by positivity)).2 fun r => ?_
    have := abs_entry_le_maxStretch hσ r c
    rw [hF, abs_div, div_le_iff₀ hs0] at this
    simpa [Real.norm_eq_abs] using this
  have h2 : |X 0 c - Y 0 c| ≤ σ * |X 0 c - Y 0 c| * Real.exp (K * |t|) :=
    hn.trans (h1.trans (mul_le_mul_of_nonneg_right hu (Real.exp_nonneg _)))
  have h3 : 1 ≤ σ * Real.exp (K * |t|) := by
    have : 1 * |X 0 c - Y 0 c| ≤ (σ * Real.exp (K * |t|)) * |X 0 c - Y 0 c| := by linarith
    exact le_of_mul_le_mul_right this hs0
  have h4 : Real.exp (K * |t|) ≤ Real.exp (K * T) :=
    Real.exp_le_exp.2 (mul_le_mul_of_nonneg_left (abs_le.2 ht) K.coe_nonneg)
  rw [Real.exp_neg, inv_le_iff_one_le_mul₀ (Real.exp_pos _)]
  exact h3.trans (mul_le_mul_of_nonneg_left h4 hσ0)

/-- Steps during which nothing is read. -/
theorem steady_updated (env : Env ℝ FVal) (a : AnalyticalSource ℝ) (s : AnalyticalState ℝ)
    (n : ℕ) : (Source.analytical a : Source ℝ).updated env (.analytical s) n =
      (.analytical s, none) := by
  induction n with
  | zero => rfl
  | succ n ih => simp only [Source.updated, ih, Source.updateInterp]

/-- **A steady Lipschitz velocity, any stencils.**  There are constants such that every analytical run
of at least two steps that lasts at most `T` succeeds, and the value of each group is near the logarithm
of the maximal stretching of the differences of the exact positions. -/
theorem steady_values_2d (k : Kind) {w : (Fin 2 → ℝ) → Fin 2 → ℝ}
    (hw : SmoothEnough k fun _ => w) (hK : LipschitzWith K w) {T : ℝ} (hT : 0 ≤ T)
    (Z : (Fin 2 → ℝ) → ℝ → Fin 2 → ℝ)
    (hZ : ∀ c, IsTrajectory (fun _ => w) (Icc (-T) T) (Z c) ∧ Z c 0 = c) {N : ℕ} {seed : NDArray ℝ}
    (hseed : seed.shape = [4 * N, 2]) {P : Particles ℝ} (hp : mkParticles seed = .ok P)
    (hg : ∀ i < N, groupOf seed 4 N 2 i 1 0 ≠ groupOf seed 4 N 2 i 0 0 ∧
      groupOf seed 4 N 2 i 2 1 ≠ groupOf seed 4 N 2 i 3 1) :
    ∃ C η, 0 < η ∧ ∀ (env : Env ℝ FVal), RealEnv env → ∀ (queue : Bool) (fn : VelocityFn ℝ),
      Pointwise (4 * N) 2 (fn 0) w → ∀ (times : List ℝ) (n : ℕ) (h : ℝ), times.length = n → 2 ≤ n →
      h ≠ 0 → |h| ≤ η → n * |h| ≤ T →
      ∃ Λ σ : ℕ → ℝ, ((⟨.analytical ⟨P, h, times⟩, .analytical (.fresh (some fn)), .fresh k⟩ :
          Solver ℝ).run env queue none).result =
          .ok (some ((List.range N).map fun i => .fin (Λ i))) ∧
        ∀ i < N, IsMaxStretch (diffs2 (fun b => Z (groupOf seed 4 N 2 i b) (n * h))
            (groupOf seed 4 N 2 i)) (σ i) ∧
          0 < σ i ∧ |Λ i - 1 / (((n : ℝ) - 1) * |h|) * Real.log (σ i)| ≤
            1 / (((n : ℝ) - 1) * |h|) * (C * |h| ^ documentedOrder k) := by
  have h0 : (0 : ℝ) ∈ Icc (-T) T := ⟨by linarith, hT⟩
  obtain ⟨C, η, hη, H⟩ := C103_order_2d_partial k (.inl ⟨rfl, hw⟩) isCompact_Icc (convex_Icc (-T) T) h0 one_pos
    hseed hp (fun i b => Z (groupOf seed 4 N 2 i b))
    (fun i _ b => hZ _) (m := Real.exp (-(K * T))) (Real.exp_pos _)
  refine ⟨C, η, hη, ?_⟩
  intro env he queue fn hfn times n h hlen hn hh0 hhη hnT
  have hnU : (n : ℝ) * h ∈ Icc (-T) T := by
    rw [mem_Icc, ← abs_le, abs_mul, Nat.abs_cast]
    exact hnT
  choose σ hσ using fun i => ftle2_computes.exists_stretch
    (diffs2 (fun b => Z (groupOf seed 4 N 2 i b) (n * h)) (groupOf seed 4 N 2 i))
  have hlow : ∀ i < N, Real.exp (-(K * T)) ≤ σ i := fun i hi =>
    stretch_lower hK (hZ (groupOf seed 4 N 2 i 1)).1 (hZ (groupOf seed 4 N 2 i 0)).1 (c := 0)
      (by rw [(hZ _).2, (hZ _).2]; exact sub_ne_zero.2 (hg i hi).1) hnU
      (fun r => by rw [(hZ _).2, (hZ _).2]; fin_cases r <;> rfl) (hσ i)
  have hid : ∃ id, (Source.analytical ⟨P, h, times⟩ : Source ℝ).id env = .ok id := by
    cases times with
    | nil => simp at hlen; omega
    | cons t ts => exact ⟨_, rfl⟩
  obtain ⟨Λ, h1, h2⟩ := H env he queue (.analytical ⟨P, h, times⟩) n h 0
    (.analytical (.fresh (some fn))) (fun _ => w) (fun _ => univ) hlen rfl rfl trivial hid
    (fun i _ => by rw [steady_updated])
    (fun j _ pos hpos _ => by rw [steady_updated]; exact hfn pos hpos) hn hh0 hhη le_rfl hη.le
    (by rw [zero_add]; exact hnU) (fun i _ b j _ z _ => ⟨trivial, by simp⟩)
    (fun i => diffs2 (fun b => Z (groupOf seed 4 N 2 i b) (n * h)) (groupOf seed 4 N 2 i)) σ
    (fun i hi => by
      rw [zero_add]
      exact centralDiff2_ok.2 ⟨⟨sub_ne_zero.2 (hg i hi).1, sub_ne_zero.2 (hg i hi).2⟩, rfl⟩)
    (fun i hi => ⟨hσ i, hlow i hi⟩)
  refine ⟨Λ, σ, h1, fun i hi => ⟨hσ i, (Real.exp_pos _).trans_le (hlow i hi), ?_⟩⟩
  have := h2 i hi
  rwa [add_zero] at this

/-- The same in space.  There are constants such that every analytical run
of at least two steps that lasts at most `T` succeeds, and the value of each group is near the logarithm
of the maximal stretching of the differences of the exact positions. -/
theorem steady_values_3d (k : Kind) {w : (Fin 3 → ℝ) → Fin 3 → ℝ}
    (hw : SmoothEnough k fun _ => w) (hK : LipschitzWith K w) {T : ℝ} (hT : 0 ≤ T)
    (Z : (Fin 3 → ℝ) → ℝ → Fin 3 → ℝ)
    (hZ : ∀ c, IsTrajectory (fun _ => w) (Icc (-T) T) (Z c) ∧ Z c 0 = c) {N : ℕ} {seed : NDArray ℝ}
    (hseed : seed.shape = [6 * N, 3]) {P : Particles ℝ} (hp : mkParticles seed = .ok P)
    (hg : ∀ i < N, groupOf seed 6 N 3 i 1 0 ≠ groupOf seed 6 N 3 i 0 0 ∧
      groupOf seed 6 N 3 i 2 1 ≠ groupOf seed 6 N 3 i 3 1 ∧
      groupOf seed 6 N 3 i 4 2 ≠ groupOf seed 6 N 3 i 5 2) :
    ∃ C η, 0 < η ∧ ∀ (env : Env ℝ FVal), RealEnv env → ∀ (queue : Bool) (fn : VelocityFn ℝ),
      Pointwise (6 * N) 3 (fn 0) w → ∀ (times : List ℝ) (n : ℕ) (h : ℝ), times.length = n → 2 ≤ n →
      h ≠ 0 → |h| ≤ η → n * |h| ≤ T →
      ∃ Λ σ : ℕ → ℝ, ((⟨.analytical ⟨P, h, times⟩, .analytical (.fresh (some fn)), .fresh k⟩ :
          Solver ℝ).run env queue none).result =
          .ok (some ((List.range N).map fun i => .fin (Λ i))) ∧
        ∀ i < N, IsMaxStretch (diffs3 (fun b => Z (groupOf seed 6 N 3 i b) (n * h))
            (groupOf seed 6 N 3 i)) (σ i) ∧
          0 < σ i ∧ |Λ i - 1 / (((n : ℝ) - 1) * |h|) * Real.log (σ i)| ≤
            1 / (((n : ℝ) - 1) * |h|) * (C * |h| ^ documentedOrder k) := by
  have h0 : (0 : ℝ) ∈ Icc (-T) T := ⟨by linarith, hT⟩
  obtain ⟨C, η, hη, H⟩ := C103_order_3d_partial k (.inl ⟨rfl, hw⟩) isCompact_Icc (convex_Icc (-T) T) h0 one_pos
    hseed hp (fun i b => Z (groupOf seed 6 N 3 i b))
    (fun i _ b => hZ _) (m := Real.exp (-(K * T))) (Real.exp_pos _)
  refine ⟨C, η, hη, ?_⟩
  intro env he queue fn hfn times n h hlen hn hh0 hhη hnT
  have hnU : (n : ℝ) * h ∈ Icc (-T) T := by
    rw [mem_Icc, ← abs_le, abs_mul, Nat.abs_cast]
    exact hnT
  choose σ hσ using fun i => ftle3_computes.exists_stretch
    (diffs3 (fun b => Z (groupOf seed 6 N 3 i b) (n * h)) (groupOf seed 6 N 3 i))
  have hlow : ∀ i < N, Real.exp (-(K * T)) ≤ σ i := fun i hi =>
    stretch_lower hK (hZ (groupOf seed 6 N 3 i 1)).1 (hZ (groupOf seed 6 N 3 i 0)).1 (c := 0)
      (by rw [(hZ _).2, (hZ _).2]; exact sub_ne_zero.2 (hg i hi).1) hnU
      (fun r => by rw [(hZ _).2, (hZ _).2]; fin_cases r <;> rfl) (hσ i)
  have hid : ∃ id, (Source.analytical ⟨P, h, times⟩ : Source ℝ).id env = .ok id := by
    cases times with
    | nil => simp at hlen; omega
    | cons t ts => exact ⟨_, rfl⟩
  obtain ⟨Λ, h1, h2⟩ := H env he queue (.analytical ⟨P, h, times⟩) n h 0
    (.analytical (.fresh (some fn))) (fun _ => w) (fun _ => univ) hlen rfl rfl trivial hid
    (fun i _ => by rw [steady_updated])
    (fun j _ pos hpos _ => by rw [steady_updated]; exact hfn pos hpos) hn hh0 hhη le_rfl hη.le
    (by rw [zero_add]; exact hnU) (fun i _ b j _ z _ => ⟨trivial, by simp⟩)
    (fun i => diffs3 (fun b => Z (groupOf seed 6 N 3 i b) (n * h)) (groupOf seed 6 N 3 i)) σ
    (fun i hi => by
      rw [zero_add]
      exact centralDiff3_ok.2 ⟨⟨sub_ne_zero.2 (hg i hi).1, sub_ne_zero.2 (hg i hi).2.1, sub_ne_zero.2 (hg i hi).2.2⟩, rfl⟩)
    (fun i hi => ⟨hσ i, hlow i hi⟩)
  refine ⟨Λ, σ, h1, fun i hi => ⟨hσ i, (Real.exp_pos _).trans_le (hlow i hi), ?_⟩⟩
  have := h2 i hi
  rwa [add_zero] at this

end Verif
