import Verif.Lemmas.Tangent
import Verif.Props.Converge
import Verif.Lemmas.SteadyFlow

/-!
# C130: the time step and the distance of the seeds together

C103 compares a run with the central differences of the exact positions; its constant depends on the
seeds, and grows without bound as they come closer together.  Here the run is compared with the
deformation along the trajectory of the centre, with one constant for all distances.
-/

namespace Verif

open Matrix Set Filter Topology

theorem cross2_arms (c : Fin 2 → ℝ) (δ : ℝ) :
    cross2 c δ 0 = c + (-δ) • Pi.single 0 1 ∧ cross2 c δ 1 = c + δ • Pi.single 0 1 ∧
    cross2 c δ 2 = c + δ • Pi.single 1 1 ∧ cross2 c δ 3 = c + (-δ) • Pi.single 1 1 := by
  refine ⟨?_, ?_, ?_, ?_⟩ <;> funext i <;> fin_cases i <;> simp [cross2] <;> ring

theorem cross3_arms (c : Fin 3 → ℝ) (δ : ℝ) :
    cross3 c δ 0 = c + (-δ) • Pi.single 0 1 ∧ cross3 c δ 1 = c + δ • Pi.single 0 1 ∧
    cross3 c δ 2 = c + δ • Pi.single 1 1 ∧ cross3 c δ 3 = c + (-δ) • Pi.single 1 1 ∧
    cross3 c δ 4 = c + δ • Pi.single 2 1 ∧ cross3 c δ 5 = c + (-δ) • Pi.single 2 1 := by
  refine ⟨?_, ?_, ?_, ?_, ?_, ?_⟩ <;> funext i <;> fin_cases i <;> simp [cross3] <;> ring

theorem cross2_arm (c : Fin 2 → ℝ) (δ : ℝ) (b : Fin 4) :
    ∃ s u, (s = δ ∨ s = -δ) ∧ cross2 c δ b = c + s • Pi.single u 1 := by
  obtain ⟨a0, a1, a2, a3⟩ := cross2_arms c δ
  fin_cases b
  · exact ⟨_, _, .inr rfl, a0⟩
  · exact ⟨_, _, .inl rfl, a1⟩
  · exact ⟨_, _, .inl rfl, a2⟩
  · exact ⟨_, _, .inr rfl, a3⟩

theorem cross3_arm (c : Fin 3 → ℝ) (δ : ℝ) (b : Fin 6) :
    ∃ s u, (s = δ ∨ s = -δ) ∧ cross3 c δ b = c + s • Pi.single u 1 := by
  obtain ⟨a0, a1, a2, a3, a4, a5⟩ := cross3_arms c δ
  fin_cases b
  · exact ⟨_, _, .inr rfl, a0⟩
  · exact ⟨_, _, .inl rfl, a1⟩
  · exact ⟨_, _, .inl rfl, a2⟩
  · exact ⟨_, _, .inr rfl, a3⟩
  · exact ⟨_, _, .inl rfl, a4⟩
  · exact ⟨_, _, .inr rfl, a5⟩

theorem diffs2_cross {Φ : (Fin 2 → ℝ) → Fin 2 → ℝ} (c : Fin 2 → ℝ) (δ : ℝ) (r u : Fin 2) :
    diffs2 (fun b => Φ (cross2 c δ b)) (cross2 c δ) r u =
      ((1 / (2 * δ)) • (Φ (c + δ • Pi.single u 1) - Φ (c + (-δ) • Pi.single u 1))) r := by
  obtain ⟨a0, a1, a2, a3⟩ := cross2_arms c δ
  simp only [diffs2, a0, a1, a2, a3]
  fin_cases r <;> fin_cases u <;> simp <;> ring

theorem diffs3_cross {Φ : (Fin 3 → ℝ) → Fin 3 → ℝ} (c : Fin 3 → ℝ) (δ : ℝ) (r u : Fin 3) :
    diffs3 (fun b => Φ (cross3 c δ b)) (cross3 c δ) r u =
      ((1 / (2 * δ)) • (Φ (c + δ • Pi.single u 1) - Φ (c + (-δ) • Pi.single u 1))) r := by
  obtain ⟨a0, a1, a2, a3, a4, a5⟩ := cross3_arms c δ
  simp only [diffs3, a0, a1, a2, a3, a4, a5]
  fin_cases u <;> simp <;> ring

/-- The bound on the derivatives gives one on the matrix. -/
theorem matrix_close {d : ℕ} {J D : Matrix (Fin d) (Fin d) ℝ} {b : ℝ}
    (h : ∀ r u, |J r u - D r u| ≤ b) : ∑ r, ∑ u, |J r u - D r u| ≤ d * d * b := by
  refine (Finset.sum_le_sum fun r _ => Finset.sum_le_sum fun u _ => h r u).trans_eq ?_
  simp
  ring

/-- The deformation keeps stretching: over a compact interval of times there is a positive bound. -/
theorem deformation_stretch_ge {d : ℕ} [NeZero d] {v : ℝ → (Fin d → ℝ) → Fin d → ℝ}
    (hv : ContDiff ℝ 1 fun q : ℝ × (Fin d → ℝ) => v q.1 q.2) {U : Set ℝ} (hUc : IsCompact U)
    (hUv : Convex ℝ U) {t0 : ℝ} (ht0 : t0 ∈ U) {X : ℝ → Fin d → ℝ} (hX : IsTrajectory v U X)
    {M : ℝ → Matrix (Fin d) (Fin d) ℝ} (hM : IsDeformation v U t0 X M) :
    ∃ m, 0 < m ∧ ∀ t ∈ U, ∀ σ, IsMaxStretch (M t) σ → m ≤ σ := by
  set y : ℝ → Fin d → ℝ := fun t => M t *ᵥ Pi.single 0 1 with hy
  have hc : ContinuousOn (fun t => ‖y t‖) U := fun t ht =>
    ((hM.2 (Pi.single 0 1) t ht).continuousWithinAt).norm
  obtain ⟨t1, ht1, hmin⟩ := hUc.exists_isMinOn ⟨t0, ht0⟩ hc
  have hone : (Pi.single 0 1 : Fin d → ℝ) ≠ 0 := fun h => by
    have := congrFun h 0
    simp at this
  refine ⟨‖y t1‖, norm_pos_iff.2 fun h0 => ?_, fun t ht σ hσ => ?_⟩
  · by_cases h : t0 = t1
    · rw [hy, ← h] at h0
      simp only [hM.1, one_mulVec] at h0
      exact hone h0
    · have hsub : uIcc t0 t1 ⊆ U := by
        rw [← segment_eq_uIcc]
        exact hUv.segment_subset ht0 ht1
      exact hone (deformation_ne_zero hv h (fun t ht => (hX t (hsub ht)).mono hsub)
        ⟨hM.1, fun u t ht => (hM.2 u t (hsub ht)).mono hsub⟩ right_mem_uIcc h0)
  · refine (hmin ht).trans ?_
    show ‖y t‖ ≤ σ
    rw [pi_norm_le_iff_of_nonneg (maxStretch_nonneg hσ)]
    intro r
    rw [hy]
    simp only [mulVec_single_one]
    exact abs_entry_le_maxStretch hσ r 0

/-- From `C (a + 2 b)` to one constant. -/
theorem two_constants {C a b w : ℝ} (ha : 0 ≤ a) (hb : 0 ≤ b) (hw : 0 ≤ w) :
    w * (C * (a + 2 * b)) ≤ w * (2 * |C| * (a + b)) := by
  refine mul_le_mul_of_nonneg_left ?_ hw
  have h1 : C * (a + 2 * b) ≤ |C| * (a + 2 * b) :=
    mul_le_mul_of_nonneg_right (le_abs_self C) (by positivity)
  have h2 := mul_nonneg (abs_nonneg C) ha
  nlinarith

/-- Runs with velocities close to those of the flow, and with a difference that changes slowly. -/
theorem spacing_2d (k : Kind) {ord : ℕ} {v : ℝ → (Fin 2 → ℝ) → Fin 2 → ℝ}
    (hv : AttainsForGroups k ord v) {U : Set ℝ} (hUc : IsCompact U) (hUv : Convex ℝ U) {t0 : ℝ}
    (ht0 : t0 ∈ U) {r : ℝ} (hr : 0 < r) {N : ℕ} (X : ℕ → ℝ → Fin 2 → ℝ)
    (hX : ∀ i < N, IsTrajectory v U (X i)) (M : ℕ → ℝ → Matrix (Fin 2) (Fin 2) ℝ)
    (hM : ∀ i < N, IsDeformation v U t0 (X i) (M i)) :
    ∃ C η, 0 < η ∧ ∀ (env : Env ℝ FVal), RealEnv env → ∀ (queue : Bool) (seed : NDArray ℝ)
      (P : Particles ℝ) (src : Source ℝ) (n : ℕ) (h κ δ : ℝ) (I0 : AnyInterp ℝ)
      (g : ℕ → (Fin 2 → ℝ) → Fin 2 → ℝ) (S : ℕ → Set (Fin 2 → ℝ)),
      seed.shape = [4 * N, 2] → mkParticles seed = .ok P →
      (∀ i < N, groupOf seed 4 N 2 i = cross2 (X i t0) δ) → src.numSteps = n →
      src.timestep = h → src.getParticles env.fs = .ok P → I0.Unused →
      (∃ id, src.id env = .ok id) → (∀ i < n, (src.updated env I0 (i + 1)).2 = none) →
      (∀ j < n, PointwiseOn (S j) (4 * N) ((src.updated env I0 (j + 1)).1.velocity env) (g j)) →
      2 ≤ n → h ≠ 0 → |h| ≤ η → 0 < δ → δ ≤ η → 0 ≤ κ → κ ≤ η → t0 + n * h ∈ U →
      (∀ i < N, ∀ j < n, (∀ z, ‖z - X i (t0 + j * h)‖ ≤ r → z ∈ S j) ∧
        NearWith (g j) (v (t0 + j * h)) (X i (t0 + j * h)) r κ δ) →
      ∀ σ : ℕ → ℝ, (∀ i < N, IsMaxStretch (M i (t0 + n * h)) (σ i)) →
      ∃ Λ : ℕ → ℝ, ((⟨src, I0, .fresh k⟩ : Solver ℝ).run env queue none).result =
          .ok (some ((List.range N).map fun i => .fin (Λ i))) ∧
        ∀ i < N, |Λ i - 1 / (((n : ℝ) - 1) * |h|) * Real.log (σ i)| ≤
          1 / (((n : ℝ) - 1) * |h|) * (C * (|h| ^ ord + δ ^ 2 + κ)) := by
  obtain ⟨C, η, hC0, hη0, H⟩ := tangent_order (ι := Fin N) k hv hUc hUv ht0
    (X := fun q => X q) (fun q => hX q q.2) (M := fun q => M q) (fun q => hM q q.2) hr
  have hp1 : 1 ≤ ord := hv.pos
  -- a bound on the stretching from below
  obtain ⟨m, hm, hmσ⟩ : ∃ m, 0 < m ∧ ∀ q : Fin N, ∀ t ∈ U, ∀ σ, IsMaxStretch (M q t) σ → m ≤ σ := by
    choose m m0 hm using fun q : Fin N => deformation_stretch_ge
      ((smoothForGroups_three hv).of_le (by norm_num)) hUc hUv ht0 (hX q q.2) (hM q q.2)
    obtain ⟨μ, h0, h1⟩ := exists_small m0
    exact ⟨μ, h0, fun q t ht σ hσ => (h1 q).trans (hm q t ht σ hσ)⟩
  set A := 4 * C with hA
  have hA0 : 0 ≤ A := by positivity
  refine ⟨2 * A / m, min η (min 1 (m / (6 * (A + 1)))), by positivity, ?_⟩
  intro env he queue seed P src n h κ δ I0 g S hs hp hc hn hh hP hI hid hup hvel hn2 hh0 hhη hδ0 hδη
    hκ0 hκη hnU hS σ hσ'
  have hσ : ∀ i < N, IsMaxStretch (M i (t0 + n * h)) (σ i) ∧ m ≤ σ i := fun i hi =>
    ⟨hσ' i hi, hmσ ⟨i, hi⟩ _ hnU _ (hσ' i hi)⟩
  obtain ⟨id, hid⟩ := hid
  have near := fun i (hi : i < N) u => H h κ δ n g (hhη.trans (min_le_left _ _)) hκ0
    (hκη.trans (min_le_left _ _)) hδ0 (hδη.trans (min_le_left _ _)) hnU
    ⟨i, hi⟩ (fun j hj => (hS i hi j hj).2) u
  set E := |h| ^ ord + δ ^ 2 + κ with hE
  have hE0 : 0 ≤ E := by positivity
  have hAE : A * E ≤ m / 2 := by
    have h1 : ∀ t, t ≤ min η (min 1 (m / (6 * (A + 1)))) → t ≤ 1 :=
      fun t ht => ht.trans ((min_le_right _ _).trans (min_le_left _ _))
    have h3 : ∀ t, t ≤ min η (min 1 (m / (6 * (A + 1)))) → t ≤ m / (6 * (A + 1)) :=
      fun t ht => ht.trans ((min_le_right _ _).trans (min_le_right _ _))
    have h2 : |h| ^ ord ≤ |h| := by
      have := pow_le_pow_of_le_one (abs_nonneg h) (h1 _ hhη) hp1
      rwa [pow_one] at this
    have h2' : δ ^ 2 ≤ δ := by nlinarith [h1 _ hδη]
    have h4 : E ≤ m / (6 * (A + 1)) + m / (6 * (A + 1)) + m / (6 * (A + 1)) :=
      add_le_add (add_le_add (h2.trans (h3 _ hhη)) (h2'.trans (h3 _ hδη))) (h3 _ hκη)
    have h5 : A * (m / (6 * (A + 1)) + m / (6 * (A + 1)) + m / (6 * (A + 1))) ≤ m / 2 := by
      have : m / (6 * (A + 1)) + m / (6 * (A + 1)) + m / (6 * (A + 1)) = m / (2 * (A + 1)) := by
        field_simp; ring
      rw [this, mul_div_assoc', div_le_div_iff₀ (by positivity) (by norm_num)]
      nlinarith
    exact (mul_le_mul_of_nonneg_left h4 hA0).trans h5
  have hT : 0 < ((n : ℝ) - 1) * |h| := by
    have : (2 : ℝ) ≤ n := by exact_mod_cast hn2
    exact mul_pos (by linarith) (abs_pos.2 hh0)
  obtain ⟨Λ, h1, h2⟩ := field_error ftle2_computes hT
    (fun i => diffs2 (fun b => flowMap k g h n (cross2 (X i t0) δ b)) (cross2 (X i t0) δ))
    (fun i => M i (t0 + n * h)) σ (fun _ => A * E) (fun i hi => by
      refine (matrix_close (b := C * E) fun r u => ?_).trans_eq (by rw [hA]; push_cast; ring)
      have := (norm_le_pi_norm _ r).trans (near i hi u).1
      rw [Pi.sub_apply, mulVec_single_one, Real.norm_eq_abs] at this
      rw [diffs2_cross]
      exact this) (fun i hi => ⟨(hσ i hi).1, by have := (hσ i hi).2; linarith⟩)
  refine ⟨Λ, ?_, fun i hi => (h2 i hi).trans ?_⟩
  · rw [run_flow_on_2d env src hI k g S (fun i hi => hup i (by omega)) N
      (fun j hj => hvel j (by omega)) hid seed P queue hs hp hP (fun i hi b j hj z hz => by
        rw [hh, hc i hi] at hz
        obtain ⟨s, u, hsδ, e⟩ := cross2_arm (X i t0) δ b
        rw [e] at hz
        exact (hS i hi j (by omega)).1 z ((near i hi u).2 s hsδ j (by omega) z hz))]
    rw [pyMap_ok_map (g := fun i => diffs2 (fun b => flowMap k g h n (cross2 (X i t0) δ b))
      (cross2 (X i t0) δ))]
    · have e : runPeriod env src = ((n : ℝ) - 1) * |h| := by
        unfold runPeriod
        rw [hn, hh, he.abs]
        push_cast
        rfl
      simp only [e, he.f2, h1]
      rfl
    · intro i hi
      rw [hn, hh, hc i (List.mem_range.1 hi)]
      refine centralDiff2_ok.2 ⟨⟨?_, ?_⟩, rfl⟩
      · simp [cross2]; linarith
      · simp [cross2]; linarith
  · refine mul_le_mul_of_nonneg_left ?_ (by positivity)
    have h3 := (hσ i hi).2
    have h4 : m / 2 ≤ σ i - A * E := by linarith
    have h5 : A * E / (σ i - A * E) ≤ A * E / (m / 2) :=
      div_le_div_of_nonneg_left (by positivity) (by positivity) h4
    refine h5.trans_eq ?_
    field_simp

/-- The same in three dimensions. -/
theorem spacing_3d (k : Kind) {ord : ℕ} {v : ℝ → (Fin 3 → ℝ) → Fin 3 → ℝ}
    (hv : AttainsForGroups k ord v) {U : Set ℝ} (hUc : IsCompact U) (hUv : Convex ℝ U) {t0 : ℝ}
    (ht0 : t0 ∈ U) {r : ℝ} (hr : 0 < r) {N : ℕ} (X : ℕ → ℝ → Fin 3 → ℝ)
    (hX : ∀ i < N, IsTrajectory v U (X i)) (M : ℕ → ℝ → Matrix (Fin 3) (Fin 3) ℝ)
    (hM : ∀ i < N, IsDeformation v U t0 (X i) (M i)) :
    ∃ C η, 0 < η ∧ ∀ (env : Env ℝ FVal), RealEnv env → ∀ (queue : Bool) (seed : NDArray ℝ)
      (P : Particles ℝ) (src : Source ℝ) (n : ℕ) (h κ δ : ℝ) (I0 : AnyInterp ℝ)
      (g : ℕ → (Fin 3 → ℝ) → Fin 3 → ℝ) (S : ℕ → Set (Fin 3 → ℝ)),
      seed.shape = [6 * N, 3] → mkParticles seed = .ok P →
      (∀ i < N, groupOf seed 6 N 3 i = cross3 (X i t0) δ) → src.numSteps = n →
      src.timestep = h → src.getParticles env.fs = .ok P → I0.Unused →
      (∃ id, src.id env = .ok id) → (∀ i < n, (src.updated env I0 (i + 1)).2 = none) →
      (∀ j < n, PointwiseOn (S j) (6 * N) ((src.updated env I0 (j + 1)).1.velocity env) (g j)) →
      2 ≤ n → h ≠ 0 → |h| ≤ η → 0 < δ → δ ≤ η → 0 ≤ κ → κ ≤ η → t0 + n * h ∈ U →
      (∀ i < N, ∀ j < n, (∀ z, ‖z - X i (t0 + j * h)‖ ≤ r → z ∈ S j) ∧
        NearWith (g j) (v (t0 + j * h)) (X i (t0 + j * h)) r κ δ) →
      ∀ σ : ℕ → ℝ, (∀ i < N, IsMaxStretch (M i (t0 + n * h)) (σ i)) →
      ∃ Λ : ℕ → ℝ, ((⟨src, I0, .fresh k⟩ : Solver ℝ).run env queue none).result =
          .ok (some ((List.range N).map fun i => .fin (Λ i))) ∧
        ∀ i < N, |Λ i - 1 / (((n : ℝ) - 1) * |h|) * Real.log (σ i)| ≤
          1 / (((n : ℝ) - 1) * |h|) * (C * (|h| ^ ord + δ ^ 2 + κ)) := by
  obtain ⟨C, η, hC0, hη0, H⟩ := tangent_order (ι := Fin N) k hv hUc hUv ht0
    (X := fun q => X q) (fun q => hX q q.2) (M := fun q => M q) (fun q => hM q q.2) hr
  have hp1 : 1 ≤ ord := hv.pos
  -- a bound on the stretching from below
  obtain ⟨m, hm, hmσ⟩ : ∃ m, 0 < m ∧ ∀ q : Fin N, ∀ t ∈ U, ∀ σ, IsMaxStretch (M q t) σ → m ≤ σ := by
    choose m m0 hm using fun q : Fin N => deformation_stretch_ge
      ((smoothForGroups_three hv).of_le (by norm_num)) hUc hUv ht0 (hX q q.2) (hM q q.2)
    obtain ⟨μ, h0, h1⟩ := exists_small m0
    exact ⟨μ, h0, fun q t ht σ hσ => (h1 q).trans (hm q t ht σ hσ)⟩
  set A := 9 * C with hA
  have hA0 : 0 ≤ A := by positivity
  refine ⟨2 * A / m, min η (min 1 (m / (6 * (A + 1)))), by positivity, ?_⟩
  intro env he queue seed P src n h κ δ I0 g S hs hp hc hn hh hP hI hid hup hvel hn2 hh0 hhη hδ0 hδη
    hκ0 hκη hnU hS σ hσ'
  have hσ : ∀ i < N, IsMaxStretch (M i (t0 + n * h)) (σ i) ∧ m ≤ σ i := fun i hi =>
    ⟨hσ' i hi, hmσ ⟨i, hi⟩ _ hnU _ (hσ' i hi)⟩
  obtain ⟨id, hid⟩ := hid
  have near := fun i (hi : i < N) u => H h κ δ n g (hhη.trans (min_le_left _ _)) hκ0
    (hκη.trans (min_le_left _ _)) hδ0 (hδη.trans (min_le_left _ _)) hnU
    ⟨i, hi⟩ (fun j hj => (hS i hi j hj).2) u
  set E := |h| ^ ord + δ ^ 2 + κ with hE
  have hE0 : 0 ≤ E := by positivity
  have hAE : A * E ≤ m / 2 := by
    have h1 : ∀ t, t ≤ min η (min 1 (m / (6 * (A + 1)))) → t ≤ 1 :=
      fun t ht => ht.trans ((min_le_right _ _).trans (min_le_left _ _))
    have h3 : ∀ t, t ≤ min η (min 1 (m / (6 * (A + 1)))) → t ≤ m / (6 * (A + 1)) :=
      fun t ht => ht.trans ((min_le_right _ _).trans (min_le_right _ _))
    have h2 : |h| ^ ord ≤ |h| := by
      have := pow_le_pow_of_le_one (abs_nonneg h) (h1 _ hhη) hp1
      rwa [pow_one] at this
    have h2' : δ ^ 2 ≤ δ := by nlinarith [h1 _ hδη]
    have h4 : E ≤ m / (6 * (A + 1)) + m / (6 * (A + 1)) + m / (6 * (A + 1)) :=
      add_le_add (add_le_add (h2.trans (h3 _ hhη)) (h2'.trans (h3 _ hδη))) (h3 _ hκη)
    have h5 : A * (m / (6 * (A + 1)) + m / (6 * (A + 1)) + m / (6 * (A + 1))) ≤ m / 2 := by
      have : m / (6 * (A + 1)) + m / (6 * (A + 1)) + m / (6 * (A + 1)) = m / (2 * (A + 1)) := by
        field_simp; ring
      rw [this, mul_div_assoc', div_le_div_iff₀ (by positivity) (by norm_num)]
      nlinarith
    exact (mul_le_mul_of_nonneg_left h4 hA0).trans h5
  have hT : 0 < ((n : ℝ) - 1) * |h| := by
    have : (2 : ℝ) ≤ n := by exact_mod_cast hn2
    exact mul_pos (by linarith) (abs_pos.2 hh0)
  obtain ⟨Λ, h1, h2⟩ := field_error ftle3_computes hT
    (fun i => diffs3 (fun b => flowMap k g h n (cross3 (X i t0) δ b)) (cross3 (X i t0) δ))
    (fun i => M i (t0 + n * h)) σ (fun _ => A * E) (fun i hi => by
      refine (matrix_close (b := C * E) fun r u => ?_).trans_eq (by rw [hA]; push_cast; ring)
      have := (norm_le_pi_norm _ r).trans (near i hi u).1
      rw [Pi.sub_apply, mulVec_single_one, Real.norm_eq_abs] at this
      rw [diffs3_cross]
      exact this) (fun i hi => ⟨(hσ i hi).1, by have := (hσ i hi).2; linarith⟩)
  refine ⟨Λ, ?_, fun i hi => (h2 i hi).trans ?_⟩
  · rw [run_flow_on_3d env src hI k g S (fun i hi => hup i (by omega)) N
      (fun j hj => hvel j (by omega)) hid seed P queue hs hp hP (fun i hi b j hj z hz => by
        rw [hh, hc i hi] at hz
        obtain ⟨s, u, hsδ, e⟩ := cross3_arm (X i t0) δ b
        rw [e] at hz
        exact (hS i hi j (by omega)).1 z ((near i hi u).2 s hsδ j (by omega) z hz))]
    rw [pyMap_ok_map (g := fun i => diffs3 (fun b => flowMap k g h n (cross3 (X i t0) δ b))
      (cross3 (X i t0) δ))]
    · have e : runPeriod env src = ((n : ℝ) - 1) * |h| := by
        unfold runPeriod
        rw [hn, hh, he.abs]
        push_cast
        rfl
      simp only [e, he.f3, h1]
      rfl
    · intro i hi
      rw [hn, hh, hc i (List.mem_range.1 hi)]
      refine centralDiff3_ok.2 ⟨⟨?_, ?_, ?_⟩, rfl⟩
      · simp [cross3]; linarith
      · simp [cross3]; linarith
      · simp [cross3]; linarith
  · refine mul_le_mul_of_nonneg_left ?_ (by positivity)
    have h3 := (hσ i hi).2
    have h4 : m / 2 ≤ σ i - A * E := by linarith
    have h5 : A * E / (σ i - A * E) ≤ A * E / (m / 2) :=
      div_le_div_of_nonneg_left (by positivity) (by positivity) h4
    refine h5.trans_eq ?_
    field_simp

/-- **C130 (2-D).**  Centres with trajectories `X` and deformations `M` during `U`.  There are
constants such that for every run over at least two snapshots with step `h`, whose seeds are crosses
of arm `δ` around the centres, and whose source hands out, in step `j`, the velocity field `g j` on
the region `S j`, within `ε` of the velocity of the flow near the trajectories of the centres: the run
succeeds, and the value of every group differs from `(1/T) ln σ` by at most
`(1/T) C (|h| ^ order + δ² + ε / δ)`.  Here `σ` is the maximal stretching of the deformation along
the trajectory of the centre after `n` steps, and `T = (n - 1)|h|` the period the code divides by. -/
theorem C130_spacing_2d_partial (k : Kind) {ord : ℕ} {v : ℝ → (Fin 2 → ℝ) → Fin 2 → ℝ}
    (hv : AttainsForGroups k ord v) {U : Set ℝ} (hUc : IsCompact U) (hUv : Convex ℝ U) {t0 : ℝ}
    (ht0 : t0 ∈ U) {r : ℝ} (hr : 0 < r) {N : ℕ} (X : ℕ → ℝ → Fin 2 → ℝ)
    (hX : ∀ i < N, IsTrajectory v U (X i)) (M : ℕ → ℝ → Matrix (Fin 2) (Fin 2) ℝ)
    (hM : ∀ i < N, IsDeformation v U t0 (X i) (M i)) :
    ∃ C η, 0 < η ∧ ∀ (env : Env ℝ FVal), RealEnv env → ∀ (queue : Bool) (seed : NDArray ℝ)
      (P : Particles ℝ) (src : Source ℝ) (n : ℕ) (h ε δ : ℝ) (I0 : AnyInterp ℝ)
      (g : ℕ → (Fin 2 → ℝ) → Fin 2 → ℝ) (S : ℕ → Set (Fin 2 → ℝ)),
      seed.shape = [4 * N, 2] → mkParticles seed = .ok P →
      (∀ i < N, groupOf seed 4 N 2 i = cross2 (X i t0) δ) → src.numSteps = n →
      src.timestep = h → src.getParticles env.fs = .ok P → I0.Unused →
      (∃ id, src.id env = .ok id) → (∀ i < n, (src.updated env I0 (i + 1)).2 = none) →
      (∀ j < n, PointwiseOn (S j) (4 * N) ((src.updated env I0 (j + 1)).1.velocity env) (g j)) →
      2 ≤ n → h ≠ 0 → |h| ≤ η → 0 < δ → δ ≤ η → 0 ≤ ε → ε ≤ η * δ → t0 + n * h ∈ U →
      (∀ i < N, ∀ j < n, ∀ z, ‖z - X i (t0 + j * h)‖ ≤ r →
        z ∈ S j ∧ ‖g j z - v (t0 + j * h) z‖ ≤ ε) →
      ∀ σ : ℕ → ℝ, (∀ i < N, IsMaxStretch (M i (t0 + n * h)) (σ i)) →
      ∃ Λ : ℕ → ℝ, ((⟨src, I0, .fresh k⟩ : Solver ℝ).run env queue none).result =
          .ok (some ((List.range N).map fun i => .fin (Λ i))) ∧
        ∀ i < N, |Λ i - 1 / (((n : ℝ) - 1) * |h|) * Real.log (σ i)| ≤
          1 / (((n : ℝ) - 1) * |h|) * (C * (|h| ^ ord + δ ^ 2 + ε / δ)) := by
  obtain ⟨C, η, hη, H⟩ := spacing_2d k hv hUc hUv ht0 hr X hX M hM
  refine ⟨2 * |C|, min 1 (η / 2), by positivity, ?_⟩
  intro env he queue seed P src n h ε δ I0 g S hs hp hc hn hh hP hI hid hup hvel hn2 hh0 hhη hδ0 hδη
    hε0 hεη hnU hS σ hσ
  have l1 : min 1 (η / 2) ≤ η := (min_le_right _ _).trans (by linarith)
  have hεδ : ε / δ ≤ η / 2 := ((div_le_iff₀ hδ0).2 hεη).trans (min_le_right _ _)
  obtain ⟨Λ, h1, h2⟩ := H env he queue seed P src n h (2 * (ε / δ)) δ I0 g S hs hp hc hn hh hP hI hid
    hup hvel hn2 hh0 (hhη.trans l1) hδ0 (hδη.trans l1) (by positivity) (by linarith) hnU
    (fun i hi j hj => ⟨fun z hz => (hS i hi j hj z hz).1, nearWith_of_bound hδ0
      (hδη.trans (min_le_left _ _)) hε0 fun z hz => (hS i hi j hj z hz).2⟩) σ hσ
  refine ⟨Λ, h1, fun i hi => (h2 i hi).trans ?_⟩
  have hn' : (2 : ℝ) ≤ n := by exact_mod_cast hn2
  have w0 : 0 ≤ 1 / (((n : ℝ) - 1) * |h|) :=
    div_nonneg one_pos.le (mul_nonneg (by linarith) (abs_nonneg h))
  exact two_constants (by positivity) (by positivity) w0

/-- **C130 (3-D).** -/
theorem C130_spacing_3d_partial (k : Kind) {ord : ℕ} {v : ℝ → (Fin 3 → ℝ) → Fin 3 → ℝ}
    (hv : AttainsForGroups k ord v) {U : Set ℝ} (hUc : IsCompact U) (hUv : Convex ℝ U) {t0 : ℝ}
    (ht0 : t0 ∈ U) {r : ℝ} (hr : 0 < r) {N : ℕ} (X : ℕ → ℝ → Fin 3 → ℝ)
    (hX : ∀ i < N, IsTrajectory v U (X i)) (M : ℕ → ℝ → Matrix (Fin 3) (Fin 3) ℝ)
    (hM : ∀ i < N, IsDeformation v U t0 (X i) (M i)) :
    ∃ C η, 0 < η ∧ ∀ (env : Env ℝ FVal), RealEnv env → ∀ (queue : Bool) (seed : NDArray ℝ)
      (P : Particles ℝ) (src : Source ℝ) (n : ℕ) (h ε δ : ℝ) (I0 : AnyInterp ℝ)
      (g : ℕ → (Fin 3 → ℝ) → Fin 3 → ℝ) (S : ℕ → Set (Fin 3 → ℝ)),
      seed.shape = [6 * N, 3] → mkParticles seed = .ok P →
      (∀ i < N, groupOf seed 6 N 3 i = cross3 (X i t0) δ) → src.numSteps = n →
      src.timestep = h → src.getParticles env.fs = .ok P → I0.Unused →
      (∃ id, src.id env = .ok id) → (∀ i < n, (src.updated env I0 (i + 1)).2 = none) →
      (∀ j < n, PointwiseOn (S j) (6 * N) ((src.updated env I0 (j + 1)).1.velocity env) (g j)) →
      2 ≤ n → h ≠ 0 → |h| ≤ η → 0 < δ → δ ≤ η → 0 ≤ ε → ε ≤ η * δ → t0 + n * h ∈ U →
      (∀ i < N, ∀ j < n, ∀ z, ‖z - X i (t0 + j * h)‖ ≤ r →
        z ∈ S j ∧ ‖g j z - v (t0 + j * h) z‖ ≤ ε) →
      ∀ σ : ℕ → ℝ, (∀ i < N, IsMaxStretch (M i (t0 + n * h)) (σ i)) →
      ∃ Λ : ℕ → ℝ, ((⟨src, I0, .fresh k⟩ : Solver ℝ).run env queue none).result =
          .ok (some ((List.range N).map fun i => .fin (Λ i))) ∧
        ∀ i < N, |Λ i - 1 / (((n : ℝ) - 1) * |h|) * Real.log (σ i)| ≤
          1 / (((n : ℝ) - 1) * |h|) * (C * (|h| ^ ord + δ ^ 2 + ε / δ)) := by
  obtain ⟨C, η, hη, H⟩ := spacing_3d k hv hUc hUv ht0 hr X hX M hM
  refine ⟨2 * |C|, min 1 (η / 2), by positivity, ?_⟩
  intro env he queue seed P src n h ε δ I0 g S hs hp hc hn hh hP hI hid hup hvel hn2 hh0 hhη hδ0 hδη
    hε0 hεη hnU hS σ hσ
  have l1 : min 1 (η / 2) ≤ η := (min_le_right _ _).trans (by linarith)
  have hεδ : ε / δ ≤ η / 2 := ((div_le_iff₀ hδ0).2 hεη).trans (min_le_right _ _)
  obtain ⟨Λ, h1, h2⟩ := H env he queue seed P src n h (2 * (ε / δ)) δ I0 g S hs hp hc hn hh hP hI hid
    hup hvel hn2 hh0 (hhη.trans l1) hδ0 (hδη.trans l1) (by positivity) (by linarith) hnU
    (fun i hi j hj => ⟨fun z hz => (hS i hi j hj z hz).1, nearWith_of_bound hδ0
      (hδη.trans (min_le_left _ _)) hε0 fun z hz => (hS i hi j hj z hz).2⟩) σ hσ
  refine ⟨Λ, h1, fun i hi => (h2 i hi).trans ?_⟩
  have hn' : (2 : ℝ) ≤ n := by exact_mod_cast hn2
  have w0 : 0 ≤ 1 / (((n : ℝ) - 1) * |h|) :=
    div_nonneg one_pos.le (mul_nonneg (by linarith) (abs_nonneg h))
  exact two_constants (by positivity) (by positivity) w0

end Verif
