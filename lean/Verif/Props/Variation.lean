import Verif.Lemmas.Variation
import Verif.Props.Converge

/-!
# C88: the exponent from the centres' trajectories alone

C83 supposes that the flow map is known and differentiable around the centres.  For smooth fields
nothing of the kind need be supposed: if only the centres themselves have trajectories, then so
have the points around them, the flow map is differentiable there, its derivative is the solution
of the variational equation, and the values of refined runs approach the exponent of that solution.
-/

namespace Verif

open Matrix Filter Topology Set
open scoped NNReal

section times
variable {t0 T η : ℝ}

theorem end_ne (hη : 0 < η) (hT : T ≠ 0) : t0 ≠ t0 + (1 + η) * T := by
  intro h
  have : (1 + η) * T = 0 := by linarith
  rcases mul_eq_zero.1 this with h | h
  · linarith
  · exact hT h

theorem between_mem (hη : 0 < η) {a : ℝ} (h0 : 0 ≤ a) (h1 : a ≤ 1) :
    t0 + a * T ∈ timesOf t0 T η := by
  unfold timesOf
  rw [mem_uIcc]
  rcases le_total 0 T with h | h
  · left
    constructor <;> nlinarith
  · right
    constructor <;> nlinarith

theorem period_mem (hη : 0 < η) : t0 + T ∈ timesOf t0 T η := by
  have := between_mem (t0 := t0) (T := T) hη zero_le_one le_rfl
  rwa [one_mul] at this

theorem step_mem (hη : 0 < η) {p i : ℕ} (hp : 2 ≤ p) (hi : i < p) :
    t0 + i * (T / ((p : ℝ) - 1)) ∈ timesOf t0 T η := by
  have h1 : (2 : ℝ) ≤ p := by exact_mod_cast hp
  have h2 : (i : ℝ) + 1 ≤ p := by exact_mod_cast hi
  have := between_mem (t0 := t0) (T := T) hη (a := i / ((p : ℝ) - 1))
    (div_nonneg (Nat.cast_nonneg _) (by linarith)) ((div_le_one (by linarith)).2 (by linarith))
  rwa [div_mul_eq_mul_div, mul_div_assoc] at this

end times

/-- A flow around finitely many centres, made from their trajectories. -/
theorem flow_around {d : ℕ} {v : ℝ → (Fin d → ℝ) → Fin d → ℝ}
    (hv : ContDiff ℝ 1 fun q : ℝ × (Fin d → ℝ) => v q.1 q.2) {t0 T η : ℝ} (hη : 0 < η)
    (hT : T ≠ 0) {N : ℕ} (c : ℕ → Fin d → ℝ) (X : ℕ → ℝ → Fin d → ℝ)
    (hX : ∀ i < N, IsTrajectory v (timesOf t0 T η) (X i) ∧ X i t0 = c i)
    (M : ℕ → ℝ → Matrix (Fin d) (Fin d) ℝ)
    (hM : ∀ i < N, IsDeformation v (timesOf t0 T η) t0 (X i) (M i)) {r : ℝ} (hr : 0 < r) :
    ∃ (O : Set (Fin d → ℝ)) (Φ : (Fin d → ℝ) → ℝ → Fin d → ℝ), IsOpen O ∧ (∀ i < N, c i ∈ O) ∧
      (∀ x ∈ O, IsTrajectory v (timesOf t0 T η) (Φ x) ∧ Φ x t0 = x) ∧
      (∀ i < N, HasFDerivAt (fun x => Φ x (t0 + T))
        (LinearMap.toContinuousLinearMap (Matrix.toLin' (M i (t0 + T)))) (c i)) ∧
      ∀ x ∈ O, ∃ i < N, ∀ t ∈ timesOf t0 T η, ‖Φ x t - X i t‖ ≤ r := by
  have hne := end_ne (t0 := t0) hη hT
  have near : ∀ i, ∃ ρ > 0, i < N → ∀ x, ‖x - c i‖ < ρ → ∃ Z, IsTrajectory v (timesOf t0 T η) Z ∧
      Z t0 = x ∧ ∀ t ∈ timesOf t0 T η, ‖Z t - X i t‖ ≤ r := by
    intro i
    by_cases hi : i < N
    · obtain ⟨C, hC, ρ, hρ, h⟩ := trajectories_near hv hne (hX i hi).1
      rw [(hX i hi).2] at h
      refine ⟨min ρ (r / C), by positivity, fun _ x hx => ?_⟩
      obtain ⟨Z, z1, z2, z3⟩ := h x (hx.le.trans (min_le_left _ _))
      refine ⟨Z, z1, z2, fun t ht => (z3 t ht).trans ?_⟩
      have := mul_le_mul_of_nonneg_left (hx.le.trans (min_le_right _ _)) hC.le
      rwa [mul_div_cancel₀ _ hC.ne'] at this
    · exact ⟨1, one_pos, fun h => absurd h hi⟩
  choose ρ hρ near using near
  set O : Set (Fin d → ℝ) := ⋃ i : Fin N, Metric.ball (c i) (ρ i) with hOd
  have hO : IsOpen O := isOpen_iUnion fun _ => Metric.isOpen_ball
  have hcO : ∀ i < N, c i ∈ O := fun i hi =>
    mem_iUnion.2 ⟨⟨i, hi⟩, Metric.mem_ball_self (hρ i)⟩
  have hZ : ∀ x, ∃ Z, x ∈ O → IsTrajectory v (timesOf t0 T η) Z ∧ Z t0 = x ∧
      ∃ i < N, ∀ t ∈ timesOf t0 T η, ‖Z t - X i t‖ ≤ r := by
    intro x
    by_cases hx : x ∈ O
    · obtain ⟨i, hi⟩ := mem_iUnion.1 hx
      rw [Metric.mem_ball, dist_eq_norm] at hi
      obtain ⟨Z, z1, z2, z3⟩ := near i i.2 x hi
      exact ⟨Z, fun _ => ⟨z1, z2, i, i.2, z3⟩⟩
    · exact ⟨fun _ => x, fun h => absurd h hx⟩
  choose Φ hΦ using hZ
  refine ⟨O, Φ, hO, hcO, fun x hx => ⟨(hΦ x hx).1, (hΦ x hx).2.1⟩, fun i hi => ?_,
    fun x hx => (hΦ x hx).2.2⟩
  have heq : ∀ t ∈ timesOf t0 T η, Φ (c i) t = X i t := fun t ht =>
    trajectory_unique hv hne (hΦ _ (hcO i hi)).1 (hX i hi).1
      (by rw [(hΦ _ (hcO i hi)).2.1, (hX i hi).2]) ht
  refine deformation_derivative hv hne (Φ := Φ) ?_ (M := M i) ⟨(hM i hi).1, fun u t ht => ?_⟩
    (period_mem hη)
  · filter_upwards [hO.mem_nhds (hcO i hi)] with x hx
    exact ⟨(hΦ x hx).1, (hΦ x hx).2.1⟩
  · rw [heq t ht]
    exact (hM i hi).2 u t ht

/-- Velocities that approach the flow in a band do so around every trajectory inside. -/
theorem ApproachWithin.inside {d : ℕ} {v : ℝ → (Fin d → ℝ) → Fin d → ℝ} {t0 T η r : ℝ}
    (hη : 0 < η) (hr : 0 < r) {X Z : ℝ → Fin d → ℝ} {g : ℕ → ℕ → (Fin d → ℝ) → Fin d → ℝ}
    (h : ApproachWithin r v t0 T X g) (hZ : ∀ t ∈ timesOf t0 T η, ‖Z t - X t‖ ≤ r / 2) :
    Approach v t0 T Z g := by
  refine ⟨r / 2, by positivity, fun ε hε => ?_⟩
  filter_upwards [h ε hε, eventually_ge_atTop 2] with p h1 h2 i hi z hz
  refine h1 i hi z ?_
  have a1 := hZ _ (step_mem hη h2 hi)
  have a2 := norm_sub_le_norm_sub_add_norm_sub z (Z (t0 + i * (T / ((p : ℝ) - 1))))
    (X (t0 + i * (T / ((p : ℝ) - 1))))
  linarith

theorem deformation_stretch {d : ℕ} [NeZero d] {v : ℝ → (Fin d → ℝ) → Fin d → ℝ}
    (hv : ContDiff ℝ 1 fun q : ℝ × (Fin d → ℝ) => v q.1 q.2) {t0 T η : ℝ} (hη : 0 < η)
    (hT : T ≠ 0) {X : ℝ → Fin d → ℝ} (hX : IsTrajectory v (timesOf t0 T η) X)
    {M : ℝ → Matrix (Fin d) (Fin d) ℝ} (hM : IsDeformation v (timesOf t0 T η) t0 X M) {σ : ℝ}
    (hσ : IsMaxStretch (M (t0 + T)) σ) : 0 < σ := by
  refine lt_of_le_of_ne (maxStretch_nonneg hσ) fun h => ?_
  have h0 := (maxStretch_eq_zero_iff hσ).1 h.symm
  have := deformation_ne_zero hv (end_ne hη hT) hX hM (period_mem hη)
    (u := Pi.single 0 1) (by rw [h0, zero_mulVec])
  have := congrFun this 0
  simp at this

/-- **C88 (2-D).**  `X i` is the trajectory of the centre `c i`, `M i` the solution of the
variational equation along it, and the velocities used approach those of the flow in a band around
these trajectories.  Then the values reported for groups of seeds at distance `δ` around the
centres come as close as desired to `(1/|T|) ln ‖M i (t0 + T)‖`. -/
theorem C88_exponent_2d {env : Env ℝ FVal} (he : RealEnv env) (queue : Bool) (k : Kind)
    {v : ℝ → (Fin 2 → ℝ) → Fin 2 → ℝ}
    (hv : ContDiff ℝ 1 fun q : ℝ × (Fin 2 → ℝ) => v q.1 q.2) {t0 T η : ℝ} (hη : 0 < η)
    (hT : T ≠ 0) {N : ℕ} (c : ℕ → Fin 2 → ℝ) (X : ℕ → ℝ → Fin 2 → ℝ)
    (hX : ∀ i < N, IsTrajectory v (timesOf t0 T η) (X i) ∧ X i t0 = c i)
    (M : ℕ → ℝ → Matrix (Fin 2) (Fin 2) ℝ)
    (hM : ∀ i < N, IsDeformation v (timesOf t0 T η) t0 (X i) (M i))
    (σ : ℕ → ℝ) (hσ : ∀ i < N, IsMaxStretch (M i (t0 + T)) (σ i))
    {seed : ℝ → NDArray ℝ} {P : ℝ → Particles ℝ} {src : ℝ → ℕ → Source ℝ}
    {I0 : ℝ → ℕ → AnyInterp ℝ} {g : ℝ → ℕ → ℕ → (Fin 2 → ℝ) → Fin 2 → ℝ}
    (hs : ∀ δ > 0, (seed δ).shape = [4 * N, 2] ∧ mkParticles (seed δ) = .ok (P δ) ∧
      ∀ i < N, groupOf (seed δ) 4 N 2 i = cross2 (c i) δ)
    (hR : ∀ δ > 0, Refines env (P δ) T (4 * N) 2 (src δ) (I0 δ) (g δ)) {r : ℝ} (hr : 0 < r)
    (hg : ∀ δ > 0, ∀ i < N, ApproachWithin r v t0 T (X i) (g δ)) :
    ∀ ε > 0, ∃ δ₀ > 0, ∀ δ, 0 < δ → δ < δ₀ → ∀ᶠ p in atTop, ∃ L : ℕ → ℝ,
      ((⟨src δ p, I0 δ p, .fresh k⟩ : Solver ℝ).run env queue none).result =
        .ok (some ((List.range N).map fun i => .fin (L i))) ∧
      ∀ i < N, |L i - 1 / |T| * Real.log (σ i)| < ε := by
  obtain ⟨O, Φ, hO, hc, hΦ, hJ, hin⟩ := flow_around hv hη hT c X hX M hM (half_pos hr)
  refine C83_true_exponent_2d he queue k hv hη hT c hO hc Φ hΦ (fun i => M i (t0 + T)) hJ σ
    (fun i hi => ⟨hσ i hi, deformation_stretch hv hη hT (hX i hi).1 (hM i hi) (hσ i hi)⟩) hs hR ?_
  intro δ hδ x hx
  obtain ⟨i, hi, h⟩ := hin x hx
  exact (hg δ hδ i hi).inside hη hr h

/-- **C88 (3-D).** -/
theorem C88_exponent_3d {env : Env ℝ FVal} (he : RealEnv env) (queue : Bool) (k : Kind)
    {v : ℝ → (Fin 3 → ℝ) → Fin 3 → ℝ}
    (hv : ContDiff ℝ 1 fun q : ℝ × (Fin 3 → ℝ) => v q.1 q.2) {t0 T η : ℝ} (hη : 0 < η)
    (hT : T ≠ 0) {N : ℕ} (c : ℕ → Fin 3 → ℝ) (X : ℕ → ℝ → Fin 3 → ℝ)
    (hX : ∀ i < N, IsTrajectory v (timesOf t0 T η) (X i) ∧ X i t0 = c i)
    (M : ℕ → ℝ → Matrix (Fin 3) (Fin 3) ℝ)
    (hM : ∀ i < N, IsDeformation v (timesOf t0 T η) t0 (X i) (M i))
    (σ : ℕ → ℝ) (hσ : ∀ i < N, IsMaxStretch (M i (t0 + T)) (σ i))
    {seed : ℝ → NDArray ℝ} {P : ℝ → Particles ℝ} {src : ℝ → ℕ → Source ℝ}
    {I0 : ℝ → ℕ → AnyInterp ℝ} {g : ℝ → ℕ → ℕ → (Fin 3 → ℝ) → Fin 3 → ℝ}
    (hs : ∀ δ > 0, (seed δ).shape = [6 * N, 3] ∧ mkParticles (seed δ) = .ok (P δ) ∧
      ∀ i < N, groupOf (seed δ) 6 N 3 i = cross3 (c i) δ)
    (hR : ∀ δ > 0, Refines env (P δ) T (6 * N) 3 (src δ) (I0 δ) (g δ)) {r : ℝ} (hr : 0 < r)
    (hg : ∀ δ > 0, ∀ i < N, ApproachWithin r v t0 T (X i) (g δ)) :
    ∀ ε > 0, ∃ δ₀ > 0, ∀ δ, 0 < δ → δ < δ₀ → ∀ᶠ p in atTop, ∃ L : ℕ → ℝ,
      ((⟨src δ p, I0 δ p, .fresh k⟩ : Solver ℝ).run env queue none).result =
        .ok (some ((List.range N).map fun i => .fin (L i))) ∧
      ∀ i < N, |L i - 1 / |T| * Real.log (σ i)| < ε := by
  obtain ⟨O, Φ, hO, hc, hΦ, hJ, hin⟩ := flow_around hv hη hT c X hX M hM (half_pos hr)
  refine C83_true_exponent_3d he queue k hv hη hT c hO hc Φ hΦ (fun i => M i (t0 + T)) hJ σ
    (fun i hi => ⟨hσ i hi, deformation_stretch hv hη hT (hX i hi).1 (hM i hi) (hσ i hi)⟩) hs hR ?_
  intro δ hδ x hx
  obtain ⟨i, hi, h⟩ := hin x hx
  exact (hg δ hδ i hi).inside hη hr h

/-- The flow of a smooth steady field with a Lipschitz constant. -/
theorem lipschitz_flow {d : ℕ} {w : (Fin d → ℝ) → Fin d → ℝ} (hw : ContDiff ℝ 1 w) {K : ℝ≥0}
    (hK : LipschitzWith K w) {T : ℝ} (hT : T ≠ 0) : ∃ Φ : (Fin d → ℝ) → ℝ → Fin d → ℝ,
      (∀ x, IsTrajectory (fun _ => w) (timesOf 0 T 1) (Φ x) ∧ Φ x 0 = x) ∧
      ∃ J : (Fin d → ℝ) → Matrix (Fin d) (Fin d) ℝ, (∀ x, HasFDerivAt (fun x => Φ x T)
        (LinearMap.toContinuousLinearMap (Matrix.toLin' (J x))) x) ∧
        ∀ x u, J x *ᵥ u = 0 → u = 0 := by
  have hv : ContDiff ℝ 1 fun q : ℝ × (Fin d → ℝ) => (fun _ => w : ℝ → _ → _) q.1 q.2 :=
    hw.comp contDiff_snd
  have hne := end_ne (t0 := 0) one_pos hT
  choose Φ hΦ using trajectory_exists hv hne (K := K) fun _ _ => hK
  choose M hM using fun x => deformation_exists hv hne (hΦ x).1
  refine ⟨Φ, hΦ, fun x => M x T, fun x => ?_, fun x u hu => ?_⟩
  · have := deformation_derivative hv hne (Filter.Eventually.of_forall hΦ) (hM x)
      (period_mem (t0 := 0) one_pos)
    rwa [zero_add] at this
  · refine deformation_ne_zero hv hne (hΦ x).1 (hM x) (period_mem (t0 := 0) one_pos) ?_
    rwa [zero_add]

/-- **C88 for the analytical API (2-D).**  For every smooth steady field with a Lipschitz constant
the flow map of the period exists and is differentiable, and the values reported come as close as
desired to the exponents of its derivative. -/
theorem C88_analytical_2d {env : Env ℝ FVal} (he : RealEnv env) (queue : Bool) (k : Kind)
    {w : (Fin 2 → ℝ) → Fin 2 → ℝ} (hw : ContDiff ℝ 1 w) {K : ℝ≥0} (hK : LipschitzWith K w)
    (fn : VelocityFn ℝ) {T : ℝ} (hT : T ≠ 0) {N : ℕ} (hfn : Pointwise (4 * N) 2 (fn 0) w)
    (c : ℕ → Fin 2 → ℝ) {seed : ℝ → NDArray ℝ} {P : ℝ → Particles ℝ}
    (hs : ∀ δ > 0, (seed δ).shape = [4 * N, 2] ∧ mkParticles (seed δ) = .ok (P δ) ∧
      ∀ i < N, groupOf (seed δ) 4 N 2 i = cross2 (c i) δ)
    (times : ℕ → List ℝ) (ht : ∀ p, (times p).length = p) :
    ∃ (Φ : (Fin 2 → ℝ) → ℝ → Fin 2 → ℝ) (J : (Fin 2 → ℝ) → Matrix (Fin 2) (Fin 2) ℝ)
      (σ : (Fin 2 → ℝ) → ℝ),
      (∀ x, IsTrajectory (fun _ => w) (timesOf 0 T 1) (Φ x) ∧ Φ x 0 = x) ∧
      (∀ x, HasFDerivAt (fun x => Φ x T)
        (LinearMap.toContinuousLinearMap (Matrix.toLin' (J x))) x) ∧
      (∀ x, IsMaxStretch (J x) (σ x) ∧ 0 < σ x) ∧
      ∀ ε > 0, ∃ δ₀ > 0, ∀ δ, 0 < δ → δ < δ₀ → ∀ᶠ p : ℕ in atTop, ∃ L : ℕ → ℝ,
        ((⟨.analytical ⟨P δ, T / ((p : ℝ) - 1), times p⟩, .analytical (.fresh (some fn)),
          .fresh k⟩ : Solver ℝ).run env queue none).result =
            .ok (some ((List.range N).map fun i => .fin (L i))) ∧
        ∀ i < N, |L i - 1 / |T| * Real.log (σ (c i))| < ε := by
  obtain ⟨Φ, hΦ, J, hJ, hJ0⟩ := lipschitz_flow hw hK hT
  choose σ hσ using fun x => ftle2_computes.exists_stretch (J x)
  have hpos : ∀ x, 0 < σ x := fun x => lt_of_le_of_ne (maxStretch_nonneg (hσ x)) fun h => by
    have h0 := hJ0 x (Pi.single 0 1) (by rw [(maxStretch_eq_zero_iff (hσ x)).1 h.symm, zero_mulVec])
    simpa using congrFun h0 0
  refine ⟨Φ, J, σ, hΦ, hJ, fun x => ⟨hσ x, hpos x⟩, ?_⟩
  exact C83_true_exponent_2d he queue k (v := fun _ => w) (t0 := 0) (η := 1)
    (hw.comp contDiff_snd) one_pos hT c isOpen_univ (fun _ _ => mem_univ _) Φ (fun x _ => hΦ x)
    (fun i => J (c i)) (fun i _ => by simpa using hJ (c i)) (fun i => σ (c i))
    (fun i _ => ⟨hσ _, hpos _⟩) hs
    (fun δ _ => analytical_refines env (P δ) T fn hfn times ht)
    (fun δ _ x _ => approach_steady w 0 T _)

/-- **C88 for the analytical API (3-D).** -/
theorem C88_analytical_3d {env : Env ℝ FVal} (he : RealEnv env) (queue : Bool) (k : Kind)
    {w : (Fin 3 → ℝ) → Fin 3 → ℝ} (hw : ContDiff ℝ 1 w) {K : ℝ≥0} (hK : LipschitzWith K w)
    (fn : VelocityFn ℝ) {T : ℝ} (hT : T ≠ 0) {N : ℕ} (hfn : Pointwise (6 * N) 3 (fn 0) w)
    (c : ℕ → Fin 3 → ℝ) {seed : ℝ → NDArray ℝ} {P : ℝ → Particles ℝ}
    (hs : ∀ δ > 0, (seed δ).shape = [6 * N, 3] ∧ mkParticles (seed δ) = .ok (P δ) ∧
      ∀ i < N, groupOf (seed δ) 6 N 3 i = cross3 (c i) δ)
    (times : ℕ → List ℝ) (ht : ∀ p, (times p).length = p) :
    ∃ (Φ : (Fin 3 → ℝ) → ℝ → Fin 3 → ℝ) (J : (Fin 3 → ℝ) → Matrix (Fin 3) (Fin 3) ℝ)
      (σ : (Fin 3 → ℝ) → ℝ),
      (∀ x, IsTrajectory (fun _ => w) (timesOf 0 T 1) (Φ x) ∧ Φ x 0 = x) ∧
      (∀ x, HasFDerivAt (fun x => Φ x T)
        (LinearMap.toContinuousLinearMap (Matrix.toLin' (J x))) x) ∧
      (∀ x, IsMaxStretch (J x) (σ x) ∧ 0 < σ x) ∧
      ∀ ε > 0, ∃ δ₀ > 0, ∀ δ, 0 < δ → δ < δ₀ → ∀ᶠ p : ℕ in atTop, ∃ L : ℕ → ℝ,
        ((⟨.analytical ⟨P δ, T / ((p : ℝ) - 1), times p⟩, .analytical (.fresh (some fn)),
          .fresh k⟩ : Solver ℝ).run env queue none).result =
            .ok (some ((List.range N).map fun i => .fin (L i))) ∧
        ∀ i < N, |L i - 1 / |T| * Real.log (σ (c i))| < ε := by
  obtain ⟨Φ, hΦ, J, hJ, hJ0⟩ := lipschitz_flow hw hK hT
  choose σ hσ using fun x => ftle3_computes.exists_stretch (J x)
  have hpos : ∀ x, 0 < σ x := fun x => lt_of_le_of_ne (maxStretch_nonneg (hσ x)) fun h => by
    have h0 := hJ0 x (Pi.single 0 1) (by rw [(maxStretch_eq_zero_iff (hσ x)).1 h.symm, zero_mulVec])
    simpa using congrFun h0 0
  refine ⟨Φ, J, σ, hΦ, hJ, fun x => ⟨hσ x, hpos x⟩, ?_⟩
  exact C83_true_exponent_3d he queue k (v := fun _ => w) (t0 := 0) (η := 1)
    (hw.comp contDiff_snd) one_pos hT c isOpen_univ (fun _ _ => mem_univ _) Φ (fun x _ => hΦ x)
    (fun i => J (c i)) (fun i _ => by simpa using hJ (c i)) (fun i => σ (c i))
    (fun i _ => ⟨hσ _, hpos _⟩) hs
    (fun δ _ => analytical_refines env (P δ) T fn hfn times ht)
    (fun δ _ x _ => approach_steady w 0 T _)

/-- **C88, the deformation:** along every trajectory of a smooth field it exists, and it is the
derivative of every flow map around. -/
theorem C88_deformation {d : ℕ} {v : ℝ → (Fin d → ℝ) → Fin d → ℝ}
    (hv : ContDiff ℝ 1 fun q : ℝ × (Fin d → ℝ) => v q.1 q.2) {t0 T η : ℝ} (hη : 0 < η)
    (hT : T ≠ 0) {X : ℝ → Fin d → ℝ} (hX : IsTrajectory v (timesOf t0 T η) X) :
    ∃ M, IsDeformation v (timesOf t0 T η) t0 X M ∧
      (∃ Φ : (Fin d → ℝ) → ℝ → Fin d → ℝ, ∀ᶠ x in 𝓝 (X t0),
        IsTrajectory v (timesOf t0 T η) (Φ x) ∧ Φ x t0 = x) ∧
      ∀ Φ : (Fin d → ℝ) → ℝ → Fin d → ℝ,
        (∀ᶠ x in 𝓝 (X t0), IsTrajectory v (timesOf t0 T η) (Φ x) ∧ Φ x t0 = x) →
        ∀ t ∈ timesOf t0 T η, HasFDerivAt (fun x => Φ x t)
          (LinearMap.toContinuousLinearMap (Matrix.toLin' (M t))) (X t0) := by
  have hne := end_ne (t0 := t0) hη hT
  obtain ⟨M, hM⟩ := deformation_exists hv hne hX
  refine ⟨M, hM, ?_, fun Φ hΦ t ht => ?_⟩
  · obtain ⟨O, Φ, hO, hc, h, -⟩ := flow_around hv hη hT (N := 1) (fun _ => X t0) (fun _ => X)
      (fun _ _ => ⟨hX, rfl⟩) (fun _ => M) (fun _ _ => hM) one_pos
    exact ⟨Φ, by filter_upwards [hO.mem_nhds (hc 0 one_pos)] with x hx using h x hx⟩
  · obtain ⟨h1, h2⟩ := hΦ.self_of_nhds
    refine deformation_derivative hv hne hΦ (M := M) ⟨hM.1, fun u s hs => ?_⟩ ht
    rw [trajectory_unique hv hne h1 hX h2 hs]
    exact hM.2 u s hs

/-! ## Examples -/

/-- The gradient of the shear flow. -/
theorem shear_fderiv (x : Fin 2 → ℝ) (u : Fin 2 → ℝ) :
    fderiv ℝ shear x u = ![0, Real.cos (x 0) * u 0] := by
  have h0 : HasFDerivAt (fun x : Fin 2 → ℝ => x 0)
      (ContinuousLinearMap.proj (R := ℝ) (φ := fun _ : Fin 2 => ℝ) 0) x := hasFDerivAt_apply 0 x
  have : HasFDerivAt shear (ContinuousLinearMap.pi
      ![0, Real.cos (x 0) • ContinuousLinearMap.proj (R := ℝ) (φ := fun _ : Fin 2 => ℝ) 0]) x := by
    rw [hasFDerivAt_pi']
    intro i
    fin_cases i
    · exact (hasFDerivAt_const (0 : ℝ) x).congr_fderiv (by ext; simp)
    · exact h0.sin.congr_fderiv (by ext; simp)
  rw [this.fderiv]
  funext i
  fin_cases i <;> simp

/-- The deformation of the shear flow. -/
theorem shear_deformation (x : Fin 2 → ℝ) (U : Set ℝ) :
    IsDeformation (fun _ => shear) U 0 (shearPath x) fun t => shearJ t x := by
  constructor
  · ext i j
    fin_cases i <;> fin_cases j <;> simp [shearJ]
  · intro u t _
    rw [shear_fderiv, hasDerivWithinAt_pi]
    intro i
    fin_cases i
    · simpa [shearJ, shearPath, Matrix.mulVec, dotProduct, Fin.sum_univ_two] using
        hasDerivWithinAt_const t U (u 0)
    · have := (((hasDerivWithinAt_id t U).mul_const (Real.cos (x 0))).mul_const (u 0)).add_const
        (u 1)
      simpa [shearJ, shearPath, Matrix.mulVec, dotProduct, Fin.sum_univ_two] using this

/-- The hypotheses of C88 hold for the analytical runs of the shear flow. -/
example (T : ℝ) (hT : T ≠ 0) (k : Kind) : ∃ (σ : ℝ) (P : ℝ → Particles ℝ), IsMaxStretch (shearJ T 0) σ ∧
    (∀ δ, mkParticles (crossAt δ) = .ok (P δ)) ∧
    ∀ ε > 0, ∃ δ₀ > 0, ∀ δ, 0 < δ → δ < δ₀ → ∀ᶠ p : ℕ in atTop, ∃ L : ℕ → ℝ,
      ((⟨.analytical ⟨P δ, T / ((p : ℝ) - 1), List.replicate p 0⟩,
        .analytical (.fresh (some fun _ => sourceOf 2 shear)), .fresh k⟩ : Solver ℝ).run realEnv true
        none).result = .ok (some ((List.range 1).map fun i => .fin (L i))) ∧
      ∀ i < 1, |L i - 1 / |T| * Real.log σ| < ε := by
  obtain ⟨σ, h1, -⟩ := shearJ_stretch T 0
  have hP : ∀ δ, ∃ P, mkParticles (crossAt δ) = .ok P := fun δ => by
    obtain ⟨p, h, -⟩ := mkParticles_2d (show (crossAt δ).shape = [4 * 1, 2] from rfl)
    exact ⟨p, h⟩
  choose P hP using hP
  refine ⟨σ, P, h1, hP, ?_⟩
  exact C88_exponent_2d realEnv_ok true k (v := fun _ => shear) (t0 := 0) (η := 1)
    (shear_smooth.comp contDiff_snd) one_pos hT (N := 1) (fun _ => 0) (fun _ => shearPath 0)
    (fun _ _ => shear_trajectory 0 _) (fun _ t => shearJ t 0) (fun _ _ => shear_deformation 0 _)
    (fun _ => σ) (fun _ _ => by simpa using h1) (seed := crossAt) (P := P)
    (src := fun δ p => .analytical ⟨P δ, T / ((p : ℝ) - 1), List.replicate p 0⟩)
    (I0 := fun _ _ => .analytical (.fresh (some fun _ => sourceOf 2 shear)))
    (g := fun _ _ _ => shear)
    (fun δ _ => ⟨rfl, hP δ, fun i hi => by
      obtain rfl : i = 0 := by omega
      funext b c
      fin_cases b <;> fin_cases c <;> simp [groupOf, rowOf, crossAt]⟩)
    (fun δ _ => analytical_refines realEnv (P δ) T _ (sourceOf_pointwise _ _ _) _ (by simp))
    one_pos
    (fun δ _ i _ ε hε => Filter.Eventually.of_forall fun p j _ z _ => by
      rw [sub_self, norm_zero]
      exact hε.le)

/-- The shear flow has a Lipschitz constant. -/
example : LipschitzWith 1 shear := by
  refine LipschitzWith.of_dist_le_mul fun x y => ?_
  rw [NNReal.coe_one, one_mul, dist_pi_le_iff dist_nonneg]
  intro i
  fin_cases i
  · simp [shear]
  · refine le_trans ?_ (dist_le_pi_dist x y 0)
    show dist (Real.sin (x 0)) (Real.sin (y 0)) ≤ _
    rw [Real.dist_eq, Real.dist_eq]
    exact Real.abs_sin_sub_sin_le (x 0) (y 0)

end Verif
