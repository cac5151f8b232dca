import Verif.Lemmas.OrderLocal
import Verif.Props.GridError
import Verif.Props.Integrate
import Verif.Lemmas.EndToEnd

/-!
# C102, C103: order of accuracy

C102: the documented orders of the three integrators (integrate.py:163, 206, 267).
C103: what they mean for the field.
-/

set_option linter.unusedSectionVars false

namespace Verif

open Matrix Set Filter Topology

/-! ## C102 -/

theorem rowRun_range {d : ℕ} (k : Kind) (g : ℕ → (Fin d → ℝ) → Fin d → ℝ) (h : ℝ) (n : ℕ)
    (x : Fin d → ℝ) :
    rowRun k ((List.range n).map fun j => (g j, h)) none x = flowMap k g h n x := rfl

/-- **C102 (partial: for RK4 the documented order on steady flows only).**  On flows as smooth as the
order asks for -- and with order one for every method on every continuously differentiable flow -- with
velocities within `ε` of those of the flow near the trajectory `X`, `n` steps of size `h` end within
a constant times `|h| ^ order + ε` of the exact position.  The constant does not depend on `h`, `n`,
`ε` or the velocities as long as the time integrated over stays in the compact interval `U`. -/
theorem C102_order_partial (junk : List ℕ → ℝ) (k : Kind) {d ord : ℕ}
    {v : ℝ → (Fin d → ℝ) → Fin d → ℝ} (hv : Attains k ord v) {U : Set ℝ} (hUc : IsCompact U)
    (hUv : Convex ℝ U) {X : ℝ → Fin d → ℝ} (hX : IsTrajectory v U X) {t0 : ℝ} (ht0 : t0 ∈ U)
    {r : ℝ} (hr : 0 < r) :
    ∃ C η, 0 < η ∧ ∀ (h ε : ℝ) (n : ℕ) (g : ℕ → (Fin d → ℝ) → Fin d → ℝ) (vel : ℕ → Velocity ℝ)
      (R : ℕ) (pos : NDArray ℝ), |h| ≤ η → 0 ≤ ε → ε ≤ η → t0 + n * h ∈ U → pos.shape = [R, d] →
      (∀ i < n, Pointwise R d (vel i) (g i)) →
      (∀ i < n, ∀ z, ‖z - X (t0 + i * h)‖ ≤ r → ‖g i z - v (t0 + i * h) z‖ ≤ ε) →
      ∃ pos', (Integ.steps junk ((List.range n).map fun j => (vel j, h)) (Integ.fresh k) pos).2 =
          .ok pos' ∧ pos'.shape = [R, d] ∧
        ∀ ρ < R, rowOf pos d ρ = X t0 →
          ‖rowOf pos' d ρ - X (t0 + n * h)‖ ≤ C * (|h| ^ ord + ε) := by
  obtain ⟨C, η, -, hη, H⟩ := flow_order k hv hUc hUv hX ht0 hr
  refine ⟨C, η, hη, fun h ε n g vel R pos h1 h2 h3 h4 hp hvel hg => ?_⟩
  have hc : CallsOf R d ((List.range n).map fun j => (vel j, h))
      ((List.range n).map fun j => (g j, h)) := by
    unfold CallsOf
    rw [List.forall₂_map_left_iff, List.forall₂_map_right_iff]
    exact List.forall₂_same.2 fun j hj => ⟨hvel j (List.mem_range.1 hj), rfl⟩
  obtain ⟨I', pos', e1, -, -, e4, e5⟩ := steps_rows junk hc (Integ.fresh k)
    (Integ.fits_fresh R d k) pos hp
  refine ⟨pos', by rw [e1], e4, fun ρ hρ hx => ?_⟩
  rw [e5 ρ hρ, Integ.kind_fresh, Integ.prevRow_fresh, rowRun_range, hx]
  exact (H h ε n g h1 h2 h3 h4 hg).1

/-- The velocity `t` in every component. -/
def ramp (d : ℕ) (t : ℝ) (_ : Fin d → ℝ) : Fin d → ℝ := fun _ => t

noncomputable def rampPath {d : ℕ} (x : Fin d → ℝ) (t : ℝ) : Fin d → ℝ := fun c => x c + t ^ 2 / 2

theorem ramp_smooth (d : ℕ) (m : WithTop ℕ∞) :
    ContDiff ℝ m fun q : ℝ × (Fin d → ℝ) => ramp d q.1 q.2 :=
  contDiff_pi.2 fun _ => contDiff_fst

theorem ramp_trajectory {d : ℕ} (x : Fin d → ℝ) (U : Set ℝ) :
    IsTrajectory (ramp d) U (rampPath x) ∧ rampPath x 0 = x := by
  constructor
  · intro t _
    rw [hasDerivWithinAt_pi]
    intro c
    have h1 := ((hasDerivAt_pow 2 t).div_const (2 : ℝ)).hasDerivWithinAt (s := U)
    refine (h1.const_add (x c)).congr_deriv ?_
    simp [ramp]
  · funext c
    simp [rampPath]

/-- **C102 fails for RK4 on unsteady flows.**  In the flow with velocity `t`, as smooth as one may
ask for, after `n` steps RK4 is off by exactly `n h² / 2`, as Euler's method; so over a fixed time
`n h` the error is proportional to `h`, and not even of second order. -/
theorem C102_unsteady_rk4_fails (junk : List ℕ → ℝ) {d : ℕ} (hd : 0 < d) {vel : ℝ → Velocity ℝ}
    {R : ℕ} (hv : ∀ t, Pointwise R d (vel t) (ramp d t)) {pos : NDArray ℝ}
    (hp : pos.shape = [R, d]) {ρ : ℕ} (hρ : ρ < R) :
    (∀ (n : ℕ) (h : ℝ), ∃ pos',
      (Integ.steps junk ((List.range n).map fun j : ℕ => (vel (j * h), h)) (Integ.fresh .rk4) pos).2 =
        .ok pos' ∧ ‖rowOf pos' d ρ - rampPath (rowOf pos d ρ) (n * h)‖ = n * h ^ 2 / 2) ∧
    ¬ ∃ C η : ℝ, 0 < η ∧ ∀ (n : ℕ) (h : ℝ), 0 < h → h ≤ η → n * h ≤ 1 → ∀ pos',
      (Integ.steps junk ((List.range n).map fun j : ℕ => (vel (j * h), h)) (Integ.fresh .rk4) pos).2 =
        .ok pos' → ‖rowOf pos' d ρ - rampPath (rowOf pos d ρ) (n * h)‖ ≤ C * h ^ 2 := by
  have exact_error : ∀ (n : ℕ) (h : ℝ), ∃ pos',
      (Integ.steps junk ((List.range n).map fun j : ℕ => (vel (j * h), h)) (Integ.fresh .rk4) pos).2 =
        .ok pos' ∧ ‖rowOf pos' d ρ - rampPath (rowOf pos d ρ) (n * h)‖ = n * h ^ 2 / 2 := by
    intro n h
    have hu : UniformSnapshots R d ((List.range n).map fun j : ℕ => vel (j * h))
        ((List.range n).map fun j : ℕ => fun _ : Fin d => (j : ℝ) * h) := by
      unfold UniformSnapshots
      rw [List.forall₂_map_left_iff, List.forall₂_map_right_iff]
      exact List.forall₂_same.2 fun j _ => hv _
    obtain ⟨_, pr, _, e2, e3⟩ := C20_intermediate_times_fails junk hu h hp
    refine ⟨pr, by rw [← e2, List.map_map]; rfl, ?_⟩
    have e : rowOf pr d ρ - rampPath (rowOf pos d ρ) (n * h) = fun _ => -(n * h ^ 2 / 2) := by
      funext c
      have := congrFun (e3 ρ hρ).2 c
      simp only [List.map_map, Function.comp_def, sum_range_map] at this
      rw [Pi.sub_apply, this]
      simp only [rampPath, rowOf]
      ring
    have : Nonempty (Fin d) := ⟨⟨0, hd⟩⟩
    rw [e, pi_norm_const, norm_neg, Real.norm_of_nonneg (by positivity)]
  refine ⟨exact_error, ?_⟩
  rintro ⟨C, η, hη, H⟩
  -- `n` steps of size `1 / n`
  obtain ⟨n, hn1, hn2, hn3⟩ : ∃ n : ℕ, 0 < (n : ℝ) ∧ 1 / (n : ℝ) ≤ η ∧ 2 * C < n := by
    obtain ⟨n, hn⟩ := exists_nat_gt (max (1 / η) (2 * |C|))
    have h1 := (le_max_left _ _).trans_lt hn
    have h2 := (le_max_right _ _).trans_lt hn
    have h0 : 0 < (n : ℝ) := lt_of_le_of_lt (by positivity) h1
    refine ⟨n, h0, ?_, by linarith [le_abs_self C]⟩
    rw [div_le_iff₀ h0]
    rw [div_lt_iff₀ hη] at h1
    linarith
  obtain ⟨pos', h1, h2⟩ := exact_error n (1 / n)
  have h3 := H n (1 / n) (by positivity) hn2 (by rw [mul_one_div_cancel hn1.ne']) pos' h1
  rw [h2] at h3
  have h4 : 0 < (1 / (n : ℝ)) ^ 2 := by positivity
  have h5 : (n : ℝ) / 2 * (1 / (n : ℝ)) ^ 2 ≤ C * (1 / (n : ℝ)) ^ 2 := by
    linarith
  have := le_of_mul_le_mul_right h5 h4
  linarith

theorem shear_smooth_any (m : WithTop ℕ∞) : ContDiff ℝ m shear := by
  rw [contDiff_pi]
  intro i
  fin_cases i
  · exact contDiff_const
  · exact Real.contDiff_sin.comp (contDiff_apply ℝ ℝ (0 : Fin 2))

/-- The hypotheses of C102 hold: all methods in the unsteady flow with velocity `t`, RK4 in the
shear flow, during the times from `0` to `1`. -/
example (x : Fin 2 → ℝ) : Attains .euler 1 (ramp 2) ∧ Attains .ab2 2 (ramp 2) ∧ Attains .rk4 1 (ramp 2) ∧
    IsTrajectory (ramp 2) (Icc 0 1) (rampPath x) ∧ Attains .rk4 4 (fun _ => shear) ∧
    IsTrajectory (fun _ => shear) (Icc 0 1) (shearPath x) ∧
    (∀ t, Pointwise 4 2 (sourceOf 2 (ramp 2 t)) (ramp 2 t)) ∧
    Pointwise 4 2 (sourceOf 2 shear) shear :=
  ⟨.inl ⟨rfl, ramp_smooth 2 1⟩, .inl ⟨rfl, ramp_smooth 2 2⟩, .inr ⟨rfl, ramp_smooth 2 1⟩,
    (ramp_trajectory x _).1, .inl ⟨rfl, shear, shear_smooth_any 4, rfl⟩, (shear_trajectory x _).1, fun _ => sourceOf_pointwise _ _ _, sourceOf_pointwise _ _ _⟩

/-! ## C103 -/

theorem exists_small {ι : Type*} [Finite ι] {f : ι → ℝ} (hf : ∀ i, 0 < f i) :
    ∃ η > 0, ∀ i, η ≤ f i := by
  have h1 : ∀ᶠ η in 𝓝[>] (0 : ℝ), ∀ i, η ≤ f i := by
    rw [eventually_all]
    intro i
    exact eventually_nhdsWithin_of_eventually_nhds
      ((tendsto_order.1 tendsto_id).2 _ (hf i) |>.mono fun _ h => le_of_lt h)
  obtain ⟨η, h2, h3⟩ := (h1.and self_mem_nhdsWithin).exists
  exact ⟨η, h3, h2⟩

/-- Several trajectories, one constant. -/
theorem flow_order_many {ι : Type*} [Finite ι] (k : Kind) {d ord : ℕ}
    {v : ℝ → (Fin d → ℝ) → Fin d → ℝ} (hv : Attains k ord v)
    {U : Set ℝ} (hUc : IsCompact U) (hUv : Convex ℝ U) {X : ι → ℝ → Fin d → ℝ}
    (hX : ∀ q, IsTrajectory v U (X q)) {t0 : ℝ} (ht0 : t0 ∈ U) {r : ℝ} (hr : 0 < r) :
    ∃ C η, 0 ≤ C ∧ 0 < η ∧ ∀ (h ε : ℝ) (n : ℕ) (g : ℕ → (Fin d → ℝ) → Fin d → ℝ), |h| ≤ η →
      0 ≤ ε → ε ≤ η → t0 + n * h ∈ U → ∀ q,
      (∀ i < n, ∀ z, ‖z - X q (t0 + i * h)‖ ≤ r → ‖g i z - v (t0 + i * h) z‖ ≤ ε) →
      ‖flowMap k g h n (X q t0) - X q (t0 + n * h)‖ ≤ C * (|h| ^ ord + ε) ∧
      ∀ i < n, ∀ z ∈ stages k (g i) h (flowMap k g h i (X q t0)), ‖z - X q (t0 + i * h)‖ ≤ r := by
  choose C η hC hη H using fun q => flow_order k hv hUc hUv (hX q) ht0 hr
  obtain ⟨δ, hδ0, hδ⟩ := exists_small hη
  cases nonempty_fintype ι
  refine ⟨∑ q, C q, δ, Finset.sum_nonneg fun q _ => hC q, hδ0,
    fun h ε n g h1 h2 h3 h4 q hg => ?_⟩
  obtain ⟨a, b⟩ := H q h ε n g (h1.trans (hδ q)) h2 (h3.trans (hδ q)) h4 hg
  refine ⟨a.trans ?_, b⟩
  refine mul_le_mul_of_nonneg_right ?_ (by positivity)
  exact Finset.single_le_sum (f := C) (fun q _ => hC q) (Finset.mem_univ q)

/-- **C103 (2-D).**  Groups of seeds with exact trajectories `X` during `U`, and `m > 0`.  There
are constants such that for every run over at least two snapshots with step `h`, whose source hands
out, in step `j`, the velocity field `g j` on the region `S j`, within `ε` of the velocity of the
flow near the trajectories: the run succeeds, and the value of every group differs from
`(1/T) ln σ` by at most `(1/T) C (|h| ^ order + ε)`.  Here `σ ≥ m` is the maximal stretching of the
central differences of the exact positions after `n` steps, and `T = (n - 1)|h|` the period the code
divides by. -/
theorem C103_order_2d_partial (k : Kind) {ord : ℕ} {v : ℝ → (Fin 2 → ℝ) → Fin 2 → ℝ} (hv : Attains k ord v) {U : Set ℝ} (hUc : IsCompact U)
    (hUv : Convex ℝ U) {t0 : ℝ} (ht0 : t0 ∈ U) {r : ℝ} (hr : 0 < r) {N : ℕ} {seed : NDArray ℝ}
    (hs : seed.shape = [4 * N, 2]) {P : Particles ℝ} (hp : mkParticles seed = .ok P)
    (X : ℕ → Fin 4 → ℝ → Fin 2 → ℝ)
    (hX : ∀ i < N, ∀ b, IsTrajectory v U (X i b) ∧ X i b t0 = groupOf seed 4 N 2 i b) {m : ℝ}
    (hm : 0 < m) :
    ∃ C η, 0 < η ∧ ∀ (env : Env ℝ FVal), RealEnv env → ∀ (queue : Bool)
      (src : Source ℝ) (n : ℕ) (h ε : ℝ) (I0 : AnyInterp ℝ) (g : ℕ → (Fin 2 → ℝ) → Fin 2 → ℝ) (S : ℕ → Set (Fin 2 → ℝ)), src.numSteps = n →
      src.timestep = h → src.getParticles env.fs = .ok P → I0.Unused →
      (∃ id, src.id env = .ok id) → (∀ i < n, (src.updated env I0 (i + 1)).2 = none) →
      (∀ j < n, PointwiseOn (S j) (4 * N) ((src.updated env I0 (j + 1)).1.velocity env) (g j)) →
      2 ≤ n → h ≠ 0 → |h| ≤ η → 0 ≤ ε → ε ≤ η → t0 + n * h ∈ U →
      (∀ i < N, ∀ b, ∀ j < n, ∀ z, ‖z - X i b (t0 + j * h)‖ ≤ r →
        z ∈ S j ∧ ‖g j z - v (t0 + j * h) z‖ ≤ ε) →
      ∀ (D : ℕ → Matrix (Fin 2) (Fin 2) ℝ) (σ : ℕ → ℝ),
      (∀ i < N, centralDiff2 (fun b => X i b (t0 + n * h)) (groupOf seed 4 N 2 i) = .ok (D i)) →
      (∀ i < N, IsMaxStretch (D i) (σ i) ∧ m ≤ σ i) →
      ∃ Λ : ℕ → ℝ, ((⟨src, I0, .fresh k⟩ : Solver ℝ).run env queue none).result =
          .ok (some ((List.range N).map fun i => .fin (Λ i))) ∧
        ∀ i < N, |Λ i - 1 / (((n : ℝ) - 1) * |h|) * Real.log (σ i)| ≤
          1 / (((n : ℝ) - 1) * |h|) * (C * (|h| ^ ord + ε)) := by
  obtain ⟨C, η, hC0, hη0, H⟩ := flow_order_many (ι := Fin N × Fin 4) k hv hUc hUv
    (X := fun q => X q.1 q.2) (fun q => (hX q.1 q.1.2 q.2).1) ht0 hr
  -- distances of the seeds
  set w : ℕ → ℝ := fun i => 1 / |groupOf seed 4 N 2 i 1 0 - groupOf seed 4 N 2 i 0 0| +
    1 / |groupOf seed 4 N 2 i 2 1 - groupOf seed 4 N 2 i 3 1| with hw
  have hw0 : ∀ i, 0 ≤ w i := fun i => by positivity
  set W := ∑ i ∈ Finset.range N, w i with hW
  have hW0 : 0 ≤ W := Finset.sum_nonneg fun i _ => hw0 i
  have hwW : ∀ i < N, w i ≤ W := fun i hi =>
    Finset.single_le_sum (f := w) (fun i _ => hw0 i) (Finset.mem_range.2 hi)
  have hp1 : 1 ≤ ord := hv.pos
  set A := 4 * C * W with hA
  have hA0 : 0 ≤ A := by positivity
  refine ⟨2 * A / m, min η (min 1 (m / (4 * (A + 1)))), by positivity, ?_⟩
  intro env he queue src n h ε I0 g S hn hh hP hI hid hup hvel hn2 hh0 hhη hε0 hεη hnU hS D σ hD hσ
  obtain ⟨id, hid⟩ := hid
  have near : ∀ i < N, ∀ b,
      ‖flowMap k g h n (groupOf seed 4 N 2 i b) - X i b (t0 + n * h)‖ ≤
        C * (|h| ^ ord + ε) ∧
      ∀ j < n, ∀ z ∈ stages k (g j) h (flowMap k g h j (groupOf seed 4 N 2 i b)),
        ‖z - X i b (t0 + j * h)‖ ≤ r := by
    intro i hi b
    have := H h ε n g (hhη.trans (min_le_left _ _)) hε0 (hεη.trans (min_le_left _ _)) hnU
      (⟨i, hi⟩, b) (fun j hj z hz => (hS i hi b j hj z hz).2)
    simp only [(hX i hi b).2] at this
    exact this
  set E := |h| ^ ord + ε with hE
  have hE0 : 0 ≤ E := by positivity
  have hAE : A * E ≤ m / 2 := by
    have h1 : |h| ≤ 1 := hhη.trans ((min_le_right _ _).trans (min_le_left _ _))
    have h2 : |h| ^ ord ≤ |h| := by
      have := pow_le_pow_of_le_one (abs_nonneg h) h1 hp1
      rwa [pow_one] at this
    have h3 : ∀ t, t ≤ min η (min 1 (m / (4 * (A + 1)))) → t ≤ m / (4 * (A + 1)) :=
      fun t ht => ht.trans ((min_le_right _ _).trans (min_le_right _ _))
    have h4 : E ≤ m / (4 * (A + 1)) + m / (4 * (A + 1)) :=
      add_le_add (h2.trans (h3 _ hhη)) (h3 _ hεη)
    have h5 : A * (m / (4 * (A + 1)) + m / (4 * (A + 1))) ≤ m / 2 := by
      have : m / (4 * (A + 1)) + m / (4 * (A + 1)) = m / (2 * (A + 1)) := by field_simp; ring
      rw [this, mul_div_assoc', div_le_div_iff₀ (by positivity) (by norm_num)]
      nlinarith
    exact (mul_le_mul_of_nonneg_left h4 hA0).trans h5
  have hT : 0 < ((n : ℝ) - 1) * |h| := by
    have : (2 : ℝ) ≤ n := by exact_mod_cast hn2
    exact mul_pos (by linarith) (abs_pos.2 hh0)
  obtain ⟨Λ, h1, h2⟩ := field_error ftle2_computes hT
    (fun i => diffs2 (fun b => flowMap k g h n (groupOf seed 4 N 2 i b)) (groupOf seed 4 N 2 i)) D
    σ (fun _ => A * E) (fun i hi => by
      rw [(centralDiff2_ok.1 (hD i hi)).2]
      refine (diffs2_error fun b => (near i hi b).1).trans ?_
      have h1 := mul_le_mul_of_nonneg_left (hwW i hi) (by positivity : 0 ≤ 4 * (C * E))
      refine h1.trans_eq ?_
      rw [hA]
      ring) (fun i hi => ⟨(hσ i hi).1, by have := (hσ i hi).2; linarith⟩)
  refine ⟨Λ, ?_, fun i hi => (h2 i hi).trans ?_⟩
  · rw [run_flow_on_2d env src hI k g S (fun i hi => hup i (by omega)) N
      (fun j hj => hvel j (by omega)) hid seed P queue hs hp hP (fun i hi b j hj z hz => by
        rw [hh] at hz
        exact (hS i hi b j (by omega) z ((near i hi b).2 j (by omega) z hz)).1)]
    rw [pyMap_ok_map (g := fun i => diffs2 (fun b => flowMap k g h n (groupOf seed 4 N 2 i b))
      (groupOf seed 4 N 2 i))]
    · have e : runPeriod env src = ((n : ℝ) - 1) * |h| := by
        unfold runPeriod
        rw [hn, hh, he.abs]
        push_cast
        rfl
      simp only [e, he.f2, h1]
      rfl
    · intro i hi
      rw [hn, hh]
      exact centralDiff2_ok.2 ⟨(centralDiff2_ok.1 (hD i (List.mem_range.1 hi))).1, rfl⟩
  · refine mul_le_mul_of_nonneg_left ?_ (by positivity)
    have h3 := (hσ i hi).2
    have h4 : m / 2 ≤ σ i - A * E := by linarith
    have h5 : A * E / (σ i - A * E) ≤ A * E / (m / 2) :=
      div_le_div_of_nonneg_left (by positivity) (by positivity) h4
    refine h5.trans_eq ?_
    field_simp

/-- **C103 (3-D).** -/
theorem C103_order_3d_partial (k : Kind) {ord : ℕ} {v : ℝ → (Fin 3 → ℝ) → Fin 3 → ℝ} (hv : Attains k ord v) {U : Set ℝ} (hUc : IsCompact U)
    (hUv : Convex ℝ U) {t0 : ℝ} (ht0 : t0 ∈ U) {r : ℝ} (hr : 0 < r) {N : ℕ} {seed : NDArray ℝ}
    (hs : seed.shape = [6 * N, 3]) {P : Particles ℝ} (hp : mkParticles seed = .ok P)
    (X : ℕ → Fin 6 → ℝ → Fin 3 → ℝ)
    (hX : ∀ i < N, ∀ b, IsTrajectory v U (X i b) ∧ X i b t0 = groupOf seed 6 N 3 i b) {m : ℝ}
    (hm : 0 < m) :
    ∃ C η, 0 < η ∧ ∀ (env : Env ℝ FVal), RealEnv env → ∀ (queue : Bool)
      (src : Source ℝ) (n : ℕ) (h ε : ℝ) (I0 : AnyInterp ℝ) (g : ℕ → (Fin 3 → ℝ) → Fin 3 → ℝ) (S : ℕ → Set (Fin 3 → ℝ)), src.numSteps = n →
      src.timestep = h → src.getParticles env.fs = .ok P → I0.Unused →
      (∃ id, src.id env = .ok id) → (∀ i < n, (src.updated env I0 (i + 1)).2 = none) →
      (∀ j < n, PointwiseOn (S j) (6 * N) ((src.updated env I0 (j + 1)).1.velocity env) (g j)) →
      2 ≤ n → h ≠ 0 → |h| ≤ η → 0 ≤ ε → ε ≤ η → t0 + n * h ∈ U →
      (∀ i < N, ∀ b, ∀ j < n, ∀ z, ‖z - X i b (t0 + j * h)‖ ≤ r →
        z ∈ S j ∧ ‖g j z - v (t0 + j * h) z‖ ≤ ε) →
      ∀ (D : ℕ → Matrix (Fin 3) (Fin 3) ℝ) (σ : ℕ → ℝ),
      (∀ i < N, centralDiff3 (fun b => X i b (t0 + n * h)) (groupOf seed 6 N 3 i) = .ok (D i)) →
      (∀ i < N, IsMaxStretch (D i) (σ i) ∧ m ≤ σ i) →
      ∃ Λ : ℕ → ℝ, ((⟨src, I0, .fresh k⟩ : Solver ℝ).run env queue none).result =
          .ok (some ((List.range N).map fun i => .fin (Λ i))) ∧
        ∀ i < N, |Λ i - 1 / (((n : ℝ) - 1) * |h|) * Real.log (σ i)| ≤
          1 / (((n : ℝ) - 1) * |h|) * (C * (|h| ^ ord + ε)) := by
  obtain ⟨C, η, hC0, hη0, H⟩ := flow_order_many (ι := Fin N × Fin 6) k hv hUc hUv
    (X := fun q => X q.1 q.2) (fun q => (hX q.1 q.1.2 q.2).1) ht0 hr
  -- distances of the seeds
  set w : ℕ → ℝ := fun i => 1 / |groupOf seed 6 N 3 i 1 0 - groupOf seed 6 N 3 i 0 0| +
    1 / |groupOf seed 6 N 3 i 2 1 - groupOf seed 6 N 3 i 3 1| +
    1 / |groupOf seed 6 N 3 i 4 2 - groupOf seed 6 N 3 i 5 2| with hw
  have hw0 : ∀ i, 0 ≤ w i := fun i => by positivity
  set W := ∑ i ∈ Finset.range N, w i with hW
  have hW0 : 0 ≤ W := Finset.sum_nonneg fun i _ => hw0 i
  have hwW : ∀ i < N, w i ≤ W := fun i hi =>
    Finset.single_le_sum (f := w) (fun i _ => hw0 i) (Finset.mem_range.2 hi)
  have hp1 : 1 ≤ ord := hv.pos
  set A := 6 * C * W with hA
  have hA0 : 0 ≤ A := by positivity
  refine ⟨2 * A / m, min η (min 1 (m / (4 * (A + 1)))), by positivity, ?_⟩
  intro env he queue src n h ε I0 g S hn hh hP hI hid hup hvel hn2 hh0 hhη hε0 hεη hnU hS D σ hD hσ
  obtain ⟨id, hid⟩ := hid
  have near : ∀ i < N, ∀ b,
      ‖flowMap k g h n (groupOf seed 6 N 3 i b) - X i b (t0 + n * h)‖ ≤
        C * (|h| ^ ord + ε) ∧
      ∀ j < n, ∀ z ∈ stages k (g j) h (flowMap k g h j (groupOf seed 6 N 3 i b)),
        ‖z - X i b (t0 + j * h)‖ ≤ r := by
    intro i hi b
    have := H h ε n g (hhη.trans (min_le_left _ _)) hε0 (hεη.trans (min_le_left _ _)) hnU
      (⟨i, hi⟩, b) (fun j hj z hz => (hS i hi b j hj z hz).2)
    simp only [(hX i hi b).2] at this
    exact this
  set E := |h| ^ ord + ε with hE
  have hE0 : 0 ≤ E := by positivity
  have hAE : A * E ≤ m / 2 := by
    have h1 : |h| ≤ 1 := hhη.trans ((min_le_right _ _).trans (min_le_left _ _))
    have h2 : |h| ^ ord ≤ |h| := by
      have := pow_le_pow_of_le_one (abs_nonneg h) h1 hp1
      rwa [pow_one] at this
    have h3 : ∀ t, t ≤ min η (min 1 (m / (4 * (A + 1)))) → t ≤ m / (4 * (A + 1)) :=
      fun t ht => ht.trans ((min_le_right _ _).trans (min_le_right _ _))
    have h4 : E ≤ m / (4 * (A + 1)) + m / (4 * (A + 1)) :=
      add_le_add (h2.trans (h3 _ hhη)) (h3 _ hεη)
    have h5 : A * (m / (4 * (A + 1)) + m / (4 * (A + 1))) ≤ m / 2 := by
      have : m / (4 * (A + 1)) + m / (4 * (A + 1)) = m / (2 * (A + 1)) := by field_simp; ring
      rw [this, mul_div_assoc', div_le_div_iff₀ (by positivity) (by norm_num)]
      nlinarith
    exact (mul_le_mul_of_nonneg_left h4 hA0).trans h5
  have hT : 0 < ((n : ℝ) - 1) * |h| := by
    have : (2 : ℝ) ≤ n := by exact_mod_cast hn2
    exact mul_pos (by linarith) (abs_pos.2 hh0)
  obtain ⟨Λ, h1, h2⟩ := field_error ftle3_computes hT
    (fun i => diffs3 (fun b => flowMap k g h n (groupOf seed 6 N 3 i b)) (groupOf seed 6 N 3 i)) D
    σ (fun _ => A * E) (fun i hi => by
      rw [(centralDiff3_ok.1 (hD i hi)).2]
      refine (diffs3_error fun b => (near i hi b).1).trans ?_
      have h1 := mul_le_mul_of_nonneg_left (hwW i hi) (by positivity : 0 ≤ 6 * (C * E))
      refine h1.trans_eq ?_
      rw [hA]
      ring) (fun i hi => ⟨(hσ i hi).1, by have := (hσ i hi).2; linarith⟩)
  refine ⟨Λ, ?_, fun i hi => (h2 i hi).trans ?_⟩
  · rw [run_flow_on_3d env src hI k g S (fun i hi => hup i (by omega)) N
      (fun j hj => hvel j (by omega)) hid seed P queue hs hp hP (fun i hi b j hj z hz => by
        rw [hh] at hz
        exact (hS i hi b j (by omega) z ((near i hi b).2 j (by omega) z hz)).1)]
    rw [pyMap_ok_map (g := fun i => diffs3 (fun b => flowMap k g h n (groupOf seed 6 N 3 i b))
      (groupOf seed 6 N 3 i))]
    · have e : runPeriod env src = ((n : ℝ) - 1) * |h| := by
        unfold runPeriod
        rw [hn, hh, he.abs]
        push_cast
        rfl
      simp only [e, he.f3, h1]
      rfl
    · intro i hi
      rw [hn, hh]
      exact centralDiff3_ok.2 ⟨(centralDiff3_ok.1 (hD i (List.mem_range.1 hi))).1, rfl⟩
  · refine mul_le_mul_of_nonneg_left ?_ (by positivity)
    have h3 := (hσ i hi).2
    have h4 : m / 2 ≤ σ i - A * E := by linarith
    have h5 : A * E / (σ i - A * E) ≤ A * E / (m / 2) :=
      div_le_div_of_nonneg_left (by positivity) (by positivity) h4
    refine h5.trans_eq ?_
    field_simp

/-! ## The field against the exponent over the period -/

/-- The saddle `(x, -y)` and its trajectories. -/
def saddleField (x : Fin 2 → ℝ) : Fin 2 → ℝ := ![x 0, -x 1]

noncomputable def saddlePath (x : Fin 2 → ℝ) (t : ℝ) : Fin 2 → ℝ :=
  ![Real.exp t * x 0, Real.exp (-t) * x 1]

theorem saddleField_smooth (m : WithTop ℕ∞) : ContDiff ℝ m saddleField := by
  rw [contDiff_pi]
  intro i
  fin_cases i
  · exact contDiff_apply ℝ ℝ (0 : Fin 2)
  · exact (contDiff_apply ℝ ℝ (1 : Fin 2)).neg

theorem saddle_smoothEnough (k : Kind) : SmoothEnough k fun _ : ℝ => saddleField := by
  cases k with
  | euler => exact (saddleField_smooth 1).comp contDiff_snd
  | ab2 => exact (saddleField_smooth 2).comp contDiff_snd
  | rk4 => exact ⟨saddleField, saddleField_smooth 4, rfl⟩

theorem saddle_trajectory (x : Fin 2 → ℝ) (U : Set ℝ) :
    IsTrajectory (fun _ => saddleField) U (saddlePath x) ∧ saddlePath x 0 = x := by
  constructor
  · intro t _
    rw [hasDerivWithinAt_pi]
    intro i
    fin_cases i
    · exact ((Real.hasDerivAt_exp t).mul_const (x 0)).hasDerivWithinAt
    · have h1 : HasDerivAt (fun t : ℝ => Real.exp (-t)) (-Real.exp (-t)) t := by
        have := (Real.hasDerivAt_exp (-t)).comp t (hasDerivAt_neg t)
        refine this.congr_deriv ?_
        ring
      have h2 := (h1.mul_const (x 1)).hasDerivWithinAt (s := U)
      simpa [saddleField, saddlePath] using h2
  · funext i
    fin_cases i <;> simp [saddlePath]

theorem saddle_central (t : ℝ) : centralDiff2 (fun b => saddlePath (cross2 0 1 b) t) (cross2 0 1) =
    .ok !![Real.exp t, 0; 0, Real.exp (-t)] := by
  have c0 : cross2 0 1 0 = ![-1, 0] := by funext i; fin_cases i <;> simp [cross2]
  have c1 : cross2 0 1 1 = ![1, 0] := by funext i; fin_cases i <;> simp [cross2]
  have c2 : cross2 0 1 2 = ![0, 1] := by funext i; fin_cases i <;> simp [cross2]
  have c3 : cross2 0 1 3 = ![0, -1] := by funext i; fin_cases i <;> simp [cross2]
  rw [centralDiff2_ok]
  simp only [diffs2, c0, c1, c2, c3]
  refine ⟨by norm_num, ?_⟩
  ext a b
  fin_cases a <;> fin_cases b <;> simp [saddlePath] <;> ring

/-- **C103 fails against the exponent over the period.**  In the saddle `(x, -y)`, whose exponent
over any period `T > 0` is `1`, the error of AB2 and RK4 runs over `p` snapshots is not of the order
of the integrator: `(p - 1)` times the error tends to `1`, so the error is of first order in the time
step `T / (p - 1)`.  (The code takes `p` steps and divides by the time of `p - 1`.) -/
theorem C103_period_fails (k : Kind) (hk : k ≠ .euler) (queue : Bool) {T : ℝ} (hT : 0 < T)
    {P : Particles ℝ} (hP : mkParticles (crossAt 1) = .ok P) :
    ∃ Λ : ℕ → ℝ,
      (∀ᶠ p : ℕ in atTop, ((⟨.analytical ⟨P, T / ((p : ℝ) - 1), List.replicate p 0⟩,
        .analytical (.fresh (some fun _ => sourceOf 2 saddleField)), .fresh k⟩ : Solver ℝ).run realEnv
        queue none).result = .ok (some [.fin (Λ p)])) ∧
      Tendsto (fun p : ℕ => ((p : ℝ) - 1) * (Λ p - 1)) atTop (𝓝 1) := by
  have hq : 2 ≤ documentedOrder k := by
    cases k with
    | euler => exact absurd rfl hk
    | ab2 => exact le_rfl
    | rk4 => exact (by decide : 2 ≤ 4)
  have hgrp : ∀ b, groupOf (crossAt 1) 4 1 2 0 b = cross2 0 1 b := by
    intro b
    funext c
    fin_cases b <;> fin_cases c <;> simp [groupOf, rowOf, crossAt]
  obtain ⟨C, η, hη, H⟩ := C103_order_2d_partial k (.inl ⟨rfl, saddle_smoothEnough k⟩)
    (isCompact_Icc (a := (0 : ℝ)) (b := 2 * T)) (convex_Icc _ _) (t0 := 0) ⟨le_rfl, by positivity⟩
    one_pos (N := 1) (seed := crossAt 1) rfl hP (fun i b => saddlePath (groupOf (crossAt 1) 4 1 2 i b))
    (fun i hi b => saddle_trajectory _ _) one_pos
  have hR := analytical_refines realEnv P T (R := 4 * 1) (fun _ => sourceOf 2 saddleField)
    (sourceOf_pointwise _ _ _) (fun p => List.replicate p (0 : ℝ)) (by simp)
  have hstep := tendsto_step T
  have hev : ∀ᶠ p : ℕ in atTop, 2 ≤ p ∧ T / ((p : ℝ) - 1) ≤ η :=
    (eventually_ge_atTop 2).and ((tendsto_order.1 hstep).2 η hη |>.mono fun _ h => le_of_lt h)
  -- one run
  have hrun : ∀ p : ℕ, 2 ≤ p ∧ T / ((p : ℝ) - 1) ≤ η → ∃ Λ : ℝ,
      ((⟨.analytical ⟨P, T / ((p : ℝ) - 1), List.replicate p 0⟩,
        .analytical (.fresh (some fun _ => sourceOf 2 saddleField)), .fresh k⟩ : Solver ℝ).run realEnv
        queue none).result = .ok (some [.fin Λ]) ∧
      |Λ - p / ((p : ℝ) - 1)| ≤ 1 / T * (C * (T / ((p : ℝ) - 1)) ^ documentedOrder k) := by
    intro p ⟨hp, hpη⟩
    have hp' : (2 : ℝ) ≤ p := by exact_mod_cast hp
    have hp1 : 0 < (p : ℝ) - 1 := by linarith
    have hh : 0 < T / ((p : ℝ) - 1) := by positivity
    have hph : (p : ℝ) * (T / ((p : ℝ) - 1)) ≤ 2 * T := by
      rw [mul_div_assoc', div_le_iff₀ hp1]
      nlinarith
    have hTT : ((p : ℝ) - 1) * |T / ((p : ℝ) - 1)| = T := by
      rw [abs_of_pos hh]
      field_simp
    set t : ℝ := 0 + p * (T / ((p : ℝ) - 1)) with ht
    have ht0 : 0 ≤ t := by rw [ht, zero_add]; positivity
    obtain ⟨Λ, h1, h2⟩ := H realEnv realEnv_ok queue (.analytical ⟨P, T / ((p : ℝ) - 1), List.replicate p 0⟩) p
      (T / ((p : ℝ) - 1)) 0 (.analytical (.fresh (some fun _ => sourceOf 2 saddleField)))
      (fun _ => saddleField) (fun _ => univ) (hR.steps p hp) (hR.timestep p hp) (hR.seeds p hp)
      (hR.unused p) (hR.named p hp) (hR.updates p hp)
      (fun j hj pos hpos _ => hR.velocity p hp j hj pos hpos) hp hh.ne'
      (by rwa [abs_of_pos hh]) le_rfl hη.le ⟨ht0, by rw [zero_add]; exact hph⟩
      (fun i hi b j hj z hz => ⟨mem_univ _, by rw [sub_self, norm_zero]⟩)
      (fun _ => !![Real.exp t, 0; 0, Real.exp (-t)]) (fun _ => Real.exp t)
      (fun i hi => by
        obtain rfl : i = 0 := by omega
        simp only [← ht]
        rw [show groupOf (crossAt 1) 4 1 2 0 = cross2 0 1 from funext hgrp]
        exact saddle_central t)
      (fun i hi => by
        have h3 := maxStretch_diag (x := Real.exp t) (y := Real.exp (-t)) (by
          rw [abs_of_pos (Real.exp_pos _), abs_of_pos (Real.exp_pos _)]
          exact Real.exp_le_exp.2 (by linarith))
        rw [abs_of_pos (Real.exp_pos t)] at h3
        exact ⟨h3, Real.one_le_exp ht0⟩)
    refine ⟨Λ 0, by rw [h1]; rfl, ?_⟩
    have h3 := h2 0 one_pos
    rw [hTT, Real.log_exp, add_zero, abs_of_pos hh] at h3
    have e : 1 / T * t = p / ((p : ℝ) - 1) := by
      rw [ht]
      field_simp
      ring
    rwa [e] at h3
  -- the values
  classical
  refine ⟨fun p => if h : 2 ≤ p ∧ T / ((p : ℝ) - 1) ≤ η then (hrun p h).choose else 0, ?_, ?_⟩
  · filter_upwards [hev] with p hp
    rw [dif_pos hp]
    exact (hrun p hp).choose_spec.1
  · rw [tendsto_iff_norm_sub_tendsto_zero]
    have hz : Tendsto (fun p : ℕ => |C| * (T / ((p : ℝ) - 1)) ^ (documentedOrder k - 1)) atTop (𝓝 0) := by
      have := (hstep.pow (documentedOrder k - 1)).const_mul |C|
      rwa [zero_pow (by omega), mul_zero] at this
    refine squeeze_zero' (Eventually.of_forall fun p => norm_nonneg _) ?_ hz
    filter_upwards [hev] with p hp
    rw [dif_pos hp]
    set Λ := (hrun p hp).choose with hΛ
    have h1 := (hrun p hp).choose_spec.2
    rw [← hΛ] at h1
    have hp' : (2 : ℝ) ≤ p := by exact_mod_cast hp.1
    have hp1 : 0 < (p : ℝ) - 1 := by linarith
    have e1 : ((p : ℝ) - 1) * (Λ - 1) - 1 = ((p : ℝ) - 1) * (Λ - p / ((p : ℝ) - 1)) := by
      field_simp
      ring
    rw [e1, Real.norm_eq_abs, abs_mul, abs_of_pos hp1]
    have h2 := mul_le_mul_of_nonneg_left h1 hp1.le
    refine h2.trans ?_
    obtain ⟨q, hq'⟩ : ∃ q, documentedOrder k = q + 1 := ⟨documentedOrder k - 1, by omega⟩
    rw [hq', Nat.add_sub_cancel, pow_succ]
    have e2 : ((p : ℝ) - 1) * (1 / T * (C * ((T / ((p : ℝ) - 1)) ^ q * (T / ((p : ℝ) - 1))))) =
        C * (T / ((p : ℝ) - 1)) ^ q := by
      field_simp
    rw [e2]
    exact mul_le_mul_of_nonneg_right (le_abs_self C) (by positivity)

/-- The seeds of `C103_period_fails` exist. -/
example : ∃ P, mkParticles (crossAt 1) = .ok P := by
  obtain ⟨p, h, -⟩ := mkParticles_2d (show (crossAt 1).shape = [4 * 1, 2] from rfl)
  exact ⟨p, h⟩

end Verif
