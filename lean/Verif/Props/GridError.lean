import Verif.Lemmas.GridError
import Verif.Props.Converge
import Verif.Props.Interpolate
import Verif.Props.Snapshots

/-!
# C84: error bound for one run

Not a limit but an inequality for a run as it is: the field differs from the exponent of the
exact flow by an explicit amount, made of the time step, the error of the velocities and, for
gridded files, the spacing of the grid.
-/

set_option linter.unusedSectionVars false

namespace Verif

open Matrix Set

/-! ## Specification -/

/-- `X` is a trajectory of `v` during `n` steps of `h` from `t0`; its speed is at most `B`, and
its velocity changes by at most `M` per unit of time. -/
structure Along {d : ℕ} (v : ℝ → (Fin d → ℝ) → Fin d → ℝ) (t0 h : ℝ) (n : ℕ) (B M : ℝ)
    (X : ℝ → Fin d → ℝ) : Prop where
  trajectory : IsTrajectory v (uIcc t0 (t0 + n * h)) X
  speed : ∀ t ∈ uIcc t0 (t0 + n * h), ‖v t (X t)‖ ≤ B
  accel : ∀ s ∈ uIcc t0 (t0 + n * h), ∀ t ∈ uIcc t0 (t0 + n * h),
    ‖v s (X s) - v t (X t)‖ ≤ M * |s - t|

/-- The bound on the error of the final positions: velocities known up to `ε`, Lipschitz
constant `L`, speed `B`, acceleration `M`, `n` steps of `h`. -/
noncomputable def posError (ε L B M h : ℝ) (n : ℕ) : ℝ :=
  n * |h| * (2 * ε + (2 * M + L * B) * |h|) * (1 + 2 * L * |h|) ^ n

/-- The error of the positions, and the steps themselves, are small against `r`. -/
structure SmallSteps (ε L B M h : ℝ) (n : ℕ) (r : ℝ) : Prop where
  eps : 0 ≤ ε
  lip : 0 ≤ L
  speed : 0 ≤ B
  accel : 0 ≤ M
  step : L * |h| ≤ 1
  stay : posError ε L B M h n ≤ r / 2
  reach : |h| * (2 * B + 2 * ε + 2 * L * r) ≤ r / 2

theorem posError_eq (ε L B M h : ℝ) (n : ℕ) :
    posError ε L B M h n = errBound L (2 * ε + (2 * M + L * B) * |h|) h n := by
  unfold posError errBound
  ring

/-! ## Runs with velocities known near the trajectories -/

section
variable {K F : Type} [Zero K] [One K] [Add K] [Sub K] [Mul K] [Div K] [NatCast K] [IntCast K]
  [Min K] [Max K] [NumLits K] [DecidableEq K]

theorem run_flow_on_2d (env : Env K F) (src : Source K) {I0 : AnyInterp K} (hI : I0.Unused)
    (k : Kind) (g : ℕ → (Fin 2 → K) → Fin 2 → K) (S : ℕ → Set (Fin 2 → K))
    (hup : ∀ i < src.numSteps, (src.updated env I0 (i + 1)).2 = none) (N : ℕ)
    (hv : ∀ i < src.numSteps,
      PointwiseOn (S i) (4 * N) ((src.updated env I0 (i + 1)).1.velocity env) (g i))
    {id : String} (hid : src.id env = .ok id) (seed : NDArray K) (p : Particles K) (queue : Bool)
    (hs : seed.shape = [4 * N, 2]) (hp : mkParticles seed = .ok p)
    (hg : src.getParticles env.fs = .ok p)
    (hS : ∀ i < N, ∀ b, ∀ j < src.numSteps, ∀ z ∈ stages k (g j) src.timestep
      (flowMap k g src.timestep j (groupOf seed 4 N 2 i b)), z ∈ S j) :
    ((⟨src, I0, .fresh k⟩ : Solver K).run env queue none).result =
      match pyMap (fun i => centralDiff2
          (fun b => flowMap k g src.timestep src.numSteps (groupOf seed 4 N 2 i b))
          (groupOf seed 4 N 2 i)) (List.range N) with
      | .error e => .error e
      | .ok js => (env.ftle2 js (runPeriod env src)).map some := by
  obtain ⟨q1, q2, -, -⟩ := mkParticles_groups (d := 2) (.inl rfl) hs hp
  obtain ⟨st, pos, h1, h2, h3, h4⟩ := loop_flow_on env src id queue hI k (p := p) (R := 4 * N)
    (d := 2) (by rw [q1, hs]) g S src.numSteps hup hv (fun r hr i hi z hz => by
      have hN : 0 < N := by omega
      refine hS (r % N) (Nat.mod_lt _ hN) ⟨r / N, by
        rw [Nat.div_lt_iff_lt_mul hN]; exact hr⟩ i hi z ?_
      rw [q1] at hz
      have e : groupOf seed 4 N 2 (r % N) ⟨r / N, by
          rw [Nat.div_lt_iff_lt_mul hN]; exact hr⟩ = rowOf seed 2 r := by
        simp only [groupOf]
        rw [Nat.div_add_mod' r N]
      rw [e]
      exact hz)
  have hr := (run_of_steps (env := env) (queue := queue) (writer := none)
    (S := ⟨src, I0, .fresh k⟩) hg hid h1).1
  rw [hr, h2]
  simp only [computeFtle_groups2 env hs h3 hp]
  have hc : ∀ i ∈ List.range N, centralDiff2 (groupOf pos 4 N 2 i) (groupOf seed 4 N 2 i) =
      centralDiff2 (fun b => flowMap k g src.timestep src.numSteps (groupOf seed 4 N 2 i b))
        (groupOf seed 4 N 2 i) := by
    intro i hi
    have hi := List.mem_range.1 hi
    congr 1
    funext b
    have hb : b.1 * N + i < 4 * N := by
      have := b.2
      nlinarith [Nat.mul_le_mul_right N (Nat.le_of_lt_succ (show b.1 < 3 + 1 by omega))]
    simp only [groupOf]
    rw [h4 _ hb, q1]
  rw [pyMap_congr hc, runPeriod]
  cases pyMap (fun i => centralDiff2 (fun b => flowMap k g src.timestep src.numSteps
    (groupOf seed 4 N 2 i b)) (groupOf seed 4 N 2 i)) (List.range N) <;> rfl

theorem run_flow_on_3d (env : Env K F) (src : Source K) {I0 : AnyInterp K} (hI : I0.Unused)
    (k : Kind) (g : ℕ → (Fin 3 → K) → Fin 3 → K) (S : ℕ → Set (Fin 3 → K))
    (hup : ∀ i < src.numSteps, (src.updated env I0 (i + 1)).2 = none) (N : ℕ)
    (hv : ∀ i < src.numSteps,
      PointwiseOn (S i) (6 * N) ((src.updated env I0 (i + 1)).1.velocity env) (g i))
    {id : String} (hid : src.id env = .ok id) (seed : NDArray K) (p : Particles K) (queue : Bool)
    (hs : seed.shape = [6 * N, 3]) (hp : mkParticles seed = .ok p)
    (hg : src.getParticles env.fs = .ok p)
    (hS : ∀ i < N, ∀ b, ∀ j < src.numSteps, ∀ z ∈ stages k (g j) src.timestep
      (flowMap k g src.timestep j (groupOf seed 6 N 3 i b)), z ∈ S j) :
    ((⟨src, I0, .fresh k⟩ : Solver K).run env queue none).result =
      match pyMap (fun i => centralDiff3
          (fun b => flowMap k g src.timestep src.numSteps (groupOf seed 6 N 3 i b))
          (groupOf seed 6 N 3 i)) (List.range N) with
      | .error e => .error e
      | .ok js => (env.ftle3 js (runPeriod env src)).map some := by
  obtain ⟨q1, q2, -, -⟩ := mkParticles_groups (d := 3) (.inr rfl) hs hp
  obtain ⟨st, pos, h1, h2, h3, h4⟩ := loop_flow_on env src id queue hI k (p := p) (R := 6 * N)
    (d := 3) (by rw [q1, hs]) g S src.numSteps hup hv (fun r hr i hi z hz => by
      have hN : 0 < N := by omega
      refine hS (r % N) (Nat.mod_lt _ hN) ⟨r / N, by
        rw [Nat.div_lt_iff_lt_mul hN]; exact hr⟩ i hi z ?_
      rw [q1] at hz
      have e : groupOf seed 6 N 3 (r % N) ⟨r / N, by
          rw [Nat.div_lt_iff_lt_mul hN]; exact hr⟩ = rowOf seed 3 r := by
        simp only [groupOf]
        rw [Nat.div_add_mod' r N]
      rw [e]
      exact hz)
  have hr := (run_of_steps (env := env) (queue := queue) (writer := none)
    (S := ⟨src, I0, .fresh k⟩) hg hid h1).1
  rw [hr, h2]
  simp only [computeFtle_groups3 env hs h3 hp]
  have hc : ∀ i ∈ List.range N, centralDiff3 (groupOf pos 6 N 3 i) (groupOf seed 6 N 3 i) =
      centralDiff3 (fun b => flowMap k g src.timestep src.numSteps (groupOf seed 6 N 3 i b))
        (groupOf seed 6 N 3 i) := by
    intro i hi
    have hi := List.mem_range.1 hi
    congr 1
    funext b
    have hb : b.1 * N + i < 6 * N := by
      have := b.2
      nlinarith [Nat.mul_le_mul_right N (Nat.le_of_lt_succ (show b.1 < 5 + 1 by omega))]
    simp only [groupOf]
    rw [h4 _ hb, q1]
  rw [pyMap_congr hc, runPeriod]
  cases pyMap (fun i => centralDiff3 (fun b => flowMap k g src.timestep src.numSteps
    (groupOf seed 6 N 3 i b)) (groupOf seed 6 N 3 i)) (List.range N) <;> rfl

end

/-! ## Differences of perturbed positions -/

theorem quot_error {a b a' b' δ E : ℝ} (ha : |a - a'| ≤ E) (hb : |b - b'| ≤ E) :
    |(a - b) / δ - (a' - b') / δ| ≤ 2 * E * (1 / |δ|) := by
  rw [← sub_div, abs_div, mul_one_div]
  refine div_le_div_of_nonneg_right ?_ (abs_nonneg δ)
  rw [abs_le] at *
  constructor <;> linarith [ha.1, ha.2, hb.1, hb.2]

theorem diffs2_error {X Y x : Fin 4 → Fin 2 → ℝ} {E : ℝ} (h : ∀ b, ‖X b - Y b‖ ≤ E) :
    ∑ r, ∑ c, |diffs2 X x r c - diffs2 Y x r c| ≤
      4 * E * (1 / |x 1 0 - x 0 0| + 1 / |x 2 1 - x 3 1|) := by
  have h' : ∀ b c, |X b c - Y b c| ≤ E := fun b c => (norm_le_pi_norm (X b - Y b) c).trans (h b)
  have e1 := fun r => quot_error (δ := x 1 0 - x 0 0) (h' 1 r) (h' 0 r)
  have e2 := fun r => quot_error (δ := x 2 1 - x 3 1) (h' 2 r) (h' 3 r)
  simp only [Fin.sum_univ_two, diffs2]
  simp only [Matrix.of_apply, cons_val', cons_val_zero, cons_val_one, cons_val_fin_one]
  have := e1 0
  have := e1 1
  have := e2 0
  have := e2 1
  linarith

theorem diffs3_error {X Y x : Fin 6 → Fin 3 → ℝ} {E : ℝ} (h : ∀ b, ‖X b - Y b‖ ≤ E) :
    ∑ r, ∑ c, |diffs3 X x r c - diffs3 Y x r c| ≤
      6 * E * (1 / |x 1 0 - x 0 0| + 1 / |x 2 1 - x 3 1| + 1 / |x 4 2 - x 5 2|) := by
  have h' : ∀ b c, |X b c - Y b c| ≤ E := fun b c => (norm_le_pi_norm (X b - Y b) c).trans (h b)
  have e1 := fun r => quot_error (δ := x 1 0 - x 0 0) (h' 1 r) (h' 0 r)
  have e2 := fun r => quot_error (δ := x 2 1 - x 3 1) (h' 2 r) (h' 3 r)
  have e3 := fun r => quot_error (δ := x 4 2 - x 5 2) (h' 4 r) (h' 5 r)
  simp only [Fin.sum_univ_three, diffs3, Matrix.of_apply]
  have := e1 0
  have := e1 1
  have := e1 2
  have := e2 0
  have := e2 1
  have := e2 2
  have := e3 0
  have := e3 1
  have := e3 2
  linarith

/-! ## C84, any source -/

/-- **C84 (2-D).**  A run over at least two snapshots, whose source hands out, in step `j`, the
velocity field `g j` on the region `S j`, and `g j` is within `ε + L · distance` of the true velocity
near the exact trajectories: the run succeeds, and the value of every group differs from
`(1/T) ln σ` by at most `(1/T) b / (σ - b)`, where `σ` is the maximal stretching of the central
differences of the exact positions after `n` steps, `T = (n - 1)|h|` is the period the code
divides by, and `b` is the error of the positions over the distances of the seeds. -/
theorem C84_error_2d {env : Env ℝ FVal} (he : RealEnv env) (queue : Bool) (k : Kind)
    {v : ℝ → (Fin 2 → ℝ) → Fin 2 → ℝ} {t0 ε L B M r : ℝ} {src : Source ℝ} {n : ℕ}
    (hn : src.numSteps = n) (hn2 : 2 ≤ n) {h : ℝ} (hh : src.timestep = h) (hh0 : h ≠ 0)
    (small : SmallSteps ε L B M h n r) {N : ℕ} {seed : NDArray ℝ} (hs : seed.shape = [4 * N, 2])
    {P : Particles ℝ} (hp : mkParticles seed = .ok P) (hP : src.getParticles env.fs = .ok P)
    (X : ℕ → Fin 4 → ℝ → Fin 2 → ℝ)
    (hX : ∀ i < N, ∀ b, Along v t0 h n B M (X i b) ∧ X i b t0 = groupOf seed 4 N 2 i b)
    {I0 : AnyInterp ℝ} (hI : I0.Unused) {id : String} (hid : src.id env = .ok id)
    (hup : ∀ i < n, (src.updated env I0 (i + 1)).2 = none)
    (g : ℕ → (Fin 2 → ℝ) → Fin 2 → ℝ) (S : ℕ → Set (Fin 2 → ℝ))
    (hv : ∀ j < n, PointwiseOn (S j) (4 * N) ((src.updated env I0 (j + 1)).1.velocity env) (g j))
    (hS : ∀ i < N, ∀ b, ∀ j < n, ∀ z, ‖z - X i b (t0 + j * h)‖ ≤ r → z ∈ S j ∧
      ‖g j z - v (t0 + j * h) (X i b (t0 + j * h))‖ ≤ ε + L * ‖z - X i b (t0 + j * h)‖)
    (D : ℕ → Matrix (Fin 2) (Fin 2) ℝ)
    (hD : ∀ i < N, centralDiff2 (fun b => X i b (t0 + n * h)) (groupOf seed 4 N 2 i) = .ok (D i))
    (σ b : ℕ → ℝ) (hb : ∀ i, b i = 4 * posError ε L B M h n *
      (1 / |groupOf seed 4 N 2 i 1 0 - groupOf seed 4 N 2 i 0 0| +
        1 / |groupOf seed 4 N 2 i 2 1 - groupOf seed 4 N 2 i 3 1|))
    (hσ : ∀ i < N, IsMaxStretch (D i) (σ i) ∧ b i < σ i) :
    ∃ Λ : ℕ → ℝ, ((⟨src, I0, .fresh k⟩ : Solver ℝ).run env queue none).result =
        .ok (some ((List.range N).map fun i => .fin (Λ i))) ∧
      ∀ i < N, |Λ i - 1 / (((n : ℝ) - 1) * |h|) * Real.log (σ i)| ≤
        1 / (((n : ℝ) - 1) * |h|) * (b i / (σ i - b i)) := by
  have near : ∀ i < N, ∀ b,
      ‖flowMap k g h n (groupOf seed 4 N 2 i b) - X i b (t0 + n * h)‖ ≤ posError ε L B M h n ∧
      ∀ j < n, ∀ z ∈ stages k (g j) h (flowMap k g h j (groupOf seed 4 N 2 i b)),
        ‖z - X i b (t0 + j * h)‖ ≤ r := by
    intro i hi b
    obtain ⟨h1, h2⟩ := hX i hi b
    rw [← h2, posError_eq]
    exact flow_near k h1.trajectory small.lip small.eps small.accel small.speed
      (fun j hj z hz => (hS i hi b j hj z hz).2) h1.speed h1.accel small.step
      (by rw [← posError_eq]; exact small.stay) small.reach
  have hT : 0 < ((n : ℝ) - 1) * |h| := by
    have : (2 : ℝ) ≤ n := by exact_mod_cast hn2
    exact mul_pos (by linarith) (abs_pos.2 hh0)
  obtain ⟨Λ, h1, h2⟩ := field_error ftle2_computes hT
    (fun i => diffs2 (fun b => flowMap k g h n (groupOf seed 4 N 2 i b)) (groupOf seed 4 N 2 i)) D
    σ b (fun i hi => by
      rw [(centralDiff2_ok.1 (hD i hi)).2, hb]
      exact diffs2_error fun b => (near i hi b).1) hσ
  refine ⟨Λ, ?_, h2⟩
  rw [run_flow_on_2d env src hI k g S (fun i hi => hup i (by omega)) N
    (fun j hj => hv j (by omega)) hid seed P queue hs hp hP (fun i hi b j hj z hz => by
      rw [hh] at hz
      exact (hS i hi b j (by omega) z ((near i hi b).2 j (by omega) z hz)).1)]
  rw [pyMap_ok_map (g := fun i => diffs2 (fun b => flowMap k g h n (groupOf seed 4 N 2 i b))
    (groupOf seed 4 N 2 i))]
  · have e : runPeriod env src = ((n : ℝ) - 1) * |h| := by
      unfold runPeriod
      rw [hn, hh, he.abs]
      push_cast
      rfl
    simp only [e, he.f2, h1]
    rfl
  · intro i hi
    rw [hn, hh]
    exact centralDiff2_ok.2 ⟨(centralDiff2_ok.1 (hD i (List.mem_range.1 hi))).1, rfl⟩

/-- **C84 (3-D).** -/
theorem C84_error_3d {env : Env ℝ FVal} (he : RealEnv env) (queue : Bool) (k : Kind)
    {v : ℝ → (Fin 3 → ℝ) → Fin 3 → ℝ} {t0 ε L B M r : ℝ} {src : Source ℝ} {n : ℕ}
    (hn : src.numSteps = n) (hn2 : 2 ≤ n) {h : ℝ} (hh : src.timestep = h) (hh0 : h ≠ 0)
    (small : SmallSteps ε L B M h n r) {N : ℕ} {seed : NDArray ℝ} (hs : seed.shape = [6 * N, 3])
    {P : Particles ℝ} (hp : mkParticles seed = .ok P) (hP : src.getParticles env.fs = .ok P)
    (X : ℕ → Fin 6 → ℝ → Fin 3 → ℝ)
    (hX : ∀ i < N, ∀ b, Along v t0 h n B M (X i b) ∧ X i b t0 = groupOf seed 6 N 3 i b)
    {I0 : AnyInterp ℝ} (hI : I0.Unused) {id : String} (hid : src.id env = .ok id)
    (hup : ∀ i < n, (src.updated env I0 (i + 1)).2 = none)
    (g : ℕ → (Fin 3 → ℝ) → Fin 3 → ℝ) (S : ℕ → Set (Fin 3 → ℝ))
    (hv : ∀ j < n, PointwiseOn (S j) (6 * N) ((src.updated env I0 (j + 1)).1.velocity env) (g j))
    (hS : ∀ i < N, ∀ b, ∀ j < n, ∀ z, ‖z - X i b (t0 + j * h)‖ ≤ r → z ∈ S j ∧
      ‖g j z - v (t0 + j * h) (X i b (t0 + j * h))‖ ≤ ε + L * ‖z - X i b (t0 + j * h)‖)
    (D : ℕ → Matrix (Fin 3) (Fin 3) ℝ)
    (hD : ∀ i < N, centralDiff3 (fun b => X i b (t0 + n * h)) (groupOf seed 6 N 3 i) = .ok (D i))
    (σ b : ℕ → ℝ) (hb : ∀ i, b i = 6 * posError ε L B M h n *
      (1 / |groupOf seed 6 N 3 i 1 0 - groupOf seed 6 N 3 i 0 0| +
        1 / |groupOf seed 6 N 3 i 2 1 - groupOf seed 6 N 3 i 3 1| +
        1 / |groupOf seed 6 N 3 i 4 2 - groupOf seed 6 N 3 i 5 2|))
    (hσ : ∀ i < N, IsMaxStretch (D i) (σ i) ∧ b i < σ i) :
    ∃ Λ : ℕ → ℝ, ((⟨src, I0, .fresh k⟩ : Solver ℝ).run env queue none).result =
        .ok (some ((List.range N).map fun i => .fin (Λ i))) ∧
      ∀ i < N, |Λ i - 1 / (((n : ℝ) - 1) * |h|) * Real.log (σ i)| ≤
        1 / (((n : ℝ) - 1) * |h|) * (b i / (σ i - b i)) := by
  have near : ∀ i < N, ∀ b,
      ‖flowMap k g h n (groupOf seed 6 N 3 i b) - X i b (t0 + n * h)‖ ≤ posError ε L B M h n ∧
      ∀ j < n, ∀ z ∈ stages k (g j) h (flowMap k g h j (groupOf seed 6 N 3 i b)),
        ‖z - X i b (t0 + j * h)‖ ≤ r := by
    intro i hi b
    obtain ⟨h1, h2⟩ := hX i hi b
    rw [← h2, posError_eq]
    exact flow_near k h1.trajectory small.lip small.eps small.accel small.speed
      (fun j hj z hz => (hS i hi b j hj z hz).2) h1.speed h1.accel small.step
      (by rw [← posError_eq]; exact small.stay) small.reach
  have hT : 0 < ((n : ℝ) - 1) * |h| := by
    have : (2 : ℝ) ≤ n := by exact_mod_cast hn2
    exact mul_pos (by linarith) (abs_pos.2 hh0)
  obtain ⟨Λ, h1, h2⟩ := field_error ftle3_computes hT
    (fun i => diffs3 (fun b => flowMap k g h n (groupOf seed 6 N 3 i b)) (groupOf seed 6 N 3 i)) D
    σ b (fun i hi => by
      rw [(centralDiff3_ok.1 (hD i hi)).2, hb]
      exact diffs3_error fun b => (near i hi b).1) hσ
  refine ⟨Λ, ?_, h2⟩
  rw [run_flow_on_3d env src hI k g S (fun i hi => hup i (by omega)) N
    (fun j hj => hv j (by omega)) hid seed P queue hs hp hP (fun i hi b j hj z hz => by
      rw [hh] at hz
      exact (hS i hi b j (by omega) z ((near i hi b).2 j (by omega) z hz)).1)]
  rw [pyMap_ok_map (g := fun i => diffs3 (fun b => flowMap k g h n (groupOf seed 6 N 3 i b))
    (groupOf seed 6 N 3 i))]
  · have e : runPeriod env src = ((n : ℝ) - 1) * |h| := by
      unfold runPeriod
      rw [hn, hh, he.abs]
      push_cast
      rfl
    simp only [e, he.f3, h1]
    rfl
  · intro i hi
    rw [hn, hh]
    exact centralDiff3_ok.2 ⟨(centralDiff3_ok.1 (hD i (List.mem_range.1 hi))).1, rfl⟩

/-! ## C84, gridded files

The fast interpolator, its coordinates handed out with every snapshot (with one coordinate file
for all snapshots it fails at the second step, C29). -/

/-- The snapshots of the source sample `v` at the times `t0, t0 + h, ...` at the nodes of one
uniform grid, listed with `x` varying fastest; the coordinates are handed out in every step. -/
structure Samples2 (fs : MatFS ℝ) (s : FileSource ℝ) (v : ℝ → (Fin 2 → ℝ) → Fin 2 → ℝ) (t0 : ℝ)
    (nx ny : ℕ) (x0 dx y0 dy : ℝ) : Prop where
  fresh : s.reuseCoordinates = false
  hnx : 2 ≤ nx
  hny : 2 ≤ ny
  lnx : (nx : ℤ) < intLim
  lny : (ny : ℤ) < intLim
  hdx : 0 < dx
  hdy : 0 < dy
  data : ∀ j < s.snapshotFiles.length, ∃ V P, s.Listed fs j V P ∧
    V.shape = [2, nx * ny] ∧ P.shape = [2, nx * ny] ∧
    (∀ a < nx, ∀ b < ny, P.get [0, a + nx * b] = x0 + a * dx ∧ P.get [1, a + nx * b] = y0 + b * dy) ∧
    ∀ q < nx * ny, ∀ c : Fin 2,
      V.get [c, q] = v (t0 + j * s.timestep) ![P.get [0, q], P.get [1, q]] c

/-- The rectangle of the grid. -/
def Rect2 (nx ny : ℕ) (x0 dx y0 dy : ℝ) : Set (Fin 2 → ℝ) :=
  {z | x0 ≤ z 0 ∧ z 0 ≤ x0 + ((nx : ℝ) - 1) * dx ∧ y0 ≤ z 1 ∧ z 1 ≤ y0 + ((ny : ℝ) - 1) * dy}

theorem listed_grid2 {nx ny : ℕ} {x0 dx y0 dy : ℝ} {V P : NDArray ℝ} (hnx : 2 ≤ nx) (hny : 2 ≤ ny)
    (lnx : (nx : ℤ) < intLim) (lny : (ny : ℤ) < intLim) (hdx : 0 < dx) (hdy : 0 < dy)
    (hV : V.shape = [2, nx * ny]) (hP : P.shape = [2, nx * ny])
    (h : ∀ a < nx, ∀ b < ny, P.get [0, a + nx * b] = x0 + a * dx ∧
      P.get [1, a + nx * b] = y0 + b * dy) : Grid2 nx ny x0 dx y0 dy V P := by
  have split : ∀ q < nx * ny, q % nx < nx ∧ q / nx < ny ∧ q = q % nx + nx * (q / nx) := by
    intro q hq
    exact ⟨Nat.mod_lt _ (by omega), Nat.div_lt_of_lt_mul hq, (Nat.mod_add_div q nx).symm⟩
  have lt : ∀ a < nx, ∀ b < ny, a + nx * b < nx * ny := by
    intro a ha b hb
    nlinarith
  refine ⟨hnx, hny, lnx, lny, hdx, hdy, hP, hV, ⟨fun q hq => ?_, fun a ha => ?_⟩,
    ⟨fun q hq => ?_, fun b hb => ?_⟩⟩
  · obtain ⟨h1, h2, h3⟩ := split q hq
    exact ⟨_, h1, by rw [h3]; simpa using (h _ h1 _ h2).1⟩
  · exact ⟨_, lt a ha 0 (by omega), (h a ha 0 (by omega)).1⟩
  · obtain ⟨h1, h2, h3⟩ := split q hq
    refine ⟨_, h2, ?_⟩
    conv_lhs => rw [h3]
    exact (h _ h1 _ h2).2
  · exact ⟨_, lt 0 (by omega) b hb, (h 0 (by omega) b hb).2⟩

/-- The velocity field the interpolator hands out for step `j`. -/
noncomputable def bilinear (v : ℝ → (Fin 2 → ℝ) → Fin 2 → ℝ) (t : ℝ) (nx ny : ℕ)
    (x0 dx y0 dy : ℝ) (z : Fin 2 → ℝ) : Fin 2 → ℝ := fun c =>
  cellValue2 nx ny (fun a b => v t ![x0 + a * dx, y0 + b * dy] c) ((z 0 - x0) / dx)
    ((z 1 - y0) / dy)

theorem listed_data {fs : MatFS ℝ} {s : FileSource ℝ} (hr : s.reuseCoordinates = false) {j : ℕ}
    {V P : NDArray ℝ} (h : s.Listed fs j V P) : s.dataForStep fs j = .ok (V, some P) := by
  obtain ⟨⟨f, f1, f2⟩, ⟨g, g1, g2⟩⟩ := h
  unfold FileSource.dataForStep
  simp [f1, f2, g1, g2, hr]

/-- The interpolator after the update of step `j`. -/
theorem samples_updated_2d {env : Env ℝ FVal} (hm : ExactTarget env.m) {s : FileSource ℝ}
    {v : ℝ → (Fin 2 → ℝ) → Fin 2 → ℝ} {t0 : ℝ} {nx ny : ℕ} {x0 dx y0 dy : ℝ}
    (hd : Samples2 env.fs s v t0 nx ny x0 dx y0 dy) (j : ℕ) (hj : j < s.snapshotFiles.length)
    (R : ℕ) :
    ((Source.file s).updated env (.highPerf (HighPerf.fresh [nx, ny])) (j + 1)).2 = none ∧
    PointwiseOn {z | OnAxis nx x0 dx (z 0) ∧ OnAxis ny y0 dy (z 1)} R
      (((Source.file s).updated env (.highPerf (HighPerf.fresh [nx, ny])) (j + 1)).1.velocity env)
      (bilinear v (t0 + j * s.timestep) nx ny x0 dx y0 dy) := by
  have shape : ∀ i ≤ s.snapshotFiles.length, ∃ s' : HighPerf ℝ, s'.gridShape = [nx, ny] ∧
      (Source.file s).updated env (.highPerf (HighPerf.fresh [nx, ny])) i = (.highPerf s', none) := by
    intro i
    induction i with
    | zero => exact fun _ => ⟨_, rfl, rfl⟩
    | succ i ih =>
      intro hi
      obtain ⟨s', h1, h2⟩ := ih (by omega)
      obtain ⟨V, P, a1, a2, a3, a4, -⟩ := hd.data i (by omega)
      obtain ⟨s2, x, y, b1, b2, -⟩ := highPerf_update_2d
        (listed_grid2 hd.hnx hd.hny hd.lnx hd.lny hd.hdx hd.hdy a2 a3 a4) h1
      refine ⟨s2, b2, ?_⟩
      simp only [Source.updated, h2, Source.updateInterp, listed_data hd.fresh a1,
        AnyInterp.update, b1]
  obtain ⟨s', h1, h2⟩ := shape j hj.le
  obtain ⟨V, P, a1, a2, a3, a4, a5⟩ := hd.data j hj
  obtain ⟨s2, x, y, b1, b2, b3, b4, -, -, -, fx, fy⟩ := highPerf_update_2d
    (listed_grid2 hd.hnx hd.hny hd.lnx hd.lny hd.hdx hd.hdy a2 a3 a4) h1
  have hu : (Source.file s).updated env (.highPerf (HighPerf.fresh [nx, ny])) (j + 1) =
      (.highPerf s2, none) := by
    simp only [Source.updated, h2, Source.updateInterp, listed_data hd.fresh a1,
      AnyInterp.update, b1]
  rw [hu]
  refine ⟨rfl, fun pos hp hS => ?_⟩
  have cells : ∀ r < R, InCells nx ((pos.get [r, 0] - x0) / dx) ∧
      InCells ny ((pos.get [r, 1] - y0) / dy) := fun r hr =>
    ⟨(hS r hr).1.inCells hd.hdx, (hS r hr).2.inCells hd.hdy⟩
  obtain ⟨out, o1, o2, o3⟩ := highPerf_interpolate_2d hm env.junk
    (f := fun c i j => V.get [c, i + nx * j]) b3 b4 fx fy
    hd.hdx.ne' hd.hdy.ne' hd.lnx hd.lny hp (fun r hr =>
      ⟨inCells_safe hd.lnx (cells r hr).1, inCells_safe hd.lny (cells r hr).2⟩)
  refine ⟨out, o1, o2, fun r hr => ?_⟩
  funext c
  show out.get [r, c.1] = _
  rw [o3 r hr c.1 c.2]
  unfold bilinear
  refine cellValue2_congr (fun a b ha hb => ?_) _ _
  have hq : a + nx * b < nx * ny := by nlinarith
  have := a5 _ hq c
  rw [(a4 a ha b hb).1, (a4 a ha b hb).2] at this
  exact this

theorem bilinear_error {v : ℝ → (Fin 2 → ℝ) → Fin 2 → ℝ} {t : ℝ} {nx ny : ℕ} {x0 dx y0 dy : ℝ}
    (hdx : 0 < dx) (hdy : 0 < dy) {L : ℝ} (hL0 : 0 ≤ L)
    (hL : ∀ w ∈ Rect2 nx ny x0 dx y0 dy, ∀ w' ∈ Rect2 nx ny x0 dx y0 dy,
      ‖v t w - v t w'‖ ≤ L * ‖w - w'‖) {y z : Fin 2 → ℝ} (hy : y ∈ Rect2 nx ny x0 dx y0 dy)
    (hz : OnAxis nx x0 dx (z 0) ∧ OnAxis ny y0 dy (z 1)) :
    ‖bilinear v t nx ny x0 dx y0 dy z - v t y‖ ≤ L * max dx dy + L * ‖z - y‖ := by
  have hm : 0 ≤ max dx dy := hdx.le.trans (le_max_left _ _)
  rw [pi_norm_le_iff_of_nonneg (by positivity)]
  intro c
  refine cellValue2_error (hz.1.inCells hdx) (hz.2.inCells hdy) fun i j hi hj h1 h2 => ?_
  have n1 := node_near hdx h1
  have n2 := node_near hdy h2
  have hi' : (i : ℝ) ≤ (nx : ℝ) - 1 := by
    have : ((i + 1 : ℕ) : ℝ) ≤ nx := by exact_mod_cast hi
    push_cast at this; linarith
  have hj' : (j : ℝ) ≤ (ny : ℝ) - 1 := by
    have : ((j + 1 : ℕ) : ℝ) ≤ ny := by exact_mod_cast hj
    push_cast at this; linarith
  set w : Fin 2 → ℝ := ![x0 + i * dx, y0 + j * dy] with hw
  have w0 : w 0 = x0 + i * dx := rfl
  have w1 : w 1 = y0 + j * dy := rfl
  have hwR : w ∈ Rect2 nx ny x0 dx y0 dy := by
    have := mul_nonneg (Nat.cast_nonneg (α := ℝ) i) hdx.le
    have := mul_nonneg (Nat.cast_nonneg (α := ℝ) j) hdy.le
    have := mul_le_mul_of_nonneg_right hi' hdx.le
    have := mul_le_mul_of_nonneg_right hj' hdy.le
    refine ⟨?_, ?_, ?_, ?_⟩ <;> simp only [w0, w1] <;> linarith
  have hwz : ‖w - z‖ ≤ max dx dy := by
    rw [pi_norm_le_iff_of_nonneg hm]
    intro c
    fin_cases c
    · exact n1.trans (le_max_left _ _)
    · exact n2.trans (le_max_right _ _)
  have hwy : ‖w - y‖ ≤ max dx dy + ‖z - y‖ := by
    have := norm_add_le (w - z) (z - y)
    rw [sub_add_sub_cancel] at this
    linarith
  refine (norm_le_pi_norm (v t w - v t y) c).trans ((hL w hwR y hy).trans ?_)
  have := mul_le_mul_of_nonneg_left hwy hL0
  linarith

/-- **C84 (gridded files, 2-D).**  The velocities are those of `v`, sampled on a uniform grid and
interpolated bilinearly; the error of the velocities is `L · max(dx, dy)`. -/
theorem C84_gridded_2d {env : Env ℝ FVal} (he : RealEnv env) (hm : ExactTarget env.m) (queue : Bool)
    (k : Kind) {v : ℝ → (Fin 2 → ℝ) → Fin 2 → ℝ} {t0 L B M r : ℝ} {s : FileSource ℝ}
    {nx ny : ℕ} {x0 dx y0 dy : ℝ} (hd : Samples2 env.fs s v t0 nx ny x0 dx y0 dy) {n : ℕ}
    (hn : s.snapshotFiles.length = n) (hn2 : 2 ≤ n) {h : ℝ} (hh : s.timestep = h) (hh0 : h ≠ 0)
    (small : SmallSteps (L * max dx dy) L B M h n r) {N : ℕ} {seed : NDArray ℝ}
    (hs : seed.shape = [4 * N, 2]) {P : Particles ℝ} (hp : mkParticles seed = .ok P)
    (hP : readSeedParticles env.fs s.particleFile = .ok P)
    (X : ℕ → Fin 4 → ℝ → Fin 2 → ℝ)
    (hX : ∀ i < N, ∀ b, Along v t0 h n B M (X i b) ∧ X i b t0 = groupOf seed 4 N 2 i b)
    (hL : ∀ j < n, ∀ w ∈ Rect2 nx ny x0 dx y0 dy, ∀ w' ∈ Rect2 nx ny x0 dx y0 dy,
      ‖v (t0 + j * h) w - v (t0 + j * h) w'‖ ≤ L * ‖w - w'‖)
    (hin : ∀ i < N, ∀ b, ∀ j < n, ∀ z, ‖z - X i b (t0 + j * h)‖ ≤ r →
      OnAxis nx x0 dx (z 0) ∧ OnAxis ny y0 dy (z 1))
    (D : ℕ → Matrix (Fin 2) (Fin 2) ℝ)
    (hD : ∀ i < N, centralDiff2 (fun b => X i b (t0 + n * h)) (groupOf seed 4 N 2 i) = .ok (D i))
    (σ b : ℕ → ℝ) (hb : ∀ i, b i = 4 * posError (L * max dx dy) L B M h n *
      (1 / |groupOf seed 4 N 2 i 1 0 - groupOf seed 4 N 2 i 0 0| +
        1 / |groupOf seed 4 N 2 i 2 1 - groupOf seed 4 N 2 i 3 1|))
    (hσ : ∀ i < N, IsMaxStretch (D i) (σ i) ∧ b i < σ i) :
    ∃ Λ : ℕ → ℝ, ((⟨.file s, .highPerf (HighPerf.fresh [nx, ny]), .fresh k⟩ : Solver ℝ).run env
        queue none).result = .ok (some ((List.range N).map fun i => .fin (Λ i))) ∧
      ∀ i < N, |Λ i - 1 / (((n : ℝ) - 1) * |h|) * Real.log (σ i)| ≤
        1 / (((n : ℝ) - 1) * |h|) * (b i / (σ i - b i)) := by
  have hr0 : 0 ≤ r := by
    have h1 := small.reach
    have h2 := small.stay
    have : 0 ≤ posError (L * max dx dy) L B M h n := by
      rw [posError_eq]
      have := small.eps
      have := small.lip
      have := small.speed
      have := small.accel
      exact errBound_nonneg small.lip (by positivity) n
    linarith
  have hX0 : ∀ i < N, ∀ b, ∀ j < n, X i b (t0 + j * h) ∈ Rect2 nx ny x0 dx y0 dy := by
    intro i hi b j hj
    obtain ⟨⟨a1, a2⟩, ⟨a3, a4⟩⟩ := hin i hi b j hj _ (by rw [sub_self, norm_zero]; exact hr0)
    exact ⟨a1, a2.le, a3, a4.le⟩
  refine C84_error_2d (src := .file s) he queue k hn hn2 hh hh0 small hs hp hP X hX
    (I0 := .highPerf (HighPerf.fresh [nx, ny])) rfl rfl
    (fun i hi => (samples_updated_2d hm hd i (by omega) 0).1)
    (fun j => bilinear v (t0 + j * h) nx ny x0 dx y0 dy) _
    (fun j hj => by rw [← hh]; exact (samples_updated_2d hm hd j (by omega) (4 * N)).2)
    (fun i hi b j hj z hz => ⟨hin i hi b j hj z hz, ?_⟩) D hD σ b hb hσ
  exact bilinear_error hd.hdx hd.hdy small.lip (hL j hj) (hX0 i hi b j hj) (hin i hi b j hj z hz)

/-! ### Three dimensions

Grids with as many nodes in `x` as in `y`: for others the interpolator exchanges the two
directions (C30). -/

/-- The snapshots sample `v` at the nodes of one uniform grid with `m × m × nz` nodes, listed in
the default order of `numpy.meshgrid`: `z` fastest, then `x`, then `y`. -/
structure Samples3 (fs : MatFS ℝ) (s : FileSource ℝ) (v : ℝ → (Fin 3 → ℝ) → Fin 3 → ℝ) (t0 : ℝ)
    (m nz : ℕ) (x0 dx y0 dy z0 dz : ℝ) : Prop where
  fresh : s.reuseCoordinates = false
  hm : 2 ≤ m
  hnz : 2 ≤ nz
  lm : (m : ℤ) < intLim
  lnz : (nz : ℤ) < intLim
  lmz : (m : ℤ) * nz < intLim
  hdx : 0 < dx
  hdy : 0 < dy
  hdz : 0 < dz
  data : ∀ j < s.snapshotFiles.length, ∃ V P, s.Listed fs j V P ∧
    V.shape = [3, m * m * nz] ∧ P.shape = [3, m * m * nz] ∧
    (∀ a < m, ∀ b < m, ∀ c < nz, P.get [0, (b * m + a) * nz + c] = x0 + a * dx ∧
      P.get [1, (b * m + a) * nz + c] = y0 + b * dy ∧
      P.get [2, (b * m + a) * nz + c] = z0 + c * dz) ∧
    ∀ q < m * m * nz, ∀ c : Fin 3,
      V.get [c, q] = v (t0 + j * s.timestep) ![P.get [0, q], P.get [1, q], P.get [2, q]] c

/-- The box of the grid. -/
def Box3 (m nz : ℕ) (x0 dx y0 dy z0 dz : ℝ) : Set (Fin 3 → ℝ) :=
  {z | x0 ≤ z 0 ∧ z 0 ≤ x0 + ((m : ℝ) - 1) * dx ∧ y0 ≤ z 1 ∧ z 1 ≤ y0 + ((m : ℝ) - 1) * dy ∧
    z0 ≤ z 2 ∧ z 2 ≤ z0 + ((nz : ℝ) - 1) * dz}

theorem flat_lt3 {m nz a b c : ℕ} (ha : a < m) (hb : b < m) (hc : c < nz) :
    (b * m + a) * nz + c < m * m * nz := by
  have h1 : b * m + a + 1 ≤ m * m := by nlinarith
  have h2 := Nat.mul_le_mul_right nz h1
  nlinarith

theorem listed_grid3 {m nz : ℕ} {x0 dx y0 dy z0 dz : ℝ} {V P : NDArray ℝ} (hm : 2 ≤ m)
    (hnz : 2 ≤ nz) (lm : (m : ℤ) < intLim) (lnz : (nz : ℤ) < intLim) (lmz : (m : ℤ) * nz < intLim)
    (hdx : 0 < dx) (hdy : 0 < dy) (hdz : 0 < dz)
    (hV : V.shape = [3, m * m * nz]) (hP : P.shape = [3, m * m * nz])
    (h : ∀ a < m, ∀ b < m, ∀ c < nz, P.get [0, (b * m + a) * nz + c] = x0 + a * dx ∧
      P.get [1, (b * m + a) * nz + c] = y0 + b * dy ∧
      P.get [2, (b * m + a) * nz + c] = z0 + c * dz) :
    Grid3 m m nz x0 dx y0 dy z0 dz V P := by
  have split : ∀ q < m * m * nz, ∃ a < m, ∃ b < m, ∃ c < nz, q = (b * m + a) * nz + c := by
    intro q hq
    have hz : 0 < nz := by omega
    have h1 : q / nz < m * m := (Nat.div_lt_iff_lt_mul hz).2 hq
    refine ⟨q / nz % m, Nat.mod_lt _ (by omega), q / nz / m, Nat.div_lt_of_lt_mul h1, q % nz,
      Nat.mod_lt _ hz, ?_⟩
    rw [Nat.div_add_mod', Nat.div_add_mod']
  refine ⟨hm, hm, hnz, lm, lm, lnz, lmz, hdx, hdy, hdz, hP, hV, ⟨fun q hq => ?_, fun a ha => ?_⟩,
    ⟨fun q hq => ?_, fun b hb => ?_⟩, ⟨fun q hq => ?_, fun c hc => ?_⟩⟩
  · obtain ⟨a, ha, b, hb, c, hc, rfl⟩ := split q hq
    exact ⟨a, ha, (h a ha b hb c hc).1⟩
  · exact ⟨_, flat_lt3 ha (b := 0) (by omega) (c := 0) (by omega),
      (h a ha 0 (by omega) 0 (by omega)).1⟩
  · obtain ⟨a, ha, b, hb, c, hc, rfl⟩ := split q hq
    exact ⟨b, hb, (h a ha b hb c hc).2.1⟩
  · exact ⟨_, flat_lt3 (a := 0) (by omega) hb (c := 0) (by omega),
      (h 0 (by omega) b hb 0 (by omega)).2.1⟩
  · obtain ⟨a, ha, b, hb, c, hc, rfl⟩ := split q hq
    exact ⟨c, hc, (h a ha b hb c hc).2.2⟩
  · exact ⟨_, flat_lt3 (a := 0) (by omega) (b := 0) (by omega) hc,
      (h 0 (by omega) 0 (by omega) c hc).2.2⟩

/-- The velocity field the interpolator hands out, three dimensions. -/
noncomputable def trilinear (v : ℝ → (Fin 3 → ℝ) → Fin 3 → ℝ) (t : ℝ) (m nz : ℕ)
    (x0 dx y0 dy z0 dz : ℝ) (z : Fin 3 → ℝ) : Fin 3 → ℝ := fun c =>
  cellValue3 m m nz (fun a b e => v t ![x0 + a * dx, y0 + b * dy, z0 + e * dz] c)
    ((z 0 - x0) / dx) ((z 1 - y0) / dy) ((z 2 - z0) / dz)

theorem samples_updated_3d {env : Env ℝ FVal} (hm : ExactTarget env.m) {s : FileSource ℝ}
    {v : ℝ → (Fin 3 → ℝ) → Fin 3 → ℝ} {t0 : ℝ} {m nz : ℕ} {x0 dx y0 dy z0 dz : ℝ}
    (hd : Samples3 env.fs s v t0 m nz x0 dx y0 dy z0 dz) (j : ℕ)
    (hj : j < s.snapshotFiles.length) (R : ℕ) :
    ((Source.file s).updated env (.highPerf (HighPerf.fresh [m, m, nz])) (j + 1)).2 = none ∧
    PointwiseOn {z | OnAxis m x0 dx (z 0) ∧ OnAxis m y0 dy (z 1) ∧ OnAxis nz z0 dz (z 2)} R
      (((Source.file s).updated env (.highPerf (HighPerf.fresh [m, m, nz])) (j + 1)).1.velocity env)
      (trilinear v (t0 + j * s.timestep) m nz x0 dx y0 dy z0 dz) := by
  have shape : ∀ i ≤ s.snapshotFiles.length, ∃ s' : HighPerf ℝ, s'.gridShape = [m, m, nz] ∧
      s'.uLen = none ∧ (Source.file s).updated env (.highPerf (HighPerf.fresh [m, m, nz])) i =
        (.highPerf s', none) := by
    intro i
    induction i with
    | zero => exact fun _ => ⟨_, rfl, rfl, rfl⟩
    | succ i ih =>
      intro hi
      obtain ⟨s', h1, h3, h2⟩ := ih (by omega)
      obtain ⟨V, P, a1, a2, a3, a4, -⟩ := hd.data i (by omega)
      obtain ⟨s2, x, y, z, b1, b2, -, -, -, b3, -⟩ := highPerf_update_3d
        (listed_grid3 hd.hm hd.hnz hd.lm hd.lnz hd.lmz hd.hdx hd.hdy hd.hdz a2 a3 a4) h1
      refine ⟨s2, b2, b3.trans h3, ?_⟩
      simp only [Source.updated, h2, Source.updateInterp, listed_data hd.fresh a1,
        AnyInterp.update, b1]
  obtain ⟨s', h1, h3, h2⟩ := shape j hj.le
  obtain ⟨V, P, a1, a2, a3, a4, a5⟩ := hd.data j hj
  obtain ⟨s2, x, y, z, b1, b2, b3, b4, b5, b6, -, fx, fy, fz⟩ := highPerf_update_3d
    (listed_grid3 hd.hm hd.hnz hd.lm hd.lnz hd.lmz hd.hdx hd.hdy hd.hdz a2 a3 a4) h1
  have hu : (Source.file s).updated env (.highPerf (HighPerf.fresh [m, m, nz])) (j + 1) =
      (.highPerf s2, none) := by
    simp only [Source.updated, h2, Source.updateInterp, listed_data hd.fresh a1,
      AnyInterp.update, b1]
  rw [hu]
  refine ⟨rfl, fun pos hp hS => ?_⟩
  have cells : ∀ r < R, InCells m ((pos.get [r, 0] - x0) / dx) ∧
      InCells m ((pos.get [r, 1] - y0) / dy) ∧ InCells nz ((pos.get [r, 2] - z0) / dz) :=
    fun r hr => ⟨(hS r hr).1.inCells hd.hdx, (hS r hr).2.1.inCells hd.hdy,
      (hS r hr).2.2.inCells hd.hdz⟩
  obtain ⟨out, o1, o2, o3⟩ := highPerf_interpolate_3d hm env.junk
    (f := fun c i j k => V.get [c, (j * m + i) * nz + k]) b3 b4 b5 fx fy fz
    hd.hdx.ne' hd.hdy.ne' hd.hdz.ne' hd.lm hd.lm hd.lnz hd.lmz hp
    (by intro h; rw [b6, h3] at h; cases h) (fun r hr =>
      ⟨inCells_safe hd.lm (cells r hr).1, inCells_safe hd.lm (cells r hr).2.1,
        inCells_safe hd.lnz (cells r hr).2.2⟩)
  refine ⟨out, o1, o2, fun r hr => ?_⟩
  funext c
  show out.get [r, c.1] = _
  rw [o3 r hr c.1 c.2]
  unfold trilinear
  refine cellValue3_congr (fun a b e ha hb he => ?_) _ _ _
  have := a5 _ (flat_lt3 ha hb he) c
  obtain ⟨p0, p1, p2⟩ := a4 a ha b hb e he
  rw [p0, p1, p2] at this
  exact this

theorem trilinear_error {v : ℝ → (Fin 3 → ℝ) → Fin 3 → ℝ} {t : ℝ} {m nz : ℕ}
    {x0 dx y0 dy z0 dz : ℝ} (hdx : 0 < dx) (hdy : 0 < dy) (hdz : 0 < dz) {L : ℝ} (hL0 : 0 ≤ L)
    (hL : ∀ w ∈ Box3 m nz x0 dx y0 dy z0 dz, ∀ w' ∈ Box3 m nz x0 dx y0 dy z0 dz,
      ‖v t w - v t w'‖ ≤ L * ‖w - w'‖) {y z : Fin 3 → ℝ} (hy : y ∈ Box3 m nz x0 dx y0 dy z0 dz)
    (hz : OnAxis m x0 dx (z 0) ∧ OnAxis m y0 dy (z 1) ∧ OnAxis nz z0 dz (z 2)) :
    ‖trilinear v t m nz x0 dx y0 dy z0 dz z - v t y‖ ≤
      L * max (max dx dy) dz + L * ‖z - y‖ := by
  have hmx : 0 ≤ max (max dx dy) dz := hdz.le.trans (le_max_right _ _)
  rw [pi_norm_le_iff_of_nonneg (by positivity)]
  intro c
  refine cellValue3_error (hz.1.inCells hdx) (hz.2.1.inCells hdy) (hz.2.2.inCells hdz)
    fun i j k hi hj hk h1 h2 h3 => ?_
  have n1 := node_near hdx h1
  have n2 := node_near hdy h2
  have n3 := node_near hdz h3
  have cast : ∀ {i n : ℕ}, i < n → (i : ℝ) ≤ (n : ℝ) - 1 := by
    intro i n hi
    have : ((i + 1 : ℕ) : ℝ) ≤ n := by exact_mod_cast hi
    push_cast at this; linarith
  set w : Fin 3 → ℝ := ![x0 + i * dx, y0 + j * dy, z0 + k * dz] with hw
  have w0 : w 0 = x0 + i * dx := rfl
  have w1 : w 1 = y0 + j * dy := rfl
  have w2 : w 2 = z0 + k * dz := rfl
  have hwB : w ∈ Box3 m nz x0 dx y0 dy z0 dz := by
    have := mul_nonneg (Nat.cast_nonneg (α := ℝ) i) hdx.le
    have := mul_nonneg (Nat.cast_nonneg (α := ℝ) j) hdy.le
    have := mul_nonneg (Nat.cast_nonneg (α := ℝ) k) hdz.le
    have := mul_le_mul_of_nonneg_right (cast hi) hdx.le
    have := mul_le_mul_of_nonneg_right (cast hj) hdy.le
    have := mul_le_mul_of_nonneg_right (cast hk) hdz.le
    refine ⟨?_, ?_, ?_, ?_, ?_, ?_⟩ <;> simp only [w0, w1, w2] <;> linarith
  have hwz : ‖w - z‖ ≤ max (max dx dy) dz := by
    rw [pi_norm_le_iff_of_nonneg hmx]
    intro c
    fin_cases c
    · exact n1.trans ((le_max_left _ _).trans (le_max_left _ _))
    · exact n2.trans ((le_max_right _ _).trans (le_max_left _ _))
    · exact n3.trans (le_max_right _ _)
  have hwy : ‖w - y‖ ≤ max (max dx dy) dz + ‖z - y‖ := by
    have := norm_add_le (w - z) (z - y)
    rw [sub_add_sub_cancel] at this
    linarith
  refine (norm_le_pi_norm (v t w - v t y) c).trans ((hL w hwB y hy).trans ?_)
  have := mul_le_mul_of_nonneg_left hwy hL0
  linarith

/-- **C84 (gridded files, 3-D).** -/
theorem C84_gridded_3d {env : Env ℝ FVal} (he : RealEnv env) (hm : ExactTarget env.m) (queue : Bool)
    (k : Kind) {v : ℝ → (Fin 3 → ℝ) → Fin 3 → ℝ} {t0 L B M r : ℝ} {s : FileSource ℝ}
    {m nz : ℕ} {x0 dx y0 dy z0 dz : ℝ} (hd : Samples3 env.fs s v t0 m nz x0 dx y0 dy z0 dz) {n : ℕ}
    (hn : s.snapshotFiles.length = n) (hn2 : 2 ≤ n) {h : ℝ} (hh : s.timestep = h) (hh0 : h ≠ 0)
    (small : SmallSteps (L * max (max dx dy) dz) L B M h n r) {N : ℕ} {seed : NDArray ℝ}
    (hs : seed.shape = [6 * N, 3]) {P : Particles ℝ} (hp : mkParticles seed = .ok P)
    (hP : readSeedParticles env.fs s.particleFile = .ok P)
    (X : ℕ → Fin 6 → ℝ → Fin 3 → ℝ)
    (hX : ∀ i < N, ∀ b, Along v t0 h n B M (X i b) ∧ X i b t0 = groupOf seed 6 N 3 i b)
    (hL : ∀ j < n, ∀ w ∈ Box3 m nz x0 dx y0 dy z0 dz, ∀ w' ∈ Box3 m nz x0 dx y0 dy z0 dz,
      ‖v (t0 + j * h) w - v (t0 + j * h) w'‖ ≤ L * ‖w - w'‖)
    (hin : ∀ i < N, ∀ b, ∀ j < n, ∀ z, ‖z - X i b (t0 + j * h)‖ ≤ r →
      OnAxis m x0 dx (z 0) ∧ OnAxis m y0 dy (z 1) ∧ OnAxis nz z0 dz (z 2))
    (D : ℕ → Matrix (Fin 3) (Fin 3) ℝ)
    (hD : ∀ i < N, centralDiff3 (fun b => X i b (t0 + n * h)) (groupOf seed 6 N 3 i) = .ok (D i))
    (σ b : ℕ → ℝ) (hb : ∀ i, b i = 6 * posError (L * max (max dx dy) dz) L B M h n *
      (1 / |groupOf seed 6 N 3 i 1 0 - groupOf seed 6 N 3 i 0 0| +
        1 / |groupOf seed 6 N 3 i 2 1 - groupOf seed 6 N 3 i 3 1| +
        1 / |groupOf seed 6 N 3 i 4 2 - groupOf seed 6 N 3 i 5 2|))
    (hσ : ∀ i < N, IsMaxStretch (D i) (σ i) ∧ b i < σ i) :
    ∃ Λ : ℕ → ℝ, ((⟨.file s, .highPerf (HighPerf.fresh [m, m, nz]), .fresh k⟩ : Solver ℝ).run env
        queue none).result = .ok (some ((List.range N).map fun i => .fin (Λ i))) ∧
      ∀ i < N, |Λ i - 1 / (((n : ℝ) - 1) * |h|) * Real.log (σ i)| ≤
        1 / (((n : ℝ) - 1) * |h|) * (b i / (σ i - b i)) := by
  have hr0 : 0 ≤ r := by
    have h1 := small.reach
    have h2 := small.stay
    have : 0 ≤ posError (L * max (max dx dy) dz) L B M h n := by
      rw [posError_eq]
      have := small.eps
      have := small.lip
      have := small.speed
      have := small.accel
      exact errBound_nonneg small.lip (by positivity) n
    linarith
  have hX0 : ∀ i < N, ∀ b, ∀ j < n, X i b (t0 + j * h) ∈ Box3 m nz x0 dx y0 dy z0 dz := by
    intro i hi b j hj
    obtain ⟨⟨a1, a2⟩, ⟨a3, a4⟩, ⟨a5, a6⟩⟩ := hin i hi b j hj _
      (by rw [sub_self, norm_zero]; exact hr0)
    exact ⟨a1, a2.le, a3, a4.le, a5, a6.le⟩
  refine C84_error_3d (src := .file s) he queue k hn hn2 hh hh0 small hs hp hP X hX
    (I0 := .highPerf (HighPerf.fresh [m, m, nz])) rfl rfl
    (fun i hi => (samples_updated_3d hm hd i (by omega) 0).1)
    (fun j => trilinear v (t0 + j * h) m nz x0 dx y0 dy z0 dz) _
    (fun j hj => by rw [← hh]; exact (samples_updated_3d hm hd j (by omega) (6 * N)).2)
    (fun i hi b j hj z hz => ⟨hin i hi b j hj z hz, ?_⟩) D hD σ b hb hσ
  exact trilinear_error hd.hdx hd.hdy hd.hdz small.lip (hL j hj) (hX0 i hi b j hj)
    (hin i hi b j hj z hz)

end Verif
