import Verif.Lemmas.TurnGrid
import Verif.Props.Frames
import Verif.Props.Run64

/-!
# C108: turning the experiment
-/

set_option linter.unusedSectionVars false

namespace Verif

open Matrix

theorem pyMap_mapped {α β γ : Type*} (f : α → Py β) (m : β → γ) (l : List α) :
    pyMap (fun a => (f a).map m) l = (pyMap f l).map (List.map m) := by
  induction l with
  | nil => rfl
  | cons a l ih =>
    simp only [pyMap, ih]
    cases f a with
    | error e => rfl
    | ok b =>
      cases pyMap f l with
      | error e => rfl
      | ok bs => rfl

section
variable {K F : Type} [Zero K] [One K] [Add K] [Sub K] [Mul K] [Div K] [NatCast K] [IntCast K]
  [Min K] [Max K] [NumLits K] [DecidableEq K] [Neg K] [MirrorLaws K]

/-- Two runs, in the old and the new coordinates, with velocities that agree where they are
evaluated. -/
theorem turn_run_2d (t : Turn 2) {env env' : Env K F}
    (hk : ∀ js T, env'.ftle2 (js.map t.matrix) T = env.ftle2 js T) (habs : env'.abs = env.abs)
    {src src' : Source K} (hn : src'.numSteps = src.numSteps) (hh : src'.timestep = src.timestep)
    {I0 I0' : AnyInterp K} (hI : I0.Unused) (hI' : I0'.Unused) (k : Kind)
    (g g' : ℕ → (Fin 2 → K) → Fin 2 → K) (S S' : ℕ → Set (Fin 2 → K))
    (hup : ∀ i < src.numSteps, (src.updated env I0 (i + 1)).2 = none)
    (hup' : ∀ i < src.numSteps, (src'.updated env' I0' (i + 1)).2 = none) (N : ℕ)
    (hv : ∀ i < src.numSteps,
      PointwiseOn (S i) (4 * N) ((src.updated env I0 (i + 1)).1.velocity env) (g i))
    (hv' : ∀ i < src.numSteps,
      PointwiseOn (S' i) (4 * N) ((src'.updated env' I0' (i + 1)).1.velocity env') (g' i))
    {id id' : String} (hid : src.id env = .ok id) (hid' : src'.id env' = .ok id')
    {seed seed' : NDArray K} {p p' : Particles K} (queue queue' : Bool)
    (hs : seed.shape = [4 * N, 2]) (hs' : seed'.shape = [4 * N, 2]) (hp : mkParticles seed = .ok p)
    (hp' : mkParticles seed' = .ok p') (hg : src.getParticles env.fs = .ok p)
    (hg' : src'.getParticles env'.fs = .ok p')
    (hseed : ∀ i < N, t.Group2 (groupOf seed 4 N 2 i) (groupOf seed' 4 N 2 i))
    (hS : ∀ i < N, ∀ b, ∀ j < src.numSteps, ∀ z ∈ stages k (g j) src.timestep
      (flowMap k g src.timestep j (groupOf seed 4 N 2 i b)), z ∈ S j ∧ t.point z ∈ S' j ∧
        g' j (t.point z) = t.point (g j z)) :
    ((⟨src', I0', .fresh k⟩ : Solver K).run env' queue' none).result =
      ((⟨src, I0, .fresh k⟩ : Solver K).run env queue none).result := by
  have names : ∀ b : Fin 4, ∃ q s, b = end2 q s := by
    intro b
    fin_cases b
    · exact ⟨0, false, rfl⟩
    · exact ⟨0, true, rfl⟩
    · exact ⟨1, true, rfl⟩
    · exact ⟨1, false, rfl⟩
  have e := run_flow_on_2d env src hI k g S hup N hv hid seed p queue hs hp hg
    fun i hi b j hj z hz => (hS i hi b j hj z hz).1
  have e' := run_flow_on_2d env' src' hI' k g' S' (by rw [hn]; exact hup') N
    (by rw [hn]; exact hv') hid' seed' p' queue' hs' hp' hg' (by
      intro i hi b j hj z hz
      rw [hn] at hj
      rw [hh] at hz
      obtain ⟨q, s, rfl⟩ := names b
      rw [hseed i hi q s, stages_turn t k j fun j' hj' z hz => (hS i hi _ j' (by omega) z hz).2.2] at hz
      obtain ⟨y, hy, rfl⟩ := List.mem_map.1 hz
      exact (hS i hi _ j hj y hy).2.1)
  rw [e, e', hn, hh]
  have hc : ∀ i ∈ List.range N, centralDiff2
        (fun b => flowMap k g' src.timestep src.numSteps (groupOf seed' 4 N 2 i b))
        (groupOf seed' 4 N 2 i) =
      (centralDiff2 (fun b => flowMap k g src.timestep src.numSteps (groupOf seed 4 N 2 i b))
        (groupOf seed 4 N 2 i)).map t.matrix := by
    intro i hi
    have hi := List.mem_range.1 hi
    refine centralDiff2_turn t (fun q s => ?_) (hseed i hi)
    show flowMap k g' _ _ (groupOf seed' 4 N 2 i (end2 q s)) = _
    rw [hseed i hi q s]
    exact (flowMap_turn t k _ fun j hj z hz => (hS i hi _ j hj z hz).2.2).1
  rw [pyMap_congr hc, pyMap_mapped]
  have hT : runPeriod env' src' = runPeriod env src := by
    unfold runPeriod
    rw [hn, hh, habs]
  cases pyMap (fun i => centralDiff2
      (fun b => flowMap k g src.timestep src.numSteps (groupOf seed 4 N 2 i b))
      (groupOf seed 4 N 2 i)) (List.range N) with
  | error e => rfl
  | ok js =>
    show Except.map some (env'.ftle2 (js.map t.matrix) _) = _
    rw [hT, hk]

/-- The same in three dimensions. -/
theorem turn_run_3d (t : Turn 3) {env env' : Env K F}
    (hk : ∀ js T, env'.ftle3 (js.map t.matrix) T = env.ftle3 js T) (habs : env'.abs = env.abs)
    {src src' : Source K} (hn : src'.numSteps = src.numSteps) (hh : src'.timestep = src.timestep)
    {I0 I0' : AnyInterp K} (hI : I0.Unused) (hI' : I0'.Unused) (k : Kind)
    (g g' : ℕ → (Fin 3 → K) → Fin 3 → K) (S S' : ℕ → Set (Fin 3 → K))
    (hup : ∀ i < src.numSteps, (src.updated env I0 (i + 1)).2 = none)
    (hup' : ∀ i < src.numSteps, (src'.updated env' I0' (i + 1)).2 = none) (N : ℕ)
    (hv : ∀ i < src.numSteps,
      PointwiseOn (S i) (6 * N) ((src.updated env I0 (i + 1)).1.velocity env) (g i))
    (hv' : ∀ i < src.numSteps,
      PointwiseOn (S' i) (6 * N) ((src'.updated env' I0' (i + 1)).1.velocity env') (g' i))
    {id id' : String} (hid : src.id env = .ok id) (hid' : src'.id env' = .ok id')
    {seed seed' : NDArray K} {p p' : Particles K} (queue queue' : Bool)
    (hs : seed.shape = [6 * N, 3]) (hs' : seed'.shape = [6 * N, 3]) (hp : mkParticles seed = .ok p)
    (hp' : mkParticles seed' = .ok p') (hg : src.getParticles env.fs = .ok p)
    (hg' : src'.getParticles env'.fs = .ok p')
    (hseed : ∀ i < N, t.Group3 (groupOf seed 6 N 3 i) (groupOf seed' 6 N 3 i))
    (hS : ∀ i < N, ∀ b, ∀ j < src.numSteps, ∀ z ∈ stages k (g j) src.timestep
      (flowMap k g src.timestep j (groupOf seed 6 N 3 i b)), z ∈ S j ∧ t.point z ∈ S' j ∧
        g' j (t.point z) = t.point (g j z)) :
    ((⟨src', I0', .fresh k⟩ : Solver K).run env' queue' none).result =
      ((⟨src, I0, .fresh k⟩ : Solver K).run env queue none).result := by
  have names : ∀ b : Fin 6, ∃ q s, b = end3 q s := by
    intro b
    fin_cases b
    · exact ⟨0, false, rfl⟩
    · exact ⟨0, true, rfl⟩
    · exact ⟨1, true, rfl⟩
    · exact ⟨1, false, rfl⟩
    · exact ⟨2, true, rfl⟩
    · exact ⟨2, false, rfl⟩
  have e := run_flow_on_3d env src hI k g S hup N hv hid seed p queue hs hp hg
    fun i hi b j hj z hz => (hS i hi b j hj z hz).1
  have e' := run_flow_on_3d env' src' hI' k g' S' (by rw [hn]; exact hup') N
    (by rw [hn]; exact hv') hid' seed' p' queue' hs' hp' hg' (by
      intro i hi b j hj z hz
      rw [hn] at hj
      rw [hh] at hz
      obtain ⟨q, s, rfl⟩ := names b
      rw [hseed i hi q s, stages_turn t k j fun j' hj' z hz => (hS i hi _ j' (by omega) z hz).2.2] at hz
      obtain ⟨y, hy, rfl⟩ := List.mem_map.1 hz
      exact (hS i hi _ j hj y hy).2.1)
  rw [e, e', hn, hh]
  have hc : ∀ i ∈ List.range N, centralDiff3
        (fun b => flowMap k g' src.timestep src.numSteps (groupOf seed' 6 N 3 i b))
        (groupOf seed' 6 N 3 i) =
      (centralDiff3 (fun b => flowMap k g src.timestep src.numSteps (groupOf seed 6 N 3 i b))
        (groupOf seed 6 N 3 i)).map t.matrix := by
    intro i hi
    have hi := List.mem_range.1 hi
    refine centralDiff3_turn t (fun q s => ?_) (hseed i hi)
    show flowMap k g' _ _ (groupOf seed' 6 N 3 i (end3 q s)) = _
    rw [hseed i hi q s]
    exact (flowMap_turn t k _ fun j hj z hz => (hS i hi _ j hj z hz).2.2).1
  rw [pyMap_congr hc, pyMap_mapped]
  have hT : runPeriod env' src' = runPeriod env src := by
    unfold runPeriod
    rw [hn, hh, habs]
  cases pyMap (fun i => centralDiff3
      (fun b => flowMap k g src.timestep src.numSteps (groupOf seed 6 N 3 i b))
      (groupOf seed 6 N 3 i)) (List.range N) with
  | error e => rfl
  | ok js =>
    show Except.map some (env'.ftle3 (js.map t.matrix) _) = _
    rw [hT, hk]

theorem analytical_updated (env : Env K F) (s : AnalyticalSource K) (fn : VelocityFn K) (n : ℕ) :
    (Source.analytical s).updated env (.analytical (.fresh (some fn))) n =
      (.analytical (.fresh (some fn)), none) := by
  induction n with
  | zero => rfl
  | succ n ih => simp only [Source.updated, ih, Source.updateInterp]

/-- **C108 (analytical runs, 2-D).**  In the new coordinates the seeds and the velocity function are
turned; the field is the same.  Any arithmetic in which reversing an axis is exact. -/
theorem C108_analytical_2d (t : Turn 2) {env : Env K F}
    (hk : ∀ js T, env.ftle2 (js.map t.matrix) T = env.ftle2 js T) (k : Kind)
    {f f' : VelocityFn K} {v v' : K → (Fin 2 → K) → Fin 2 → K} {N : ℕ}
    (hf : ∀ τ, Pointwise (4 * N) 2 (f τ) (v τ)) (hf' : ∀ τ, Pointwise (4 * N) 2 (f' τ) (v' τ))
    (hturn : ∀ τ x, v' τ (t.point x) = t.point (v τ x)) {seed seed' : NDArray K}
    (hs : seed.shape = [4 * N, 2]) (hs' : seed'.shape = [4 * N, 2]) {p p' : Particles K}
    (hp : mkParticles seed = .ok p) (hp' : mkParticles seed' = .ok p')
    (hseed : ∀ i < N, t.Group2 (groupOf seed 4 N 2 i) (groupOf seed' 4 N 2 i))
    (h : K) (τ : K) (τs : List K) (queue queue' : Bool) :
    ((⟨.analytical ⟨p', h, τ :: τs⟩, .analytical (.fresh (some f')), .fresh k⟩ : Solver K).run env
        queue' none).result =
      ((⟨.analytical ⟨p, h, τ :: τs⟩, .analytical (.fresh (some f)), .fresh k⟩ : Solver K).run env
        queue none).result := by
  refine turn_run_2d t hk rfl (src := .analytical ⟨p, h, τ :: τs⟩)
    (src' := .analytical ⟨p', h, τ :: τs⟩) rfl rfl (I0 := .analytical (.fresh (some f)))
    (I0' := .analytical (.fresh (some f'))) trivial trivial k (fun _ => v 0) (fun _ => v' 0)
    (fun _ => Set.univ) (fun _ => Set.univ) (fun i _ => by rw [analytical_updated])
    (fun i _ => by rw [analytical_updated]) N (fun i _ => ?_) (fun i _ => ?_) rfl rfl queue queue' hs
    hs' hp hp' rfl rfl hseed fun i hi b j hj z hz => ⟨trivial, trivial, hturn 0 z⟩
  · rw [analytical_updated]
    exact fun pos hpos _ => hf 0 pos hpos
  · rw [analytical_updated]
    exact fun pos hpos _ => hf' 0 pos hpos

/-- **C108 (analytical runs, 3-D).** -/
theorem C108_analytical_3d (t : Turn 3) {env : Env K F}
    (hk : ∀ js T, env.ftle3 (js.map t.matrix) T = env.ftle3 js T) (k : Kind)
    {f f' : VelocityFn K} {v v' : K → (Fin 3 → K) → Fin 3 → K} {N : ℕ}
    (hf : ∀ τ, Pointwise (6 * N) 3 (f τ) (v τ)) (hf' : ∀ τ, Pointwise (6 * N) 3 (f' τ) (v' τ))
    (hturn : ∀ τ x, v' τ (t.point x) = t.point (v τ x)) {seed seed' : NDArray K}
    (hs : seed.shape = [6 * N, 3]) (hs' : seed'.shape = [6 * N, 3]) {p p' : Particles K}
    (hp : mkParticles seed = .ok p) (hp' : mkParticles seed' = .ok p')
    (hseed : ∀ i < N, t.Group3 (groupOf seed 6 N 3 i) (groupOf seed' 6 N 3 i))
    (h : K) (τ : K) (τs : List K) (queue queue' : Bool) :
    ((⟨.analytical ⟨p', h, τ :: τs⟩, .analytical (.fresh (some f')), .fresh k⟩ : Solver K).run env
        queue' none).result =
      ((⟨.analytical ⟨p, h, τ :: τs⟩, .analytical (.fresh (some f)), .fresh k⟩ : Solver K).run env
        queue none).result := by
  refine turn_run_3d t hk rfl (src := .analytical ⟨p, h, τ :: τs⟩)
    (src' := .analytical ⟨p', h, τ :: τs⟩) rfl rfl (I0 := .analytical (.fresh (some f)))
    (I0' := .analytical (.fresh (some f'))) trivial trivial k (fun _ => v 0) (fun _ => v' 0)
    (fun _ => Set.univ) (fun _ => Set.univ) (fun i _ => by rw [analytical_updated])
    (fun i _ => by rw [analytical_updated]) N (fun i _ => ?_) (fun i _ => ?_) rfl rfl queue queue' hs
    hs' hp hp' rfl rfl hseed fun i hi b j hj z hz => ⟨trivial, trivial, hturn 0 z⟩
  · rw [analytical_updated]
    exact fun pos hpos _ => hf 0 pos hpos
  · rw [analytical_updated]
    exact fun pos hpos _ => hf' 0 pos hpos

end

/-! ## The kernels of `ftle.py` -/

/-- The matrix of a turn. -/
def turnMatrix {d : ℕ} (t : Turn d) : Matrix (Fin d) (Fin d) ℝ :=
  fun r a => if t.perm r = a then signed (t.flip r) 1 else 0

theorem signed_mul (b : Bool) (x : ℝ) : signed b 1 * x = signed b x := by
  cases b <;> simp [signed]

theorem turnMatrix_orthogonal {d : ℕ} (t : Turn d) : IsOrthogonal (turnMatrix t) := by
  unfold IsOrthogonal
  ext a b
  rw [Matrix.mul_apply]
  simp only [Matrix.transpose_apply, turnMatrix]
  rw [Finset.sum_eq_single (t.perm.symm a)]
  · rw [Equiv.apply_symm_apply, if_pos rfl, Matrix.one_apply]
    split_ifs with h
    · rw [signed_mul, signed_signed]
    · ring
  · intro r _ hr
    rw [if_neg (fun h => hr (by rw [← h, Equiv.symm_apply_apply])), zero_mul]
  · simp

theorem turnMatrix_conj {d : ℕ} (t : Turn d) (J : Matrix (Fin d) (Fin d) ℝ) :
    t.matrix J = turnMatrix t * J * (turnMatrix t)ᵀ := by
  ext r q
  rw [Matrix.mul_apply]
  simp only [Matrix.transpose_apply, turnMatrix, Matrix.mul_apply, ite_mul, zero_mul, mul_ite, mul_zero,
    Finset.sum_ite_eq, Finset.mem_univ, if_true]
  rw [mul_comm, signed_mul, signed_mul, signed_comm]
  rfl

theorem orthogonal_transpose {d : ℕ} {Q : Matrix (Fin d) (Fin d) ℝ} (h : IsOrthogonal Q) :
    IsOrthogonal Qᵀ := by
  unfold IsOrthogonal at h ⊢
  rw [Matrix.transpose_transpose]
  exact mul_eq_one_comm.1 h

/-- **C108 (kernels over ℝ).**  The hypothesis on the kernels holds for those of `ftle.py`. -/
theorem C108_kernels {env : Env ℝ FVal} (he : RealEnv env) :
    (∀ (t : Turn 2) js T, env.ftle2 (js.map t.matrix) T = env.ftle2 js T) ∧
    ∀ (t : Turn 3) js T, env.ftle3 (js.map t.matrix) T = env.ftle3 js T := by
  constructor
  · intro t js T
    rw [he.f2]
    refine C13_objective_2d js _ T ?_
    rw [List.forall₂_map_right_iff, List.forall₂_same]
    exact fun J _ => ⟨_, _, turnMatrix_orthogonal t, orthogonal_transpose (turnMatrix_orthogonal t),
      turnMatrix_conj t J⟩
  · intro t js T
    rw [he.f3]
    refine C13_objective_3d js _ T ?_
    rw [List.forall₂_map_right_iff, List.forall₂_same]
    exact fun J _ => ⟨_, _, turnMatrix_orthogonal t, orthogonal_transpose (turnMatrix_orthogonal t),
      turnMatrix_conj t J⟩

theorem Fl.add_comm' (a b : Fl) : a + b = b + a := by
  show (⟨rne (a.val + b.val)⟩ : Fl) = ⟨rne (b.val + a.val)⟩
  rw [add_comm]

theorem Fl.mul_comm' (a b : Fl) : a * b = b * a := by
  show (⟨rne (a.val * b.val)⟩ : Fl) = ⟨rne (b.val * a.val)⟩
  rw [mul_comm]

theorem signed_mul_signed (a b : Bool) (x y : Fl) :
    signed a x * signed b y = signed a (signed b (x * y)) := by
  rw [mul_signed, Fl.mul_comm', mul_signed, signed_comm, Fl.mul_comm']

theorem trace_disc_turn (t : Turn 2) (J : Matrix (Fin 2) (Fin 2) Fl) :
    trace2 (cauchyGreen2 (t.matrix J)) = trace2 (cauchyGreen2 J) ∧
    disc2 ⟨4⟩ (cauchyGreen2 (t.matrix J)) = disc2 ⟨4⟩ (cauchyGreen2 J) := by
  have hp : (t.perm 0 = 0 ∧ t.perm 1 = 1) ∨ (t.perm 0 = 1 ∧ t.perm 1 = 0) := by
    have hne : t.perm 0 ≠ t.perm 1 := fun h => by simpa using t.perm.injective h
    revert hne
    generalize t.perm 0 = a
    generalize t.perm 1 = b
    revert a b
    decide
  have cg : ∀ r q, cauchyGreen2 (t.matrix J) r q = t.matrix (cauchyGreen2 J) r q := by
    have e : ∀ r q, cauchyGreen2 (t.matrix J) r q =
        signed (t.flip r) (signed (t.flip q) (J (t.perm 0) (t.perm r) * J (t.perm 0) (t.perm q) +
          J (t.perm 1) (t.perm r) * J (t.perm 1) (t.perm q))) := by
      intro r q
      have h : cauchyGreen2 (t.matrix J) r q =
          t.matrix J 0 r * t.matrix J 0 q + t.matrix J 1 r * t.matrix J 1 q := by
        fin_cases r <;> fin_cases q <;> rfl
      rw [h]
      simp only [Turn.matrix]
      have u : ∀ (a : Bool) (x y : Fl), signed a (signed (t.flip r) x) * signed a (signed (t.flip q) y) =
          signed (t.flip r) (signed (t.flip q) (x * y)) := by
        intro a x y
        rw [signed_mul_signed, signed_signed, signed_mul_signed]
      rw [u, u, signed_add, signed_add]
    intro r q
    have h : ∀ a b, cauchyGreen2 J a b = J 0 a * J 0 b + J 1 a * J 1 b := by
      intro a b
      fin_cases a <;> fin_cases b <;> rfl
    rw [e]
    simp only [Turn.matrix]
    rw [h]
    rcases hp with ⟨h0, h1⟩ | ⟨h0, h1⟩
    · rw [h0, h1]
    · rw [h0, h1, Fl.add_comm']
  have tr : trace2 (cauchyGreen2 (t.matrix J)) = trace2 (cauchyGreen2 J) := by
    simp only [trace2, cg, Turn.matrix, signed_signed]
    rcases hp with ⟨h0, h1⟩ | ⟨h0, h1⟩
    · rw [h0, h1]
    · rw [h0, h1, Fl.add_comm']
  refine ⟨tr, ?_⟩
  unfold disc2
  rw [tr]
  simp only [cg, Turn.matrix, signed_signed, signed_mul_signed]
  rcases hp with ⟨h0, h1⟩ | ⟨h0, h1⟩
  · rw [h0, h1]
  · rw [h0, h1, Fl.mul_comm' (cauchyGreen2 J 1 1), Fl.mul_comm' (cauchyGreen2 J 1 0)]

/-- **C108 (the 2-D kernel in binary64).**  The values are the same to the last bit. -/
theorem C108_kernel64 {env : Env Fl Val64} {m : Libm} (he : Env64 env m) (t : Turn 2)
    (js : List (Matrix (Fin 2) (Fin 2) Fl)) (T : Fl) :
    env.ftle2 (js.map t.matrix) T = env.ftle2 js T := by
  have : ∀ J, maxEig64 m (cauchyGreen2 (t.matrix J)) = maxEig64 m (cauchyGreen2 J) := by
    intro J
    obtain ⟨h1, h2⟩ := trace_disc_turn t J
    unfold maxEig64
    rw [h1, h2]
  rw [he.f2]
  simp only [ftle64, List.map_map]
  rw [List.map_congr_left (g := (fun l => Val64.smul (1 / T) (Val64.log m (Val64.sqrt m l))) ∘
    maxEig64 m ∘ cauchyGreen2) fun J _ => by simp only [Function.comp, this J]]

/-! ## Gridded snapshots -/

section
variable {K F : Type} [Field K] [LinearOrder K] [IsStrictOrderedRing K] [FloorRing K]

/-- **C108 (gridded snapshots, 2-D).**  The snapshots and the seeds in the new coordinates give the same
field, for all three integrators, as long as the velocity is evaluated within the grid, and not on the
lower boundary of an axis that is reversed. -/
theorem C108_grid_2d (t : Turn 2) {env : Env K F}
    (hk : ∀ js T, env.ftle2 (js.map t.matrix) T = env.ftle2 js T) (hm : ExactTarget env.m)
    (fs' : MatFS K) (k : Kind) {s s' : FileSource K} (hh : s'.timestep = s.timestep)
    (hn : s'.snapshotFiles.length = s.snapshotFiles.length) {n : Fin 2 → ℕ} {δ : Fin 2 → K}
    {o : ℕ → Fin 2 → K} {f : ℕ → Fin 2 → (Fin 2 → ℕ) → K}
    (hd : Snaps2 env.fs s (n 0) (n 1) (δ 0) (δ 1) o fun j c a b => f j c ![a, b])
    (hd' : Snaps2 fs' s' (t.along n 0) (t.along n 1) (t.along δ 0) (t.along δ 1)
      (fun j => t.origin n δ (o j)) fun j c a b => t.data n (f j) c ![a, b])
    {N : ℕ} {seed seed' : NDArray K} (hs : seed.shape = [4 * N, 2]) (hs' : seed'.shape = [4 * N, 2])
    {p p' : Particles K} (hp : mkParticles seed = .ok p) (hp' : mkParticles seed' = .ok p')
    (hP : readSeedParticles env.fs s.particleFile = .ok p)
    (hP' : readSeedParticles fs' s'.particleFile = .ok p')
    (hseed : ∀ i < N, t.Group2 (groupOf seed 4 N 2 i) (groupOf seed' 4 N 2 i))
    (hin : ∀ i < N, ∀ b, ∀ j < s.snapshotFiles.length, ∀ z ∈ stages k
      (field2 (n 0) (n 1) (δ 0) (δ 1) o (fun j c a b => f j c ![a, b]) j) s.timestep
      (flowMap k (field2 (n 0) (n 1) (δ 0) (δ 1) o fun j c a b => f j c ![a, b]) s.timestep j
        (groupOf seed 4 N 2 i b)),
      Within2 (n 0) (n 1) (δ 0) (δ 1) o j z ∧
        ∀ q, t.flip q = true → o j (t.perm q) < z (t.perm q)) (queue queue' : Bool) :
    ((⟨.file s', .highPerf (HighPerf.fresh [t.along n 0, t.along n 1]), .fresh k⟩ : Solver K).run
        { env with fs := fs' } queue' none).result =
      ((⟨.file s, .highPerf (HighPerf.fresh [n 0, n 1]), .fresh k⟩ : Solver K).run
        env queue none).result := by
  have hδ : ∀ i, 0 < δ i := by
    intro i
    fin_cases i
    exacts [hd.hdx, hd.hdy]
  refine turn_run_2d t (env := env) (env' := { env with fs := fs' }) hk rfl (src := .file s)
    (src' := .file s') hn hh (I0 := .highPerf (HighPerf.fresh [n 0, n 1]))
    (I0' := .highPerf (HighPerf.fresh [t.along n 0, t.along n 1])) rfl rfl k _ _ _ _
    (fun i hi => (snaps_updated_2d hm hd i hi 0).1)
    (fun i hi => (snaps_updated_2d (env := { env with fs := fs' }) hm hd' i (hn ▸ hi) 0).1) N
    (fun i hi => (snaps_updated_2d hm hd i hi (4 * N)).2)
    (fun i hi => (snaps_updated_2d (env := { env with fs := fs' }) hm hd' i (hn ▸ hi) (4 * N)).2)
    rfl rfl queue queue' hs hs' hp hp' hP hP' hseed fun i hi b j hj z hz => ?_
  obtain ⟨hw, hf⟩ := hin i hi b j hj z hz
  have hc : ∀ i, InCells (n i) ((z i - o j i) / δ i) := by
    intro i
    fin_cases i
    exacts [hw.1, hw.2]
  have hf' : ∀ q, t.flip q = true → 0 < (z (t.perm q) - o j (t.perm q)) / δ (t.perm q) :=
    fun q hq => div_pos (sub_pos.2 (hf q hq)) (hδ _)
  refine ⟨hw, ?_, field2_turn t (fun i => (hδ i).ne') hc hf'⟩
  rw [Set.mem_ofPred_eq, Within2]
  rw [place_eq t n fun i => (hδ i).ne', place_eq t n fun i => (hδ i).ne']
  exact ⟨place_inCells t hc hf' 0, place_inCells t hc hf' 1⟩

/-- **C108 (gridded snapshots, 3-D).**  The grids before and after the turn are of the form the
interpolator handles: as many nodes in `y` as in `x` (C30). -/
theorem C108_grid_3d (t : Turn 3) {env : Env K F}
    (hk : ∀ js T, env.ftle3 (js.map t.matrix) T = env.ftle3 js T) (hm : ExactTarget env.m)
    (fs' : MatFS K) (k : Kind) {s s' : FileSource K} (hh : s'.timestep = s.timestep)
    (hn : s'.snapshotFiles.length = s.snapshotFiles.length) {n : Fin 3 → ℕ} {δ : Fin 3 → K}
    (h1 : n 1 = n 0) (h1' : t.along n 1 = t.along n 0)
    {o : ℕ → Fin 3 → K} {f : ℕ → Fin 3 → (Fin 3 → ℕ) → K}
    (hd : Snaps3 env.fs s (n 0) (n 2) (δ 0) (δ 1) (δ 2) o fun j c a b e => f j c ![a, b, e])
    (hd' : Snaps3 fs' s' (t.along n 0) (t.along n 2) (t.along δ 0) (t.along δ 1) (t.along δ 2)
      (fun j => t.origin n δ (o j)) fun j c a b e => t.data n (f j) c ![a, b, e])
    {N : ℕ} {seed seed' : NDArray K} (hs : seed.shape = [6 * N, 3]) (hs' : seed'.shape = [6 * N, 3])
    {p p' : Particles K} (hp : mkParticles seed = .ok p) (hp' : mkParticles seed' = .ok p')
    (hP : readSeedParticles env.fs s.particleFile = .ok p)
    (hP' : readSeedParticles fs' s'.particleFile = .ok p')
    (hseed : ∀ i < N, t.Group3 (groupOf seed 6 N 3 i) (groupOf seed' 6 N 3 i))
    (hin : ∀ i < N, ∀ b, ∀ j < s.snapshotFiles.length, ∀ z ∈ stages k
      (field3 (n 0) (n 2) (δ 0) (δ 1) (δ 2) o (fun j c a b e => f j c ![a, b, e]) j) s.timestep
      (flowMap k (field3 (n 0) (n 2) (δ 0) (δ 1) (δ 2) o fun j c a b e => f j c ![a, b, e])
        s.timestep j (groupOf seed 6 N 3 i b)),
      Within3 (n 0) (n 2) (δ 0) (δ 1) (δ 2) o j z ∧
        ∀ q, t.flip q = true → o j (t.perm q) < z (t.perm q)) (queue queue' : Bool) :
    ((⟨.file s', .highPerf (HighPerf.fresh [t.along n 0, t.along n 0, t.along n 2]), .fresh k⟩ :
        Solver K).run { env with fs := fs' } queue' none).result =
      ((⟨.file s, .highPerf (HighPerf.fresh [n 0, n 0, n 2]), .fresh k⟩ : Solver K).run
        env queue none).result := by
  have hδ : ∀ i, 0 < δ i := by
    intro i
    fin_cases i
    exacts [hd.hdx, hd.hdy, hd.hdz]
  refine turn_run_3d t (env := env) (env' := { env with fs := fs' }) hk rfl (src := .file s)
    (src' := .file s') hn hh (I0 := .highPerf (HighPerf.fresh [n 0, n 0, n 2]))
    (I0' := .highPerf (HighPerf.fresh [t.along n 0, t.along n 0, t.along n 2])) rfl rfl k _ _ _ _
    (fun i hi => (snaps_updated_3d hm hd i hi 0).1)
    (fun i hi => (snaps_updated_3d (env := { env with fs := fs' }) hm hd' i (hn ▸ hi) 0).1) N
    (fun i hi => (snaps_updated_3d hm hd i hi (6 * N)).2)
    (fun i hi => (snaps_updated_3d (env := { env with fs := fs' }) hm hd' i (hn ▸ hi) (6 * N)).2)
    rfl rfl queue queue' hs hs' hp hp' hP hP' hseed fun i hi b j hj z hz => ?_
  obtain ⟨hw, hf⟩ := hin i hi b j hj z hz
  have hc : ∀ i, InCells (n i) ((z i - o j i) / δ i) := by
    intro i
    fin_cases i
    exacts [hw.1, (h1.symm ▸ hw.2.1 : InCells (n 1) _), hw.2.2]
  have hf' : ∀ q, t.flip q = true → 0 < (z (t.perm q) - o j (t.perm q)) / δ (t.perm q) :=
    fun q hq => div_pos (sub_pos.2 (hf q hq)) (hδ _)
  refine ⟨hw, ?_, field3_turn t (fun i => (hδ i).ne') h1 h1' hc hf'⟩
  rw [Set.mem_ofPred_eq, Within3]
  rw [place_eq t n fun i => (hδ i).ne', place_eq t n fun i => (hδ i).ne',
    place_eq t n fun i => (hδ i).ne']
  have h2 := place_inCells t hc hf' 1
  rw [h1'] at h2
  exact ⟨place_inCells t hc hf' 0, h2, place_inCells t hc hf' 2⟩

end

/-! ## The environments of `ftle.py` -/

/-- **C108 (over ℝ, with the kernels of `ftle.py`).** -/
theorem C108_exact_2d (t : Turn 2) {env : Env ℝ FVal} (he : RealEnv env) (k : Kind)
    {f f' : VelocityFn ℝ} {v v' : ℝ → (Fin 2 → ℝ) → Fin 2 → ℝ} {N : ℕ}
    (hf : ∀ τ, Pointwise (4 * N) 2 (f τ) (v τ)) (hf' : ∀ τ, Pointwise (4 * N) 2 (f' τ) (v' τ))
    (hturn : ∀ τ x, v' τ (t.point x) = t.point (v τ x)) {seed seed' : NDArray ℝ}
    (hs : seed.shape = [4 * N, 2]) (hs' : seed'.shape = [4 * N, 2]) {p p' : Particles ℝ}
    (hp : mkParticles seed = .ok p) (hp' : mkParticles seed' = .ok p')
    (hseed : ∀ i < N, t.Group2 (groupOf seed 4 N 2 i) (groupOf seed' 4 N 2 i))
    (h : ℝ) (τ : ℝ) (τs : List ℝ) (queue queue' : Bool) :
    ((⟨.analytical ⟨p', h, τ :: τs⟩, .analytical (.fresh (some f')), .fresh k⟩ : Solver ℝ).run env
        queue' none).result =
      ((⟨.analytical ⟨p, h, τ :: τs⟩, .analytical (.fresh (some f)), .fresh k⟩ : Solver ℝ).run env
        queue none).result :=
  C108_analytical_2d t ((C108_kernels he).1 t) k hf hf' hturn hs hs' hp hp' hseed h τ τs queue queue'

/-- **C108 (over ℝ, 3-D).** -/
theorem C108_exact_3d (t : Turn 3) {env : Env ℝ FVal} (he : RealEnv env) (k : Kind)
    {f f' : VelocityFn ℝ} {v v' : ℝ → (Fin 3 → ℝ) → Fin 3 → ℝ} {N : ℕ}
    (hf : ∀ τ, Pointwise (6 * N) 3 (f τ) (v τ)) (hf' : ∀ τ, Pointwise (6 * N) 3 (f' τ) (v' τ))
    (hturn : ∀ τ x, v' τ (t.point x) = t.point (v τ x)) {seed seed' : NDArray ℝ}
    (hs : seed.shape = [6 * N, 3]) (hs' : seed'.shape = [6 * N, 3]) {p p' : Particles ℝ}
    (hp : mkParticles seed = .ok p) (hp' : mkParticles seed' = .ok p')
    (hseed : ∀ i < N, t.Group3 (groupOf seed 6 N 3 i) (groupOf seed' 6 N 3 i))
    (h : ℝ) (τ : ℝ) (τs : List ℝ) (queue queue' : Bool) :
    ((⟨.analytical ⟨p', h, τ :: τs⟩, .analytical (.fresh (some f')), .fresh k⟩ : Solver ℝ).run env
        queue' none).result =
      ((⟨.analytical ⟨p, h, τ :: τs⟩, .analytical (.fresh (some f)), .fresh k⟩ : Solver ℝ).run env
        queue none).result :=
  C108_analytical_3d t ((C108_kernels he).2 t) k hf hf' hturn hs hs' hp hp' hseed h τ τs queue queue'

/-- **C108 (in binary64, 2-D).**  The two fields agree to the last bit. -/
theorem C108_binary64_2d (t : Turn 2) {env : Env Fl Val64} {m : Libm} (he : Env64 env m) (k : Kind)
    {f f' : VelocityFn Fl} {v v' : Fl → (Fin 2 → Fl) → Fin 2 → Fl} {N : ℕ}
    (hf : ∀ τ, Pointwise (4 * N) 2 (f τ) (v τ)) (hf' : ∀ τ, Pointwise (4 * N) 2 (f' τ) (v' τ))
    (hturn : ∀ τ x, v' τ (t.point x) = t.point (v τ x)) {seed seed' : NDArray Fl}
    (hs : seed.shape = [4 * N, 2]) (hs' : seed'.shape = [4 * N, 2]) {p p' : Particles Fl}
    (hp : mkParticles seed = .ok p) (hp' : mkParticles seed' = .ok p')
    (hseed : ∀ i < N, t.Group2 (groupOf seed 4 N 2 i) (groupOf seed' 4 N 2 i))
    (h : Fl) (τ : Fl) (τs : List Fl) (queue queue' : Bool) :
    ((⟨.analytical ⟨p', h, τ :: τs⟩, .analytical (.fresh (some f')), .fresh k⟩ : Solver Fl).run env
        queue' none).result =
      ((⟨.analytical ⟨p, h, τ :: τs⟩, .analytical (.fresh (some f)), .fresh k⟩ : Solver Fl).run env
        queue none).result :=
  C108_analytical_2d t (C108_kernel64 he t) k hf hf' hturn hs hs' hp hp' hseed h τ τs queue queue'

/-! ## Where the result depends on the drawing, and examples -/

section examples

/-- **C108 is false of the code (particles on the edge of the grid).**  A uniform wind in positive `x`
direction, the left neighbour on the lower edge of the grid: nothing is deformed.  In the mirror the
right neighbour is on the upper edge, where the velocity counts as 0 (C27): stretched by the factor
2. -/
theorem C108_edge_fails :
    exFrameRun .euler 0 (-1) [1, 1, 1] = some [1, 1] ∧
    exFrameRun .euler 0 (-7) [-1, -1, -1] = some [2, 1] := by
  decide +kernel

/-- A quarter turn: new `x` is old `-y`, new `y` is old `x`. -/
def quarter : Turn 2 := ⟨Equiv.swap 0 1, ![true, false]⟩

/-- The files of `exFrame 0 (-4) [1, 0, 1]` after the quarter turn. -/
def exTurned : MatFS ℚ := fun path =>
  if path = "v" ∨ path = "w" then some fun key =>
    if key = "velocity_x" then some (exRow [0, 0, 0, 0, 0, 0, 0, 0, 0])
    else if key = "velocity_y" then some (exRow [1, 1, 1, 0, 0, 0, 1, 1, 1])
    else none
  else exFrame 0 (-4) [] path

/-- An environment whose 2-D kernel shows the trace of the Jacobian. -/
def exTraceEnv (fs : MatFS ℚ) : Env ℚ ℚ := { exFileEnv with
  fs := fs
  ftle2 := fun js T => .ok (js.map (fun J => J 0 0 + J 1 1) ++ [T])
  ftle3 := fun js T => .ok (js.map (fun J => J 0 0 + J 1 1 + J 2 2) ++ [T]) }

theorem exTraceEnv_2d (fs : MatFS ℚ) (js : List (Matrix (Fin 2) (Fin 2) ℚ)) (T : ℚ) :
    (exTraceEnv fs).ftle2 (js.map quarter.matrix) T = (exTraceEnv fs).ftle2 js T := by
  have : ∀ J : Matrix (Fin 2) (Fin 2) ℚ, quarter.matrix J 0 0 + quarter.matrix J 1 1 =
      J 0 0 + J 1 1 := by
    intro J
    show - - J 1 1 + J 0 0 = _
    ring
  simp only [exTraceEnv, List.map_map, Function.comp_def, this]

/-- The hypotheses of C108 hold for gridded snapshots; the field is not trivial. -/
example : ∀ k : Kind,
    let S : Solver ℚ := ⟨.file exFrameSource, .highPerf (HighPerf.fresh [3, 3]), .fresh k⟩
    (S.run (exTraceEnv exTurned) false none).result =
      (S.run (exTraceEnv (exFrame 0 (-4) [1, 0, 1])) false none).result ∧
    (k = .ab2 → (S.run (exTraceEnv exTurned) false none).result.toOption.join =
      some [67 / 32, 1]) := by
  intro k S
  refine ⟨?_, fun h => by subst h; decide +kernel⟩
  refine C108_grid_2d quarter (env := exTraceEnv (exFrame 0 (-4) [1, 0, 1])) (exTraceEnv_2d _)
    (Or.inl rfl) exTurned k (s := exFrameSource) (s' := exFrameSource) rfl rfl (n := ![3, 3])
    (δ := ![4, 4]) (o := fun _ _ => -4)
    (f := fun _ i A => if i = 0 then [1, 0, 1].getD (A 0) 0 else 0) ?_ ?_ (N := 1)
    (seed := exFrameSeed) (seed' := exFrameSeed) (p := exOf exFrameSeed) (p' := exOf exFrameSeed)
    rfl rfl rfl rfl rfl rfl ?_ ?_ false false
  · refine ⟨rfl, by decide, by decide, by decide, by decide, by decide, by decide, ?_⟩
    intro j hj
    have hj : j < 2 := hj
    interval_cases j
    all_goals
      refine ⟨_, _, ⟨⟨_, rfl, rfl⟩, ⟨_, rfl, rfl⟩⟩, rfl, rfl, ?_, ?_⟩ <;> decide +kernel
  · refine ⟨rfl, by decide, by decide, by decide, by decide, by decide, by decide, ?_⟩
    intro j hj
    have hj : j < 2 := hj
    interval_cases j
    all_goals
      refine ⟨_, _, ⟨⟨_, rfl, rfl⟩, ⟨_, rfl, rfl⟩⟩, rfl, rfl, ?_, ?_⟩ <;> decide +kernel
  · unfold Turn.Group2
    decide +kernel
  · unfold Within2
    cases k <;> decide +kernel

/-- A uniform wind of velocity 1 in `z` direction on a 2 × 2 × 3 grid, or, drawn with `y` and `z`
exchanged, in `y` direction on a 2 × 3 × 2 grid. -/
def exWind (exchanged : Bool) : MatFS ℚ := fun path =>
  if path = "c" ∨ path = "d" then some fun key =>
    if key = "coordinate_x" then some (exRow (if exchanged then [-4, -4, 4, 4, -4, -4, 4, 4, -4, -4, 4, 4]
      else [-4, -4, -4, 4, 4, 4, -4, -4, -4, 4, 4, 4]))
    else if key = "coordinate_y" then some (exRow (if exchanged then
      [-4, -4, -4, -4, 0, 0, 0, 0, 4, 4, 4, 4] else [-4, -4, -4, -4, -4, -4, 4, 4, 4, 4, 4, 4]))
    else if key = "coordinate_z" then some (exRow (if exchanged then
      [-4, 4, -4, 4, -4, 4, -4, 4, -4, 4, -4, 4] else [-4, 0, 4, -4, 0, 4, -4, 0, 4, -4, 0, 4]))
    else none
  else if path = "v" ∨ path = "w" then some fun key =>
    if key = "velocity_x" then some (exRow (List.replicate 12 0))
    else if key = "velocity_y" then some (exRow (List.replicate 12 (if exchanged then 1 else 0)))
    else if key = "velocity_z" then some (exRow (List.replicate 12 (if exchanged then 0 else 1)))
    else none
  else exFrame3 0 path

/-- **C108 is false of the code (3-D grids).**  Exchanging the names of `y` and `z` turns a 2 × 2 × 3 grid
into a 2 × 3 × 2 grid, which the fast interpolator misreads (C30): a uniform wind deforms the fluid. -/
theorem C108_exchange_3d_fails :
    ((⟨.file exFrameSource, .highPerf (HighPerf.fresh [2, 2, 3]), .fresh .euler⟩ : Solver ℚ).run
      (exTraceEnv (exWind false)) false none).result.toOption.join = some [3, 1] ∧
    ((⟨.file exFrameSource, .highPerf (HighPerf.fresh [2, 3, 2]), .fresh .euler⟩ : Solver ℚ).run
      (exTraceEnv (exWind true)) false none).result.toOption.join = some [5 / 2, 1] := by
  decide +kernel

/-- New `x` is old `-z`, new `z` is old `x`. -/
def quarter3 : Turn 3 := ⟨Equiv.swap 0 2, ![true, false, false]⟩

/-- The files of `exFrame3 0` after this turn. -/
def exTurned3 : MatFS ℚ := fun path =>
  if path = "v" ∨ path = "w" then some fun key =>
    if key = "velocity_z" then some (exRow ([-4, 4, -4, 4, -4, 4, -4, 4].map fun x => x / 8))
    else if key = "velocity_x" ∨ key = "velocity_y" then some (exRow [0, 0, 0, 0, 0, 0, 0, 0])
    else none
  else exFrame3 0 path

theorem exTraceEnv_3d (fs : MatFS ℚ) (js : List (Matrix (Fin 3) (Fin 3) ℚ)) (T : ℚ) :
    (exTraceEnv fs).ftle3 (js.map quarter3.matrix) T = (exTraceEnv fs).ftle3 js T := by
  have : ∀ J : Matrix (Fin 3) (Fin 3) ℚ, quarter3.matrix J 0 0 + quarter3.matrix J 1 1 +
      quarter3.matrix J 2 2 = J 0 0 + J 1 1 + J 2 2 := by
    intro J
    show - - J 2 2 + J 1 1 + J 0 0 = _
    ring
  simp only [exTraceEnv, List.map_map, Function.comp_def, this]

/-- The hypotheses of C108 hold for gridded snapshots in three dimensions. -/
example : ∀ k : Kind,
    let S : Solver ℚ := ⟨.file exFrameSource, .highPerf (HighPerf.fresh [2, 2, 2]), .fresh k⟩
    (S.run (exTraceEnv exTurned3) false none).result =
      (S.run (exTraceEnv (exFrame3 0)) false none).result ∧
    (k = .euler → (S.run (exTraceEnv exTurned3) false none).result.toOption.join =
      some [209 / 64, 1]) := by
  intro k S
  refine ⟨?_, fun h => by subst h; decide +kernel⟩
  refine C108_grid_3d quarter3 (env := exTraceEnv (exFrame3 0)) (exTraceEnv_3d _)
    (Or.inl rfl) exTurned3 k (s := exFrameSource) (s' := exFrameSource) rfl rfl (n := ![2, 2, 2])
    (δ := ![8, 8, 8]) rfl rfl (o := fun _ _ => -4)
    (f := fun _ i A => if i = 0 then A 0 - 1 / 2 else 0) ?_ ?_ (N := 1)
    (seed := exFrameSeed3) (seed' := exFrameSeed3) (p := exOf exFrameSeed3) (p' := exOf exFrameSeed3)
    rfl rfl rfl rfl rfl rfl ?_ ?_ false false
  · refine ⟨rfl, by decide, by decide, by decide, by decide, by decide, by decide, by decide,
      by decide, ?_⟩
    intro j hj
    have hj : j < 2 := hj
    interval_cases j
    all_goals
      refine ⟨_, _, ⟨⟨_, rfl, rfl⟩, ⟨_, rfl, rfl⟩⟩, rfl, rfl, ?_, ?_⟩ <;> decide +kernel
  · refine ⟨rfl, by decide, by decide, by decide, by decide, by decide, by decide, by decide,
      by decide, ?_⟩
    intro j hj
    have hj : j < 2 := hj
    interval_cases j
    all_goals
      refine ⟨_, _, ⟨⟨_, rfl, rfl⟩, ⟨_, rfl, rfl⟩⟩, rfl, rfl, ?_, ?_⟩ <;> decide +kernel
  · unfold Turn.Group3
    decide +kernel
  · unfold Within3
    cases k <;> decide +kernel

/-- The shear `(0, x)` of C86 after the quarter turn: `(-y, 0)`. -/
def turnedShear64 (z : Fin 2 → Fl) : Fin 2 → Fl := ![⟨-(z 1).val⟩, ⟨0⟩]

/-- The hypotheses of C108 hold in binary64. -/
example (k : Kind) (m : Libm) : ∃ P : Particles Fl, mkParticles cross64 = .ok P ∧
    ((⟨.analytical ⟨P, ⟨1 / 1024⟩, [⟨0⟩, ⟨1 / 1024⟩]⟩,
      .analytical (.fresh (some fun _ => sourceOf 2 turnedShear64)), .fresh k⟩ : Solver Fl).run (flEnv m)
      true none).result =
    ((⟨.analytical ⟨P, ⟨1 / 1024⟩, [⟨0⟩, ⟨1 / 1024⟩]⟩,
      .analytical (.fresh (some fun _ => sourceOf 2 linShear64)), .fresh k⟩ : Solver Fl).run (flEnv m)
      false none).result := by
  obtain ⟨P, hP, -⟩ := mkParticles_2d (show cross64.shape = [4 * 1, 2] from rfl)
  refine ⟨P, hP, C108_binary64_2d quarter (m := m) ⟨rfl, rfl⟩ k (v := fun _ => linShear64)
    (v' := fun _ => turnedShear64) (N := 1) (fun _ => sourceOf_pointwise _ _ _)
    (fun _ => sourceOf_pointwise _ _ _) (fun τ x => ?_) (seed := cross64) (seed' := cross64) rfl rfl hP
    hP ?_ _ _ _ _ _⟩
  · funext q
    fin_cases q <;> rfl
  · unfold Turn.Group2
    decide +kernel

/-- Six neighbours of the origin. -/
noncomputable def crossSeed3 : NDArray ℝ := ⟨[6, 3], fun i =>
  if i = [0, 0] ∨ i = [3, 1] ∨ i = [5, 2] then -1
  else if i = [1, 0] ∨ i = [2, 1] ∨ i = [4, 2] then 1 else 0⟩

/-- The hypotheses of C108 hold over ℝ: a shear in `x`, and the same in `z` direction. -/
example (k : Kind) : ∃ P : Particles ℝ, mkParticles crossSeed3 = .ok P ∧
    ((⟨.analytical ⟨P, 1, [0, 1]⟩,
      .analytical (.fresh (some fun _ => sourceOf 3 fun x => ![0, 0, x 1])), .fresh k⟩ :
        Solver ℝ).run realEnv true none).result =
    ((⟨.analytical ⟨P, 1, [0, 1]⟩,
      .analytical (.fresh (some fun _ => sourceOf 3 fun x => ![x 1, 0, 0])), .fresh k⟩ :
        Solver ℝ).run realEnv true none).result := by
  obtain ⟨P, hP, -⟩ := mkParticles_3d (show crossSeed3.shape = [6 * 1, 3] from rfl)
  refine ⟨P, hP, C108_exact_3d quarter3 realEnv_ok k (v := fun _ x => ![x 1, 0, 0])
    (v' := fun _ x => ![0, 0, x 1]) (N := 1) (fun _ => sourceOf_pointwise _ _ _)
    (fun _ => sourceOf_pointwise _ _ _) (fun τ x => ?_) (seed := crossSeed3) (seed' := crossSeed3)
    rfl rfl hP hP ?_ _ _ _ _ _⟩
  · funext q
    fin_cases q
    · exact (neg_zero (G := ℝ)).symm
    · rfl
    · rfl
  · intro i hi q s
    have hi : i = 0 := by omega
    subst hi
    funext c
    fin_cases q <;> cases s <;> fin_cases c <;>
      simp [groupOf, rowOf, crossSeed3, Turn.point, quarter3, end3, signed, Equiv.swap_apply_def]

end examples

end Verif
