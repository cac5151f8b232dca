import Verif.Props.Examples
import Verif.Props.Api
import Verif.Spec.Survey
import Verif.Props.EndToEnd
import Verif.Lemmas.SteadyFlow
import Mathlib.Analysis.SpecialFunctions.Trigonometric.Deriv
import Mathlib.Analysis.SpecialFunctions.Trigonometric.Bounds

/-!
# C110: the fields of the double-gyre notebook

The notebook announces the double gyre, whose velocity changes with time, and shows four consecutive
fields.  The solver asks its velocity function only for the time 0 (C38), so that all four pictures
are the same, and belong to the steady flow `gyre` that the double gyre is at that time.  Of this flow
they are accurate.
-/

namespace Verif

open Set
open scoped NNReal

/-- The stream function of the double gyre. -/
noncomputable def gyreStream (A ε ω t x y : ℝ) : ℝ :=
  A * Real.sin (Real.pi * (ε * Real.sin (ω * t) * x ^ 2 + (1 - 2 * ε * Real.sin (ω * t)) * x)) *
    Real.sin (Real.pi * y)

/-- **C110** (formula).  The velocity of the notebook is that of the stream function: it is
`(-∂ψ/∂y, ∂ψ/∂x)`. -/
theorem C110_stream (A ε ω t x y : ℝ) :
    HasDerivAt (fun y => gyreStream A ε ω t x y) (-(doubleGyreAt A ε ω t x y).1) y ∧
      HasDerivAt (fun x => gyreStream A ε ω t x y) (doubleGyreAt A ε ω t x y).2 x := by
  set a := ε * Real.sin (ω * t) with ha
  constructor
  · have h1 : HasDerivAt (fun y => Real.sin (Real.pi * y)) (Real.cos (Real.pi * y) * (Real.pi * 1)) y :=
      ((hasDerivAt_id y).const_mul Real.pi).sin
    refine (h1.const_mul (A * Real.sin (Real.pi * (a * x ^ 2 + (1 - 2 * ε * Real.sin (ω * t)) * x)))).congr_deriv ?_
    simp only [doubleGyreAt]
    ring
  · have h1 : HasDerivAt (fun x : ℝ => a * x ^ 2 + (1 - 2 * ε * Real.sin (ω * t)) * x)
        (a * (2 * x) + (1 - 2 * ε * Real.sin (ω * t)) * 1) x := by
      have := ((hasDerivAt_pow 2 x).const_mul a).add
        ((hasDerivAt_id x).const_mul (1 - 2 * ε * Real.sin (ω * t)))
      exact this.congr_deriv (by simp)
    have h2 := ((h1.const_mul Real.pi).sin.const_mul A).mul_const (Real.sin (Real.pi * y))
    refine h2.congr_deriv ?_
    simp only [doubleGyreAt, ha]
    ring

/-- The velocity of the double gyre. -/
noncomputable def doubleGyre (A ε ω t : ℝ) (x : Fin 2 → ℝ) : Fin 2 → ℝ :=
  ![(doubleGyreAt A ε ω t (x 0) (x 1)).1, (doubleGyreAt A ε ω t (x 0) (x 1)).2]

/-- The double gyre at the time 0. -/
noncomputable def gyre (A : ℝ) (x : Fin 2 → ℝ) : Fin 2 → ℝ :=
  ![-(Real.pi * A * (Real.sin (Real.pi * x 0) * Real.cos (Real.pi * x 1))),
    Real.pi * A * (Real.cos (Real.pi * x 0) * Real.sin (Real.pi * x 1))]

theorem doubleGyre_zero (A ε ω : ℝ) : doubleGyre A ε ω 0 = gyre A := by
  funext x c
  fin_cases c <;> simp [doubleGyre, doubleGyreAt, gyre] <;> ring

/-- The double gyre is not steady: its velocity depends on the amplitude of the oscillation. -/
theorem doubleGyre_unsteady {A ε ω : ℝ} (hA : A ≠ 0) (hε : ε ≠ 0) (hω : ω ≠ 0) :
    ∃ t x, doubleGyre A ε ω t x ≠ gyre A x := by
  refine ⟨Real.pi / 2 / ω, ![0, 1 / 2], fun h => ?_⟩
  have h1 := congrFun h 1
  have e : ω * (Real.pi / 2 / ω) = Real.pi / 2 := by field_simp
  simp only [doubleGyre, doubleGyreAt, gyre, e, Real.sin_pi_div_two, Matrix.cons_val_one,
    Matrix.cons_val_zero, Matrix.cons_val_fin_one] at h1
  norm_num at h1
  rw [show Real.pi * (1 / 2) = Real.pi / 2 by ring, Real.sin_pi_div_two] at h1
  have h2 : Real.pi * A * ε = 0 := by linarith
  exact mul_ne_zero (mul_ne_zero Real.pi_ne_zero hA) hε h2

theorem doubleGyreFn_pointwise (junk : List ℕ → ℝ) (A ε ω t : ℝ) (R : ℕ) :
    Pointwise R 2 (doubleGyreFn junk A ε ω t) (doubleGyre A ε ω t) := by
  intro pos hpos
  unfold doubleGyreFn
  simp only [hpos]
  refine ⟨_, if_neg (by omega), rfl, fun r hr => ?_⟩
  funext c
  fin_cases c <;> simp [rowOf, doubleGyre]

theorem doubleGyreFn_respects (junk : List ℕ → ℝ) (A ε ω : ℝ) :
    (doubleGyreFn junk A ε ω).Respects := by
  intro t q q' h
  obtain ⟨h1, h2⟩ := h
  unfold doubleGyreFn
  rw [← h1]
  split
  · rename_i n d hs
    split
    · exact .error _
    · rename_i hd
      refine .ok ⟨rfl, fun idx hidx => ?_⟩
      simp only at hidx ⊢
      match idx, hidx with
      | [r, c], hidx =>
        have hr : r < n := by
          have := hidx
          simp [ValidIdx] at this
          exact this.1
        have e0 : q.get [r, 0] = q'.get [r, 0] := h2 _ (by rw [hs]; simp [ValidIdx]; omega)
        have e1 : q.get [r, 1] = q'.get [r, 1] := h2 _ (by rw [hs]; simp [ValidIdx]; omega)
        simp only [List.getD_cons_zero, e0, e1]
  · exact .error _

theorem doubleGyreFn_zero (junk : List ℕ → ℝ) (A ε ω ε' ω' : ℝ) :
    doubleGyreFn junk A ε ω 0 = doubleGyreFn junk A ε' ω' 0 := by
  funext q
  unfold doubleGyreFn
  simp only [doubleGyreAt, mul_zero, Real.sin_zero]

/-! ## The steady gyre -/

theorem gyre_smooth (A : ℝ) (n : ℕ∞) : ContDiff ℝ n (gyre A) := by
  rw [contDiff_pi]
  intro c
  fin_cases c
  · show ContDiff ℝ n fun x : Fin 2 → ℝ =>
      -(Real.pi * A * (Real.sin (Real.pi * x 0) * Real.cos (Real.pi * x 1)))
    fun_prop
  · show ContDiff ℝ n fun x : Fin 2 → ℝ =>
      Real.pi * A * (Real.cos (Real.pi * x 0) * Real.sin (Real.pi * x 1))
    fun_prop

theorem gyre_smoothEnough (k : Kind) (A : ℝ) : SmoothEnough k fun _ => gyre A := by
  cases k with
  | euler => exact (gyre_smooth A 1).comp contDiff_snd
  | ab2 => exact (gyre_smooth A 2).comp contDiff_snd
  | rk4 => exact ⟨gyre A, gyre_smooth A 4, rfl⟩

theorem gyre_bounded (A : ℝ) (x : Fin 2 → ℝ) : ‖gyre A x‖ ≤ (Real.pi * |A|).toNNReal := by
  have hp : 0 ≤ Real.pi * |A| := mul_nonneg Real.pi_pos.le (abs_nonneg A)
  rw [Real.coe_toNNReal _ hp]
  refine (pi_norm_le_iff_of_nonneg hp).2 fun c => ?_
  have key : ∀ a b : ℝ, |a| ≤ 1 → |b| ≤ 1 → |Real.pi * A * (a * b)| ≤ Real.pi * |A| := by
    intro a b ha hb
    rw [abs_mul, abs_mul Real.pi, abs_of_pos Real.pi_pos, abs_mul a]
    exact mul_le_of_le_one_right hp (mul_le_one₀ ha (abs_nonneg b) hb)
  fin_cases c
  · simpa [gyre] using key _ _ (Real.abs_sin_le_one _) (Real.abs_cos_le_one _)
  · simpa [gyre] using key _ _ (Real.abs_cos_le_one _) (Real.abs_sin_le_one _)

theorem gyre_lipschitz (A : ℝ) : LipschitzWith (2 * Real.pi ^ 2 * |A|).toNNReal (gyre A) := by
  have hp : 0 ≤ 2 * Real.pi ^ 2 * |A| := by positivity
  refine LipschitzWith.of_dist_le_mul fun x y => ?_
  rw [Real.coe_toNNReal _ hp, dist_eq_norm, dist_eq_norm]
  have hn : 0 ≤ 2 * Real.pi ^ 2 * |A| * ‖x - y‖ := by positivity
  have hc : ∀ c, |Real.pi * x c - Real.pi * y c| ≤ Real.pi * ‖x - y‖ := by
    intro c
    rw [← mul_sub, abs_mul, abs_of_pos Real.pi_pos]
    exact mul_le_mul_of_nonneg_left (norm_le_pi_norm (x - y) c) Real.pi_pos.le
  have key : ∀ a b a' b' : ℝ, |a| ≤ 1 → |b'| ≤ 1 → |a - a'| ≤ Real.pi * ‖x - y‖ →
      |b - b'| ≤ Real.pi * ‖x - y‖ →
      |Real.pi * A * (a * b) - Real.pi * A * (a' * b')| ≤ 2 * Real.pi ^ 2 * |A| * ‖x - y‖ := by
    intro a b a' b' ha hb hab hbb
    have e : a * b - a' * b' = a * (b - b') + (a - a') * b' := by ring
    rw [← mul_sub, abs_mul, abs_mul Real.pi, abs_of_pos Real.pi_pos, e]
    have h1 : |a * (b - b') + (a - a') * b'| ≤ Real.pi * ‖x - y‖ + Real.pi * ‖x - y‖ := by
      refine (abs_add_le _ _).trans (add_le_add ?_ ?_)
      · rw [abs_mul]
        exact (mul_le_of_le_one_left (abs_nonneg _) ha).trans hbb
      · rw [abs_mul]
        exact (mul_le_of_le_one_right (abs_nonneg _) hb).trans hab
    have := mul_le_mul_of_nonneg_left h1 (mul_nonneg Real.pi_pos.le (abs_nonneg A))
    refine this.trans_eq ?_
    ring
  refine (pi_norm_le_iff_of_nonneg hn).2 fun c => ?_
  have hs : ∀ c, |Real.sin (Real.pi * x c) - Real.sin (Real.pi * y c)| ≤ Real.pi * ‖x - y‖ :=
    fun c => (Real.abs_sin_sub_sin_le _ _).trans (hc c)
  have hco : ∀ c, |Real.cos (Real.pi * x c) - Real.cos (Real.pi * y c)| ≤ Real.pi * ‖x - y‖ :=
    fun c => (Real.abs_cos_sub_cos_le _ _).trans (hc c)
  fin_cases c
  · have := key _ _ _ _ (Real.abs_sin_le_one (Real.pi * x 0)) (Real.abs_cos_le_one (Real.pi * y 1))
      (hs 0) (hco 1)
    rw [← abs_neg, neg_sub] at this
    rw [Real.norm_eq_abs, show (gyre A x - gyre A y) ((fun i => i) ⟨0, by omega⟩) =
      Real.pi * A * (Real.sin (Real.pi * y 0) * Real.cos (Real.pi * y 1)) -
        Real.pi * A * (Real.sin (Real.pi * x 0) * Real.cos (Real.pi * x 1)) by simp [gyre]; ring]
    exact this
  · exact key _ _ _ _ (Real.abs_cos_le_one (Real.pi * x 0)) (Real.abs_sin_le_one (Real.pi * y 1))
      (hco 0) (hs 1)

/-! ## What the notebook computes -/

theorem crossAround2_real (x y s : ℝ) : crossAround2 x y s = cross2 ![x, y] s := rfl

/-- The calls of 01_Closed-form_velocity.ipynb:337-345 and :396-404: the solver for the seeds of the notebook and its
double gyre, with `M` fields of `n` steps of `h`. -/
structure NotebookCall (A ε ω : ℝ) (x y : NDArray ℝ) (s : ℝ) (k : Kind) (n : ℕ) (h : ℝ) (M : ℕ)
    (S : ApiSolver ℝ FVal) : Prop where
  made : ∃ (dict : ArrayDict ℝ) (seeds : NDArray ℝ) (P : Particles ℝ) (junk : List ℕ → ℝ)
    (lower : String → String) (name format : String) (processes : ℤ),
    crossDict2 x y s = .ok dict ∧ crossPositions2 dict = .ok seeds ∧ mkParticles seeds = .ok P ∧
    lower "analytical" = "analytical" ∧ createIntegrator lower name = .ok k ∧
    ApiSolver.create lower (doubleGyreFn junk A ε ω) P h (.ok n) M name processes false format = .ok S

/-- What such a call consists of. -/
theorem NotebookCall.parts {A ε ω : ℝ} {x y : NDArray ℝ} {s : ℝ} {k : Kind} {n : ℕ} {h : ℝ} {M : ℕ}
    {S : ApiSolver ℝ FVal} (hS : NotebookCall A ε ω x y s k n h M S) :
    ∃ dict seeds junk, crossDict2 x y s = .ok dict ∧ crossPositions2 dict = .ok seeds ∧
      mkParticles seeds = .ok S.particles ∧ S.integ = Integ.fresh k ∧ S.writer = none ∧
      S.interp = .analytical (.fresh (some (doubleGyreFn junk A ε ω))) ∧ S.timestep = h ∧
      S.numFtles = M ∧ S.numSnapshots = n := by
  obtain ⟨dict, seeds, P, junk, lower, name, format, processes, h1, h2, h3, h4, h5, h6⟩ := hS.made
  obtain ⟨c1, c2, c3, c4, c5, -, ⟨k', c6, c7⟩, c8, -⟩ := C65_constructor lower h4 _ _ _ _ _ _ _ _ _ _ h6
  rw [h5] at c6
  cases c6
  exact ⟨dict, seeds, junk, h1, h2, by rw [c2]; exact h3, c7, c8 rfl, c1, c3, c4, (Except.ok.inj c5).symm⟩

/-- Every choice of the parameters gives such a call. -/
theorem exists_notebookCall (A ε ω : ℝ) {x y : NDArray ℝ} {nx ny : ℕ} (hx : x.shape = [nx])
    (hy : y.shape = [ny]) (s : ℝ) (n : ℕ) (h : ℝ) (M : ℕ) {p : ℤ} :
    ∃ S, NotebookCall A ε ω x y s .euler n h M S ∧ S.processes = p := by
  obtain ⟨dict, seeds, P, g1, g2, g3, g4, g5⟩ := C110_seeds_2d hx hy
    (fun _ _ => ⟨add_zero _, sub_zero _⟩) (fun _ _ => ⟨add_zero _, sub_zero _⟩) s
  exact ⟨_, ⟨dict, seeds, P, fun _ => 0, id, "euler", "vtk", p, g1, g2, g4, rfl, rfl, rfl⟩, rfl⟩

/-- **C110 is false of the code (1).**  All panels of the notebook are the same: the fields that are
announced as consecutive are copies of one field. -/
theorem C110_panels_fails {env : Env ℝ FVal} (he : env.PerMatrix) {A ε ω : ℝ} {x y : NDArray ℝ}
    {nx ny : ℕ} (hx : x.shape = [nx]) (hy : y.shape = [ny]) {s : ℝ} {k : Kind} {n : ℕ} {h : ℝ} {M : ℕ}
    (hM : 2 ≤ M) {S : ApiSolver ℝ FVal} (hS : NotebookCall A ε ω x y s k n h M S)
    (mem : ℕ → List ℕ → ℝ)
    {s₀ st : HostState (Shared ℝ) (Option (List FVal) × List (Event ℝ FVal))}
    {as : List (Action (Option (List FVal) × List (Event ℝ FVal)))}
    {rs : List (Option (Option (List FVal) × List (Event ℝ FVal)))}
    (h₀ : (S.host env).init mem = .ok s₀) (hx' : HostState.Exec (S.host env) mem s₀ as st)
    (hr : st.pool.phase = .returned rs) :
    ∃ row, S.outcome st = some (.ok (.stack (List.replicate M row))) := by
  obtain ⟨dict, seeds, junk, h1, h2, h3, h4, h5, h6, h7, h8, h9⟩ := hS.parts
  obtain ⟨dict', seeds', P', g1, g2, g3, g4, g5⟩ := C110_seeds_2d hx hy
    (fun _ _ => ⟨add_zero _, sub_zero _⟩) (fun _ _ => ⟨add_zero _, sub_zero _⟩) s
  obtain rfl := Except.ok.inj (g1.symm.trans h1)
  obtain rfl := Except.ok.inj (g2.symm.trans h2)
  exact C38_api_rows_fails env he S k h4 h5 _ (doubleGyreFn_respects junk A ε ω) h6 (N := ny * nx)
    (d := 2) (.inl rfl) g3 h3 M h8 hM mem h₀ hx' hr

/-- **C110 is false of the code (2).**  The oscillation of the double gyre has no effect: two calls
that differ only in `ε` and `ω` return the same, whatever the schedules. -/
theorem C110_frozen_fails {env : Env ℝ FVal} (he : env.PerMatrix) (A ε ω ε' ω' : ℝ) (junk : List ℕ → ℝ)
    (lower : String → String) (hl : lower "analytical" = "analytical") {N : ℕ} {seeds : NDArray ℝ}
    (hs : seeds.shape = [4 * N, 2]) {P : Particles ℝ} (hp : mkParticles seeds = .ok P) (h : ℝ)
    (snapshots : Py ℤ) {M : ℕ} (hM : 1 ≤ M) (name format : String) (p p' : ℤ)
    {S S' : ApiSolver ℝ FVal}
    (hS : ApiSolver.create lower (doubleGyreFn junk A ε ω) P h snapshots M name p false format = .ok S)
    (hS' : ApiSolver.create lower (doubleGyreFn junk A ε' ω') P h snapshots M name p' false format =
      .ok S')
    (mem : ℕ → List ℕ → ℝ)
    {s₀ st s₀' st' : HostState (Shared ℝ) (Option (List FVal) × List (Event ℝ FVal))}
    {as as' : List (Action (Option (List FVal) × List (Event ℝ FVal)))}
    {rs rs' : List (Option (Option (List FVal) × List (Event ℝ FVal)))}
    (h₀ : (S.host env).init mem = .ok s₀) (hx : HostState.Exec (S.host env) mem s₀ as st)
    (hr : st.pool.phase = .returned rs)
    (h₀' : (S'.host env).init mem = .ok s₀') (hx' : HostState.Exec (S'.host env) mem s₀' as' st')
    (hr' : st'.pool.phase = .returned rs') : S.outcome st = S'.outcome st' := by
  obtain ⟨c1, c2, c3, c4, c5, -, ⟨k, c6, c7⟩, c8, -⟩ := C65_constructor lower hl _ _ _ _ _ _ _ _ _ _ hS
  obtain ⟨d1, d2, d3, d4, d5, -, ⟨k', d6, d7⟩, d8, -⟩ :=
    C65_constructor lower hl _ _ _ _ _ _ _ _ _ _ hS'
  obtain rfl := Except.ok.inj (c6.symm.trans d6)
  have e5 : S'.numSnapshots = S.numSnapshots := Except.ok.inj (d5.symm.trans c5)
  have hb : ∀ i, startBatch S' i = startBatch S i := fun i => by
    simp only [startBatch, c2, c3, d2, d3, e5]
  have hrun : ∀ i, (aloneRun { env with junk := mem i } none (.analytical (startBatch S' i)) S'.interp
      k).result = (aloneRun { env with junk := mem i } none (.analytical (startBatch S i)) S.interp
      k).result := fun i => by
    rw [hb, c1, d1]
    exact (C38_time_zero_fails _ true none _ _ _ _ (doubleGyreFn_zero junk A ε' ω' ε ω)).1
  rcases Nat.lt_or_ge 1 M with h2 | h2
  · obtain ⟨rows, r1, r2, r3⟩ := C65_stack env he S k c7 (c8 rfl) (.inl rfl) hs (by rw [c2]; exact hp) M
      c4 h2 mem h₀ hx hr
    obtain ⟨rows', r1', r2', r3'⟩ := C65_stack env he S' k d7 (d8 rfl) (.inl rfl) hs
      (by rw [d2]; exact hp) M d4 h2 mem h₀' hx' hr'
    rw [r1, r1']
    congr 3
    refine List.ext_getElem? fun i => ?_
    rcases Nat.lt_or_ge i M with hi | hi
    · obtain ⟨row, q1, -, q3⟩ := r3 i hi
      obtain ⟨row', q1', -, q3'⟩ := r3' i hi
      rw [hrun i, q3] at q3'
      cases q3'
      rw [q1, q1']
    · rw [List.getElem?_eq_none (by omega), List.getElem?_eq_none (by omega)]
  · obtain rfl : M = 1 := by omega
    obtain ⟨row, r1, -, r3⟩ := C65_single env he S k c7 (c8 rfl) (.inl rfl) hs (by rw [c2]; exact hp)
      c4 mem h₀ hx hr
    obtain ⟨row', r1', -, r3'⟩ := C65_single env he S' k d7 (d8 rfl) (.inl rfl) hs
      (by rw [d2]; exact hp) d4 mem h₀' hx' hr'
    rw [hrun 0, r3] at r3'
    cases r3'
    rw [r1, r1']

/-- **C110** (values).  The flow `Z` of the steady gyre exists, and there are constants, depending on
the amplitude, the centres, the spacing, the integrator and `T`, such that every call of the notebook
with at least two steps `|h| ≤ η` and `n |h| ≤ T` returns (unless a process is killed), and row `j`,
column `i` of its picture is near the logarithm of the maximal stretching, by the steady gyre, of the
differences around `(x_i, y_j)`. -/
theorem C110_values_partial (k : Kind) (A : ℝ) {x y : NDArray ℝ} {nx ny : ℕ} (hx : x.shape = [nx])
    (hy : y.shape = [ny]) {s : ℝ} (hs : s ≠ 0) {T : ℝ} (hT : 0 ≤ T) :
    ∃ Z : (Fin 2 → ℝ) → ℝ → Fin 2 → ℝ,
      (∀ c, IsTrajectory (fun _ => gyre A) (Icc (-T) T) (Z c) ∧ Z c 0 = c) ∧
      ∃ C η, 0 < η ∧ ∀ (env : Env ℝ FVal), RealEnv env → ∀ (ε ω h : ℝ) (n M : ℕ)
        (S : ApiSolver ℝ FVal), NotebookCall A ε ω x y s k n h M S → 1 ≤ M → 2 ≤ n → h ≠ 0 →
        |h| ≤ η → n * |h| ≤ T → ∀ (mem : ℕ → List ℕ → ℝ)
        (s₀ st : HostState (Shared ℝ) (Option (List FVal) × List (Event ℝ FVal)))
        (as : List (Action (Option (List FVal) × List (Event ℝ FVal)))),
        (S.host env).init mem = .ok s₀ → HostState.Exec (S.host env) mem s₀ as st →
        (.crash ∉ as → ∃ bs st' rs, HostState.Exec (S.host env) mem s₀ (as ++ bs) st' ∧
          st'.pool.phase = .returned rs) ∧
        ∀ rs, st.pool.phase = .returned rs → ∃ row a,
          S.outcome st = some (.ok (if M = 1 then .field row else .stack (List.replicate M row))) ∧
          picture x y row = .ok a ∧ a.shape = [ny, nx] ∧
          ∀ j < ny, ∀ i < nx, ∃ σ Λ, IsMaxStretch (diffs2
              (fun b => Z (cross2 ![at1 x i, at1 y j] s b) (n * h)) (cross2 ![at1 x i, at1 y j] s)) σ ∧
            0 < σ ∧ a.get [j, i] = .fin Λ ∧
            |Λ - 1 / (((n : ℝ) - 1) * |h|) * Real.log σ| ≤
              1 / (((n : ℝ) - 1) * |h|) * (C * |h| ^ documentedOrder k) := by
  choose Z hZ using fun c => exists_trajectory (gyre_lipschitz A) (gyre_bounded A) hT c
  refine ⟨Z, hZ, ?_⟩
  obtain ⟨dict, seeds, P, g1, g2, g3, g4, g5⟩ := C110_seeds_2d hx hy
    (fun _ _ => ⟨add_zero _, sub_zero _⟩) (fun _ _ => ⟨add_zero _, sub_zero _⟩) s
  have hdiv : ∀ q < ny * nx, 0 < nx ∧ q / nx < ny ∧ q % nx < nx ∧ q / nx * nx + q % nx = q := by
    intro q hq
    have hnx : 0 < nx := by
      rcases Nat.eq_zero_or_pos nx with rfl | h
      · simp at hq
      · exact h
    exact ⟨hnx, (Nat.div_lt_iff_lt_mul hnx).2 hq, Nat.mod_lt _ hnx, Nat.div_add_mod' q nx⟩
  have hgrp : ∀ q < ny * nx, groupOf seeds 4 (ny * nx) 2 q =
      cross2 ![at1 x (q % nx), at1 y (q / nx)] s := by
    intro q hq
    obtain ⟨-, q1, q2, q3⟩ := hdiv q hq
    have := g5 _ q1 _ q2
    rw [q3] at this
    exact this
  obtain ⟨C, η, hη, H⟩ := steady_values_2d k (gyre_smoothEnough k A) (gyre_lipschitz A) hT Z hZ
    (N := ny * nx) g3 g4 (fun q hq => by
      rw [hgrp q hq]
      constructor <;> simp [cross2] <;> intro e <;> apply hs <;> linarith)
  refine ⟨C, η, hη, ?_⟩
  intro env he ε ω h n M S hS hM hn hh0 hhη hnT mem s₀ st as h₀ hex
  obtain ⟨dict', seeds', junk, h1, h2, h3, h4, h5, h6, h7, h8, h9⟩ := hS.parts
  obtain rfl := Except.ok.inj (g1.symm.trans h1)
  obtain rfl := Except.ok.inj (g2.symm.trans h2)
  obtain rfl := Except.ok.inj (g4.symm.trans h3)
  -- every task
  have hrun : ∀ i, ∃ Λ σ : ℕ → ℝ, (aloneRun { env with junk := mem i } none
      (.analytical (startBatch S i)) S.interp k).result =
        .ok (some ((List.range (ny * nx)).map fun q => .fin (Λ q))) ∧
      ∀ q < ny * nx, IsMaxStretch (diffs2 (fun b =>
          Z (cross2 ![at1 x (q % nx), at1 y (q / nx)] s b) (n * h))
          (cross2 ![at1 x (q % nx), at1 y (q / nx)] s)) (σ q) ∧
        0 < σ q ∧ |Λ q - 1 / (((n : ℝ) - 1) * |h|) * Real.log (σ q)| ≤
            1 / (((n : ℝ) - 1) * |h|) * (C * |h| ^ documentedOrder k) := by
    intro i
    have hb : startBatch S i = ⟨S.particles, h, (startBatch S i).times⟩ := by
      rw [startBatch, h7]
    have := H { env with junk := mem i } ⟨he.abs, he.f2, he.f3⟩ true (doubleGyreFn junk A ε ω)
      (by rw [← doubleGyre_zero A ε ω]; exact doubleGyreFn_pointwise junk A ε ω 0 _)
      (startBatch S i).times n h (by simp [startBatch, h9]) hn hh0 hhη hnT
    obtain ⟨Λ, σ, t1, t2⟩ := this
    refine ⟨Λ, σ, ?_, fun q hq => ?_⟩
    · unfold aloneRun
      rw [hb, h6]
      exact t1
    · have t3 := t2 q hq
      rw [hgrp q hq] at t3
      exact t3
  refine ⟨fun hc => ?_, fun rs hr => ?_⟩
  · refine C65_returns env S k h4 M h8 mem (fun i _ => ?_) h₀ hex hc
    obtain ⟨Λ, σ, h10, -⟩ := hrun i
    rw [h5]
    exact ⟨_, h10⟩
  · obtain ⟨Λ, σ, r1, r2⟩ := hrun 0
    have hlen : ((List.range (ny * nx)).map fun q => FVal.fin (Λ q)).length = ny * nx := by simp
    obtain ⟨a, a1, a2, a3⟩ := C110_picture hx hy hlen
    refine ⟨_, a, ?_, a1, a2, ?_⟩
    · rcases Nat.lt_or_ge 1 M with hM2 | hM2
      · obtain ⟨row, r3⟩ := C110_panels_fails he.perMatrix hx hy hM2 hS mem h₀ hex hr
        obtain ⟨rows, t1, t2, t3⟩ := C65_stack env he.perMatrix S k h4 h5 (.inl rfl) g3 h3 M h8 hM2
          mem h₀ hex hr
        obtain ⟨row', t4, -, t5⟩ := t3 0 (by omega)
        rw [r1] at t5
        cases t5
        rw [r3] at t1
        cases t1
        rw [List.getElem?_replicate, if_pos (by omega)] at t4
        cases t4
        rw [r3, if_neg (by omega)]
      · obtain rfl : M = 1 := by omega
        obtain ⟨row, t1, -, t3⟩ := C65_single env he.perMatrix S k h4 h5 (.inl rfl) g3 h3 h8 mem h₀ hex
          hr
        rw [r1] at t3
        cases t3
        rw [t1, if_pos rfl]
    · intro j hj i hi
      have hq : j * nx + i < ny * nx := by
        have : (j + 1) * nx ≤ ny * nx := Nat.mul_le_mul_right _ hj
        have e : (j + 1) * nx = j * nx + nx := by ring
        omega
      have e1 : (j * nx + i) / nx = j := by
        rw [mul_comm, Nat.mul_add_div (by omega), Nat.div_eq_of_lt hi, add_zero]
      have e2 : (j * nx + i) % nx = i := by
        rw [mul_comm, Nat.mul_add_mod, Nat.mod_eq_of_lt hi]
      have := r2 _ hq
      rw [e1, e2] at this
      refine ⟨σ (j * nx + i), Λ (j * nx + i), this.1, this.2.1, ?_, this.2.2⟩
      have h10 := a3 j hj i hi
      rw [List.getElem?_map, List.getElem?_range hq] at h10
      exact (Option.some.inj h10).symm

/-- The four panels of the notebook (`num_ftles = 4`, two processes, backward in time): the hypotheses
hold for steps as small as one likes, there is an execution that returns, and it returns four times the
same row, which has a picture. -/
example (x y : NDArray ℝ) (hx : x.shape = [3]) (hy : y.shape = [2]) : ∃ (h : ℝ) (S : ApiSolver ℝ FVal),
    h < 0 ∧ NotebookCall (1 / 10) (1 / 4) (2 * Real.pi / 10) x y (1 / 100) .euler 2 h 4 S ∧
    ∃ s₀ as st rs row a, (S.host realEnv).init (fun _ _ => 5) = .ok s₀ ∧
      HostState.Exec (S.host realEnv) (fun _ _ => 5) s₀ as st ∧ st.pool.phase = .returned rs ∧
      S.outcome st = some (.ok (.stack [row, row, row, row])) ∧ picture x y row = .ok a := by
  obtain ⟨Z, -, C, η, hη, H⟩ := C110_values_partial .euler (1 / 10) hx hy (s := 1 / 100) (by norm_num)
    (T := 15) (by norm_num)
  have hm : 0 < min η 1 := lt_min hη one_pos
  obtain ⟨S, hS, hp⟩ := exists_notebookCall (1 / 10) (1 / 4) (2 * Real.pi / 10) hx hy (1 / 100) 2
    (-(min η 1)) 4 (p := 2)
  have hM : S.numFtles = 4 := by
    obtain ⟨_, _, _, -, -, -, -, -, -, -, h8, -⟩ := hS.parts
    exact h8
  obtain ⟨s₀, h₀⟩ := (C65_start realEnv S (fun _ _ => 5)).1 (by omega) (by omega)
  have key := fun st as hx' => H realEnv realEnv_ok _ _ _ 2 4 S hS (by omega) (by omega)
    (by simpa using hm.ne') (by rw [abs_neg, abs_of_pos hm]; exact min_le_left _ _)
    (by rw [abs_neg, abs_of_pos hm]; have := min_le_right η 1; push_cast; linarith) (fun _ _ => 5) s₀
    st as h₀ hx'
  obtain ⟨bs, st, rs, h1, h2⟩ := (key _ [] .nil).1 (by simp)
  obtain ⟨row, a, h3, h4, -⟩ := (key st _ h1).2 rs h2
  exact ⟨-(min η 1), S, by linarith, hS, s₀, _, st, rs, row, a, h₀, h1, h2, h3, h4⟩

/-- The amplitude of the notebook is one for which the announced flow is not the one shown. -/
example : ∃ t x, doubleGyre (1 / 10) (1 / 4) (2 * Real.pi / 10) t x ≠ gyre (1 / 10) x :=
  doubleGyre_unsteady (by norm_num) (by norm_num) (by positivity)

/-- C111 (2-D): its hypotheses hold for the steady gyre, all integrators and four seeds around the
origin. -/
example (k : Kind) : ∃ P, (SmoothEnough k fun _ => gyre (1 / 10)) ∧ crossSeed.shape = [4 * 1, 2] ∧
    mkParticles crossSeed = .ok P ∧ ∀ i < 1, groupOf crossSeed 4 1 2 i 1 0 ≠
      groupOf crossSeed 4 1 2 i 0 0 ∧ groupOf crossSeed 4 1 2 i 2 1 ≠ groupOf crossSeed 4 1 2 i 3 1 := by
  have hs : crossSeed.shape = [4 * 1, 2] := rfl
  obtain ⟨P, hP, -⟩ := mkParticles_2d hs
  refine ⟨P, gyre_smoothEnough k _, hs, hP, fun i hi => ?_⟩
  obtain rfl : i = 0 := by omega
  simp [groupOf, rowOf, crossSeed]
  norm_num

end Verif
