import Verif.Lemmas.Missing
import Verif.Props.FlowMap
import Verif.Props.Converge

/-!
# C89: missing velocities

Velocity data may be masked: velocity files hold NaN over land, and SciPy's linear interpolator
answers NaN outside the hull of the data.  A particle that is given such a velocity is lost, and the
group it belongs to has no exponent.  All other groups should be unaffected.

True of 2-D runs.  In 3-D `np.linalg.eigvals` refuses the batch, and a single lost particle costs the
whole run.
-/

set_option linter.unusedSectionVars false

namespace Verif

open Miss

/-! ## Vocabulary -/

section spec
variable {K : Type} [Add K] [Sub K] [Mul K] [Div K] [NumLits K] {d : ℕ}

/-- The particle that starts at `x` is given a missing velocity during the first `n` steps. -/
def Meets (k : Kind) (g : ℕ → (Fin d → Miss K) → Fin d → Miss K) (h : Miss K) (n : ℕ)
    (x : Fin d → Miss K) : Prop :=
  ∃ j < n, ∃ z ∈ stages k (g j) h (flowMap k g h j x), ∃ c, g j z c = nan

/-- The velocities `f` are known along the first `n` steps of the particle that starts at `x`, and
are those of the data `g`. -/
def Known (k : Kind) (g : ℕ → (Fin d → Miss K) → Fin d → Miss K) (f : ℕ → (Fin d → K) → Fin d → K)
    (h : K) (n : ℕ) (x : Fin d → K) : Prop :=
  ∀ j < n, ∀ z ∈ stages k (f j) h (flowMap k f h j x),
    g j (fun c => num (z c)) = fun c => num (f j z c)

end spec

/-- The kernels of `ftle.py` on data with NaNs. -/
structure MissEnv (env : Env (Miss ℝ) FVal) : Prop where
  abs : ∀ x : ℝ, env.abs (num x) = num |x|
  f2 : env.ftle2 = ftle2M
  f3 : env.ftle3 = ftle3M

/-! ## Particles -/

section particles
variable {K : Type} [Zero K] [Add K] [Sub K] [Mul K] [Div K] [NumLits K] {d : ℕ}

/-- The velocities of `g` with `0` for those that are missing. -/
def filled (g : (Fin d → Miss K) → Fin d → Miss K) (z : Fin d → K) : Fin d → K :=
  fun c => (g fun c => num (z c)) c |>.get

theorem filled_eq {g : (Fin d → Miss K) → Fin d → Miss K} {z : Fin d → K}
    (h : ∀ c, g (fun c => num (z c)) c ≠ nan) :
    g (fun c => num (z c)) = fun c => num (filled g z c) := by
  funext c
  have := h c
  unfold filled
  cases e : g (fun c => num (z c)) c with
  | num x => rfl
  | nan => exact absurd e this

theorem stages_agree {k : Kind} {g : (Fin d → Miss K) → Fin d → Miss K} {f : (Fin d → K) → Fin d → K}
    (hf : ∀ z, (∀ c, g (fun c => num (z c)) c ≠ nan) →
      g (fun c => num (z c)) = fun c => num (f z c)) {h : K} {x : Fin d → K}
    (hn : ∀ z ∈ stages k g (num h) (fun c => num (x c)), ∀ c, g z c ≠ nan) :
    ∀ z ∈ stages k f h x, g (fun c => num (z c)) = fun c => num (f z c) := by
  intro z hz
  cases k with
  | euler =>
    simp only [stages, List.mem_singleton] at hz
    subst hz
    exact hf _ (hn _ (by simp [stages]))
  | ab2 =>
    simp only [stages, List.mem_singleton] at hz
    subst hz
    exact hf _ (hn _ (by simp [stages]))
  | rk4 =>
    simp only [stages, List.mem_cons, List.not_mem_nil, or_false, forall_eq_or_imp, forall_eq,
      half_eq, num_mul] at hn
    obtain ⟨n1, n2, n3, n4⟩ := hn
    have e1 := hf _ n1
    simp only [e1, num_mul, num_add] at n2 n3 n4
    have e2 := hf _ n2
    simp only [e2, num_mul, num_add] at n3 n4
    have e3 := hf _ n3
    simp only [e3, num_mul, num_add] at n4
    have e4 := hf _ n4
    simp only [stages, List.mem_cons, List.not_mem_nil, or_false] at hz
    rcases hz with rfl | rfl | rfl | rfl
    · exact e1
    · exact e2
    · exact e3
    · exact e4

/-- A particle that meets no missing velocity has a complete record. -/
theorem known_of_agree {k : Kind} {g : ℕ → (Fin d → Miss K) → Fin d → Miss K}
    {f : ℕ → (Fin d → K) → Fin d → K}
    (hf : ∀ j z, (∀ c, g j (fun c => num (z c)) c ≠ nan) →
      g j (fun c => num (z c)) = fun c => num (f j z c)) {h : K} {n : ℕ}
    {x : Fin d → K} (hm : ¬ Meets k g (num h) n fun c => num (x c)) :
    Known k g f h n x := by
  have hm' : ∀ j < n, ∀ z ∈ stages k (g j) (num h) (flowMap k g (num h) j fun c => num (x c)),
      ∀ c, g j z c ≠ nan := by
    intro j hj z hz c hc
    exact hm ⟨j, hj, z, hz, c, hc⟩
  have : ∀ m ≤ n, Known k g f h m x := by
    intro m
    induction m with
    | zero => intro _ j hj; omega
    | succ m ih =>
      intro hmn j hj
      rcases Nat.lt_succ_iff_lt_or_eq.1 hj with hj | rfl
      · exact ih (by omega) j hj
      · have hfl := (flowMap_num k g f h x j (ih (by omega)) j le_rfl).1
        have := hm' j (by omega)
        rw [hfl] at this
        exact stages_agree (hf j) this
  exact this n le_rfl

theorem known_of_not_meets {k : Kind} {g : ℕ → (Fin d → Miss K) → Fin d → Miss K} {h : K} {n : ℕ}
    {x : Fin d → K} (hm : ¬ Meets k g (num h) n fun c => num (x c)) :
    Known k g (fun j => filled (g j)) h n x :=
  known_of_agree (fun _ _ => filled_eq) hm

/-- A record excludes missing velocities. -/
theorem Known.num {k : Kind} {g : ℕ → (Fin d → Miss K) → Fin d → Miss K}
    {f : ℕ → (Fin d → K) → Fin d → K} {h : K} {n : ℕ} {x : Fin d → K} (hk : Known k g f h n x) :
    flowMap k g (.num h) n (fun c => .num (x c)) = fun c => .num (flowMap k f h n x c) :=
  (flowMap_num k g f h x n hk n le_rfl).1

theorem Meets.nan {k : Kind} {g : ℕ → (Fin d → Miss K) → Fin d → Miss K} {h : Miss K} {n : ℕ}
    {x : Fin d → Miss K} (hm : Meets k g h n x) : ∃ c, flowMap k g h n x c = .nan := by
  obtain ⟨j, hj, z, hz, c, hc⟩ := hm
  exact ⟨c, flowMap_nan_mono k g h x c hj (flowMap_nan k g h x c hz hc)⟩

theorem Known.not_meets {k : Kind} {g : ℕ → (Fin d → Miss K) → Fin d → Miss K}
    {f : ℕ → (Fin d → K) → Fin d → K} {h : K} {n : ℕ} {x : Fin d → K} (hk : Known k g f h n x) :
    ¬ Meets k g (.num h) n fun c => .num (x c) := by
  intro hm
  obtain ⟨c, hc⟩ := hm.nan
  rw [hk.num] at hc
  cases hc

end particles

/-! ## Jacobians -/

/-- Separations of a stencil. -/
def Separate2 (x : Fin 4 → Fin 2 → ℝ) : Prop := x 1 0 ≠ x 0 0 ∧ x 2 1 ≠ x 3 1

def Separate3 (x : Fin 6 → Fin 3 → ℝ) : Prop := x 1 0 ≠ x 0 0 ∧ x 2 1 ≠ x 3 1 ∧ x 4 2 ≠ x 5 2

noncomputable def diffs2M (X x : Fin 4 → Fin 2 → Miss ℝ) : Matrix (Fin 2) (Fin 2) (Miss ℝ) :=
  !![(X 1 0 - X 0 0) / (x 1 0 - x 0 0), (X 2 0 - X 3 0) / (x 2 1 - x 3 1);
     (X 1 1 - X 0 1) / (x 1 0 - x 0 0), (X 2 1 - X 3 1) / (x 2 1 - x 3 1)]

noncomputable def diffs3M (X x : Fin 6 → Fin 3 → Miss ℝ) : Matrix (Fin 3) (Fin 3) (Miss ℝ) :=
  Matrix.of fun r c =>
    match c with
    | 0 => (X 1 r - X 0 r) / (x 1 0 - x 0 0)
    | 1 => (X 2 r - X 3 r) / (x 2 1 - x 3 1)
    | 2 => (X 4 r - X 5 r) / (x 4 2 - x 5 2)

theorem num_sub_ne {a b : ℝ} (h : a ≠ b) : ¬ (num a - num b : Miss ℝ) = 0 := by
  intro e
  have e : (num (a - b) : Miss ℝ) = num 0 := e
  injection e with e
  exact h (sub_eq_zero.1 e)

theorem centralDiff2_miss {X : Fin 4 → Fin 2 → Miss ℝ} {x : Fin 4 → Fin 2 → ℝ} (h : Separate2 x) :
    centralDiff2 X (fun b c => num (x b c)) = .ok (diffs2M X fun b c => num (x b c)) := by
  unfold centralDiff2
  rw [if_neg (not_or.2 ⟨num_sub_ne h.1, num_sub_ne h.2⟩)]
  rfl

theorem centralDiff3_miss {X : Fin 6 → Fin 3 → Miss ℝ} {x : Fin 6 → Fin 3 → ℝ} (h : Separate3 x) :
    centralDiff3 X (fun b c => num (x b c)) = .ok (diffs3M X fun b c => num (x b c)) := by
  unfold centralDiff3
  rw [if_neg (not_or.2 ⟨num_sub_ne h.1, not_or.2 ⟨num_sub_ne h.2.1, num_sub_ne h.2.2⟩⟩)]
  rfl

theorem diffs2M_nan {X x : Fin 4 → Fin 2 → Miss ℝ} {b : Fin 4} {c : Fin 2} (h : X b c = nan) :
    ∃ i j, diffs2M X x i j = nan := by
  fin_cases b
  · exact ⟨c, 0, by fin_cases c <;> simp at h <;> simp [diffs2M, h]⟩
  · exact ⟨c, 0, by fin_cases c <;> simp at h <;> simp [diffs2M, h]⟩
  · exact ⟨c, 1, by fin_cases c <;> simp at h <;> simp [diffs2M, h]⟩
  · exact ⟨c, 1, by fin_cases c <;> simp at h <;> simp [diffs2M, h]⟩

theorem diffs3M_nan {X x : Fin 6 → Fin 3 → Miss ℝ} {b : Fin 6} {c : Fin 3} (h : X b c = nan) :
    ∃ i j, diffs3M X x i j = nan := by
  fin_cases b
  · exact ⟨c, 0, by simp at h; simp [diffs3M, h]⟩
  · exact ⟨c, 0, by simp at h; simp [diffs3M, h]⟩
  · exact ⟨c, 1, by simp at h; simp [diffs3M, h]⟩
  · exact ⟨c, 1, by simp at h; simp [diffs3M, h]⟩
  · exact ⟨c, 2, by simp at h; simp [diffs3M, h]⟩
  · exact ⟨c, 2, by simp at h; simp [diffs3M, h]⟩

theorem diffs2M_num (X x : Fin 4 → Fin 2 → ℝ) :
    diffs2M (fun b c => num (X b c)) (fun b c => num (x b c)) = (diffs2 X x).map num := by
  ext i j
  fin_cases i <;> fin_cases j <;> rfl

theorem diffs3M_num (X x : Fin 6 → Fin 3 → ℝ) :
    diffs3M (fun b c => num (X b c)) (fun b c => num (x b c)) = (diffs3 X x).map num := by
  ext i j
  fin_cases j <;> rfl

theorem runPeriod_miss {env : Env (Miss ℝ) FVal} (he : MissEnv env) {src : Source (Miss ℝ)} {h : ℝ}
    (hh : src.timestep = num h) : runPeriod env src = num (((src.numSteps : ℝ) - 1) * |h|) := by
  unfold runPeriod
  rw [hh, he.abs]
  change num _ * num _ = _
  rw [num_mul]
  push_cast
  rfl

theorem Source.sameFlow_refl {K : Type} (src : Source K) : src.SameFlow src := by
  cases src
  · rfl
  · exact ⟨rfl, rfl⟩

/-! ## C89 -/

/-- What follows from the shape of a run (2-D). -/
theorem missing_core_2d {env : Env (Miss ℝ) FVal} (he : MissEnv env) (src : Source (Miss ℝ))
    (k : Kind) (g : ℕ → (Fin 2 → Miss ℝ) → Fin 2 → Miss ℝ) (N : ℕ) (seed : NDArray (Miss ℝ))
    {res : Py (Option (List FVal))}
    (hres : ∀ js, pyMap (fun i => centralDiff2
          (fun b => flowMap k g src.timestep src.numSteps (groupOf seed 4 N 2 i b))
          (groupOf seed 4 N 2 i)) (List.range N) = .ok js →
      res = (env.ftle2 js (runPeriod env src)).map some) (x : ℕ → Fin 4 → Fin 2 → ℝ)
    (hx : ∀ i < N, groupOf seed 4 N 2 i = fun b c => num (x i b c))
    (hsep : ∀ i < N, Separate2 (x i)) {h : ℝ} (hh : src.timestep = num h) (h0 : h ≠ 0)
    (hn : src.numSteps ≠ 1) :
    ∃ L : ℕ → FVal, res = .ok (some ((List.range N).map L)) ∧
      ∀ i < N,
        (L i = .nan ↔ ∃ b, Meets k g (num h) src.numSteps fun c => num (x i b c)) ∧
        ∀ f : ℕ → (Fin 2 → ℝ) → Fin 2 → ℝ, (∀ b, Known k g f h src.numSteps (x i b)) →
          ∃ s, IsMaxStretch (diffs2 (fun b => flowMap k f h src.numSteps (x i b)) (x i)) s ∧
            L i = ftleVal s (((src.numSteps : ℝ) - 1) * |h|) := by
  set n := src.numSteps with hnd
  have hT : ((n : ℝ) - 1) * |h| ≠ 0 :=
    mul_ne_zero (sub_ne_zero.2 (by exact_mod_cast hn)) (abs_ne_zero.2 h0)
  let X : ℕ → Fin 4 → Fin 2 → Miss ℝ := fun i b => flowMap k g (num h) n fun c => num (x i b c)
  let J : ℕ → Matrix (Fin 2) (Fin 2) (Miss ℝ) := fun i => diffs2M (X i) fun b c => num (x i b c)
  let L : ℕ → FVal := fun i =>
    FVal.smul (1 / (((n : ℝ) - 1) * |h|)) (FVal.log (FVal.sqrt (maxEig2M (cauchyGreen2 (J i)))))
  have hknown : ∀ i, ∀ f : ℕ → (Fin 2 → ℝ) → Fin 2 → ℝ, (∀ b, Known k g f h n (x i b)) →
      ∃ s, IsMaxStretch (diffs2 (fun b => flowMap k f h n (x i b)) (x i)) s ∧
        L i = ftleVal s (((n : ℝ) - 1) * |h|) := by
    intro i f hk
    have hX : X i = fun b c => num (flowMap k f h n (x i b) c) := funext fun b => (hk b).num
    obtain ⟨s, s1, s2⟩ := ftle2M_value (diffs2 (fun b => flowMap k f h n (x i b)) (x i))
      (((n : ℝ) - 1) * |h|)
    refine ⟨s, s1, ?_⟩
    rw [← s2, ← diffs2M_num, ← hX]
  refine ⟨L, ?_, fun i hi => ⟨⟨?_, ?_⟩, hknown i⟩⟩
  · rw [hres _ (pyMap_ok_map (g := J) (fun i hi => by
        rw [hx i (List.mem_range.1 hi), hh]
        exact centralDiff2_miss (hsep i (List.mem_range.1 hi))))]
    simp only [he.f2, runPeriod_miss he hh]
    rw [ftle2M_ok hT, List.map_map]
    rfl
  · intro hL
    by_contra hm
    push Not at hm
    obtain ⟨s, s1, s2⟩ := hknown i (fun j => filled (g j)) fun b => known_of_not_meets (hm b)
    exact ftleVal_ne_nan (maxStretch_nonneg s1) hT (s2.symm.trans hL)
  · rintro ⟨b, hm⟩
    obtain ⟨c, hc⟩ := hm.nan
    obtain ⟨r, q, hJ⟩ := diffs2M_nan (X := X i) (x := fun b c => num (x i b c)) hc
    change FVal.smul _ (FVal.log (FVal.sqrt (maxEig2M (cauchyGreen2 (J i))))) = _
    rw [maxEig2M_nan hJ]
    rfl

/-- **C89 (2-D): missing velocities cost their own group only.**  For every source of velocities
that acts on points, every integrator, all numbers of steps and of groups: the run ends normally;
the value of a group is NaN exactly if one of its four particles is given a missing velocity; and
otherwise it is the exponent of the differences of the positions computed from the velocities that
are known. -/
theorem C89_missing_2d {env : Env (Miss ℝ) FVal} (he : MissEnv env) (src : Source (Miss ℝ))
    {I0 : AnyInterp (Miss ℝ)} (hI : I0.Unused) (k : Kind)
    (g : ℕ → (Fin 2 → Miss ℝ) → Fin 2 → Miss ℝ)
    (hup : ∀ i < src.numSteps, (src.updated env I0 (i + 1)).2 = none) (N : ℕ)
    (hv : ∀ i < src.numSteps,
      Pointwise (4 * N) 2 ((src.updated env I0 (i + 1)).1.velocity env) (g i))
    {id : String} (hid : src.id env = .ok id) (seed : NDArray (Miss ℝ)) (p : Particles (Miss ℝ))
    (queue : Bool) (hs : seed.shape = [4 * N, 2]) (hp : mkParticles seed = .ok p)
    (hg : src.getParticles env.fs = .ok p) (x : ℕ → Fin 4 → Fin 2 → ℝ)
    (hx : ∀ i < N, groupOf seed 4 N 2 i = fun b c => num (x i b c))
    (hsep : ∀ i < N, Separate2 (x i)) {h : ℝ} (hh : src.timestep = num h) (h0 : h ≠ 0)
    (hn : src.numSteps ≠ 1) :
    ∃ L : ℕ → FVal, ((⟨src, I0, .fresh k⟩ : Solver (Miss ℝ)).run env queue none).result =
        .ok (some ((List.range N).map L)) ∧
      ∀ i < N,
        (L i = .nan ↔ ∃ b, Meets k g (num h) src.numSteps fun c => num (x i b c)) ∧
        ∀ f : ℕ → (Fin 2 → ℝ) → Fin 2 → ℝ, (∀ b, Known k g f h src.numSteps (x i b)) →
          ∃ s, IsMaxStretch (diffs2 (fun b => flowMap k f h src.numSteps (x i b)) (x i)) s ∧
            L i = ftleVal s (((src.numSteps : ℝ) - 1) * |h|) := by
  exact missing_core_2d he src k g N seed
    (fun js hjs => by rw [run_flow_2d env src hI k g hup N hv hid seed src p queue
      src.sameFlow_refl hs hp hg, hjs]) x hx hsep hh
    h0 hn

/-- **C89 (period).**  Missing velocities do not hide a period of length zero: the run ends with
`ZeroDivisionError`, whichever velocities are missing. -/
theorem C89_zero_period_2d {env : Env (Miss ℝ) FVal} (he : MissEnv env) (src : Source (Miss ℝ))
    {I0 : AnyInterp (Miss ℝ)} (hI : I0.Unused) (k : Kind)
    (g : ℕ → (Fin 2 → Miss ℝ) → Fin 2 → Miss ℝ)
    (hup : ∀ i < src.numSteps, (src.updated env I0 (i + 1)).2 = none) (N : ℕ)
    (hv : ∀ i < src.numSteps,
      Pointwise (4 * N) 2 ((src.updated env I0 (i + 1)).1.velocity env) (g i))
    {id : String} (hid : src.id env = .ok id) (seed : NDArray (Miss ℝ)) (p : Particles (Miss ℝ))
    (queue : Bool) (hs : seed.shape = [4 * N, 2]) (hp : mkParticles seed = .ok p)
    (hg : src.getParticles env.fs = .ok p) (x : ℕ → Fin 4 → Fin 2 → ℝ)
    (hx : ∀ i < N, groupOf seed 4 N 2 i = fun b c => num (x i b c))
    (hsep : ∀ i < N, Separate2 (x i)) {h : ℝ} (hh : src.timestep = num h)
    (h0 : h = 0 ∨ src.numSteps = 1) :
    ((⟨src, I0, .fresh k⟩ : Solver (Miss ℝ)).run env queue none).result =
      .error .zeroDivisionError := by
  have hT : ((src.numSteps : ℝ) - 1) * |h| = 0 := by
    rcases h0 with h0 | h0 <;> simp [h0]
  rw [run_flow_2d env src hI k g hup N hv hid seed src p queue src.sameFlow_refl hs hp hg,
    pyMap_ok_map (g := fun i => diffs2M
      (fun b => flowMap k g (num h) src.numSteps fun c => num (x i b c)) fun b c => num (x i b c))
      (fun i hi => by
        rw [hx i (List.mem_range.1 hi), hh]
        exact centralDiff2_miss (hsep i (List.mem_range.1 hi)))]
  simp only [he.f2, runPeriod_miss he hh, hT]
  simp [ftle2M, recipPeriodM, Except.map]

/-- A period that is not known makes every value NaN. -/
theorem C89_missing_period (js : List (Matrix (Fin 2) (Fin 2) (Miss ℝ))) :
    ftle2M js .nan = .ok (js.map fun _ => .nan) := by
  simp [ftle2M, recipPeriodM, smulM, Function.comp_def]

/-- What follows from the shape of a run (3-D). -/
theorem missing_core_3d {env : Env (Miss ℝ) FVal} (he : MissEnv env) (src : Source (Miss ℝ))
    (k : Kind) (g : ℕ → (Fin 3 → Miss ℝ) → Fin 3 → Miss ℝ) (N : ℕ) (seed : NDArray (Miss ℝ))
    {res : Py (Option (List FVal))}
    (hres : ∀ js, pyMap (fun i => centralDiff3
          (fun b => flowMap k g src.timestep src.numSteps (groupOf seed 6 N 3 i b))
          (groupOf seed 6 N 3 i)) (List.range N) = .ok js →
      res = (env.ftle3 js (runPeriod env src)).map some) (x : ℕ → Fin 6 → Fin 3 → ℝ)
    (hx : ∀ i < N, groupOf seed 6 N 3 i = fun b c => num (x i b c))
    (hsep : ∀ i < N, Separate3 (x i)) {h : ℝ} (hh : src.timestep = num h) :
    ((∃ i < N, ∃ b, Meets k g (num h) src.numSteps fun c => num (x i b c)) →
      res = .error .linAlgError) ∧
    (h ≠ 0 → src.numSteps ≠ 1 →
      (∀ i < N, ∀ b, ¬ Meets k g (num h) src.numSteps fun c => num (x i b c)) →
    ∃ L : ℕ → FVal, res = .ok (some ((List.range N).map L)) ∧
      ∀ i < N, L i ≠ .nan ∧
        ∀ f : ℕ → (Fin 3 → ℝ) → Fin 3 → ℝ, (∀ b, Known k g f h src.numSteps (x i b)) →
          ∃ s, IsMaxStretch (diffs3 (fun b => flowMap k f h src.numSteps (x i b)) (x i)) s ∧
            L i = ftleVal s (((src.numSteps : ℝ) - 1) * |h|)) := by
  constructor
  · intro hm
    set n := src.numSteps with hnd
    let X : ℕ → Fin 6 → Fin 3 → Miss ℝ := fun i b => flowMap k g (num h) n fun c => num (x i b c)
    let J : ℕ → Matrix (Fin 3) (Fin 3) (Miss ℝ) := fun i => diffs3M (X i) fun b c => num (x i b c)
    rw [hres _ (pyMap_ok_map (g := J) (fun i hi => by
        rw [hx i (List.mem_range.1 hi), hh]
        exact centralDiff3_miss (hsep i (List.mem_range.1 hi))))]
    obtain ⟨i, hi, b, hm⟩ := hm
    obtain ⟨c, hc⟩ := hm.nan
    obtain ⟨r, q, hJ⟩ := diffs3M_nan (X := X i) (x := fun b c => num (x i b c)) hc
    simp only [he.f3]
    rw [ftle3M_error _ ⟨J i, List.mem_map_of_mem (List.mem_range.2 hi), r, q, hJ⟩]
    rfl
  · intro h0 hn hm
    set n := src.numSteps with hnd
    have hT : ((n : ℝ) - 1) * |h| ≠ 0 :=
      mul_ne_zero (sub_ne_zero.2 (by exact_mod_cast hn)) (abs_ne_zero.2 h0)
    let X : ℕ → Fin 6 → Fin 3 → ℝ := fun i b => flowMap k (fun j => filled (g j)) h n (x i b)
    have hX : ∀ i < N, ∀ b, flowMap k g (num h) n (fun c => num (x i b c)) = fun c => num (X i b c) :=
      fun i hi b => (known_of_not_meets (hm i hi b)).num
    obtain ⟨vs, v1, v2⟩ := ftle3_computes.value ((List.range N).map fun i => diffs3 (X i) (x i))
      (((n : ℝ) - 1) * |h|) hT
    have hlen : vs.length = N := by
      rw [← v2.length_eq, List.length_map, List.length_range]
    have hval : ∀ i < N, ∃ s, IsMaxStretch (diffs3 (X i) (x i)) s ∧
        vs.getD i .nan = ftleVal s (((n : ℝ) - 1) * |h|) := by
      intro i hi
      have := List.forall₂_iff_get.1 v2 |>.2 i (by simpa using hi) (by omega)
      rw [List.getD_eq_getElem _ _ (by omega)]
      simpa using this
    refine ⟨fun i => vs.getD i .nan, ?_, fun i hi => ⟨?_, fun f hk => ?_⟩⟩
    · rw [hres _ (pyMap_ok_map (g := fun i => (diffs3 (X i) (x i)).map num) (fun i hi => by
          rw [hx i (List.mem_range.1 hi), hh, ← diffs3M_num, centralDiff3_miss
            (hsep i (List.mem_range.1 hi))]
          congr 2
          funext b
          exact hX i (List.mem_range.1 hi) b))]
      have hl : ((List.range N).map fun i => (diffs3 (X i) (x i)).map num) =
          ((List.range N).map fun i => diffs3 (X i) (x i)).map fun F => F.map num := by
        rw [List.map_map]
        rfl
      have hL : (List.range N).map (fun i => vs.getD i .nan) = vs := by
        refine List.ext_getElem (by simp [hlen]) fun i h1 h2 => ?_
        simp [h2]
      simp only [he.f3, runPeriod_miss he hh]
      rw [hl, ftle3M_num _ hT, v1, hL]
      rfl
    · obtain ⟨s, s1, s2⟩ := hval i hi
      exact fun e => ftleVal_ne_nan (maxStretch_nonneg s1) hT (s2.symm.trans e)
    · have : (fun b => flowMap k f h n (x i b)) = X i := by
        funext b c
        have := congrFun ((hk b).num.symm.trans (hX i hi b)) c
        injection this
      rw [this]
      exact hval i hi

/-- **C89 (3-D): false of the code.**  If one particle of one group is given a missing velocity, the
whole run ends with `LinAlgError`: no group gets a value. -/
theorem C89_missing_3d_fails {env : Env (Miss ℝ) FVal} (he : MissEnv env) (src : Source (Miss ℝ))
    {I0 : AnyInterp (Miss ℝ)} (hI : I0.Unused) (k : Kind)
    (g : ℕ → (Fin 3 → Miss ℝ) → Fin 3 → Miss ℝ)
    (hup : ∀ i < src.numSteps, (src.updated env I0 (i + 1)).2 = none) (N : ℕ)
    (hv : ∀ i < src.numSteps,
      Pointwise (6 * N) 3 ((src.updated env I0 (i + 1)).1.velocity env) (g i))
    {id : String} (hid : src.id env = .ok id) (seed : NDArray (Miss ℝ)) (p : Particles (Miss ℝ))
    (queue : Bool) (hs : seed.shape = [6 * N, 3]) (hp : mkParticles seed = .ok p)
    (hg : src.getParticles env.fs = .ok p) (x : ℕ → Fin 6 → Fin 3 → ℝ)
    (hx : ∀ i < N, groupOf seed 6 N 3 i = fun b c => num (x i b c))
    (hsep : ∀ i < N, Separate3 (x i)) {h : ℝ} (hh : src.timestep = num h)
    (hm : ∃ i < N, ∃ b, Meets k g (num h) src.numSteps fun c => num (x i b c)) :
    ((⟨src, I0, .fresh k⟩ : Solver (Miss ℝ)).run env queue none).result = .error .linAlgError := by
  exact (missing_core_3d he src k g N seed
    (fun js hjs => by rw [run_flow_3d env src hI k g hup N hv hid seed src p queue
      src.sameFlow_refl hs hp hg, hjs]) x hx hsep hh).1 hm

/-- **C89 (3-D), what holds:** if no particle of any group is given a missing velocity, every group
gets its exponent.  Missing: groups of known velocities next to a group that is lost. -/
theorem C89_complete_3d_partial {env : Env (Miss ℝ) FVal} (he : MissEnv env) (src : Source (Miss ℝ))
    {I0 : AnyInterp (Miss ℝ)} (hI : I0.Unused) (k : Kind)
    (g : ℕ → (Fin 3 → Miss ℝ) → Fin 3 → Miss ℝ)
    (hup : ∀ i < src.numSteps, (src.updated env I0 (i + 1)).2 = none) (N : ℕ)
    (hv : ∀ i < src.numSteps,
      Pointwise (6 * N) 3 ((src.updated env I0 (i + 1)).1.velocity env) (g i))
    {id : String} (hid : src.id env = .ok id) (seed : NDArray (Miss ℝ)) (p : Particles (Miss ℝ))
    (queue : Bool) (hs : seed.shape = [6 * N, 3]) (hp : mkParticles seed = .ok p)
    (hg : src.getParticles env.fs = .ok p) (x : ℕ → Fin 6 → Fin 3 → ℝ)
    (hx : ∀ i < N, groupOf seed 6 N 3 i = fun b c => num (x i b c))
    (hsep : ∀ i < N, Separate3 (x i)) {h : ℝ} (hh : src.timestep = num h) (h0 : h ≠ 0)
    (hn : src.numSteps ≠ 1)
    (hm : ∀ i < N, ∀ b, ¬ Meets k g (num h) src.numSteps fun c => num (x i b c)) :
    ∃ L : ℕ → FVal, ((⟨src, I0, .fresh k⟩ : Solver (Miss ℝ)).run env queue none).result =
        .ok (some ((List.range N).map L)) ∧
      ∀ i < N, L i ≠ .nan ∧
        ∀ f : ℕ → (Fin 3 → ℝ) → Fin 3 → ℝ, (∀ b, Known k g f h src.numSteps (x i b)) →
          ∃ s, IsMaxStretch (diffs3 (fun b => flowMap k f h src.numSteps (x i b)) (x i)) s ∧
            L i = ftleVal s (((src.numSteps : ℝ) - 1) * |h|) := by
  exact (missing_core_3d he src k g N seed
    (fun js hjs => by rw [run_flow_3d env src hI k g hup N hv hid seed src p queue
      src.sameFlow_refl hs hp hg, hjs]) x hx hsep hh).2
    h0 hn hm

/-! ## Example: a coast

Sea for `x ≥ 0` with the velocity `(0, x)` or `(0, x, 0)`, land for `x < 0`.  Two groups of seeds, one
around `x = 10`, one around `x = -10`. -/

section examples

/-- `realEnv` with NaNs. -/
noncomputable def missEnv : Env (Miss ℝ) FVal :=
  { fs := fun _ => none
    sp := ⟨fun _ _ _ => none, fun _ _ _ _ => .error .valueError, fun _ _ _ => none,
      fun _ _ _ _ => .error .valueError⟩
    m := Miss.machine (isoCpp Int.floor Int.cast)
    stem := id
    timeName := fun _ => ""
    junk := fun _ => nan
    abs := fun x => match x with
      | num x => num |x|
      | nan => nan
    ftle2 := ftle2M
    ftle3 := ftle3M }

theorem missEnv_ok : MissEnv missEnv := ⟨fun _ => rfl, rfl, rfl⟩

/-- Velocity at sea. -/
noncomputable def seaFlow {d : ℕ} (z : Fin (d + 2) → ℝ) (c : Fin (d + 2)) : ℝ :=
  if c = 1 then z 0 else 0

open Classical in
/-- The data. -/
noncomputable def coast {d : ℕ} (z : Fin (d + 2) → Miss ℝ) (c : Fin (d + 2)) : Miss ℝ :=
  match z 0 with
  | num a => if a < 0 then nan else if c = 1 then z 0 else num 0
  | nan => nan

theorem sea_column {d : ℕ} (h : ℝ) (n : ℕ) (x : Fin (d + 2) → ℝ) :
    flowMap .euler (fun _ => seaFlow) h n x 0 = x 0 := by
  induction n with
  | zero => rfl
  | succ n ih =>
    rw [flowMap_succ]
    change _ + h * seaFlow _ 0 = _
    rw [ih]
    simp [seaFlow]

theorem sea_known {d : ℕ} (h : ℝ) (n : ℕ) {x : Fin (d + 2) → ℝ} (hx : 0 ≤ x 0) :
    Known .euler (fun _ => coast) (fun _ => seaFlow) h n x := by
  intro j _ z hz
  simp only [stages, List.mem_singleton] at hz
  have h0 : z 0 = x 0 := by rw [hz, sea_column]
  funext c
  simp only [coast, h0, not_lt.2 hx, if_false, seaFlow]
  split <;> rfl

theorem land_meets {d : ℕ} (k : Kind) (h : Miss ℝ) {n : ℕ} (hn : n ≠ 0) {x : Fin (d + 2) → ℝ}
    (hx : x 0 < 0) : Meets k (fun _ => coast) h n fun c => num (x c) := by
  refine ⟨0, by omega, fun c => num (x c), ?_, 0, by simp [coast, hx]⟩
  cases k <;> exact List.mem_cons_self ..

/-- Stencils of arm `1` around `(10, 0, …)` and `(-10, 0, …)`. -/
noncomputable def shores {m d : ℕ} (i : ℕ) (b : Fin m) (c : Fin d) : ℝ :=
  (if c.1 = 0 then (if i = 0 then 10 else -10) else 0) +
    if b.1 = 0 ∧ c.1 = 0 ∨ b.1 = 3 ∧ c.1 = 1 ∨ b.1 = 5 ∧ c.1 = 2 then -1
    else if b.1 = 1 ∧ c.1 = 0 ∨ b.1 = 2 ∧ c.1 = 1 ∨ b.1 = 4 ∧ c.1 = 2 then 1 else 0

/-- As an array of `m * 2` rows. -/
noncomputable def shoreSeed (m d : ℕ) : NDArray (Miss ℝ) :=
  ⟨[m * 2, d], fun i => if h : i.getD 0 0 / 2 < m then
    (if h' : i.getD 1 0 < d then
      num (shores (m := m) (d := d) (i.getD 0 0 % 2) ⟨i.getD 0 0 / 2, h⟩ ⟨i.getD 1 0, h'⟩)
    else nan) else nan⟩

theorem shoreSeed_group (m d : ℕ) {i : ℕ} (hi : i < 2) :
    groupOf (shoreSeed m d) m 2 d i = fun b c => num (shores i b c) := by
  funext b c
  have h1 : (b.1 * 2 + i) / 2 = b.1 := by omega
  have h2 : (b.1 * 2 + i) % 2 = i := by omega
  simp [groupOf, rowOf, shoreSeed, h1, h2, b.2, c.2]

theorem coast_updated (P : Particles (Miss ℝ)) (h : Miss ℝ) (ts : List (Miss ℝ))
    (fn : VelocityFn (Miss ℝ)) (n : ℕ) :
    (Source.analytical ⟨P, h, ts⟩ : Source (Miss ℝ)).updated missEnv
      (.analytical (.fresh (some fn))) n = (.analytical (.fresh (some fn)), none) := by
  induction n with
  | zero => rfl
  | succ n ih => simp only [Source.updated, ih, Source.updateInterp]

/-- In 2-D the group at sea has its exponent and the group on land NaN: all hypotheses of C89 hold
for every step `h` and all numbers of steps. -/
example (h : ℝ) (h0 : h ≠ 0) (n : ℕ) (queue : Bool) :
    ∃ (P : Particles (Miss ℝ)) (v : FVal), mkParticles (shoreSeed 4 2) = .ok P ∧
      ((⟨.analytical ⟨P, num h, List.replicate (n + 2) 0⟩,
        .analytical (.fresh (some fun _ => sourceOf 2 coast)), .fresh .euler⟩ : Solver (Miss ℝ)).run
        missEnv queue none).result = .ok (some [v, .nan]) ∧ v ≠ .nan := by
  obtain ⟨P, hP, -⟩ := mkParticles_2d (show (shoreSeed 4 2).shape = [4 * 2, 2] from rfl)
  have hsrc : (Source.analytical ⟨P, num h, List.replicate (n + 2) 0⟩ : Source (Miss ℝ)).numSteps =
      n + 2 := by simp [Source.numSteps]
  obtain ⟨L, h1, h2⟩ := C89_missing_2d missEnv_ok
    (.analytical ⟨P, num h, List.replicate (n + 2) 0⟩)
    (I0 := .analytical (.fresh (some fun _ => sourceOf 2 coast))) trivial .euler (fun _ => coast)
    (fun i _ => by rw [coast_updated]) 2
    (fun i _ => by rw [coast_updated]; exact sourceOf_pointwise _ _ _) rfl (shoreSeed 4 2) P queue
    rfl hP rfl (fun i => shores i) (fun i hi => shoreSeed_group 4 2 hi)
    (fun i _ => by constructor <;> norm_num [shores]) rfl h0 (by rw [hsrc]; omega)
  rw [hsrc] at h2
  refine ⟨P, L 0, hP, ?_, ?_⟩
  · rw [h1, (h2 1 (by omega)).1.2 ⟨0, land_meets _ _ (by omega) (by norm_num [shores])⟩ |>.symm]
    rfl
  · intro e
    obtain ⟨b, hb⟩ := (h2 0 (by omega)).1.1 e
    exact (sea_known h (n + 2) (by fin_cases b <;> norm_num [shores])).not_meets hb

/-- In 3-D the same run fails, although the velocities of the first group are known. -/
example (h : ℝ) (n : ℕ) (queue : Bool) :
    ∃ P : Particles (Miss ℝ), mkParticles (shoreSeed 6 3) = .ok P ∧
      (∀ b : Fin 6, Known .euler (fun _ => coast) (fun _ => seaFlow) h (n + 2)
        (shores (m := 6) (d := 3) 0 b)) ∧
      ((⟨.analytical ⟨P, num h, List.replicate (n + 2) 0⟩,
        .analytical (.fresh (some fun _ => sourceOf 3 coast)), .fresh .euler⟩ : Solver (Miss ℝ)).run
        missEnv queue none).result = .error .linAlgError := by
  obtain ⟨P, hP, -⟩ := mkParticles_3d (show (shoreSeed 6 3).shape = [6 * 2, 3] from rfl)
  have hsrc : (Source.analytical ⟨P, num h, List.replicate (n + 2) 0⟩ : Source (Miss ℝ)).numSteps =
      n + 2 := by simp [Source.numSteps]
  refine ⟨P, hP, fun b => sea_known h (n + 2) (by fin_cases b <;> norm_num [shores]), ?_⟩
  exact C89_missing_3d_fails missEnv_ok
    (.analytical ⟨P, num h, List.replicate (n + 2) 0⟩)
    (I0 := .analytical (.fresh (some fun _ => sourceOf 3 coast))) trivial .euler (fun _ => coast)
    (fun i _ => by rw [coast_updated]) 2
    (fun i _ => by rw [coast_updated]; exact sourceOf_pointwise _ _ _) rfl (shoreSeed 6 3) P queue
    rfl hP rfl (fun i => shores i) (fun i hi => shoreSeed_group 6 3 hi)
    (fun i _ => by refine ⟨?_, ?_, ?_⟩ <;> norm_num [shores]) rfl
    ⟨1, by omega, 0, land_meets _ _ (by rw [hsrc]; omega) (by norm_num [shores])⟩

end examples

end Verif
