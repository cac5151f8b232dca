import Verif.Lemmas.RestGrid
import Verif.Lemmas.Turn
import Verif.Props.Run64x3
import Verif.Props.Grid64Example
import Verif.Spec.Survey

/-!
# C120: fluid at rest and points without data

What a run returns for a group of particles whose velocity is zero in every step, whatever the other
groups do, and in particular for groups that lie outside the grid of the velocity files.
-/

set_option linter.unusedSectionVars false

namespace Verif

open Matrix Set

/-! ## Specification -/

/-- Both pairs of points of a group are parallel to the axes. -/
def Aligned2 {K : Type} (x : Fin 4 → Fin 2 → K) : Prop := x 1 1 = x 0 1 ∧ x 2 0 = x 3 0

/-- The same for the three pairs of a group in space. -/
def Aligned3 {K : Type} (x : Fin 6 → Fin 3 → K) : Prop :=
  (x 1 1 = x 0 1 ∧ x 1 2 = x 0 2) ∧ (x 2 0 = x 3 0 ∧ x 2 2 = x 3 2) ∧ x 4 0 = x 5 0 ∧ x 4 1 = x 5 1

/-- In every step of the run the interpolator, whenever it answers a query in which the particles of
group `i` are at their seeds, answers zero for these particles. -/
def AtRest {K F : Type} [Zero K] [One K] [Add K] [Sub K] [Mul K] [Div K] [NatCast K] [IntCast K]
    [Min K] [Max K] [NumLits K] [DecidableEq K] (env : Env K F) (src : Source K) (I0 : AnyInterp K)
    (m d N i : ℕ) (seed : NDArray K) : Prop :=
  ∀ j < src.numSteps, (src.updated env I0 (j + 1)).2 = none → ∀ q A : NDArray K,
    q.shape = [m * N, d] → (∀ b < m, rowOf q d (b * N + i) = rowOf seed d (b * N + i)) →
    (src.updated env I0 (j + 1)).1.velocity env q = .ok A →
      A.shape = [m * N, d] ∧ ∀ b < m, rowOf A d (b * N + i) = fun _ => 0

section
variable {K F : Type} [Zero K] [One K] [Add K] [Sub K] [Mul K] [Div K] [NatCast K] [IntCast K]
  [Min K] [Max K] [NumLits K] [DecidableEq K]

theorem AtRest.quiet {env : Env K F} {src : Source K} {I0 : AnyInterp K} {m d N i : ℕ}
    {seed : NDArray K} (h : AtRest env src I0 m d N i seed) :
    ∀ j < src.numSteps, (src.updated env I0 (j + 1)).2 = none →
      Quiet (m * N) d (groupRows m N i) (rowOf seed d)
        ((src.updated env I0 (j + 1)).1.velocity env) := by
  intro j hj hn q A hq hr hA
  obtain ⟨h1, h2⟩ := h j hj hn q A hq (fun b hb => hr _ ⟨b, hb, rfl⟩) hA
  refine ⟨h1, ?_⟩
  rintro r ⟨b, hb, rfl⟩
  exact h2 b hb

theorem AtRest.of_quiet {env : Env K F} {src : Source K} {I0 : AnyInterp K} {m d N i : ℕ}
    {seed : NDArray K} (h : ∀ j < src.numSteps, (src.updated env I0 (j + 1)).2 = none →
      Quiet (m * N) d (groupRows m N i) (rowOf seed d)
        ((src.updated env I0 (j + 1)).1.velocity env)) : AtRest env src I0 m d N i seed := by
  intro j hj hn q A hq hr hA
  obtain ⟨h1, h2⟩ := h j hj hn q A hq (by rintro r ⟨b, hb, rfl⟩; exact hr b hb) hA
  exact ⟨h1, fun b hb => h2 _ ⟨b, hb, rfl⟩⟩

/-! ## Any arithmetic -/

/-- **C120 (2-D, any arithmetic).**  If the fluid is at rest at the seeds of group `i`, then in a
completed run the Jacobian of the group is the matrix of difference quotients of its seeds over
themselves, whatever the other groups do. -/
theorem C120_rest_2d (z : ZeroLaws K) (env : Env K F) (src : Source K) {I0 : AnyInterp K}
    (hI : I0.Unused) (k : Kind) {N i : ℕ} (hi : i < N) {seed : NDArray K} {p : Particles K}
    (hs : seed.shape = [4 * N, 2]) (hp : mkParticles seed = .ok p)
    (hg : src.getParticles env.fs = .ok p)
    (hx : ∀ b c, groupOf seed 4 N 2 i b c + 0 = groupOf seed 4 N 2 i b c)
    (hv : AtRest env src I0 4 2 N i seed) (queue : Bool) {field : List F}
    (hrun : ((⟨src, I0, .fresh k⟩ : Solver K).run env queue none).result = .ok (some field)) :
    ∃ js J, env.ftle2 js (runPeriod env src) = .ok field ∧ js.length = N ∧ js[i]? = some J ∧
      centralDiff2 (groupOf seed 4 N 2 i) (groupOf seed 4 N 2 i) = .ok J :=
  run_rest_2d z env src hI k hi hs hp hg hx hv.quiet queue hrun

/-- **C120 (3-D, any arithmetic).** -/
theorem C120_rest_3d (z : ZeroLaws K) (env : Env K F) (src : Source K) {I0 : AnyInterp K}
    (hI : I0.Unused) (k : Kind) {N i : ℕ} (hi : i < N) {seed : NDArray K} {p : Particles K}
    (hs : seed.shape = [6 * N, 3]) (hp : mkParticles seed = .ok p)
    (hg : src.getParticles env.fs = .ok p)
    (hx : ∀ b c, groupOf seed 6 N 3 i b c + 0 = groupOf seed 6 N 3 i b c)
    (hv : AtRest env src I0 6 3 N i seed) (queue : Bool) {field : List F}
    (hrun : ((⟨src, I0, .fresh k⟩ : Solver K).run env queue none).result = .ok (some field)) :
    ∃ js J, env.ftle3 js (runPeriod env src) = .ok field ∧ js.length = N ∧ js[i]? = some J ∧
      centralDiff3 (groupOf seed 6 N 3 i) (groupOf seed 6 N 3 i) = .ok J :=
  run_rest_3d z env src hI k hi hs hp hg hx hv.quiet queue hrun

end

/-! ## Real numbers -/

theorem zeroLaws_field {K : Type} [Field K] : ZeroLaws K := ⟨mul_zero, sub_zero 0, add_zero 0⟩

/-- A matrix with ones on the diagonal stretches by at least 1, and by more unless it is the unit
matrix. -/
theorem unit_diagonal_stretch {d : ℕ} [NeZero d] {J : Matrix (Fin d) (Fin d) ℝ} {s : ℝ}
    (hd : ∀ q, J q q = 1) (hs : IsMaxStretch J s) : 1 ≤ s ∧ (s = 1 ↔ J = 1) := by
  have h1 : 1 ≤ s := by
    have := entry_le_stretch hs 0 0
    rwa [hd, abs_one] at this
  refine ⟨h1, fun h => ?_, ?_⟩
  · ext r q
    rw [Matrix.one_apply]
    split
    · next e => rw [e]; exact hd q
    · next e =>
      have h2 := maxStretch_bound hs (Pi.single q 1)
      have h3 : len (Pi.single q (1 : ℝ)) = 1 := by simp [len]
      rw [h3, h, one_mul] at h2
      have h4 := pow_le_pow_left₀ (len_nonneg _) h2 2
      rw [len_sq, one_pow] at h4
      have h5 : ∑ a, J a q * J a q ≤ 1 := by simpa [dotProduct] using h4
      have h6 : J r q * J r q + J q q * J q q ≤ ∑ a, J a q * J a q := by
        rw [← Finset.sum_pair (f := fun a => J a q * J a q) e]
        exact Finset.sum_le_sum_of_subset_of_nonneg (Finset.subset_univ _)
          fun a _ _ => mul_self_nonneg _
      rw [hd] at h6
      have : J r q * J r q = 0 := le_antisymm (by linarith) (mul_self_nonneg _)
      simpa using this
  · rintro rfl
    exact hs.unique maxStretch_one

theorem self_quotients_2d {x : Fin 4 → Fin 2 → ℝ} {J : Matrix (Fin 2) (Fin 2) ℝ}
    (h : centralDiff2 x x = .ok J) : (∀ q, J q q = 1) ∧ (J = 1 ↔ Aligned2 x) := by
  rw [centralDiff2] at h
  split at h
  · cases h
  · next hne =>
    push Not at hne
    obtain ⟨h1, h2⟩ := hne
    cases h
    refine ⟨fun q => ?_, ?_⟩
    · fin_cases q <;> simp [h1, h2]
    · rw [← Matrix.ext_iff]
      simp [Fin.forall_fin_two, h1, h2, sub_eq_zero, Aligned2]
      tauto

theorem self_quotients_3d {x : Fin 6 → Fin 3 → ℝ} {J : Matrix (Fin 3) (Fin 3) ℝ}
    (h : centralDiff3 x x = .ok J) : (∀ q, J q q = 1) ∧ (J = 1 ↔ Aligned3 x) := by
  rw [centralDiff3] at h
  split at h
  · cases h
  · next hne =>
    push Not at hne
    obtain ⟨h1, h2, h3⟩ := hne
    cases h
    refine ⟨fun q => ?_, ?_⟩
    · fin_cases q <;> simp [h1, h2, h3]
    · rw [← Matrix.ext_iff]
      simp [Fin.forall_fin_succ, h1, h2, h3, sub_eq_zero, Aligned3]
      tauto

theorem rest_value {d : ℕ} [NeZero d] {f : List (Matrix (Fin d) (Fin d) ℝ) → ℝ → Py (List FVal)}
    (hf : ComputesFtle f) {js : List (Matrix (Fin d) (Fin d) ℝ)} {T : ℝ} {field : List FVal}
    (h : f js T = .ok field) (hT : 0 ≤ T) {i : ℕ} {J : Matrix (Fin d) (Fin d) ℝ}
    (hj : js[i]? = some J) (hd : ∀ q, J q q = 1) :
    ∃ y, field[i]? = some (.fin y) ∧ 0 ≤ y ∧ (y = 0 ↔ J = 1) := by
  have hT0 : T ≠ 0 := by
    rintro rfl
    rw [hf.zero] at h
    cases h
  obtain ⟨vs, h1, h2⟩ := hf.value js T hT0
  rw [h] at h1
  cases h1
  obtain ⟨hlen, hall⟩ := List.forall₂_iff_get.1 h2
  obtain ⟨hi, e⟩ := List.getElem?_eq_some_iff.1 hj
  obtain ⟨s, s1, s2⟩ := hall i hi (hlen ▸ hi)
  simp only [List.get_eq_getElem] at s1 s2
  rw [e] at s1
  obtain ⟨u1, u2⟩ := unit_diagonal_stretch hd s1
  have hT1 : 0 < T := lt_of_le_of_ne hT (Ne.symm hT0)
  rw [ftleVal_pos (by linarith)] at s2
  refine ⟨1 / T * Real.log s, ?_, mul_nonneg (by positivity) (Real.log_nonneg u1), ?_⟩
  · rw [List.getElem?_eq_getElem (hlen ▸ hi), s2]
  · rw [← u2, mul_eq_zero]
    constructor
    · rintro (h | h)
      · exact absurd h (by positivity)
      · rcases Real.log_eq_zero.1 h with h | h | h <;> linarith
    · rintro rfl
      exact .inr Real.log_one

theorem runPeriod_real {F : Type} {env : Env ℝ F} (he : env.abs = fun x => |x|) {src : Source ℝ}
    (hn : 1 ≤ src.numSteps) : 0 ≤ runPeriod env src := by
  unfold runPeriod
  rw [he]
  refine mul_nonneg ?_ (abs_nonneg _)
  have : (0 : ℤ) ≤ (src.numSteps : ℤ) - 1 := by omega
  exact_mod_cast this

/-- **C120 (2-D, real numbers).**  The value of a group at rest is a number, never negative, and zero
exactly when the two pairs of seeds of the group are parallel to the axes. -/
theorem C120_exact_2d {env : Env ℝ FVal} (he : RealEnv env) (src : Source ℝ)
    (hn : 1 ≤ src.numSteps) {I0 : AnyInterp ℝ}
    (hI : I0.Unused) (k : Kind) {N i : ℕ} (hi : i < N) {seed : NDArray ℝ} {p : Particles ℝ}
    (hs : seed.shape = [4 * N, 2]) (hp : mkParticles seed = .ok p)
    (hg : src.getParticles env.fs = .ok p) (hv : AtRest env src I0 4 2 N i seed) (queue : Bool)
    {field : List FVal}
    (hrun : ((⟨src, I0, .fresh k⟩ : Solver ℝ).run env queue none).result = .ok (some field)) :
    ∃ y, field[i]? = some (.fin y) ∧ 0 ≤ y ∧ (y = 0 ↔ Aligned2 (groupOf seed 4 N 2 i)) := by
  obtain ⟨js, J, h1, -, h3, h4⟩ := C120_rest_2d zeroLaws_field env src hI k hi hs hp hg
    (fun b c => add_zero _) hv queue hrun
  obtain ⟨q1, q2⟩ := self_quotients_2d h4
  rw [he.f2] at h1
  obtain ⟨y, y1, y2, y3⟩ := rest_value ftle2_computes h1 (runPeriod_real he.abs hn) h3 q1
  exact ⟨y, y1, y2, y3.trans q2⟩

/-- **C120 (3-D, real numbers).** -/
theorem C120_exact_3d {env : Env ℝ FVal} (he : RealEnv env) (src : Source ℝ)
    (hn : 1 ≤ src.numSteps) {I0 : AnyInterp ℝ}
    (hI : I0.Unused) (k : Kind) {N i : ℕ} (hi : i < N) {seed : NDArray ℝ} {p : Particles ℝ}
    (hs : seed.shape = [6 * N, 3]) (hp : mkParticles seed = .ok p)
    (hg : src.getParticles env.fs = .ok p) (hv : AtRest env src I0 6 3 N i seed) (queue : Bool)
    {field : List FVal}
    (hrun : ((⟨src, I0, .fresh k⟩ : Solver ℝ).run env queue none).result = .ok (some field)) :
    ∃ y, field[i]? = some (.fin y) ∧ 0 ≤ y ∧ (y = 0 ↔ Aligned3 (groupOf seed 6 N 3 i)) := by
  obtain ⟨js, J, h1, -, h3, h4⟩ := C120_rest_3d zeroLaws_field env src hI k hi hs hp hg
    (fun b c => add_zero _) hv queue hrun
  obtain ⟨q1, q2⟩ := self_quotients_3d h4
  rw [he.f3] at h1
  obtain ⟨y, y1, y2, y3⟩ := rest_value ftle3_computes h1 (runPeriod_real he.abs hn) h3 q1
  exact ⟨y, y1, y2, y3.trans q2⟩

/-! ## Binary64 -/

theorem rne_one : rne 1 = 1 := by simpa using rne_nat (k := 1) (by norm_num)

theorem zeroLaws_fl : ZeroLaws Fl where
  mul c := by
    show (⟨rne (c.val * 0)⟩ : Fl) = ⟨0⟩
    rw [mul_zero, rne_zero]
  sub := by
    show (⟨rne (0 - 0)⟩ : Fl) = ⟨0⟩
    rw [sub_zero, rne_zero]
  add := by
    show (⟨rne (0 + 0)⟩ : Fl) = ⟨0⟩
    rw [add_zero, rne_zero]

theorem Fl.add_zero_of {x : Fl} (h : OnGrid x.val) : x + 0 = x := by
  show (⟨rne (x.val + 0)⟩ : Fl) = x
  rw [add_zero, rne_onGrid h]

theorem Fl.div_self_of {a : Fl} (h : a ≠ 0) : a / a = ⟨1⟩ := by
  have : a.val ≠ 0 := fun e => h (by cases a; simp only at e; subst e; rfl)
  show (⟨rne (a.val / a.val)⟩ : Fl) = ⟨1⟩
  rw [div_self this, rne_one]

theorem Fl.sub_self_of (a : Fl) : a - a = ⟨0⟩ := by
  show (⟨rne (a.val - a.val)⟩ : Fl) = ⟨0⟩
  rw [sub_self, rne_zero]

theorem Fl.zero_div_of (a : Fl) : (⟨0⟩ : Fl) / a = ⟨0⟩ := by
  show (⟨rne (0 / a.val)⟩ : Fl) = ⟨0⟩
  rw [zero_div, rne_zero]

theorem self_quotients64_2d {x : Fin 4 → Fin 2 → Fl} {J : Matrix (Fin 2) (Fin 2) Fl}
    (h : centralDiff2 x x = .ok J) (ha : Aligned2 x) : J = !![⟨1⟩, ⟨0⟩; ⟨0⟩, ⟨1⟩] := by
  rw [centralDiff2] at h
  split at h
  · cases h
  · next hne =>
    push Not at hne
    cases h
    rw [ha.1, ha.2, Fl.div_self_of hne.1, Fl.div_self_of hne.2, Fl.sub_self_of, Fl.sub_self_of,
      Fl.zero_div_of, Fl.zero_div_of]

theorem self_quotients64_3d {x : Fin 6 → Fin 3 → Fl} {J : Matrix (Fin 3) (Fin 3) Fl}
    (h : centralDiff3 x x = .ok J) (ha : Aligned3 x) : J = 1 := by
  rw [centralDiff3] at h
  split at h
  · cases h
  · next hne =>
    push Not at hne
    cases h
    obtain ⟨⟨a1, a2⟩, ⟨a3, a4⟩, a5, a6⟩ := ha
    ext r c
    fin_cases r <;> fin_cases c <;>
      simp only [Matrix.of_apply, Fin.zero_eta, Fin.mk_one, Fin.reduceFinMk, a1, a2, a3, a4, a5, a6,
        Fl.div_self_of hne.1, Fl.div_self_of hne.2.1, Fl.div_self_of hne.2.2, Fl.sub_self_of,
        Fl.zero_div_of] <;> rfl

theorem Libm.Accurate.at_unit {m : Libm} {κ : ℝ} (hm : m.Accurate κ) :
    m.sqrt ⟨0⟩ = ⟨0⟩ ∧ m.log ⟨1⟩ = ⟨0⟩ := by
  have val : ∀ a : Fl, a.re = 0 → a = ⟨0⟩ := by
    rintro ⟨a⟩ h
    have : (a : ℝ) = 0 := h
    rw [Rat.cast_eq_zero.1 this]
  constructor
  · refine val _ ?_
    have := hm.sqrt ⟨0⟩ (by simp [Fl.re])
    simpa [Fl.re] using this
  · refine val _ ?_
    have := hm.log ⟨1⟩ (by simp [Fl.re])
    simpa [Fl.re] using this

theorem unit_log64 {m : Libm} {κ : ℝ} (hm : m.Accurate κ) (h1 : m.sqrt ⟨1⟩ = ⟨1⟩) (c : Fl) :
    Val64.smul c (Val64.log m (Val64.sqrt m (.fin ⟨1⟩))) = .fin ⟨0⟩ := by
  obtain ⟨-, u2⟩ := hm.at_unit
  have e1 : Val64.sqrt m (.fin ⟨1⟩) = .fin ⟨1⟩ := by
    simp only [Val64.sqrt, h1]
    rw [if_neg (by norm_num)]
  have e2 : Val64.log m (.fin ⟨1⟩) = .fin ⟨0⟩ := by
    simp only [Val64.log, u2]
    rw [if_neg (by norm_num), if_neg (by norm_num)]
  rw [e1, e2, Val64.smul]
  exact congrArg _ (zeroLaws_fl.mul c)

theorem unit_value64_2d {m : Libm} {κ : ℝ} (hm : m.Accurate κ) :
    maxEig64 m (cauchyGreen2 !![⟨1⟩, ⟨0⟩; ⟨0⟩, ⟨1⟩]) = .fin ⟨1⟩ := by
  obtain ⟨u1, -⟩ := hm.at_unit
  have e0 : disc2 ⟨4⟩ (cauchyGreen2 !![(⟨1⟩ : Fl), ⟨0⟩; ⟨0⟩, ⟨1⟩]) = ⟨0⟩ := by decide +kernel
  have e1 : max (NumLits.half * (trace2 (cauchyGreen2 !![(⟨1⟩ : Fl), ⟨0⟩; ⟨0⟩, ⟨1⟩]) + ⟨0⟩))
      (NumLits.half * (trace2 (cauchyGreen2 !![(⟨1⟩ : Fl), ⟨0⟩; ⟨0⟩, ⟨1⟩]) - ⟨0⟩)) = ⟨1⟩ := by
    decide +kernel
  have e2 : Val64.sqrt m (.fin ⟨0⟩) = .fin ⟨0⟩ := by
    simp only [Val64.sqrt, u1]
    rw [if_neg (by norm_num)]
  rw [maxEig64, e0, e2]
  exact congrArg _ e1

/-- **C120 (2-D, binary64).**  With a square root that is exact at 1, the value of a group at rest
whose pairs of seeds are parallel to the axes is exactly zero. -/
theorem C120_binary64_2d {env : Env Fl Val64} {m : Libm} {κ : ℝ} (he : Env64 env m)
    (hm : m.Accurate κ) (h1 : m.sqrt ⟨1⟩ = ⟨1⟩) (src : Source Fl) {I0 : AnyInterp Fl}
    (hI : I0.Unused) (k : Kind) {N i : ℕ} (hi : i < N) {seed : NDArray Fl} {p : Particles Fl}
    (hs : seed.shape = [4 * N, 2]) (hp : mkParticles seed = .ok p)
    (hg : src.getParticles env.fs = .ok p) (hx : ∀ b c, OnGrid (groupOf seed 4 N 2 i b c).val)
    (ha : Aligned2 (groupOf seed 4 N 2 i)) (hv : AtRest env src I0 4 2 N i seed) (queue : Bool)
    {field : List Val64}
    (hrun : ((⟨src, I0, .fresh k⟩ : Solver Fl).run env queue none).result = .ok (some field)) :
    field[i]? = some (.fin ⟨0⟩) := by
  obtain ⟨js, J, f1, -, f3, f4⟩ := C120_rest_2d zeroLaws_fl env src hI k hi hs hp hg
    (fun b c => Fl.add_zero_of (hx b c)) hv queue hrun
  rw [self_quotients64_2d f4 ha] at f3
  rw [he.f2, ftle64] at f1
  split at f1
  · cases f1
  · cases f1
    simp only [List.getElem?_map, f3, Option.map_some, unit_value64_2d hm, unit_log64 hm h1]

/-- **C120 (3-D, binary64).**  The same, with a matrix product and an eigenvalue routine that are
exact for the unit matrix. -/
theorem C120_binary64_3d {env : Env Fl Val64} {m : Libm} {κ : ℝ} {la : Linalg}
    (he : Env64x3 env m la) (hm : m.Accurate κ) (h1 : m.sqrt ⟨1⟩ = ⟨1⟩) (hmul : la.mul 1 1 = 1)
    (heig : la.eigvals 1 = some fun _ => ⟨1⟩) (src : Source Fl) {I0 : AnyInterp Fl}
    (hI : I0.Unused) (k : Kind) {N i : ℕ} (hi : i < N) {seed : NDArray Fl} {p : Particles Fl}
    (hs : seed.shape = [6 * N, 3]) (hp : mkParticles seed = .ok p)
    (hg : src.getParticles env.fs = .ok p) (hx : ∀ b c, OnGrid (groupOf seed 6 N 3 i b c).val)
    (ha : Aligned3 (groupOf seed 6 N 3 i)) (hv : AtRest env src I0 6 3 N i seed) (queue : Bool)
    {field : List Val64}
    (hrun : ((⟨src, I0, .fresh k⟩ : Solver Fl).run env queue none).result = .ok (some field)) :
    field[i]? = some (.fin ⟨0⟩) := by
  obtain ⟨js, J, f1, -, f3, f4⟩ := C120_rest_3d zeroLaws_fl env src hI k hi hs hp hg
    (fun b c => Fl.add_zero_of (hx b c)) hv queue hrun
  rw [self_quotients64_3d f4 ha] at f3
  rw [he.f3, ftle64x3] at f1
  cases he : pyMap (maxEig64x3 la) (js.map fun F => la.mul F Fᵀ) with
  | error e => rw [he] at f1; cases f1
  | ok eigs =>
    rw [he] at f1
    simp only at f1
    split at f1
    · cases f1
    · cases f1
      obtain ⟨hj, -⟩ := List.getElem?_eq_some_iff.1 f3
      obtain ⟨l, l1, l2⟩ := pyMap_ok_get he i (by simpa using hj)
      have hJ : js[i] = 1 := by
        have := List.getElem?_eq_getElem hj
        rw [f3] at this
        exact (Option.some.inj this).symm
      rw [List.getElem_map, hJ, Matrix.transpose_one, hmul, maxEig64x3, heig] at l2
      have : l = .fin ⟨1⟩ := by
        cases l2
        exact congrArg _ (by decide +kernel)
      rw [List.getElem?_map, l1, this]
      exact congrArg some (unit_log64 hm h1 _)

/-- **C120 (3-D, binary64, accurate routines).**  With routines that are merely accurate, as in C112,
the value is zero up to their error. -/
theorem C120_binary64_3d_near {env : Env Fl Val64} {m : Libm} {κ : ℝ} {la : Linalg} {μ : ℝ}
    (he : Env64x3 env m la) (hm : m.Accurate κ) (hκ0 : 0 ≤ κ) (hκ : κ ≤ 1 / 100)
    (hla : la.Accurate μ) (hμ0 : 0 ≤ μ) (hμ : μ ≤ 1 / 10 ^ 6) (src : Source Fl)
    (hT : |(runPeriod env src).re| ≤ 2 ^ 1000) {I0 : AnyInterp Fl}
    (hI : I0.Unused) (k : Kind) {N i : ℕ} (hi : i < N) {seed : NDArray Fl} {p : Particles Fl}
    (hs : seed.shape = [6 * N, 3]) (hp : mkParticles seed = .ok p)
    (hg : src.getParticles env.fs = .ok p) (hx : ∀ b c, OnGrid (groupOf seed 6 N 3 i b c).val)
    (ha : Aligned3 (groupOf seed 6 N 3 i)) (hv : AtRest env src I0 6 3 N i seed) (queue : Bool)
    {field : List Val64}
    (hrun : ((⟨src, I0, .fresh k⟩ : Solver Fl).run env queue none).result = .ok (some field)) :
    ∃ v, field[i]? = some v ∧
      v.Within 0 (1 / |(runPeriod env src).re| * (11 * μ + 2 ^ (-47 : ℤ))) := by
  obtain ⟨js, J, f1, -, f3, f4⟩ := C120_rest_3d zeroLaws_fl env src hI k hi hs hp hg
    (fun b c => Fl.add_zero_of (hx b c)) hv queue hrun
  rw [self_quotients64_3d f4 ha] at f3
  rw [he.f3] at f1
  have hT0 : (runPeriod env src).re ≠ 0 := by
    intro e
    rw [C112_zero_period m hla js _ (Rat.cast_eq_zero.1 e)] at f1
    cases f1
  obtain ⟨vs, v1, v2⟩ := C112_kernel hm hκ0 hκ hla hμ0 hμ js hT0 hT
  rw [f1] at v1
  cases v1
  obtain ⟨hlen, hall⟩ := List.forall₂_iff_get.1 v2
  obtain ⟨hj, e⟩ := List.getElem?_eq_some_iff.1 f3
  have := hall i hj (hlen ▸ hj) 1
  simp only [List.get_eq_getElem] at this
  rw [e] at this
  have hr : reMat (1 : Matrix (Fin 3) (Fin 3) Fl) = 1 := by
    ext r c
    simp only [reMat, Matrix.one_apply]
    split
    · exact Rat.cast_one
    · exact Rat.cast_zero
  rw [hr] at this
  have := this maxStretch_one (zpow_le_one_of_nonpos₀ (by norm_num) (by norm_num))
  rw [Real.log_one, abs_zero, mul_zero, mul_zero, add_zero] at this
  exact ⟨_, List.getElem?_eq_getElem (hlen ▸ hj), this⟩

/-! ## Outside the grid of the velocity files -/

theorem atRest_outside_2d {env : Env Fl Val64} (hm : Target64 env.m) {s : FileSource Fl}
    {nx ny : ℕ} {xs ys : ℕ → Fl} {dx dy ζ : ℝ} (hd : GridFiles64 env.fs s nx ny xs ys dx dy ζ)
    {N i : ℕ} (hi : i < N) {seed : NDArray Fl}
    (ho : ∀ b, OffGrid64 nx ny xs ys dx dy (groupOf seed 4 N 2 i b)) :
    AtRest env (.file s) (.highPerf (HighPerf.fresh [nx, ny])) 4 2 N i seed :=
  AtRest.of_quiet fun j hj _ => (hd.quiet hm (groupRows_lt hi) (z := rowOf seed 2) (by
    rintro r ⟨b, hb, rfl⟩
    exact ho ⟨b, hb⟩) j hj).2.1

theorem atRest_outside_3d {env : Env Fl Val64} (hm : Target64 env.m) {s : FileSource Fl}
    {m nz : ℕ} {xs ys zs : ℕ → Fl} {dx dy dz ζ : ℝ}
    (hd : GridFiles64x3 env.fs s m nz xs ys zs dx dy dz ζ)
    {N i : ℕ} (hi : i < N) {seed : NDArray Fl}
    (ho : ∀ b, OffGrid64x3 m nz xs ys zs dx dy dz (groupOf seed 6 N 3 i b)) :
    AtRest env (.file s) (.highPerf (HighPerf.fresh [m, m, nz])) 6 3 N i seed :=
  AtRest.of_quiet fun j hj _ => (hd.quiet hm (groupRows_lt hi) (z := rowOf seed 3) (by
    rintro r ⟨b, hb, rfl⟩
    exact ho ⟨b, hb⟩) j hj).2.1

/-- **C120 (outside the grid, 2-D).**  In a run on gridded files with the fast interpolator, a group
whose points all lie outside the grid gets exactly the value of fluid at rest, zero, whatever the
velocities in the files are. -/
theorem C120_outside_2d {env : Env Fl Val64} {m : Libm} {κ : ℝ} (he : Env64 env m)
    (hm : m.Accurate κ) (h1 : m.sqrt ⟨1⟩ = ⟨1⟩) (ht : Target64 env.m) {s : FileSource Fl}
    {nx ny : ℕ} {xs ys : ℕ → Fl} {dx dy ζ : ℝ} (hd : GridFiles64 env.fs s nx ny xs ys dx dy ζ)
    (k : Kind) {N i : ℕ} (hi : i < N) {seed : NDArray Fl} {p : Particles Fl}
    (hs : seed.shape = [4 * N, 2]) (hp : mkParticles seed = .ok p)
    (hg : (Source.file s).getParticles env.fs = .ok p)
    (hx : ∀ b c, OnGrid (groupOf seed 4 N 2 i b c).val) (ha : Aligned2 (groupOf seed 4 N 2 i))
    (ho : ∀ b, OffGrid64 nx ny xs ys dx dy (groupOf seed 4 N 2 i b)) (queue : Bool)
    {field : List Val64}
    (hrun : ((⟨.file s, .highPerf (HighPerf.fresh [nx, ny]), .fresh k⟩ : Solver Fl).run env queue
      none).result = .ok (some field)) : field[i]? = some (.fin ⟨0⟩) :=
  C120_binary64_2d he hm h1 (.file s) (by exact (rfl : (HighPerf.fresh (K := Fl) [nx, ny]).uLen = none)) k hi hs hp hg hx ha (atRest_outside_2d ht hd hi ho) queue
    hrun

/-- **C120 (outside the grid, 3-D).** -/
theorem C120_outside_3d {env : Env Fl Val64} {m : Libm} {κ : ℝ} {la : Linalg}
    (he : Env64x3 env m la) (hm : m.Accurate κ) (h1 : m.sqrt ⟨1⟩ = ⟨1⟩) (hmul : la.mul 1 1 = 1)
    (heig : la.eigvals 1 = some fun _ => ⟨1⟩) (ht : Target64 env.m) {s : FileSource Fl}
    {n nz : ℕ} {xs ys zs : ℕ → Fl} {dx dy dz ζ : ℝ}
    (hd : GridFiles64x3 env.fs s n nz xs ys zs dx dy dz ζ)
    (k : Kind) {N i : ℕ} (hi : i < N) {seed : NDArray Fl} {p : Particles Fl}
    (hs : seed.shape = [6 * N, 3]) (hp : mkParticles seed = .ok p)
    (hg : (Source.file s).getParticles env.fs = .ok p)
    (hx : ∀ b c, OnGrid (groupOf seed 6 N 3 i b c).val) (ha : Aligned3 (groupOf seed 6 N 3 i))
    (ho : ∀ b, OffGrid64x3 n nz xs ys zs dx dy dz (groupOf seed 6 N 3 i b)) (queue : Bool)
    {field : List Val64}
    (hrun : ((⟨.file s, .highPerf (HighPerf.fresh [n, n, nz]), .fresh k⟩ : Solver Fl).run env queue
      none).result = .ok (some field)) : field[i]? = some (.fin ⟨0⟩) :=
  C120_binary64_3d he hm h1 hmul heig (.file s)
    (by exact (rfl : (HighPerf.fresh (K := Fl) [n, n, nz]).uLen = none)) k hi hs hp hg hx ha
    (atRest_outside_3d ht hd hi ho) queue hrun

/-! ## The hypotheses hold -/

section
variable {K F : Type} [Zero K] [One K] [Add K] [Sub K] [Mul K] [Div K] [NatCast K] [IntCast K]
  [Min K] [Max K] [NumLits K] [DecidableEq K]

/-- A fluid at rest, given as a Python function. -/
def still (d : ℕ) : AnyInterp K := .analytical (.fresh (some fun _ => sourceOf d fun _ _ => 0))

theorem still_updated (env : Env K F) (s : AnalyticalSource K) (d n : ℕ) :
    (Source.analytical s).updated env (still d) n = (still d, none) := by
  induction n with
  | zero => rfl
  | succ n ih => simp only [Source.updated, ih]; rfl

theorem still_atRest (env : Env K F) (s : AnalyticalSource K) (m d N i : ℕ) (hi : i < N)
    (seed : NDArray K) : AtRest env (.analytical s) (still d) m d N i seed := by
  intro j _ _ q A hq _ hA
  rw [still_updated] at hA
  obtain ⟨B, b1, b2, b3⟩ := sourceOf_pointwise (m * N) d (fun _ _ => (0 : K)) q hq
  have hA' : sourceOf d (fun _ _ => (0 : K)) q = .ok A := hA
  rw [b1] at hA'
  cases hA'
  exact ⟨b2, fun b hb => b3 _ (groupRows_lt hi _ ⟨b, hb, rfl⟩)⟩

theorem centralDiff2_nonzero (X : Fin 4 → Fin 2 → K) {x : Fin 4 → Fin 2 → K} (h0 : x 1 0 - x 0 0 ≠ 0)
    (h1 : x 2 1 - x 3 1 ≠ 0) : ∃ J, centralDiff2 X x = .ok J := by
  unfold centralDiff2
  rw [if_neg (by rintro (e | e); exacts [h0 e, h1 e])]
  exact ⟨_, rfl⟩

/-- The flow map of a fluid at rest. -/
theorem flowMap_still (z : ZeroLaws K) {d : ℕ} (k : Kind) (h : K) (n : ℕ) {x : Fin d → K}
    (hx : ∀ c, x c + 0 = x c) : flowMap k (fun _ _ _ => 0) h n x = x := by
  have hstep : ∀ prev : Option (Fin d → K), (prev = none ∨ prev = some fun _ => 0) →
      rowStep k (fun _ _ => 0) h prev x = x := by
    intro prev hp
    rcases hp with rfl | rfl <;> cases k <;>
      simp only [rowStep, z.mul, z.add, z.sub, hx]
  have : ∀ (l : List (((Fin d → K) → Fin d → K) × K)) (prev : Option (Fin d → K)),
      (∀ e ∈ l, e = (fun _ _ => 0, h)) → (prev = none ∨ prev = some fun _ => 0) →
      rowRun k l prev x = x := by
    intro l
    induction l with
    | nil => exact fun _ _ _ => rfl
    | cons e l ih =>
      intro prev hl hp
      have he := hl e (by simp)
      subst he
      show rowRun k l _ (rowStep k (fun _ _ => 0) h prev x) = x
      rw [hstep prev hp]
      refine ih _ (fun e he => hl e (by simp [he])) ?_
      cases k <;> simp [nextPrev]
  exact this _ none (by simp) (.inl rfl)

theorem stages_still (z : ZeroLaws K) {d : ℕ} (k : Kind) (h : K) {x w : Fin d → K}
    (hx : ∀ c, x c + 0 = x c) (hw : w ∈ stages k (fun _ _ => 0) h x) : w = x := by
  cases k <;> simp only [stages, z.mul, hx, List.mem_cons, List.not_mem_nil, or_false, or_self] at hw <;>
    exact hw

theorem still_completes (env : Env K F) (k : Kind) {seed : NDArray K} {p : Particles K}
    (hs : seed.shape = [4 * 1, 2]) (hp : mkParticles seed = .ok p) {h t0 t1 : K}
    (h0 : groupOf seed 4 1 2 0 1 0 - groupOf seed 4 1 2 0 0 0 ≠ 0)
    (h1 : groupOf seed 4 1 2 0 2 1 - groupOf seed 4 1 2 0 3 1 ≠ 0)
    (hf : ∀ js, ∃ field, env.ftle2 js (runPeriod env (.analytical ⟨p, h, [t0, t1]⟩)) = .ok field) :
    ∃ field, ((⟨.analytical ⟨p, h, [t0, t1]⟩, still 2, .fresh k⟩ : Solver K).run env false
      none).result = .ok (some field) := by
  have hv : ∀ i < 2, Pointwise (4 * 1) 2 (((Source.analytical ⟨p, h, [t0, t1]⟩ : Source K).updated env
      (still 2) (i + 1)).1.velocity env) ((fun _ _ _ => 0 : ℕ → (Fin 2 → K) → Fin 2 → K) i) := by
    intro i _
    rw [still_updated]
    exact sourceOf_pointwise (4 * 1) 2 (fun _ _ => (0 : K))
  have := run_flow_2d env (.analytical ⟨p, h, [t0, t1]⟩) (I0 := still 2) trivial k
    (fun _ _ _ => 0) (fun i _ => by rw [still_updated]) 1 hv rfl seed
    (.analytical ⟨p, h, [t0, t1]⟩) p false ⟨rfl, rfl⟩ hs hp rfl
  rw [this]
  obtain ⟨J, hJ⟩ := centralDiff2_nonzero
    (fun b => flowMap k (fun _ _ _ => 0) (Source.analytical ⟨p, h, [t0, t1]⟩ : Source K).timestep
        (Source.analytical ⟨p, h, [t0, t1]⟩ : Source K).numSteps (groupOf seed 4 1 2 0 b)) h0 h1
  have e : pyMap (fun i => centralDiff2
      (fun b => flowMap k (fun _ _ _ => 0) (Source.analytical ⟨p, h, [t0, t1]⟩ : Source K).timestep
        (Source.analytical ⟨p, h, [t0, t1]⟩ : Source K).numSteps (groupOf seed 4 1 2 i b))
      (groupOf seed 4 1 2 i)) (List.range 1) = .ok [J] := by
    simp only [List.range_succ, List.range_zero, List.nil_append, pyMap, hJ]
  rw [e]
  obtain ⟨field, hfield⟩ := hf [J]
  exact ⟨field, by simp only [hfield, Except.map]⟩

theorem centralDiff3_nonzero (X : Fin 6 → Fin 3 → K) {x : Fin 6 → Fin 3 → K}
    (h0 : x 1 0 - x 0 0 ≠ 0) (h1 : x 2 1 - x 3 1 ≠ 0) (h2 : x 4 2 - x 5 2 ≠ 0) :
    ∃ J, centralDiff3 X x = .ok J := by
  unfold centralDiff3
  rw [if_neg (by rintro (e | e | e); exacts [h0 e, h1 e, h2 e])]
  exact ⟨_, rfl⟩

theorem still_completes_3d (z : ZeroLaws K) (env : Env K F) (k : Kind) {seed : NDArray K}
    {p : Particles K}
    (hs : seed.shape = [6 * 1, 3]) (hp : mkParticles seed = .ok p) {h t0 t1 : K}
    (hx : ∀ b c, groupOf seed 6 1 3 0 b c + 0 = groupOf seed 6 1 3 0 b c)
    (h0 : groupOf seed 6 1 3 0 1 0 - groupOf seed 6 1 3 0 0 0 ≠ 0)
    (h1 : groupOf seed 6 1 3 0 2 1 - groupOf seed 6 1 3 0 3 1 ≠ 0)
    (h2 : groupOf seed 6 1 3 0 4 2 - groupOf seed 6 1 3 0 5 2 ≠ 0)
    (hf : ∀ J, centralDiff3 (groupOf seed 6 1 3 0) (groupOf seed 6 1 3 0) = .ok J →
      ∃ field, env.ftle3 [J] (runPeriod env (.analytical ⟨p, h, [t0, t1]⟩)) = .ok field) :
    ∃ field, ((⟨.analytical ⟨p, h, [t0, t1]⟩, still 3, .fresh k⟩ : Solver K).run env false
      none).result = .ok (some field) := by
  have hv : ∀ i < 2, Pointwise (6 * 1) 3 (((Source.analytical ⟨p, h, [t0, t1]⟩ : Source K).updated env
      (still 3) (i + 1)).1.velocity env) ((fun _ _ _ => 0 : ℕ → (Fin 3 → K) → Fin 3 → K) i) := by
    intro i _
    rw [still_updated]
    exact sourceOf_pointwise (6 * 1) 3 (fun _ _ => (0 : K))
  have := run_flow_3d env (.analytical ⟨p, h, [t0, t1]⟩) (I0 := still 3) trivial k
    (fun _ _ _ => 0) (fun i _ => by rw [still_updated]) 1 hv rfl seed
    (.analytical ⟨p, h, [t0, t1]⟩) p false ⟨rfl, rfl⟩ hs hp rfl
  rw [this]
  obtain ⟨J, hJ⟩ := centralDiff3_nonzero (groupOf seed 6 1 3 0) h0 h1 h2
  have hflow : ∀ h n b, flowMap k (fun _ _ _ => 0) h n (groupOf seed 6 1 3 0 b) =
      groupOf seed 6 1 3 0 b := fun h n b => flowMap_still z k h n (hx b)
  have e : pyMap (fun i => centralDiff3
      (fun b => flowMap k (fun _ _ _ => 0) (Source.analytical ⟨p, h, [t0, t1]⟩ : Source K).timestep
        (Source.analytical ⟨p, h, [t0, t1]⟩ : Source K).numSteps (groupOf seed 6 1 3 i b))
      (groupOf seed 6 1 3 i)) (List.range 1) = .ok [J] := by
    simp only [List.range_succ, List.range_zero, List.nil_append, pyMap, hflow, hJ]
  rw [e]
  obtain ⟨field, hfield⟩ := hf J hJ
  exact ⟨field, by simp only [hfield, Except.map]⟩

end

/-- Four seeds, the pair in the first direction tilted. -/
noncomputable def tiltSeed : NDArray ℝ := ⟨[4, 2], fun i =>
  if i = [0, 0] ∨ i = [3, 1] then -1 else if i = [1, 0] ∨ i = [1, 1] ∨ i = [2, 1] then 1 else 0⟩

theorem realEnv_completes {k : Kind} {seed : NDArray ℝ} {p : Particles ℝ}
    (hs : seed.shape = [4 * 1, 2]) (hp : mkParticles seed = .ok p)
    (h0 : groupOf seed 4 1 2 0 1 0 - groupOf seed 4 1 2 0 0 0 ≠ 0)
    (h1 : groupOf seed 4 1 2 0 2 1 - groupOf seed 4 1 2 0 3 1 ≠ 0) :
    ∃ field, ((⟨.analytical ⟨p, 1, [0, 1]⟩, still 2, .fresh k⟩ : Solver ℝ).run realEnv false
      none).result = .ok (some field) :=
  still_completes realEnv k hs hp h0 h1 fun js => by
    obtain ⟨vs, h, -⟩ := ftle2_computes.value js (runPeriod realEnv (.analytical ⟨p, 1, [0, 1]⟩))
      (by simp [runPeriod, realEnv, Source.numSteps, Source.timestep])
    exact ⟨vs, h⟩

/-- **The exponent of a fluid at rest is zero: false of the code.**  For a tilted pair of seeds the
run reports a positive exponent although nothing moves. -/
theorem C120_tilted_fails (k : Kind) : ∃ (p : Particles ℝ) (field : List FVal) (y : ℝ),
    mkParticles tiltSeed = .ok p ∧
    ((⟨.analytical ⟨p, 1, [0, 1]⟩, still 2, .fresh k⟩ : Solver ℝ).run realEnv false none).result =
      .ok (some field) ∧ field[0]? = some (.fin y) ∧ 0 < y := by
  have hs : tiltSeed.shape = [4 * 1, 2] := rfl
  obtain ⟨p, hp, -⟩ := mkParticles_2d hs
  obtain ⟨field, hf⟩ := realEnv_completes (k := k) hs hp
    (by simp [groupOf, rowOf, tiltSeed]) (by simp [groupOf, rowOf, tiltSeed])
  obtain ⟨y, y1, y2, y3⟩ := C120_exact_2d (env := realEnv) ⟨rfl, rfl, rfl⟩ (.analytical ⟨p, 1, [0, 1]⟩)
    (by simp [Source.numSteps]) (I0 := still 2) trivial k (N := 1) (i := 0) (by norm_num) hs hp rfl
    (still_atRest _ _ 4 2 1 0 (by norm_num) _) false hf
  refine ⟨p, field, y, hp, hf, y1, lt_of_le_of_ne y2 fun e => ?_⟩
  have := (y3.1 e.symm).1
  simp [groupOf, rowOf, tiltSeed] at this

/-- Aligned seeds in a fluid at rest: the value is zero. -/
example (k : Kind) : ∃ (p : Particles ℝ) (field : List FVal), mkParticles crossSeed = .ok p ∧
    ((⟨.analytical ⟨p, 1, [0, 1]⟩, still 2, .fresh k⟩ : Solver ℝ).run realEnv false none).result =
      .ok (some field) ∧ field[0]? = some (.fin 0) := by
  have hs : crossSeed.shape = [4 * 1, 2] := rfl
  obtain ⟨p, hp, -⟩ := mkParticles_2d hs
  obtain ⟨a1, a2, a3, a4⟩ := crossSeed_aligned 0 (by norm_num)
  obtain ⟨field, hf⟩ := realEnv_completes (k := k) hs hp (sub_ne_zero.2 a1) (sub_ne_zero.2 a3)
  obtain ⟨y, y1, y2, y3⟩ := C120_exact_2d (env := realEnv) ⟨rfl, rfl, rfl⟩ (.analytical ⟨p, 1, [0, 1]⟩)
    (by simp [Source.numSteps]) (I0 := still 2) trivial k (N := 1) (i := 0) (by norm_num) hs hp rfl
    (still_atRest _ _ 4 2 1 0 (by norm_num) _) false hf
  exact ⟨p, field, hp, hf, by rw [y1, y3.2 ⟨a2, a4⟩]⟩

/-! A gridded case: the files of C87 with one group of seeds far away from the grid `[-4, 4]²`. -/

/-- The block of one neighbour: the point `(x, y)`. -/
def farBlock (x y : ℚ) : NDArray Fl :=
  ⟨[1, 2], fun i => if i.getD 1 0 = 0 then ⟨x⟩ else ⟨y⟩⟩

def farFiles : MatFS Fl := fun path =>
  if path = "far" then some fun key =>
    if key = "left" then some (farBlock 9 0)
    else if key = "right" then some (farBlock 11 0)
    else if key = "top" then some (farBlock 10 1)
    else if key = "bottom" then some (farBlock 10 (-1))
    else none
  else linFiles path

noncomputable def farEnv (m : Libm) : Env Fl Val64 := { flEnv m with fs := farFiles }

def farSource : FileSource Fl := ⟨["v0", "v1"], ["c0", "c1"], "far", ⟨1 / 1024⟩, "v0", false⟩

theorem far_files : GridFiles64 farFiles farSource 8193 8193 node64 node64 (1 / 1024) (1 / 1024) 0 where
  fresh := rfl
  x := lin_nodes
  y := lin_nodes
  data := by
    intro j hj
    obtain ⟨V, P, ⟨⟨f, f1, f2⟩, ⟨g, g1, g2⟩⟩, h2, h3, h4, -⟩ := lin_samples.data j hj
    have hj : j < 2 := hj
    have nf : f ≠ "far" := by
      rintro rfl
      interval_cases j <;> simp [linSource] at f1
    have ng : g ≠ "far" := by
      rintro rfl
      interval_cases j <;> simp [linSource] at g1
    refine ⟨V, P, ⟨⟨f, f1, ?_⟩, ⟨g, g1, ?_⟩⟩, h2, h3, h4⟩
    · simpa [readVelocity, loadmat, farFiles, nf] using f2
    · simpa [readCoordinate, loadmat, farFiles, ng] using g2

theorem far_seeds : ∃ seed P, seed.shape = [4 * 1, 2] ∧ mkParticles seed = .ok P ∧
    readSeedParticles farFiles "far" = .ok P ∧
    groupOf seed 4 1 2 0 = ![![⟨9⟩, ⟨0⟩], ![⟨11⟩, ⟨0⟩], ![⟨10⟩, ⟨1⟩], ![⟨10⟩, ⟨-1⟩]] := by
  obtain ⟨A, a1, a2, a3⟩ := concat0_eq (m := 1) (rest := [2])
    [farBlock 9 0, farBlock 11 0, farBlock 10 1, farBlock 10 (-1)] (by simp) (by simp [farBlock])
  obtain ⟨P, p1, -⟩ := mkParticles_2d (show A.shape = [4 * 1, 2] from a2)
  refine ⟨A, P, a2, p1, ?_, ?_⟩
  · simp [readSeedParticles, loadmat, farFiles, a1, p1]
  · have g0 := a3 0 (by simp) 0
    have g1 := a3 1 (by simp) 0
    have g2 := a3 2 (by simp) 0
    have g3 := a3 3 (by simp) 0
    funext b c
    fin_cases b <;> fin_cases c <;>
      simp [groupOf, rowOf, farBlock] at g0 g1 g2 g3 ⊢ <;>
      simp [g0, g1, g2, g3]

/-- There is a library as in C120. -/
theorem exists_libm_unit {κ : ℝ} (hκ : 0 < κ) : ∃ m : Libm, m.Accurate κ ∧ m.sqrt ⟨1⟩ = ⟨1⟩ := by
  obtain ⟨m, hm⟩ := exists_libm hκ
  refine ⟨⟨fun x => if x.val = 1 then ⟨1⟩ else m.sqrt x, m.log⟩, ⟨fun x hx => ?_, hm.log⟩, by simp⟩
  simp only
  split
  · next h =>
    have : x.re = 1 := by simp [Fl.re, h]
    rw [this]
    simp [Fl.re]
  · exact hm.sqrt x hx

/-- In three dimensions: the product in the order of the terms, and an eigenvalue routine that reads
the diagonal. -/
example (k : Kind) : ∃ (m : Libm) (la : Linalg) (p : Particles Fl) (field : List Val64),
    m.Accurate (2 ^ (-52 : ℤ)) ∧ mkParticles cross64x3 = .ok p ∧
    ((⟨.analytical ⟨p, 1, [0, 1]⟩, still 3, .fresh k⟩ : Solver Fl).run
      { flEnv m with ftle3 := ftle64x3 m la } false none).result = .ok (some field) ∧
    field[0]? = some (.fin ⟨0⟩) := by
  obtain ⟨m, hm, h1⟩ := exists_libm_unit (κ := 2 ^ (-52 : ℤ)) (by positivity)
  have hs : cross64x3.shape = [6 * 1, 3] := rfl
  obtain ⟨p, hp, -⟩ := mkParticles_3d hs
  have hx : ∀ b c, OnGrid (groupOf cross64x3 6 1 3 0 b c).val := by
    intro b c
    have : (groupOf cross64x3 6 1 3 0 b c).val = -1 ∨ (groupOf cross64x3 6 1 3 0 b c).val = 1 ∨
        (groupOf cross64x3 6 1 3 0 b c).val = 0 := by
      revert b c
      decide +kernel
    rcases this with e | e | e <;> rw [e]
    exacts [⟨-1, 0, by norm_num, by norm_num, by simp⟩, ⟨1, 0, by norm_num, by norm_num, by simp⟩,
      ⟨0, 0, by norm_num, by norm_num, by simp⟩]
  have hmul : matmul64 1 1 = 1 := by
    have : ∀ i j, (matmul64 1 1 i j).val = ((1 : Matrix (Fin 3) (Fin 3) Fl) i j).val := by
      decide +kernel
    ext i j
    exact congrArg Fl.mk (this i j)
  have ha : Aligned3 (groupOf cross64x3 6 1 3 0) := by
    unfold Aligned3
    decide +kernel
  obtain ⟨field, hf⟩ := still_completes_3d zeroLaws_fl
    { flEnv m with ftle3 := ftle64x3 m ⟨matmul64, fun C => some fun i => C i i⟩ } k hs hp (h := 1)
    (t0 := 0) (t1 := 1) (fun b c => Fl.add_zero_of (hx b c)) (by decide +kernel) (by decide +kernel)
    (by decide +kernel) (by
      intro J _
      show ∃ field, ftle64x3 m ⟨matmul64, fun C => some fun i => C i i⟩ [J] _ = .ok field
      rw [ftle64x3]
      simp only [List.map_cons, List.map_nil, pyMap, maxEig64x3]
      rw [if_neg (by
        show (((((2 : ℕ) : ℤ) - 1 : ℤ) : Fl) * (⟨|(1 : Fl).val|⟩ : Fl)).val ≠ 0
        decide +kernel)]
      exact ⟨_, rfl⟩)
  exact ⟨m, ⟨matmul64, fun C => some fun i => C i i⟩, p, field, hm, hp, hf,
    C120_binary64_3d (la := ⟨matmul64, fun C => some fun i => C i i⟩) ⟨rfl, rfl⟩ hm h1 hmul
      (by simp only [Matrix.one_apply_eq]; rfl) _ (I0 := still 3) trivial k (by norm_num) hs hp rfl hx ha
      (still_atRest _ _ 6 3 1 0 (by norm_num) _) false hf⟩

theorem far_off (z : Fin 2 → Fl) (h0 : 9 ≤ (z 0).re) (h1 : (z 0).re ≤ 11) (h2 : |(z 1).re| ≤ 1) :
    OffGrid64 8193 8193 node64 node64 (1 / 1024) (1 / 1024) z := by
  obtain ⟨a, b⟩ := abs_le.1 h2
  refine ⟨?_, ?_, .inl (.inr ?_)⟩
  · unfold InReach64
    rw [node64_re, abs_le]
    constructor <;> norm_num <;> linarith
  · unfold InReach64
    rw [node64_re, abs_le]
    constructor <;> norm_num <;> linarith
  · rw [node64_re]
    norm_num
    linarith

/-- The run completes, and the value of the group is zero. -/
example (k : Kind) : ∃ (m : Libm) (field : List Val64), m.Accurate (2 ^ (-52 : ℤ)) ∧
    ((⟨.file farSource, .highPerf (HighPerf.fresh [8193, 8193]), .fresh k⟩ : Solver Fl).run
      (farEnv m) false none).result = .ok (some field) ∧ field[0]? = some (.fin ⟨0⟩) := by
  obtain ⟨m, hm, h1⟩ := exists_libm_unit (κ := 2 ^ (-52 : ℤ)) (by positivity)
  obtain ⟨seed, P, s1, s2, s3, s4⟩ := far_seeds
  have ht : Target64 (farEnv m).m := .inl rfl
  have hq := far_files.quiet (F := Val64) (env := farEnv m) ht (R := 4 * 1) (S := ∅) (by simp)
    (z := fun _ _ => 0) (by simp)
  have hoff : ∀ b, OffGrid64 8193 8193 node64 node64 (1 / 1024) (1 / 1024)
      (groupOf seed 4 1 2 0 b) := by
    intro b
    rw [s4]
    refine far_off _ ?_ ?_ ?_ <;> fin_cases b <;> simp [Fl.re] <;> norm_num
  have hgrid : ∀ b c, OnGrid (groupOf seed 4 1 2 0 b c).val := by
    intro b c
    rw [s4]
    fin_cases b <;> fin_cases c
    exacts [⟨9, 0, by norm_num, by norm_num, by simp⟩, ⟨0, 0, by norm_num, by norm_num, by simp⟩,
      ⟨11, 0, by norm_num, by norm_num, by simp⟩, ⟨0, 0, by norm_num, by norm_num, by simp⟩,
      ⟨10, 0, by norm_num, by norm_num, by simp⟩, ⟨1, 0, by norm_num, by norm_num, by simp⟩,
      ⟨10, 0, by norm_num, by norm_num, by simp⟩, ⟨-1, 0, by norm_num, by norm_num, by simp⟩]
  have hflow : ∀ n b, flowMap k (fun _ _ _ => 0) (Source.file farSource).timestep n
      (groupOf seed 4 1 2 0 b) = groupOf seed 4 1 2 0 b := fun n b =>
    flowMap_still zeroLaws_fl k _ n fun c => Fl.add_zero_of (hgrid b c)
  have hrun := run_flow_on_2d (farEnv m) (.file farSource)
    (I0 := .highPerf (HighPerf.fresh [8193, 8193]))
    (by exact (rfl : (HighPerf.fresh (K := Fl) [8193, 8193]).uLen = none)) k (fun _ _ _ => 0)
    (fun _ => {w | OffGrid64 8193 8193 node64 node64 (1 / 1024) (1 / 1024) w})
    (fun j hj => (hq j hj).1) 1 (fun j hj => (hq j hj).2.2) rfl seed P false s1 s2 s3
    (by
      intro i hi b j _ w hw
      obtain rfl : i = 0 := by omega
      rw [hflow] at hw
      rw [stages_still zeroLaws_fl k _ (fun c => Fl.add_zero_of (hgrid b c)) hw]
      exact hoff b)
  obtain ⟨J, hJ⟩ := centralDiff2_nonzero (groupOf seed 4 1 2 0) (x := groupOf seed 4 1 2 0)
    (by rw [s4]; decide +kernel) (by rw [s4]; decide +kernel)
  simp only [List.range_succ, List.range_zero, List.nil_append, pyMap, hflow, hJ] at hrun
  have hT : (runPeriod (farEnv m) (.file farSource)).val ≠ 0 := by
    show (((((2 : ℕ) : ℤ) - 1 : ℤ) : Fl) * (⟨|1 / 1024|⟩ : Fl)).val ≠ 0
    decide +kernel
  have hf : ∃ field, (farEnv m).ftle2 [J] (runPeriod (farEnv m) (.file farSource)) = .ok field := by
    show ∃ field, ftle64 m [J] (runPeriod (farEnv m) (.file farSource)) = .ok field
    rw [ftle64, if_neg hT]
    exact ⟨_, rfl⟩
  obtain ⟨field, hf⟩ := hf
  rw [hf] at hrun
  refine ⟨m, field, hm, hrun, C120_outside_2d (env := farEnv m) ⟨rfl, rfl⟩ hm h1 ht far_files k
    (by norm_num) s1 s2 s3 hgrid ?_ hoff false hrun⟩
  rw [s4]
  exact ⟨rfl, rfl⟩

end Verif
