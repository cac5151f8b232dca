import Verif.Lemmas.StrainGrid
import Verif.Props.Affine

/-!
# C138: the strain of the data bounds the exponent

Velocities at distance `r` differ by at most `L r`.  Distances are measured by the greatest difference of
a coordinate.
-/

namespace Verif

open Matrix

theorem field_stretches {d : ℕ} {f : List (Matrix (Fin d) (Fin d) ℝ) → ℝ → Py (List FVal)}
    (hf : ComputesFtle f) {N : ℕ} {T : ℝ} (hT : T ≠ 0) (J : ℕ → Matrix (Fin d) (Fin d) ℝ) :
    ∃ S : ℕ → ℝ, (∀ i, IsMaxStretch (J i) (S i)) ∧
      f ((List.range N).map J) T = .ok ((List.range N).map fun i => ftleVal (S i) T) := by
  choose S hS using hf.exists_stretch
  refine ⟨fun i => S (J i), fun i => hS (J i), ?_⟩
  obtain ⟨vs, h1, h2⟩ := hf.value ((List.range N).map J) T hT
  rw [h1]
  congr 1
  have h3 : List.Forall₂ (fun F v => v = ftleVal (S F) T) ((List.range N).map J) vs := by
    refine h2.imp fun F v h => ?_
    obtain ⟨s, hs, rfl⟩ := h
    rw [maxStretch_unique hs (hS F)]
  have hl := h3.length_eq
  apply List.ext_getElem
  · simpa using hl.symm
  · intro i hi hi'
    have := (List.forall₂_iff_get.1 h3).2 i (by simpa using hi') hi
    simpa using this

/-- Quotients of differences along an axis. -/
theorem quotient_le {d : ℕ} {X Y x y : Fin d → ℝ} {j : Fin d} {G : ℝ} (hG : ‖X - Y‖ ≤ G * ‖x - y‖)
    (hj : x j ≠ y j) (ho : ∀ i, i ≠ j → x i = y i) (i : Fin d) :
    |(X i - Y i) / (x j - y j)| ≤ G := by
  have hn : 0 < |x j - y j| := abs_pos.2 (sub_ne_zero.2 hj)
  have e : ‖x - y‖ = |x j - y j| := by
    refine le_antisymm ((pi_norm_le_iff_of_nonneg (abs_nonneg _)).2 fun l => ?_)
      (norm_le_pi_norm (x - y) j)
    by_cases h : l = j
    · rw [h]; rfl
    · simp [ho l h]
  rw [abs_div, div_le_iff₀ hn, ← e]
  exact (norm_le_pi_norm (X - Y) i).trans hG

theorem le_quotient {d : ℕ} {X Y x y : Fin d → ℝ} {j : Fin d} {s : ℝ} (hs : s * ‖x - y‖ ≤ ‖X - Y‖)
    (hj : x j ≠ y j) : ∃ i, s ≤ |(X i - Y i) / (x j - y j)| ∨ s ≤ 0 := by
  by_cases h0 : s ≤ 0
  · exact ⟨j, .inr h0⟩
  have hn : 0 < |x j - y j| := abs_pos.2 (sub_ne_zero.2 hj)
  have hxy : |x j - y j| ≤ ‖x - y‖ := norm_le_pi_norm (x - y) j
  have hs' : s * |x j - y j| ≤ ‖X - Y‖ :=
    (mul_le_mul_of_nonneg_left hxy (not_le.1 h0).le).trans hs
  haveI : Nonempty (Fin d) := ⟨j⟩
  obtain ⟨i, hi⟩ := Finite.exists_max fun i => |X i - Y i|
  refine ⟨i, .inl ?_⟩
  rw [abs_div, le_div_iff₀ hn]
  refine hs'.trans ((pi_norm_le_iff_of_nonneg (abs_nonneg _)).2 fun l => ?_)
  exact hi l

/-- The upper bound: the logarithm of the number of dimensions and of the growth in `n` steps, over the
period. -/
noncomputable def strainUpper (d : ℕ) (k : Kind) (L h : ℝ) (n : ℕ) : ℝ :=
  1 / (((n : ℝ) - 1) * |h|) * (Real.log d + n * Real.log (growth k (|h| * L)))

/-- The lower bound. -/
noncomputable def strainLower (k : Kind) (L h : ℝ) (n : ℕ) : ℝ :=
  1 / (((n : ℝ) - 1) * |h|) * (n * Real.log (shrink k (|h| * L)))

theorem value_below {d : ℕ} (hd : 0 < d) {J : Matrix (Fin d) (Fin d) ℝ} {S T G : ℝ} {n : ℕ}
    (hS : IsMaxStretch J S) (hT : 0 < T) (hG : 0 < G) (hJ : ∀ i j, |J i j| ≤ G ^ n) :
    ftleVal S T = .negInf ∨ ∃ l ≤ 1 / T * (Real.log d + n * Real.log G), ftleVal S T = .fin l := by
  rcases (maxStretch_nonneg hS).lt_or_eq with h | h
  · refine .inr ⟨_, ?_, ftleVal_pos h⟩
    have : S ≤ d * G ^ n := maxStretch_le_entries hS (by positivity) hJ
    have hd' : (0 : ℝ) < d := by exact_mod_cast hd
    refine mul_le_mul_of_nonneg_left ?_ (by positivity)
    rw [← Real.log_pow, ← Real.log_mul hd'.ne' (by positivity)]
    exact Real.log_le_log h this
  · exact .inl (by rw [← h]; exact ftleVal_zero_pos hT)

theorem value_between {d : ℕ} (hd : 0 < d) {J : Matrix (Fin d) (Fin d) ℝ} {S T G s : ℝ} {n : ℕ}
    (hS : IsMaxStretch J S) (hT : 0 < T) (hG : 0 < G) (hJ : ∀ i j, |J i j| ≤ G ^ n) (hs : 0 < s)
    (hl : ∃ i j, s ^ n ≤ |J i j|) :
    ∃ l, ftleVal S T = .fin l ∧ 1 / T * (n * Real.log s) ≤ l ∧
      l ≤ 1 / T * (Real.log d + n * Real.log G) := by
  obtain ⟨i, j, hij⟩ := hl
  have hSs : s ^ n ≤ S := hij.trans (entry_le_maxStretch hS i j)
  have h0 : 0 < S := (pow_pos hs n).trans_le hSs
  rcases value_below hd hS hT hG hJ with h | ⟨l, h1, h2⟩
  · rw [ftleVal_pos h0] at h
    cases h
  · refine ⟨l, h2, ?_, h1⟩
    rw [ftleVal_pos h0] at h2
    injection h2 with h2
    rw [← h2, ← Real.log_pow]
    exact mul_le_mul_of_nonneg_left (Real.log_le_log (pow_pos hs n) hSs) (by positivity)

section
variable {env : Env ℝ FVal} {k : Kind} {src : Source ℝ} {I0 : AnyInterp ℝ} {N : ℕ} {id : String}
  {seed : NDArray ℝ} {P : Particles ℝ} {L : ℝ}

/-- The Jacobians of a 2-D run. -/
theorem strain_run_2d (he : RealEnv env) (queue : Bool) (hI : I0.Unused)
    (hup : ∀ i < src.numSteps, (src.updated env I0 (i + 1)).2 = none)
    {g : ℕ → (Fin 2 → ℝ) → Fin 2 → ℝ} {S : ℕ → Set (Fin 2 → ℝ)}
    (hv : ∀ i < src.numSteps, PointwiseOn (S i) (4 * N)
      ((src.updated env I0 (i + 1)).1.velocity env) (g i)) (hid : src.id env = .ok id)
    (hs : seed.shape = [4 * N, 2]) (hp : mkParticles seed = .ok P)
    (hP : src.getParticles env.fs = .ok P) (hal : ∀ i < N, AxisAligned2 seed N i)
    (hS : ∀ i < N, ∀ q, ∀ j < src.numSteps, ∀ z ∈ stages k (g j) src.timestep
      (flowMap k g src.timestep j (groupOf seed 4 N 2 i q)), z ∈ S j)
    (hn : 2 ≤ src.numSteps) (hh : src.timestep ≠ 0) :
    ∃ (V : ℕ → ℝ), (∀ i, IsMaxStretch (diffs2 (fun b => flowMap k g src.timestep src.numSteps
        (groupOf seed 4 N 2 i b)) (groupOf seed 4 N 2 i)) (V i)) ∧
      ((⟨src, I0, .fresh k⟩ : Solver ℝ).run env queue none).result =
        .ok (some ((List.range N).map fun i =>
          ftleVal (V i) (((src.numSteps : ℝ) - 1) * |src.timestep|))) := by
  have hT := period_pos hn hh
  obtain ⟨V, h1, h2⟩ := field_stretches ftle2_computes (N := N) hT.ne' fun i =>
    diffs2 (fun b => flowMap k g src.timestep src.numSteps (groupOf seed 4 N 2 i b))
      (groupOf seed 4 N 2 i)
  refine ⟨V, h1, ?_⟩
  rw [run_flow_on_2d env src hI k g S hup N hv hid seed P queue hs hp hP hS,
    pyMap_ok_map (g := fun i => diffs2 (fun b => flowMap k g src.timestep src.numSteps
      (groupOf seed 4 N 2 i b)) (groupOf seed 4 N 2 i))]
  · have e : runPeriod env src = ((src.numSteps : ℝ) - 1) * |src.timestep| := by
      unfold runPeriod
      rw [he.abs]
      push_cast
      rfl
    simp only [e, he.f2, h2]
    rfl
  · intro i hi
    obtain ⟨a1, -, a3, -⟩ := hal i (List.mem_range.1 hi)
    exact centralDiff2_ok.2 ⟨⟨sub_ne_zero.2 a1, sub_ne_zero.2 a3⟩, rfl⟩

/-- **C138 (2-D, from above).**  No value exceeds the bound. -/
theorem C138_upper_2d (he : RealEnv env) (queue : Bool) (hI : I0.Unused)
    (hup : ∀ i < src.numSteps, (src.updated env I0 (i + 1)).2 = none)
    {g : ℕ → (Fin 2 → ℝ) → Fin 2 → ℝ} {S : ℕ → Set (Fin 2 → ℝ)}
    (hv : ∀ i < src.numSteps, PointwiseOn (S i) (4 * N)
      ((src.updated env I0 (i + 1)).1.velocity env) (g i)) (hid : src.id env = .ok id)
    (hs : seed.shape = [4 * N, 2]) (hp : mkParticles seed = .ok P)
    (hP : src.getParticles env.fs = .ok P) (hal : ∀ i < N, AxisAligned2 seed N i)
    (hS : ∀ i < N, ∀ q, ∀ j < src.numSteps, ∀ z ∈ stages k (g j) src.timestep
      (flowMap k g src.timestep j (groupOf seed 4 N 2 i q)), z ∈ S j)
    (hn : 2 ≤ src.numSteps) (hh : src.timestep ≠ 0) (hL : 0 ≤ L)
    (hg : ∀ j < src.numSteps, Strained (S j) (g j) L) :
    ∃ Λ : ℕ → FVal, ((⟨src, I0, .fresh k⟩ : Solver ℝ).run env queue none).result =
        .ok (some ((List.range N).map Λ)) ∧
      ∀ i < N, Λ i = .negInf ∨ ∃ l ≤ strainUpper 2 k L src.timestep src.numSteps, Λ i = .fin l := by
  obtain ⟨V, h1, h2⟩ := strain_run_2d (k := k) he queue hI hup hv hid hs hp hP hal hS hn hh
  refine ⟨_, h2, fun i hi => ?_⟩
  have ha : 0 ≤ |src.timestep| * L := by positivity
  obtain ⟨a1, a2, a3, a4⟩ := hal i hi
  have grow := fun b b' => flow_growth (k := k) hL hg (hS i hi b) (hS i hi b')
  refine value_below two_pos (h1 i) (period_pos hn hh) (one_pos.trans_le (growth_one_le k ha))
    fun r c => ?_
  have c0 := quotient_le (grow 1 0) (j := 0) a1 (by intro l hl; fin_cases l; exacts [absurd rfl hl, a2]) r
  have c1 := quotient_le (grow 2 3) (j := 1) a3 (by intro l hl; fin_cases l; exacts [a4, absurd rfl hl]) r
  fin_cases c <;> fin_cases r <;> first | exact c0 | exact c1

/-- **C138 (2-D, both sides).**  If the time step is small compared with the strain, the values are
numbers and lie between the bounds. -/
theorem C138_between_2d (he : RealEnv env) (queue : Bool) (hI : I0.Unused)
    (hup : ∀ i < src.numSteps, (src.updated env I0 (i + 1)).2 = none)
    {g : ℕ → (Fin 2 → ℝ) → Fin 2 → ℝ} {S : ℕ → Set (Fin 2 → ℝ)}
    (hv : ∀ i < src.numSteps, PointwiseOn (S i) (4 * N)
      ((src.updated env I0 (i + 1)).1.velocity env) (g i)) (hid : src.id env = .ok id)
    (hs : seed.shape = [4 * N, 2]) (hp : mkParticles seed = .ok P)
    (hP : src.getParticles env.fs = .ok P) (hal : ∀ i < N, AxisAligned2 seed N i)
    (hS : ∀ i < N, ∀ q, ∀ j < src.numSteps, ∀ z ∈ stages k (g j) src.timestep
      (flowMap k g src.timestep j (groupOf seed 4 N 2 i q)), z ∈ S j)
    (hn : 2 ≤ src.numSteps) (hh : src.timestep ≠ 0) (hL : 0 ≤ L)
    (hg : ∀ j < src.numSteps, Strained (S j) (g j) L) (h0 : 0 < shrink k (|src.timestep| * L))
    (h5 : k = .ab2 → |src.timestep| * L ≤ 1 / 5) :
    ∃ Λ : ℕ → ℝ, ((⟨src, I0, .fresh k⟩ : Solver ℝ).run env queue none).result =
        .ok (some ((List.range N).map fun i => .fin (Λ i))) ∧
      ∀ i < N, strainLower k L src.timestep src.numSteps ≤ Λ i ∧
        Λ i ≤ strainUpper 2 k L src.timestep src.numSteps := by
  obtain ⟨V, h1, h2⟩ := strain_run_2d (k := k) he queue hI hup hv hid hs hp hP hal hS hn hh
  have ha : 0 ≤ |src.timestep| * L := by positivity
  have key : ∀ i < N, ∃ l, ftleVal (V i) (((src.numSteps : ℝ) - 1) * |src.timestep|) = .fin l ∧
      strainLower k L src.timestep src.numSteps ≤ l ∧
      l ≤ strainUpper 2 k L src.timestep src.numSteps := fun i hi => by
    obtain ⟨a1, a2, a3, a4⟩ := hal i hi
    have grow := fun b b' => flow_growth (k := k) hL hg (hS i hi b) (hS i hi b')
    refine value_between two_pos (h1 i) (period_pos hn hh) (one_pos.trans_le (growth_one_le k ha))
      (fun r c => ?_) h0 ?_
    · have c0 := quotient_le (grow 1 0) (j := 0) a1
        (by intro l hl; fin_cases l; exacts [absurd rfl hl, a2]) r
      have c1 := quotient_le (grow 2 3) (j := 1) a3
        (by intro l hl; fin_cases l; exacts [a4, absurd rfl hl]) r
      fin_cases c <;> fin_cases r <;> first | exact c0 | exact c1
    · obtain ⟨r, hr | hr⟩ := le_quotient
        (flow_shrink (k := k) hL hg (hS i hi 1) (hS i hi 0) h0.le h5) (j := 0) a1
      · exact ⟨r, 0, by fin_cases r <;> exact hr⟩
      · exact absurd hr (not_le.2 (pow_pos h0 _))
  choose! Λ hΛ using key
  refine ⟨Λ, ?_, fun i hi => (hΛ i hi).2⟩
  rw [h2]
  congr 2
  exact List.map_congr_left fun i hi => (hΛ i (List.mem_range.1 hi)).1

/-- The Jacobians of a 3-D run. -/
theorem strain_run_3d (he : RealEnv env) (queue : Bool) (hI : I0.Unused)
    (hup : ∀ i < src.numSteps, (src.updated env I0 (i + 1)).2 = none)
    {g : ℕ → (Fin 3 → ℝ) → Fin 3 → ℝ} {S : ℕ → Set (Fin 3 → ℝ)}
    (hv : ∀ i < src.numSteps, PointwiseOn (S i) (6 * N)
      ((src.updated env I0 (i + 1)).1.velocity env) (g i)) (hid : src.id env = .ok id)
    (hs : seed.shape = [6 * N, 3]) (hp : mkParticles seed = .ok P)
    (hP : src.getParticles env.fs = .ok P) (hal : ∀ i < N, AxisAligned3 seed N i)
    (hS : ∀ i < N, ∀ q, ∀ j < src.numSteps, ∀ z ∈ stages k (g j) src.timestep
      (flowMap k g src.timestep j (groupOf seed 6 N 3 i q)), z ∈ S j)
    (hn : 2 ≤ src.numSteps) (hh : src.timestep ≠ 0) :
    ∃ (V : ℕ → ℝ), (∀ i, IsMaxStretch (diffs3 (fun b => flowMap k g src.timestep src.numSteps
        (groupOf seed 6 N 3 i b)) (groupOf seed 6 N 3 i)) (V i)) ∧
      ((⟨src, I0, .fresh k⟩ : Solver ℝ).run env queue none).result =
        .ok (some ((List.range N).map fun i =>
          ftleVal (V i) (((src.numSteps : ℝ) - 1) * |src.timestep|))) := by
  have hT := period_pos hn hh
  obtain ⟨V, h1, h2⟩ := field_stretches ftle3_computes (N := N) hT.ne' fun i =>
    diffs3 (fun b => flowMap k g src.timestep src.numSteps (groupOf seed 6 N 3 i b))
      (groupOf seed 6 N 3 i)
  refine ⟨V, h1, ?_⟩
  rw [run_flow_on_3d env src hI k g S hup N hv hid seed P queue hs hp hP hS,
    pyMap_ok_map (g := fun i => diffs3 (fun b => flowMap k g src.timestep src.numSteps
      (groupOf seed 6 N 3 i b)) (groupOf seed 6 N 3 i))]
  · have e : runPeriod env src = ((src.numSteps : ℝ) - 1) * |src.timestep| := by
      unfold runPeriod
      rw [he.abs]
      push_cast
      rfl
    simp only [e, he.f3, h2]
    rfl
  · intro i hi
    obtain ⟨a1, a2, a3⟩ := hal i (List.mem_range.1 hi)
    exact centralDiff3_ok.2 ⟨⟨sub_ne_zero.2 a1.1, sub_ne_zero.2 a2.1, sub_ne_zero.2 a3.1⟩, rfl⟩

/-- **C138 (3-D, from above).** -/
theorem C138_upper_3d (he : RealEnv env) (queue : Bool) (hI : I0.Unused)
    (hup : ∀ i < src.numSteps, (src.updated env I0 (i + 1)).2 = none)
    {g : ℕ → (Fin 3 → ℝ) → Fin 3 → ℝ} {S : ℕ → Set (Fin 3 → ℝ)}
    (hv : ∀ i < src.numSteps, PointwiseOn (S i) (6 * N)
      ((src.updated env I0 (i + 1)).1.velocity env) (g i)) (hid : src.id env = .ok id)
    (hs : seed.shape = [6 * N, 3]) (hp : mkParticles seed = .ok P)
    (hP : src.getParticles env.fs = .ok P) (hal : ∀ i < N, AxisAligned3 seed N i)
    (hS : ∀ i < N, ∀ q, ∀ j < src.numSteps, ∀ z ∈ stages k (g j) src.timestep
      (flowMap k g src.timestep j (groupOf seed 6 N 3 i q)), z ∈ S j)
    (hn : 2 ≤ src.numSteps) (hh : src.timestep ≠ 0) (hL : 0 ≤ L)
    (hg : ∀ j < src.numSteps, Strained (S j) (g j) L) :
    ∃ Λ : ℕ → FVal, ((⟨src, I0, .fresh k⟩ : Solver ℝ).run env queue none).result =
        .ok (some ((List.range N).map Λ)) ∧
      ∀ i < N, Λ i = .negInf ∨ ∃ l ≤ strainUpper 3 k L src.timestep src.numSteps, Λ i = .fin l := by
  obtain ⟨V, h1, h2⟩ := strain_run_3d (k := k) he queue hI hup hv hid hs hp hP hal hS hn hh
  refine ⟨_, h2, fun i hi => ?_⟩
  have ha : 0 ≤ |src.timestep| * L := by positivity
  obtain ⟨⟨a1, a2, a3⟩, ⟨b1, b2, b3⟩, ⟨e1, e2, e3⟩⟩ := hal i hi
  have grow := fun b b' => flow_growth (k := k) hL hg (hS i hi b) (hS i hi b')
  refine value_below three_pos (h1 i) (period_pos hn hh) (one_pos.trans_le (growth_one_le k ha))
    fun r c => ?_
  have c0 := quotient_le (grow 1 0) (j := 0) a1
    (by intro l hl; fin_cases l; exacts [absurd rfl hl, a2, a3]) r
  have c1 := quotient_le (grow 2 3) (j := 1) b1
    (by intro l hl; fin_cases l; exacts [b2, absurd rfl hl, b3]) r
  have c2 := quotient_le (grow 4 5) (j := 2) e1
    (by intro l hl; fin_cases l; exacts [e2, e3, absurd rfl hl]) r
  fin_cases c
  exacts [c0, c1, c2]

/-- **C138 (3-D, both sides).** -/
theorem C138_between_3d (he : RealEnv env) (queue : Bool) (hI : I0.Unused)
    (hup : ∀ i < src.numSteps, (src.updated env I0 (i + 1)).2 = none)
    {g : ℕ → (Fin 3 → ℝ) → Fin 3 → ℝ} {S : ℕ → Set (Fin 3 → ℝ)}
    (hv : ∀ i < src.numSteps, PointwiseOn (S i) (6 * N)
      ((src.updated env I0 (i + 1)).1.velocity env) (g i)) (hid : src.id env = .ok id)
    (hs : seed.shape = [6 * N, 3]) (hp : mkParticles seed = .ok P)
    (hP : src.getParticles env.fs = .ok P) (hal : ∀ i < N, AxisAligned3 seed N i)
    (hS : ∀ i < N, ∀ q, ∀ j < src.numSteps, ∀ z ∈ stages k (g j) src.timestep
      (flowMap k g src.timestep j (groupOf seed 6 N 3 i q)), z ∈ S j)
    (hn : 2 ≤ src.numSteps) (hh : src.timestep ≠ 0) (hL : 0 ≤ L)
    (hg : ∀ j < src.numSteps, Strained (S j) (g j) L) (h0 : 0 < shrink k (|src.timestep| * L))
    (h5 : k = .ab2 → |src.timestep| * L ≤ 1 / 5) :
    ∃ Λ : ℕ → ℝ, ((⟨src, I0, .fresh k⟩ : Solver ℝ).run env queue none).result =
        .ok (some ((List.range N).map fun i => .fin (Λ i))) ∧
      ∀ i < N, strainLower k L src.timestep src.numSteps ≤ Λ i ∧
        Λ i ≤ strainUpper 3 k L src.timestep src.numSteps := by
  obtain ⟨V, h1, h2⟩ := strain_run_3d (k := k) he queue hI hup hv hid hs hp hP hal hS hn hh
  have ha : 0 ≤ |src.timestep| * L := by positivity
  have key : ∀ i < N, ∃ l, ftleVal (V i) (((src.numSteps : ℝ) - 1) * |src.timestep|) = .fin l ∧
      strainLower k L src.timestep src.numSteps ≤ l ∧
      l ≤ strainUpper 3 k L src.timestep src.numSteps := fun i hi => by
    obtain ⟨⟨a1, a2, a3⟩, ⟨b1, b2, b3⟩, ⟨e1, e2, e3⟩⟩ := hal i hi
    have grow := fun b b' => flow_growth (k := k) hL hg (hS i hi b) (hS i hi b')
    refine value_between three_pos (h1 i) (period_pos hn hh) (one_pos.trans_le (growth_one_le k ha))
      (fun r c => ?_) h0 ?_
    · have c0 := quotient_le (grow 1 0) (j := 0) a1
        (by intro l hl; fin_cases l; exacts [absurd rfl hl, a2, a3]) r
      have c1 := quotient_le (grow 2 3) (j := 1) b1
        (by intro l hl; fin_cases l; exacts [b2, absurd rfl hl, b3]) r
      have c2 := quotient_le (grow 4 5) (j := 2) e1
        (by intro l hl; fin_cases l; exacts [e2, e3, absurd rfl hl]) r
      fin_cases c
      exacts [c0, c1, c2]
    · obtain ⟨r, hr | hr⟩ := le_quotient
        (flow_shrink (k := k) hL hg (hS i hi 1) (hS i hi 0) h0.le h5) (j := 0) a1
      · exact ⟨r, 0, hr⟩
      · exact absurd hr (not_le.2 (pow_pos h0 _))
  choose! Λ hΛ using key
  refine ⟨Λ, ?_, fun i hi => (hΛ i hi).2⟩
  rw [h2]
  congr 2
  exact List.map_congr_left fun i hi => (hΛ i (List.mem_range.1 hi)).1

end

/-- **C138 (gridded files, 2-D).**  The samples at neighbouring nodes differ by at most `s` times the
spacing of the grid.  The samples need not come from a smooth flow. -/
theorem C138_files_2d {env : Env ℝ FVal} (he : RealEnv env) (hm : ExactTarget env.m) (queue : Bool)
    (k : Kind) {v : ℝ → (Fin 2 → ℝ) → Fin 2 → ℝ} {t0 : ℝ} {s : FileSource ℝ} {nx ny : ℕ}
    {x0 dx y0 dy : ℝ} (hd : Samples2 env.fs s v t0 nx ny x0 dx y0 dy) {a : ℝ} (ha : 0 ≤ a)
    (hsl : ∀ j < s.snapshotFiles.length, Slopes2 (v (t0 + j * s.timestep)) nx ny x0 dx y0 dy a)
    {N : ℕ} {seed : NDArray ℝ}
    {P : Particles ℝ} (hs : seed.shape = [4 * N, 2]) (hp : mkParticles seed = .ok P)
    (hP : readSeedParticles env.fs s.particleFile = .ok P) (hal : ∀ i < N, AxisAligned2 seed N i)
    (hin : ∀ i < N, ∀ q, ∀ j < s.snapshotFiles.length, ∀ z ∈ stages k
      (bilinear v (t0 + j * s.timestep) nx ny x0 dx y0 dy) s.timestep
      (flowMap k (fun j => bilinear v (t0 + (j : ℕ) * s.timestep) nx ny x0 dx y0 dy) s.timestep j
        (groupOf seed 4 N 2 i q)), OnAxis nx x0 dx (z 0) ∧ OnAxis ny y0 dy (z 1))
    (hn : 2 ≤ s.snapshotFiles.length) (hh : s.timestep ≠ 0)
    (h0 : 0 < shrink k (|s.timestep| * (2 * a))) (h5 : k = .ab2 → |s.timestep| * (2 * a) ≤ 1 / 5) :
    ∃ Λ : ℕ → ℝ, ((⟨.file s, .highPerf (HighPerf.fresh [nx, ny]), .fresh k⟩ : Solver ℝ).run env queue
        none).result = .ok (some ((List.range N).map fun i => .fin (Λ i))) ∧
      ∀ i < N, strainLower k (2 * a) s.timestep s.snapshotFiles.length ≤ Λ i ∧
        Λ i ≤ strainUpper 2 k (2 * a) s.timestep s.snapshotFiles.length :=
  C138_between_2d (src := .file s) he queue
    (by exact (rfl : (HighPerf.fresh (K := ℝ) [nx, ny]).uLen = none))
    (fun i hi => (samples_updated_2d hm hd i hi 0).1)
    (S := fun _ => {z | OnAxis nx x0 dx (z 0) ∧ OnAxis ny y0 dy (z 1)})
    (fun i hi => (samples_updated_2d hm hd i hi (4 * N)).2) rfl hs hp hP hal hin hn hh (by positivity)
    (fun j hj => bilinear_strained hd.hdx hd.hdy ha (hsl j hj)) h0 h5

/-- **C138 (gridded files, 3-D).**  Grids with as many nodes in `x` as in `y` (C30). -/
theorem C138_files_3d {env : Env ℝ FVal} (he : RealEnv env) (hm : ExactTarget env.m) (queue : Bool)
    (k : Kind) {v : ℝ → (Fin 3 → ℝ) → Fin 3 → ℝ} {t0 : ℝ} {s : FileSource ℝ} {m nz : ℕ}
    {x0 dx y0 dy z0 dz : ℝ} (hd : Samples3 env.fs s v t0 m nz x0 dx y0 dy z0 dz) {a : ℝ} (ha : 0 ≤ a)
    (hsl : ∀ j < s.snapshotFiles.length,
      Slopes3 (v (t0 + j * s.timestep)) m nz x0 dx y0 dy z0 dz a) {N : ℕ}
    {seed : NDArray ℝ} {P : Particles ℝ} (hs : seed.shape = [6 * N, 3]) (hp : mkParticles seed = .ok P)
    (hP : readSeedParticles env.fs s.particleFile = .ok P) (hal : ∀ i < N, AxisAligned3 seed N i)
    (hin : ∀ i < N, ∀ q, ∀ j < s.snapshotFiles.length, ∀ z ∈ stages k
      (trilinear v (t0 + j * s.timestep) m nz x0 dx y0 dy z0 dz) s.timestep
      (flowMap k (fun j => trilinear v (t0 + (j : ℕ) * s.timestep) m nz x0 dx y0 dy z0 dz) s.timestep j
        (groupOf seed 6 N 3 i q)),
      OnAxis m x0 dx (z 0) ∧ OnAxis m y0 dy (z 1) ∧ OnAxis nz z0 dz (z 2))
    (hn : 2 ≤ s.snapshotFiles.length) (hh : s.timestep ≠ 0)
    (h0 : 0 < shrink k (|s.timestep| * (3 * a))) (h5 : k = .ab2 → |s.timestep| * (3 * a) ≤ 1 / 5) :
    ∃ Λ : ℕ → ℝ, ((⟨.file s, .highPerf (HighPerf.fresh [m, m, nz]), .fresh k⟩ : Solver ℝ).run env queue
        none).result = .ok (some ((List.range N).map fun i => .fin (Λ i))) ∧
      ∀ i < N, strainLower k (3 * a) s.timestep s.snapshotFiles.length ≤ Λ i ∧
        Λ i ≤ strainUpper 3 k (3 * a) s.timestep s.snapshotFiles.length :=
  C138_between_3d (src := .file s) he queue
    (by exact (rfl : (HighPerf.fresh (K := ℝ) [m, m, nz]).uLen = none))
    (fun i hi => (samples_updated_3d hm hd i hi 0).1)
    (S := fun _ => {z | OnAxis m x0 dx (z 0) ∧ OnAxis m y0 dy (z 1) ∧ OnAxis nz z0 dz (z 2)})
    (fun i hi => (samples_updated_3d hm hd i hi (6 * N)).2) rfl hs hp hP hal hin hn hh (by positivity)
    (fun j hj => trilinear_strained hd.hdx hd.hdy hd.hdz ha (hsl j hj)) h0 h5

end Verif
