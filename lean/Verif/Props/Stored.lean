import Verif.Lemmas.StoredRun
import Verif.Props.Rest
import Verif.Props.GridError

/-!
# C124: seed coordinates stored as whole numbers

The type of the seeds decides what a run computes.  If one block of the seed file is stored as
`float64`, the run is the run of the other properties.  If all blocks are stored as integers, RK4
raises, functions with results of their own raise, and the other runs move their particles by
velocities whose fractions are cut off.
-/

set_option linter.unusedSectionVars false

namespace Verif

open Matrix

/-! ## Specification -/

/-- Integer part of a real number, towards zero. -/
noncomputable def intPart (x : ℝ) : ℤ := if 0 ≤ x then ⌊x⌋ else ⌈x⌉

/-- Entries `rows × cols` of an array are whole numbers that the type can hold. -/
def WholeIn (t : DType) (a : NDArray ℝ) (rows cols : ℕ) : Prop :=
  ∀ r < rows, ∀ c < cols, ∃ z : ℤ, t.lo ≤ z ∧ z ≤ t.hi ∧ a.get [r, c] = (z : ℝ)

/-- In every step of the run the interpolator, whenever it answers a query in which the particles of
group `i` are at their seeds, answers with components below 1 for these particles. -/
def SlowAt {F : Type} (sg : Storage ℝ) (t : DType) (env : Env ℝ F) (src : Source ℝ)
    (I0 : AnyInterp ℝ) (m d N i : ℕ) (seed : NDArray ℝ) : Prop :=
  ∀ j < src.numSteps, (src.updated env I0 (j + 1)).2 = none → ∀ q A : NDArray ℝ,
    q.shape = [m * N, d] → (∀ b < m, rowOf q d (b * N + i) = rowOf seed d (b * N + i)) →
    (src.updated env I0 (j + 1)).1.rawVelocity sg t env q = .ok A →
      A.shape = [m * N, d] ∧ ∀ b < m, ∀ c, |rowOf A d (b * N + i) c| < 1

/-! ## Any arithmetic -/

section
variable {K F : Type} [Zero K] [One K] [Add K] [Sub K] [Mul K] [Div K] [NatCast K] [IntCast K]
  [Min K] [Max K] [NumLits K] [DecidableEq K]

/-- **C124 (`float64`).**  Runs with `float64` particles are the runs of `Solver.run`. -/
theorem C124_float64_partial {st : Storage K} {env : Env K F} {S : Solver K}
    (h : S.source.seedType st env.fs = .float64) (queue : Bool) (writer : Option (WriteFn K F)) :
    S.runOf st env queue writer = S.run env queue writer := runOf_float64 h queue writer

/-- **C124 (one block).**  One block stored as `float64` is enough: of the four blocks of the plane,
or of the other two if both of them are in the file. -/
theorem C124_one_block_partial (st : Storage K) {env : Env K F} {s : FileSource K}
    (h : (∃ b ∈ ["left", "right", "top", "bottom"], st.inFile s.particleFile b = .float64) ∨
      ∃ data u v, env.fs s.particleFile = some data ∧ data "front" = some u ∧
        data "back" = some v ∧ (st.inFile s.particleFile "front" = .float64 ∨
          st.inFile s.particleFile "back" = .float64))
    (I : AnyInterp K) (G : Integ K) (queue : Bool) (writer : Option (WriteFn K F)) :
    (⟨.file s, I, G⟩ : Solver K).runOf st env queue writer =
      (⟨.file s, I, G⟩ : Solver K).run env queue writer := by
  refine runOf_float64 ?_ queue writer
  simp only [Source.seedType, Storage.seedType]
  cases hd : env.fs s.particleFile with
  | none => rfl
  | some data =>
    rcases h with ⟨b, hb, h⟩ | ⟨data', u, v, h1, h2, h3, h4⟩
    · have hp : ((st.inFile s.particleFile "left").promote (st.inFile s.particleFile "right")).promote
          ((st.inFile s.particleFile "top").promote (st.inFile s.particleFile "bottom")) =
          .float64 := by
        simp only [List.mem_cons, List.not_mem_nil, or_false] at hb
        rcases hb with rfl | rfl | rfl | rfl
        · exact promote_eq_float64 (.inl (promote_eq_float64 (.inl h)))
        · exact promote_eq_float64 (.inl (promote_eq_float64 (.inr h)))
        · exact promote_eq_float64 (.inr (promote_eq_float64 (.inl h)))
        · exact promote_eq_float64 (.inr (promote_eq_float64 (.inr h)))
      simp only [hp]
      split
      · rfl
      · rfl
    · rw [h1] at hd
      cases hd
      simp only [h2, h3]
      exact promote_eq_float64 (.inr (promote_eq_float64 h4))

/-- **C124 is false of the code (RK4).**  With integer particles every run that has a step and
uses RK4 ends in an exception, whatever its velocities are. -/
theorem C124_rk4_fails {st : Storage K} {env : Env K F} {S : Solver K}
    (h : S.source.seedType st env.fs ≠ .float64) {bufs : Option (Rk4Bufs K)}
    (hk : S.integ = .rk4 bufs) (hn : 1 ≤ S.source.numSteps) (queue : Bool)
    (writer : Option (WriteFn K F)) : ∃ e, (S.runOf st env queue writer).result = .error e := by
  refine runOf_first_error queue writer hn fun I _ pos => ?_
  rw [hk]
  simp only [Integ.stepOf, if_neg h]
  exact rk4StepInt_error _ _ _ _

/-- The exception of RK4 is a `TypeError` once the first velocities have been computed. -/
theorem C124_rk4_error {C : CastRules K} {t : DType} (h : t ≠ .float64) (junk : List ℕ → K)
    {vel : Velocity K} {R d : ℕ} {g : (Fin d → K) → Fin d → K} (hv : Pointwise R d vel g) (dt : K)
    {pos : NDArray K} (hp : pos.shape = [R, d]) :
    ((Integ.fresh .rk4).stepOf C t junk vel dt pos).2 = .error .typeError := by
  obtain ⟨b1, b2, b3, b4, b5⟩ := rk4Bufs_fits junk (bufs := none) (R := R) (d := d) trivial hp
  obtain ⟨A, a1, a2, -⟩ := fillFrom_rows hv b1 hp
  obtain ⟨B, c1, -⟩ := copyto_same b5 hp
  simp only [Integ.fresh, Integ.stepOf, if_neg h, rk4StepInt, a1, c1]

/-- **C124 is false of the code (functions).**  With integer particles every run that has a step and
evaluates a function that returns a `float64` array ends in an exception, for all integrators. -/
theorem C124_function_fails {st : Storage K} (ho : st.own = true) {env : Env K F}
    {s : AnalyticalSource K} (h : st.given ≠ .float64) (f : AnalyticalState K) (G : Integ K)
    (hn : 1 ≤ s.times.length) (queue : Bool) (writer : Option (WriteFn K F)) :
    ∃ e, ((⟨.analytical s, .analytical f, G⟩ : Solver K).runOf st env queue writer).result =
      .error e := by
  refine runOf_first_error queue writer hn fun I hI pos => ?_
  simp only [Source.updateInterp, Prod.mk.injEq, and_true] at hI
  subst hI
  exact stepOf_velocity_error _ _ _ _ h (velocityOf_own ho h env f pos)

end

/-! ## Real numbers -/

section
variable {F : Type}

theorem intPart_small {x : ℝ} (h : |x| < 1) : intPart x = 0 := by
  obtain ⟨h1, h2⟩ := abs_lt.1 h
  unfold intPart
  split
  · next h0 => exact Int.floor_eq_zero_iff.2 ⟨h0, h2⟩
  · next h0 =>
    rw [Int.ceil_eq_zero_iff]
    exact ⟨by linarith, by linarith⟩

theorem intPart_int (z : ℤ) : intPart (z : ℝ) = z := by
  unfold intPart
  split <;> simp

theorem DType.lo_nonpos (t : DType) : t.lo ≤ 0 := by
  cases t <;> simp [DType.lo]

theorem DType.hi_nonneg (t : DType) : 0 ≤ t.hi := by
  rcases t with _ | w | w
  · simp [DType.hi]
  · cases w <;> simp [DType.hi, Width.bits]
  · cases w <;> simp [DType.hi, Width.bits]

theorem store_small {C : CastRules ℝ} (hC : C.trunc = intPart) {t : DType} (ht : t ≠ .float64)
    {x : ℝ} (h : |x| < 1) : t.store C x = 0 := by
  unfold DType.store
  rw [if_neg ht, hC, intPart_small h, if_pos ⟨t.lo_nonpos, t.hi_nonneg⟩]
  simp

theorem store_whole {C : CastRules ℝ} (hC : C.trunc = intPart) {t : DType} (ht : t ≠ .float64)
    {z : ℤ} (h1 : t.lo ≤ z) (h2 : z ≤ t.hi) : t.store C (z : ℝ) = z := by
  unfold DType.store
  rw [if_neg ht, hC, intPart_int, if_pos ⟨h1, h2⟩]

/-- The difference of two numbers of a type is zero in that type exactly if they are equal. -/
theorem wrap_zero_iff {C : CastRules ℝ} (hC : C.trunc = intPart) {t : DType} (ht : t ≠ .float64)
    {a b : ℤ} (a1 : t.lo ≤ a) (a2 : a ≤ t.hi) (b1 : t.lo ≤ b) (b2 : b ≤ t.hi) :
    t.wrap C ((a : ℝ) - b) = 0 ↔ (a : ℝ) = b := by
  have hl := t.lo_nonpos
  have hh := t.hi_nonneg
  unfold DType.wrap
  rw [if_neg ht, hC, show ((a : ℝ) - b) = ((a - b : ℤ) : ℝ) by push_cast; rfl, intPart_int,
    Int.cast_eq_zero, Int.cast_inj]
  constructor
  · intro h
    have h1 : (a - b - t.lo) % (t.hi - t.lo + 1) = -t.lo := by linarith
    have h2 : (-t.lo) % (t.hi - t.lo + 1) = -t.lo := Int.emod_eq_of_lt (by linarith) (by linarith)
    have h3 : (t.hi - t.lo + 1) ∣ (a - b - t.lo) - (-t.lo) :=
      Int.ModEq.dvd ((h2.trans h1.symm) : _ ≡ _ [ZMOD _])
    rw [show a - b - t.lo - -t.lo = a - b by ring] at h3
    have := Int.eq_zero_of_abs_lt_dvd h3 (by rw [abs_lt]; constructor <;> linarith)
    linarith
  · rintro rfl
    rw [sub_self, zero_sub, Int.emod_eq_of_lt (by linarith) (by linarith)]
    ring

theorem SlowAt.quiet {sg : Storage ℝ} (hC : sg.rules.trunc = intPart) {t : DType}
    (ht : t ≠ .float64) {env : Env ℝ F} {src : Source ℝ} {I0 : AnyInterp ℝ} {m d N i : ℕ}
    {seed : NDArray ℝ} (h : SlowAt sg t env src I0 m d N i seed) :
    ∀ j < src.numSteps, (src.updated env I0 (j + 1)).2 = none →
      Quiet (m * N) d (groupRows m N i) (rowOf seed d)
        ((src.updated env I0 (j + 1)).1.velocityOf sg t env) := by
  intro j hj hn q A hq hr hA
  simp only [AnyInterp.velocityOf] at hA
  cases hv : (src.updated env I0 (j + 1)).1.rawVelocity sg t env q with
  | error e => rw [hv] at hA; cases hA
  | ok V =>
    rw [hv] at hA
    obtain ⟨h1, h2⟩ := h j hj hn q V hq (fun b hb => hr _ ⟨b, hb, rfl⟩) hv
    have hA' : A = V.map (t.store sg.rules) := by
      simp only [if_neg ht] at hA
      split at hA
      · split at hA
        · cases hA
        · exact (Except.ok.inj hA).symm
      · exact (Except.ok.inj hA).symm
    subst hA'
    refine ⟨h1, ?_⟩
    rintro r ⟨b, hb, rfl⟩
    funext c
    exact store_small hC ht (h2 b hb c)

theorem block_lt {m N b i : ℕ} (hb : b < m) (hi : i < N) : b * N + i < m * N :=
  groupRows_lt hi _ ⟨b, hb, rfl⟩

/-- **C124 is false of the code (2-D).**  A completed run with integer particles reports exactly 0
for every group whose pairs of seeds are parallel to the axes and whose velocity components
at the seeds are all below 1 in every snapshot, whatever the flow is otherwise. -/
theorem C124_frozen_2d_fails {sg : Storage ℝ} (hC : sg.rules.trunc = intPart) {env : Env ℝ FVal}
    (he : RealEnv env) {src : Source ℝ} (ht : src.seedType sg env.fs ≠ .float64)
    (hn : 1 ≤ src.numSteps) {I0 : AnyInterp ℝ} (hI : I0.Unused) (k : Kind) {N i : ℕ} (hi : i < N)
    {seed : NDArray ℝ} {p : Particles ℝ} (hs : seed.shape = [4 * N, 2])
    (hp : mkParticles seed = .ok p) (hg : src.getParticles env.fs = .ok p)
    (hw : WholeIn (src.seedType sg env.fs) seed (4 * N) 2) (ha : Aligned2 (groupOf seed 4 N 2 i))
    (hv : SlowAt sg (src.seedType sg env.fs) env src I0 4 2 N i seed) (queue : Bool)
    {field : List FVal}
    (hrun : ((⟨src, I0, .fresh k⟩ : Solver ℝ).runOf sg env queue none).result = .ok (some field)) :
    field[i]? = some (.fin 0) := by
  obtain ⟨js, J, h1, h2, h3⟩ := runOf_rest_2d env src ht hI k hi hs hp hg (by
      intro b hb c
      obtain ⟨z, z1, z2, z3⟩ := hw (b * N + i) (block_lt hb hi) c.1 c.2
      simp only [rowOf, z3]
      exact store_whole hC ht z1 z2) (hv.quiet hC ht) queue hrun
  have w0 : (src.seedType sg env.fs).wrap sg.rules 0 = 0 := by
    have := (wrap_zero_iff hC ht (a := 0) (b := 0) (DType.lo_nonpos _) (DType.hi_nonneg _)
      (DType.lo_nonpos _) (DType.hi_nonneg _)).2 rfl
    simpa using this
  have e0 : seed.get [N + i, 1] - seed.get [i, 1] = 0 := by
    have := ha.1
    simp only [groupOf, rowOf] at this
    simpa [sub_eq_zero] using this
  have e1 : seed.get [2 * N + i, 0] - seed.get [3 * N + i, 0] = 0 := by
    have := ha.2
    simp only [groupOf, rowOf] at this
    simpa [sub_eq_zero] using this
  simp only [jac2Val, e0, e1, w0] at h3
  split at h3
  · cases h3
  · next hne =>
    push Not at hne
    have hJ : J = 1 := by
      rw [← Except.ok.inj h3, div_self hne.1, div_self hne.2, zero_div, zero_div,
        Matrix.one_fin_two]
    subst hJ
    rw [he.f2] at h1
    obtain ⟨y, y1, -, y3⟩ := rest_value ftle2_computes h1 (runPeriod_real he.abs hn) h2
      (fun q => Matrix.one_apply_eq q)
    rw [y1, y3.2 rfl]

/-- **C124 is false of the code (3-D).** -/
theorem C124_frozen_3d_fails {sg : Storage ℝ} (hC : sg.rules.trunc = intPart) {env : Env ℝ FVal}
    (he : RealEnv env) {src : Source ℝ} (ht : src.seedType sg env.fs ≠ .float64)
    (hn : 1 ≤ src.numSteps) {I0 : AnyInterp ℝ} (hI : I0.Unused) (k : Kind) {N i : ℕ} (hi : i < N)
    {seed : NDArray ℝ} {p : Particles ℝ} (hs : seed.shape = [6 * N, 3])
    (hp : mkParticles seed = .ok p) (hg : src.getParticles env.fs = .ok p)
    (hw : WholeIn (src.seedType sg env.fs) seed (6 * N) 3) (ha : Aligned3 (groupOf seed 6 N 3 i))
    (hv : SlowAt sg (src.seedType sg env.fs) env src I0 6 3 N i seed) (queue : Bool)
    {field : List FVal}
    (hrun : ((⟨src, I0, .fresh k⟩ : Solver ℝ).runOf sg env queue none).result = .ok (some field)) :
    field[i]? = some (.fin 0) := by
  obtain ⟨js, J, h1, h2, h3⟩ := runOf_rest_3d env src ht hI k hi hs hp hg (by
      intro b hb c
      obtain ⟨z, z1, z2, z3⟩ := hw (b * N + i) (block_lt hb hi) c.1 c.2
      simp only [rowOf, z3]
      exact store_whole hC ht z1 z2) (hv.quiet hC ht) queue hrun
  have w0 : (src.seedType sg env.fs).wrap sg.rules 0 = 0 := by
    have := (wrap_zero_iff hC ht (a := 0) (b := 0) (DType.lo_nonpos _) (DType.hi_nonneg _)
      (DType.lo_nonpos _) (DType.hi_nonneg _)).2 rfl
    simpa using this
  obtain ⟨⟨a1, a2⟩, ⟨a3, a4⟩, a5, a6⟩ := ha
  simp only [groupOf, rowOf] at a1 a2 a3 a4 a5 a6
  have e1 : seed.get [N + i, 1] - seed.get [i, 1] = 0 := by simpa [sub_eq_zero] using a1
  have e2 : seed.get [N + i, 2] - seed.get [i, 2] = 0 := by simpa [sub_eq_zero] using a2
  have e3 : seed.get [2 * N + i, 0] - seed.get [3 * N + i, 0] = 0 := by
    simpa [sub_eq_zero] using a3
  have e4 : seed.get [2 * N + i, 2] - seed.get [3 * N + i, 2] = 0 := by
    simpa [sub_eq_zero] using a4
  have e5 : seed.get [4 * N + i, 0] - seed.get [5 * N + i, 0] = 0 := by
    simpa [sub_eq_zero] using a5
  have e6 : seed.get [4 * N + i, 1] - seed.get [5 * N + i, 1] = 0 := by
    simpa [sub_eq_zero] using a6
  simp only [jac3Val, e1, e2, e3, e4, e5, e6, w0] at h3
  split at h3
  · cases h3
  · next hne =>
    push Not at hne
    have hJ : J = 1 := by
      rw [← Except.ok.inj h3, div_self hne.1, div_self hne.2.1, div_self hne.2.2, zero_div, zero_div,
        zero_div, Matrix.one_fin_three]
    subst hJ
    rw [he.f3] at h1
    obtain ⟨y, y1, -, y3⟩ := rest_value ftle3_computes h1 (runPeriod_real he.abs hn) h2
      (fun q => Matrix.one_apply_eq q)
    rw [y1, y3.2 rfl]

end

/-! ## Gridded files -/

theorem storeIndex_cell {C : CastRules ℝ} (hC : C.trunc = intPart) {t : DType} (ht : t ≠ .float64)
    {n : ℕ} {q : ℝ} (hq : InCells n q) (hle : ⌊q⌋ ≤ t.hi) :
    t.storeIndex C (some q) = some ((cellOf q : ℕ) : ℝ) := by
  obtain ⟨c1, -⟩ := inCells_cell hq
  have h0 : 0 ≤ ⌊q⌋ := Int.floor_nonneg.2 hq.1
  simp only [DType.storeIndex, if_neg ht, DType.store, hC, intPart, if_pos hq.1,
    if_pos (show t.lo ≤ ⌊q⌋ ∧ ⌊q⌋ ≤ t.hi from ⟨t.lo_nonpos.trans h0, hle⟩), Option.some.injEq]
  rw [c1]
  simp

theorem natCell_inCells {n c : ℕ} (h : c + 1 < n) : InCells n ((c : ℕ) : ℝ) :=
  ⟨by positivity, by exact_mod_cast h⟩

/-- Entries of the fast interpolator for points stored as integers: the index coordinates lose
their fractions, so that the values of the nodes are handed out. -/
theorem callOf_row_2d {C : CastRules ℝ} (hC : C.trunc = intPart) {t : DType} (ht : t ≠ .float64)
    {m : CMachine ℝ} (hm : ExactTarget m) {it : Interp ℝ} {nx ny : ℕ} {x0 dx y0 dy : ℝ}
    {f : ℕ → ℕ → ℝ} (h : Field2 it nx ny x0 dx y0 dy f) (hdx : dx ≠ 0) (hdy : dy ≠ 0)
    (hnx : (nx : ℤ) < intLim) (hny : (ny : ℤ) < intLim) {n : ℕ} {z : ℕ → ℕ → ℝ} {o : Option ℕ}
    {l : List ℝ} (hl : it.callOf C t m n 2 z o = .ok l) {r : ℕ} (hr : r < n)
    (hx : InCells nx ((z r 0 - x0) / dx)) (hy : InCells ny ((z r 1 - y0) / dy))
    (lx : ⌊(z r 0 - x0) / dx⌋ ≤ t.hi) (ly : ⌊(z r 1 - y0) / dy⌋ ≤ t.hi) :
    l[r]? = some (f (cellOf ((z r 0 - x0) / dx)) (cellOf ((z r 1 - y0) / dy))) := by
  unfold Interp.callOf at hl
  rw [h.axes] at hl
  simp only [List.length_cons, List.length_nil, List.zipIdx_cons, List.zipIdx_nil,
    List.map_cons, List.map_nil, axis_index hdx, axis_index hdy] at hl
  rw [if_neg (by omega)] at hl
  unfold interp2dVec at hl
  cases o with
  | none => cases hl
  | some k =>
    simp only [h.shape] at hl
    rw [if_neg (by omega)] at hl
    split at hl
    · cases hl
    · obtain ⟨b, h1, h2⟩ := pyMap_ok_get hl r (by simpa using hr)
      simp only [List.getElem_map, List.getElem_range, Nat.zero_add] at h2
      rw [storeIndex_cell hC ht hx lx, storeIndex_cell hC ht hy ly] at h2
      obtain ⟨-, cx⟩ := inCells_cell hx
      obtain ⟨-, cy⟩ := inCells_cell hy
      have k1 := natCell_inCells cx
      have k2 := natCell_inCells cy
      rw [interp2dAt_value hm h.shape hnx hny (inCells_safe hnx k1) (inCells_safe hny k2)] at h2
      rw [h1, ← Except.ok.inj h2]
      unfold cellValue2
      rw [if_pos ⟨k1, k2⟩]
      have e : ∀ c : ℕ, cellOf ((c : ℕ) : ℝ) = c := fun c => by simp [cellOf]
      simp only [e, sub_self, lerp, sub_zero, one_mul, zero_mul, add_zero]
      rw [h.vals _ _ (by omega) (by omega)]

theorem interpolateOf_row_2d {C : CastRules ℝ} (hC : C.trunc = intPart) {t : DType}
    (ht : t ≠ .float64) {m : CMachine ℝ} (hm : ExactTarget m) (junk : List ℕ → ℝ) {s : HighPerf ℝ}
    {x y : Interp ℝ} (ix : s.ix = some x) (iy : s.iy = some y) {nx ny : ℕ} {x0 dx y0 dy : ℝ}
    {f : ℕ → ℕ → ℕ → ℝ} (fx : Field2 x nx ny x0 dx y0 dy (f 0)) (fy : Field2 y nx ny x0 dx y0 dy (f 1))
    (hdx : dx ≠ 0) (hdy : dy ≠ 0) (hnx : (nx : ℤ) < intLim) (hny : (ny : ℤ) < intLim) {R : ℕ}
    {q A : NDArray ℝ} (hq : q.shape = [R, 2]) (hA : s.interpolateOf C t m junk q = .ok A) :
    A.shape = [R, 2] ∧ ∀ r < R, InCells nx ((q.get [r, 0] - x0) / dx) →
      InCells ny ((q.get [r, 1] - y0) / dy) → ⌊(q.get [r, 0] - x0) / dx⌋ ≤ t.hi →
      ⌊(q.get [r, 1] - y0) / dy⌋ ≤ t.hi → ∀ c < 2,
        A.get [r, c] = f c (cellOf ((q.get [r, 0] - x0) / dx)) (cellOf ((q.get [r, 1] - y0) / dy)) := by
  obtain ⟨-, -, e1, e2, -, -⟩ := ensureBuffers_fields s R 2
  unfold HighPerf.interpolateOf at hA
  simp only [hq, e1, e2, ix, iy, if_true] at hA
  cases hu : x.callOf C t m R 2 (fun r c => q.get [r, c]) (s.ensureBuffers R 2).uLen with
  | error e => rw [hu] at hA; cases hA
  | ok u =>
    rw [hu] at hA
    simp only at hA
    cases hv : y.callOf C t m R 2 (fun r c => q.get [r, c]) (s.ensureBuffers R 2).uLen with
    | error e => rw [hv] at hA; cases hA
    | ok v =>
      rw [hv] at hA
      simp only [Except.ok.injEq] at hA
      subst hA
      refine ⟨hq, fun r hr h1 h2 h3 h4 c hc => ?_⟩
      have c1 := callOf_row_2d hC ht hm fx hdx hdy hnx hny hu hr h1 h2 h3 h4
      have c2 := callOf_row_2d hC ht hm fy hdx hdy hnx hny hv hr h1 h2 h3 h4
      interval_cases c
      · simp [setCol, listCol, c1]
      · simp [setCol, listCol, c2]

/-- The interpolator of a run on gridded files after the update of step `j`. -/
theorem samples_fields_2d {env : Env ℝ FVal} {s : FileSource ℝ} {v : ℝ → (Fin 2 → ℝ) → Fin 2 → ℝ}
    {t0 : ℝ} {nx ny : ℕ} {x0 dx y0 dy : ℝ} (hd : Samples2 env.fs s v t0 nx ny x0 dx y0 dy) (j : ℕ)
    (hj : j < s.snapshotFiles.length) : ∃ (S : HighPerf ℝ) (x y : Interp ℝ) (f : ℕ → ℕ → ℕ → ℝ),
    (Source.file s).updated env (.highPerf (HighPerf.fresh [nx, ny])) (j + 1) = (.highPerf S, none) ∧
      S.ix = some x ∧ S.iy = some y ∧ Field2 x nx ny x0 dx y0 dy (f 0) ∧
      Field2 y nx ny x0 dx y0 dy (f 1) ∧ ∀ a < nx, ∀ b < ny, ∀ c : Fin 2,
        f c a b = v (t0 + j * s.timestep) ![x0 + a * dx, y0 + b * dy] c := by
  have shape : ∀ i ≤ s.snapshotFiles.length, ∃ s' : HighPerf ℝ, s'.gridShape = [nx, ny] ∧
      (Source.file s).updated env (.highPerf (HighPerf.fresh [nx, ny])) i = (.highPerf s', none) := by
    intro i
    induction i with
    | zero => exact fun _ => ⟨_, rfl, rfl⟩
    | succ i ih =>
      intro hi
      obtain ⟨s', h1, h2⟩ := ih (by omega)
      obtain ⟨V, P, a1, a2, a3, a4, -⟩ := hd.data i (by omega)
      obtain ⟨s2, x, y, b1, b2, -⟩ := highPerf_update_2d
        (listed_grid2 hd.hnx hd.hny hd.lnx hd.lny hd.hdx hd.hdy a2 a3 a4) h1
      refine ⟨s2, b2, ?_⟩
      simp only [Source.updated, h2, Source.updateInterp, listed_data hd.fresh a1,
        AnyInterp.update, b1]
  obtain ⟨s', h1, h2⟩ := shape j hj.le
  obtain ⟨V, P, a1, a2, a3, a4, a5⟩ := hd.data j hj
  obtain ⟨s2, x, y, b1, b2, b3, b4, -, -, -, fx, fy⟩ := highPerf_update_2d
    (listed_grid2 hd.hnx hd.hny hd.lnx hd.lny hd.hdx hd.hdy a2 a3 a4) h1
  refine ⟨s2, x, y, fun c i j => V.get [c, i + nx * j], ?_, b3, b4, fx, fy, fun a ha b hb c => ?_⟩
  · simp only [Source.updated, h2, Source.updateInterp, listed_data hd.fresh a1,
      AnyInterp.update, b1]
  · have hq : a + nx * b < nx * ny := by nlinarith
    have := a5 _ hq c
    rw [(a4 a ha b hb).1, (a4 a ha b hb).2] at this
    exact this

/-- **C124 is false of the code (interpolation).**  For particles stored as integers the fast
interpolator does not interpolate: a particle in the grid gets the velocity of the lower left node
of its cell. -/
theorem C124_nodes_fails {sg : Storage ℝ} (hC : sg.rules.trunc = intPart) {t : DType}
    (ht : t ≠ .float64) {env : Env ℝ FVal} (hm : ExactTarget env.m) {s : FileSource ℝ}
    {v : ℝ → (Fin 2 → ℝ) → Fin 2 → ℝ} {t0 : ℝ} {nx ny : ℕ} {x0 dx y0 dy : ℝ}
    (hd : Samples2 env.fs s v t0 nx ny x0 dx y0 dy) (hx : (nx : ℤ) ≤ t.hi) (hy : (ny : ℤ) ≤ t.hi)
    {j : ℕ} (hj : j < s.snapshotFiles.length) {R : ℕ} {q A : NDArray ℝ} (hq : q.shape = [R, 2])
    (hA : ((Source.file s).updated env (.highPerf (HighPerf.fresh [nx, ny])) (j + 1)).1.rawVelocity
      sg t env q = .ok A) : A.shape = [R, 2] ∧
    ∀ r < R, OnAxis nx x0 dx (q.get [r, 0]) → OnAxis ny y0 dy (q.get [r, 1]) →
      ∃ a b : ℕ, a + 1 < nx ∧ b + 1 < ny ∧
        (x0 + a * dx ≤ q.get [r, 0] ∧ q.get [r, 0] < x0 + (a + 1) * dx) ∧
        (y0 + b * dy ≤ q.get [r, 1] ∧ q.get [r, 1] < y0 + (b + 1) * dy) ∧
        ∀ c : Fin 2, A.get [r, c] = v (t0 + j * s.timestep) ![x0 + a * dx, y0 + b * dy] c := by
  obtain ⟨S, x, y, f, h1, h2, h3, h4, h5, h6⟩ := samples_fields_2d hd j hj
  rw [h1] at hA
  obtain ⟨g1, g2⟩ := interpolateOf_row_2d hC ht hm env.junk h2 h3 h4 h5 hd.hdx.ne' hd.hdy.ne'
    hd.lnx hd.lny hq hA
  refine ⟨g1, fun r hr o1 o2 => ?_⟩
  have i1 := o1.inCells hd.hdx
  have i2 := o2.inCells hd.hdy
  obtain ⟨c1, d1⟩ := inCells_cell i1
  obtain ⟨c2, d2⟩ := inCells_cell i2
  have cell : ∀ {z z0 dz : ℝ}, 0 < dz → ⌊(z - z0) / dz⌋ = (cellOf ((z - z0) / dz) : ℤ) →
      z0 + (cellOf ((z - z0) / dz) : ℕ) * dz ≤ z ∧ z < z0 + ((cellOf ((z - z0) / dz) : ℕ) + 1) * dz := by
    intro z z0 dz hdz hc
    have e1 := Int.floor_le ((z - z0) / dz)
    have e2 := Int.lt_floor_add_one ((z - z0) / dz)
    rw [hc, Int.cast_natCast] at e1 e2
    rw [le_div_iff₀ hdz] at e1
    rw [div_lt_iff₀ hdz] at e2
    constructor <;> linarith
  refine ⟨_, _, d1, d2, cell hd.hdx c1, cell hd.hdy c2, fun c => ?_⟩
  rw [g2 r hr i1 i2 (by rw [c1]; omega) (by rw [c2]; omega) c.1 c.2]
  exact h6 _ (by omega) _ (by omega) c

/-- **C124 is false of the code (gridded files).**  If all velocities in the files are below 1 in
size, a completed run with integer seeds inside the grid reports exactly 0 for every
group that is parallel to the axes: the field in the files has no influence on the result. -/
theorem C124_files_fails {sg : Storage ℝ} (hC : sg.rules.trunc = intPart) {env : Env ℝ FVal}
    (he : RealEnv env) (hm : ExactTarget env.m) {s : FileSource ℝ}
    {v : ℝ → (Fin 2 → ℝ) → Fin 2 → ℝ} {t0 : ℝ} {nx ny : ℕ} {x0 dx y0 dy : ℝ}
    (hd : Samples2 env.fs s v t0 nx ny x0 dx y0 dy) {t : DType}
    (hT : (Source.file s).seedType sg env.fs = t) (ht : t ≠ .float64) (hx : (nx : ℤ) ≤ t.hi)
    (hy : (ny : ℤ) ≤ t.hi)
    (hslow : ∀ j < s.snapshotFiles.length, ∀ a < nx, ∀ b < ny, ∀ c,
      |v (t0 + j * s.timestep) ![x0 + a * dx, y0 + b * dy] c| < 1)
    (hn : 1 ≤ s.snapshotFiles.length) (k : Kind) {N i : ℕ} (hi : i < N) {seed : NDArray ℝ}
    {p : Particles ℝ} (hs : seed.shape = [4 * N, 2]) (hp : mkParticles seed = .ok p)
    (hg : readSeedParticles env.fs s.particleFile = .ok p) (hw : WholeIn t seed (4 * N) 2)
    (ha : Aligned2 (groupOf seed 4 N 2 i))
    (hin : ∀ b, OnAxis nx x0 dx (groupOf seed 4 N 2 i b 0) ∧ OnAxis ny y0 dy (groupOf seed 4 N 2 i b 1))
    (queue : Bool) {field : List FVal}
    (hrun : ((⟨.file s, .highPerf (HighPerf.fresh [nx, ny]), .fresh k⟩ : Solver ℝ).runOf sg env queue
      none).result = .ok (some field)) : field[i]? = some (.fin 0) := by
  subst hT
  refine C124_frozen_2d_fails hC he (src := .file s) ht hn (I0 := .highPerf (HighPerf.fresh [nx, ny]))
    (by exact (rfl : (HighPerf.fresh (K := ℝ) [nx, ny]).uLen = none)) k hi hs hp hg hw ha ?_ queue hrun
  intro j hj _ q A hq hr hA
  obtain ⟨g1, g2⟩ := C124_nodes_fails hC ht hm hd hx hy hj hq hA
  refine ⟨g1, fun b hb c => ?_⟩
  have r0 : q.get [b * N + i, 0] = seed.get [b * N + i, 0] := congrFun (hr b hb) 0
  have r1 : q.get [b * N + i, 1] = seed.get [b * N + i, 1] := congrFun (hr b hb) 1
  obtain ⟨o1, o2⟩ := hin ⟨b, hb⟩
  obtain ⟨a', b', d1, d2, -, -, d5⟩ := g2 (b * N + i) (block_lt hb hi) (by rw [r0]; exact o1)
    (by rw [r1]; exact o2)
  show |A.get [b * N + i, c.1]| < 1
  rw [d5]
  exact hslow j hj a' (by omega) b' (by omega) c

/-- A run with integer particles whose stored velocities are zero at the seeds. -/
theorem frozen_run_2d {sg : Storage ℝ} (hC : sg.rules.trunc = intPart) {env : Env ℝ FVal}
    (he : RealEnv env) {src : Source ℝ} {t : DType} (hT : src.seedType sg env.fs = t)
    (ht : t ≠ .float64) {I0 : AnyInterp ℝ} (hI : I0.Unused) {k : Kind} (hk : k ≠ .rk4)
    {seed : NDArray ℝ} {p : Particles ℝ} {N : ℕ} (hs : seed.shape = [4 * N, 2])
    (hp : mkParticles seed = .ok p) (hg : src.getParticles env.fs = .ok p)
    (hal : ∀ i < N, AxisAligned2 seed N i) (hw : WholeIn t seed (4 * N) 2)
    (hv : ∀ i < src.numSteps, (src.updated env I0 (i + 1)).2 = none ∧ ∀ q : NDArray ℝ,
      q.shape = [4 * N, 2] → (∀ r < 4 * N, rowOf q 2 r = rowOf seed 2 r) → ∃ A,
        (src.updated env I0 (i + 1)).1.velocityOf sg t env q = .ok A ∧ A.shape = [4 * N, 2] ∧
        ∀ r < 4 * N, rowOf A 2 r = fun _ => 0) (hlen : 2 ≤ src.numSteps)
    (hh : src.timestep ≠ 0) {id : String} (hid : src.id env = .ok id) (queue : Bool) :
    ((⟨src, I0, .fresh k⟩ : Solver ℝ).runOf sg env queue none).result =
      .ok (some (List.replicate N (.fin 0))) := by
  obtain ⟨q1, -⟩ := mkParticles_groups (d := 2) (.inl rfl) hs hp
  obtain ⟨st, pos, hst, b1, b2, b3⟩ := loopOf_frozen (R := 4 * N) (d := 2) (x := rowOf seed 2)
    ⟨mul_zero, sub_zero 0, add_zero 0⟩ (sg := sg) (t := t) ht (fun r _ c => add_zero _) (by
      intro r hr c
      obtain ⟨z, z1, z2, z3⟩ := hw r hr c.1 c.2
      simp only [rowOf, z3]
      exact store_whole hC ht z1 z2) env src id queue hI hk (p := p.ofType sg.rules t)
    (by exact q1 ▸ hs) (by intro r _; exact q1 ▸ rfl) src.numSteps hv
  have hnn : (p.ofType sg.rules t).numNeighbors = 4 := by
    obtain ⟨p', w1, w2, w3, -⟩ := mkParticles_2d hs
    rw [hp] at w1; cases w1
    exact w3
  have hjac : jacobian2Of sg.rules t st.particles = .ok ((List.range N).map fun _ => 1) := by
    rw [b1, jacobian2Of_eq _ _ hs b2 hp]
    refine pyMap_ok fun i hi => ?_
    have hi := List.mem_range.1 hi
    have gp : ∀ b < 4, ∀ c < 2, pos.get [b * N + i, c] = seed.get [b * N + i, c] := fun b hb c hc =>
      congrFun (b3 _ (block_lt hb hi)) ⟨c, hc⟩
    have g0 : ∀ c < 2, pos.get [i, c] = seed.get [i, c] := fun c hc => by
      simpa using gp 0 (by omega) c hc
    have g1 : ∀ c < 2, pos.get [N + i, c] = seed.get [N + i, c] := fun c hc => by
      simpa using gp 1 (by omega) c hc
    have g2 := gp 2 (by omega)
    have g3 := gp 3 (by omega)
    obtain ⟨n1, n2, n3, n4⟩ := hal i hi
    simp only [pt, one_mul, zero_mul, zero_add] at n1 n2 n3 n4
    have nz : ∀ a < 4, ∀ b < 4, ∀ c < 2, t.wrap sg.rules (seed.get [a * N + i, c] -
        seed.get [b * N + i, c]) = 0 ↔ seed.get [a * N + i, c] = seed.get [b * N + i, c] := by
      intro a ha b hb c hc
      obtain ⟨z, z1, z2, z3⟩ := hw _ (block_lt ha hi) c hc
      obtain ⟨y, y1, y2, y3⟩ := hw _ (block_lt hb hi) c hc
      rw [z3, y3]
      exact wrap_zero_iff hC ht z1 z2 y1 y2
    have m1 := nz 1 (by omega) 0 (by omega) 0 (by omega)
    have m2 := nz 1 (by omega) 0 (by omega) 1 (by omega)
    have m3 := nz 2 (by omega) 3 (by omega) 1 (by omega)
    have m4 := nz 2 (by omega) 3 (by omega) 0 (by omega)
    simp only [one_mul, zero_mul, zero_add] at m1 m2 m3 m4
    simp only [jac2Val, g0 0 (by omega), g0 1 (by omega), g1 0 (by omega), g1 1 (by omega),
      g2 0 (by omega), g2 1 (by omega), g3 0 (by omega), g3 1 (by omega)]
    rw [if_neg (by rintro (h | h); exacts [n1 (m1.1 h), n3 (m3.1 h)]), m2.2 n2, m4.2 n4,
      div_self (fun h => n1 (m1.1 h)), div_self (fun h => n3 (m3.1 h)), zero_div, zero_div,
      Matrix.one_fin_two]
  have hP : ((((src.numSteps : ℕ) : ℤ) - 1 : ℤ) : ℝ) * env.abs src.timestep ≠ 0 := by
    rw [he.abs]
    refine mul_ne_zero ?_ (abs_ne_zero.2 hh)
    have : ((src.numSteps : ℕ) : ℤ) - 1 ≠ 0 := by omega
    exact_mod_cast this
  obtain ⟨vs, v1, v2⟩ := ftle2_computes.value ((List.range N).map fun _ => 1) _ hP
  have hvs : vs = List.replicate N (.fin 0) := by
    obtain ⟨l1, l2⟩ := List.forall₂_iff_get.1 v2
    refine List.ext_getElem (by simpa using l1.symm) fun i h1 h2 => ?_
    obtain ⟨σ, s1, s2⟩ := l2 i (by simpa using h2) h1
    simp only [List.get_eq_getElem, List.getElem_map] at s1 s2
    rw [s2, s1.unique maxStretch_one, ftleVal_pos one_pos, Real.log_one, mul_zero]
    simp
  have hcomp : computeFtleOf sg.rules t env st.particles src.numSteps src.timestep = .ok vs := by
    simp only [computeFtleOf]
    rw [if_pos (by rw [b1]; exact hnn), hjac, he.f2]
    exact v1
  simp only [Solver.runOf, hg, hid, hT, hst, hcomp, hvs]

/-- A run with integer particles whose stored velocities are zero at the seeds. (3-D) -/
theorem frozen_run_3d {sg : Storage ℝ} (hC : sg.rules.trunc = intPart) {env : Env ℝ FVal}
    (he : RealEnv env) {src : Source ℝ} {t : DType} (hT : src.seedType sg env.fs = t)
    (ht : t ≠ .float64) {I0 : AnyInterp ℝ} (hI : I0.Unused) {k : Kind} (hk : k ≠ .rk4)
    {seed : NDArray ℝ} {p : Particles ℝ} {N : ℕ} (hs : seed.shape = [6 * N, 3])
    (hp : mkParticles seed = .ok p) (hg : src.getParticles env.fs = .ok p)
    (hal : ∀ i < N, AxisAligned3 seed N i) (hw : WholeIn t seed (6 * N) 3)
    (hv : ∀ i < src.numSteps, (src.updated env I0 (i + 1)).2 = none ∧ ∀ q : NDArray ℝ,
      q.shape = [6 * N, 3] → (∀ r < 6 * N, rowOf q 3 r = rowOf seed 3 r) → ∃ A,
        (src.updated env I0 (i + 1)).1.velocityOf sg t env q = .ok A ∧ A.shape = [6 * N, 3] ∧
        ∀ r < 6 * N, rowOf A 3 r = fun _ => 0) (hlen : 2 ≤ src.numSteps)
    (hh : src.timestep ≠ 0) {id : String} (hid : src.id env = .ok id) (queue : Bool) :
    ((⟨src, I0, .fresh k⟩ : Solver ℝ).runOf sg env queue none).result =
      .ok (some (List.replicate N (.fin 0))) := by
  obtain ⟨q1, -⟩ := mkParticles_groups (d := 3) (.inr rfl) hs hp
  obtain ⟨st, pos, hst, b1, b2, b3⟩ := loopOf_frozen (R := 6 * N) (d := 3) (x := rowOf seed 3)
    ⟨mul_zero, sub_zero 0, add_zero 0⟩ (sg := sg) (t := t) ht (fun r _ c => add_zero _) (by
      intro r hr c
      obtain ⟨z, z1, z2, z3⟩ := hw r hr c.1 c.2
      simp only [rowOf, z3]
      exact store_whole hC ht z1 z2) env src id queue hI hk (p := p.ofType sg.rules t)
    (by exact q1 ▸ hs) (by intro r _; exact q1 ▸ rfl) src.numSteps hv
  have hnn : (p.ofType sg.rules t).numNeighbors = 6 := by
    obtain ⟨p', w1, w2, w3, -⟩ := mkParticles_3d hs
    rw [hp] at w1; cases w1
    exact w3
  have hjac : jacobian3Of sg.rules t st.particles = .ok ((List.range N).map fun _ => 1) := by
    rw [b1, jacobian3Of_eq _ _ hs b2 hp]
    refine pyMap_ok fun i hi => ?_
    have hi := List.mem_range.1 hi
    have gp : ∀ b < 6, ∀ c < 3, pos.get [b * N + i, c] = seed.get [b * N + i, c] := fun b hb c hc =>
      congrFun (b3 _ (block_lt hb hi)) ⟨c, hc⟩
    have g0 : ∀ c < 3, pos.get [i, c] = seed.get [i, c] := fun c hc => by
      simpa using gp 0 (by omega) c hc
    have g1 : ∀ c < 3, pos.get [N + i, c] = seed.get [N + i, c] := fun c hc => by
      simpa using gp 1 (by omega) c hc
    obtain ⟨⟨n1, n2, n3⟩, ⟨n4, n5, n6⟩, n7, n8, n9⟩ := hal i hi
    simp only [pt, one_mul, zero_mul, zero_add] at n1 n2 n3 n4 n5 n6 n7 n8 n9
    have nz : ∀ a < 6, ∀ b < 6, ∀ c < 3, t.wrap sg.rules (seed.get [a * N + i, c] -
        seed.get [b * N + i, c]) = 0 ↔ seed.get [a * N + i, c] = seed.get [b * N + i, c] := by
      intro a ha b hb c hc
      obtain ⟨z, z1, z2, z3⟩ := hw _ (block_lt ha hi) c hc
      obtain ⟨y, y1, y2, y3⟩ := hw _ (block_lt hb hi) c hc
      rw [z3, y3]
      exact wrap_zero_iff hC ht z1 z2 y1 y2
    have m1 := nz 1 (by omega) 0 (by omega) 0 (by omega)
    have m2 := nz 1 (by omega) 0 (by omega) 1 (by omega)
    have m3 := nz 1 (by omega) 0 (by omega) 2 (by omega)
    have m4 := nz 2 (by omega) 3 (by omega) 1 (by omega)
    have m5 := nz 2 (by omega) 3 (by omega) 0 (by omega)
    have m6 := nz 2 (by omega) 3 (by omega) 2 (by omega)
    have m7 := nz 4 (by omega) 5 (by omega) 2 (by omega)
    have m8 := nz 4 (by omega) 5 (by omega) 0 (by omega)
    have m9 := nz 4 (by omega) 5 (by omega) 1 (by omega)
    simp only [one_mul, zero_mul, zero_add] at m1 m2 m3
    simp only [jac3Val, g0 0 (by omega), g0 1 (by omega), g0 2 (by omega), g1 0 (by omega),
      g1 1 (by omega), g1 2 (by omega), gp 2 (by omega) 0 (by omega), gp 2 (by omega) 1 (by omega),
      gp 2 (by omega) 2 (by omega), gp 3 (by omega) 0 (by omega), gp 3 (by omega) 1 (by omega),
      gp 3 (by omega) 2 (by omega), gp 4 (by omega) 0 (by omega), gp 4 (by omega) 1 (by omega),
      gp 4 (by omega) 2 (by omega), gp 5 (by omega) 0 (by omega), gp 5 (by omega) 1 (by omega),
      gp 5 (by omega) 2 (by omega)]
    rw [if_neg (by rintro (h | h | h); exacts [n1 (m1.1 h), n4 (m4.1 h), n7 (m7.1 h)]), m2.2 n2,
      m3.2 n3, m5.2 n5, m6.2 n6, m8.2 n8, m9.2 n9, div_self (fun h => n1 (m1.1 h)),
      div_self (fun h => n4 (m4.1 h)), div_self (fun h => n7 (m7.1 h)), zero_div, zero_div,
      zero_div, Matrix.one_fin_three]
  have hP : ((((src.numSteps : ℕ) : ℤ) - 1 : ℤ) : ℝ) * env.abs src.timestep ≠ 0 := by
    rw [he.abs]
    refine mul_ne_zero ?_ (abs_ne_zero.2 hh)
    have : ((src.numSteps : ℕ) : ℤ) - 1 ≠ 0 := by omega
    exact_mod_cast this
  obtain ⟨vs, v1, v2⟩ := ftle3_computes.value ((List.range N).map fun _ => 1) _ hP
  have hvs : vs = List.replicate N (.fin 0) := by
    obtain ⟨l1, l2⟩ := List.forall₂_iff_get.1 v2
    refine List.ext_getElem (by simpa using l1.symm) fun i h1 h2 => ?_
    obtain ⟨σ, s1, s2⟩ := l2 i (by simpa using h2) h1
    simp only [List.get_eq_getElem, List.getElem_map] at s1 s2
    rw [s2, s1.unique maxStretch_one, ftleVal_pos one_pos, Real.log_one, mul_zero]
    simp
  have hcomp : computeFtleOf sg.rules t env st.particles src.numSteps src.timestep = .ok vs := by
    simp only [computeFtleOf]
    rw [if_neg (by
      rw [b1, show ({ p.ofType sg.rules t with positions := pos } : Particles ℝ).numNeighbors = 6
        from hnn]; decide),
      hjac, he.f3]
    exact v1
  simp only [Solver.runOf, hg, hid, hT, hst, hcomp, hvs]

/-- The fast interpolator answers every query of integer points inside the grid. -/
theorem callOf_answers_2d {C : CastRules ℝ} (hC : C.trunc = intPart) {t : DType}
    (ht : t ≠ .float64) {m : CMachine ℝ} (hm : ExactTarget m) {it : Interp ℝ} {nx ny : ℕ}
    {x0 dx y0 dy : ℝ} {f : ℕ → ℕ → ℝ} (h : Field2 it nx ny x0 dx y0 dy f) (hdx : dx ≠ 0)
    (hdy : dy ≠ 0) (hnx : (nx : ℤ) < intLim) (hny : (ny : ℤ) < intLim) {n : ℕ} {z : ℕ → ℕ → ℝ}
    (hin : ∀ r < n, InCells nx ((z r 0 - x0) / dx) ∧ InCells ny ((z r 1 - y0) / dy))
    (lx : (nx : ℤ) ≤ t.hi) (ly : (ny : ℤ) ≤ t.hi) :
    ∃ l, it.callOf C t m n 2 z (some n) = .ok l := by
  unfold Interp.callOf
  rw [h.axes]
  simp only [List.length_cons, List.length_nil, List.zipIdx_cons, List.zipIdx_nil,
    List.map_cons, List.map_nil, axis_index hdx, axis_index hdy]
  rw [if_neg (by omega)]
  unfold interp2dVec
  rw [h.shape]
  simp only [ne_eq, not_true_eq_false, List.length_map, List.length_range, if_false]
  refine ⟨_, pyMap_ok (g := fun p => match p with
    | [some X, some Y] => cellValue2 nx ny (fun a b => it.v.get [a, b]) X Y
    | _ => 0) ?_⟩
  intro p hp
  simp only [List.mem_map, List.mem_range] at hp
  obtain ⟨r, hr, rfl⟩ := hp
  simp only [Nat.zero_add]
  obtain ⟨i1, i2⟩ := hin r hr
  rw [storeIndex_cell hC ht i1 (by have := inCells_cell i1; omega),
    storeIndex_cell hC ht i2 (by have := inCells_cell i2; omega)]
  exact interp2dAt_value hm h.shape hnx hny (inCells_safe hnx (natCell_inCells (inCells_cell i1).2))
    (inCells_safe hny (natCell_inCells (inCells_cell i2).2))

theorem interpolateOf_answers_2d {C : CastRules ℝ} (hC : C.trunc = intPart) {t : DType}
    (ht : t ≠ .float64) {m : CMachine ℝ} (hm : ExactTarget m) (junk : List ℕ → ℝ) {s : HighPerf ℝ}
    {x y : Interp ℝ} (ix : s.ix = some x) (iy : s.iy = some y) {nx ny : ℕ} {x0 dx y0 dy : ℝ}
    {f : ℕ → ℕ → ℕ → ℝ} (fx : Field2 x nx ny x0 dx y0 dy (f 0)) (fy : Field2 y nx ny x0 dx y0 dy (f 1))
    (hdx : dx ≠ 0) (hdy : dy ≠ 0) (hnx : (nx : ℤ) < intLim) (hny : (ny : ℤ) < intLim) {R : ℕ}
    {q : NDArray ℝ} (hq : q.shape = [R, 2])
    (hin : ∀ r < R, InCells nx ((q.get [r, 0] - x0) / dx) ∧ InCells ny ((q.get [r, 1] - y0) / dy))
    (lx : (nx : ℤ) ≤ t.hi) (ly : (ny : ℤ) ≤ t.hi) : ∃ A, s.interpolateOf C t m junk q = .ok A := by
  have hu : (s.ensureBuffers R 2).uLen = some R := by
    unfold HighPerf.ensureBuffers; split
    · assumption
    · simp
  obtain ⟨-, -, e1, e2, -, -⟩ := ensureBuffers_fields s R 2
  obtain ⟨u, hu1⟩ := callOf_answers_2d hC ht hm fx hdx hdy hnx hny (z := fun r c => q.get [r, c])
    hin lx ly
  obtain ⟨v, hv1⟩ := callOf_answers_2d hC ht hm fy hdx hdy hnx hny (z := fun r c => q.get [r, c])
    hin lx ly
  unfold HighPerf.interpolateOf
  simp only [hq, e1, e2, ix, iy, if_true, hu, hu1, hv1]
  exact ⟨_, rfl⟩

/-- **C124 is false of the code (gridded files, the run as a whole).**  With Euler or
Adams-Bashforth steps nothing warns the user: the run completes and reports 0 everywhere. -/
theorem C124_files_zero_fails {sg : Storage ℝ} (hC : sg.rules.trunc = intPart) {env : Env ℝ FVal}
    (he : RealEnv env) (hm : ExactTarget env.m) {s : FileSource ℝ}
    {v : ℝ → (Fin 2 → ℝ) → Fin 2 → ℝ} {t0 : ℝ} {nx ny : ℕ} {x0 dx y0 dy : ℝ}
    (hd : Samples2 env.fs s v t0 nx ny x0 dx y0 dy) {t : DType}
    (hT : (Source.file s).seedType sg env.fs = t) (ht : t ≠ .float64) (hx : (nx : ℤ) ≤ t.hi)
    (hy : (ny : ℤ) ≤ t.hi)
    (hslow : ∀ j < s.snapshotFiles.length, ∀ a < nx, ∀ b < ny, ∀ c,
      |v (t0 + j * s.timestep) ![x0 + a * dx, y0 + b * dy] c| < 1)
    (hn : 2 ≤ s.snapshotFiles.length) (hh : s.timestep ≠ 0) {k : Kind} (hk : k ≠ .rk4) {N : ℕ}
    {seed : NDArray ℝ} {p : Particles ℝ} (hs : seed.shape = [4 * N, 2]) (hp : mkParticles seed = .ok p)
    (hg : readSeedParticles env.fs s.particleFile = .ok p) (hw : WholeIn t seed (4 * N) 2)
    (hal : ∀ i < N, AxisAligned2 seed N i)
    (hin : ∀ r < 4 * N, OnAxis nx x0 dx (seed.get [r, 0]) ∧ OnAxis ny y0 dy (seed.get [r, 1]))
    (queue : Bool) :
    ((⟨.file s, .highPerf (HighPerf.fresh [nx, ny]), .fresh k⟩ : Solver ℝ).runOf sg env queue
      none).result = .ok (some (List.replicate N (.fin 0))) := by
  refine frozen_run_2d hC he (src := .file s) hT ht (I0 := .highPerf (HighPerf.fresh [nx, ny]))
    (by exact (rfl : (HighPerf.fresh (K := ℝ) [nx, ny]).uLen = none)) hk hs hp hg hal hw
    (fun j hj => ?_) hn hh rfl queue
  obtain ⟨S, x, y, f, h1, h2, h3, h4, h5, -⟩ := samples_fields_2d hd j hj
  refine ⟨by rw [h1], fun q hq hr => ?_⟩
  have r0 : ∀ r < 4 * N, q.get [r, 0] = seed.get [r, 0] := fun r h => congrFun (hr r h) 0
  have r1 : ∀ r < 4 * N, q.get [r, 1] = seed.get [r, 1] := fun r h => congrFun (hr r h) 1
  obtain ⟨A, hA⟩ := interpolateOf_answers_2d hC ht hm env.junk h2 h3 h4 h5 hd.hdx.ne' hd.hdy.ne'
    hd.lnx hd.lny hq (fun r h => by
      rw [r0 r h, r1 r h]
      exact ⟨(hin r h).1.inCells hd.hdx, (hin r h).2.inCells hd.hdy⟩) hx hy
  have hraw : ((Source.file s).updated env (.highPerf (HighPerf.fresh [nx, ny])) (j + 1)).1.rawVelocity
      sg t env q = .ok A := by rw [h1]; exact hA
  obtain ⟨g1, g2⟩ := C124_nodes_fails hC ht hm hd hx hy hj hq hraw
  refine ⟨A.map (t.store sg.rules), ?_, g1, fun r h => ?_⟩
  · rw [h1]
    simp only [AnyInterp.velocityOf, AnyInterp.rawVelocity, hA]
  · obtain ⟨a', b', d1, d2, -, -, d5⟩ := g2 r h (by rw [r0 r h]; exact (hin r h).1)
      (by rw [r1 r h]; exact (hin r h).2)
    funext c
    show t.store sg.rules (A.get [r, c.1]) = 0
    rw [d5]
    exact store_small hC ht (hslow j hj a' (by omega) b' (by omega) c)

/-! ## Velocity functions -/

theorem given_updated (env : Env ℝ FVal) (s : AnalyticalSource ℝ) (f : AnalyticalState ℝ) (n : ℕ) :
    (Source.analytical s).updated env (.analytical f) n = (.analytical f, none) := by
  induction n with
  | zero => rfl
  | succ n ih => simp only [Source.updated, ih]; rfl

/-- **C124 is false of the code (functions that fill `np.empty_like(coordinates)`).**  For
particles given as integers, velocities below 1 at the seeds, and Euler or Adams-Bashforth steps,
the run succeeds and reports 0 everywhere. -/
theorem C124_zero_fails {sg : Storage ℝ} (hC : sg.rules.trunc = intPart) (ho : sg.own = false)
    (ht : sg.given ≠ .float64) {env : Env ℝ FVal} (he : RealEnv env) {s : AnalyticalSource ℝ}
    {fn : VelocityFn ℝ} {k : Kind} (hk : k ≠ .rk4) {seed : NDArray ℝ} {N : ℕ}
    (hs : seed.shape = [4 * N, 2]) (hp : mkParticles seed = .ok s.particles)
    (hal : ∀ i < N, AxisAligned2 seed N i) (hw : WholeIn sg.given seed (4 * N) 2)
    {g : (Fin 2 → ℝ) → Fin 2 → ℝ} (hv : Pointwise (4 * N) 2 (fn 0) g)
    (hslow : ∀ r < 4 * N, ∀ c, |g (rowOf seed 2 r) c| < 1) (hlen : 2 ≤ s.times.length)
    (hh : s.timestep ≠ 0) (queue : Bool) :
    ((⟨.analytical s, .analytical (.fresh (some fn)), .fresh k⟩ : Solver ℝ).runOf sg env queue
      none).result = .ok (some (List.replicate N (.fin 0))) := by
  set t := sg.given with htd
  have hv' : Pointwise (4 * N) 2 ((AnyInterp.analytical (.fresh (some fn))).velocityOf sg t env)
      fun x c => t.store sg.rules (g x c) := by
    intro q hq
    obtain ⟨A, a1, a2, a3⟩ := hv q hq
    refine ⟨A.map (t.store sg.rules), ?_, a2, fun r hr => ?_⟩
    · simp [AnyInterp.velocityOf, AnyInterp.rawVelocity, AnyInterp.interpolate,
        AnalyticalState.interpolate, AnalyticalState.fresh, a1, ho]
    · funext c
      have := congrFun (a3 r hr) c
      simp only [rowOf] at this
      simp only [rowOf, NDArray.map, this]
  obtain ⟨id, hid⟩ : ∃ id, (Source.analytical s).id env = .ok id := by
    cases htm : s.times with
    | nil => rw [htm] at hlen; simp at hlen
    | cons a l => exact ⟨_, by simp only [Source.id, htm]; rfl⟩
  refine frozen_run_2d hC he (src := .analytical s) (t := t) rfl ht (I0 := .analytical (.fresh (some fn)))
    trivial hk hs hp rfl hal hw (fun i _ => ?_) hlen hh hid queue
  rw [given_updated]
  refine ⟨rfl, fun q hq hr => ?_⟩
  obtain ⟨B, c1, c2, c3⟩ := hv' q hq
  refine ⟨B, c1, c2, fun r h => ?_⟩
  rw [c3 r h, hr r h]
  funext c
  exact store_small hC ht (hslow r h c)

/-- **C124 is false of the code (functions that fill `np.empty_like(coordinates)`, 3-D).**  For
particles given as integers, velocities below 1 at the seeds, and Euler or Adams-Bashforth steps,
the run succeeds and reports 0 everywhere. -/
theorem C124_zero_3d_fails {sg : Storage ℝ} (hC : sg.rules.trunc = intPart) (ho : sg.own = false)
    (ht : sg.given ≠ .float64) {env : Env ℝ FVal} (he : RealEnv env) {s : AnalyticalSource ℝ}
    {fn : VelocityFn ℝ} {k : Kind} (hk : k ≠ .rk4) {seed : NDArray ℝ} {N : ℕ}
    (hs : seed.shape = [6 * N, 3]) (hp : mkParticles seed = .ok s.particles)
    (hal : ∀ i < N, AxisAligned3 seed N i) (hw : WholeIn sg.given seed (6 * N) 3)
    {g : (Fin 3 → ℝ) → Fin 3 → ℝ} (hv : Pointwise (6 * N) 3 (fn 0) g)
    (hslow : ∀ r < 6 * N, ∀ c, |g (rowOf seed 3 r) c| < 1) (hlen : 2 ≤ s.times.length)
    (hh : s.timestep ≠ 0) (queue : Bool) :
    ((⟨.analytical s, .analytical (.fresh (some fn)), .fresh k⟩ : Solver ℝ).runOf sg env queue
      none).result = .ok (some (List.replicate N (.fin 0))) := by
  set t := sg.given with htd
  have hv' : Pointwise (6 * N) 3 ((AnyInterp.analytical (.fresh (some fn))).velocityOf sg t env)
      fun x c => t.store sg.rules (g x c) := by
    intro q hq
    obtain ⟨A, a1, a2, a3⟩ := hv q hq
    refine ⟨A.map (t.store sg.rules), ?_, a2, fun r hr => ?_⟩
    · simp [AnyInterp.velocityOf, AnyInterp.rawVelocity, AnyInterp.interpolate,
        AnalyticalState.interpolate, AnalyticalState.fresh, a1, ho]
    · funext c
      have := congrFun (a3 r hr) c
      simp only [rowOf] at this
      simp only [rowOf, NDArray.map, this]
  obtain ⟨id, hid⟩ : ∃ id, (Source.analytical s).id env = .ok id := by
    cases htm : s.times with
    | nil => rw [htm] at hlen; simp at hlen
    | cons a l => exact ⟨_, by simp only [Source.id, htm]; rfl⟩
  refine frozen_run_3d hC he (src := .analytical s) (t := t) rfl ht (I0 := .analytical (.fresh (some fn)))
    trivial hk hs hp rfl hal hw (fun i _ => ?_) hlen hh hid queue
  rw [given_updated]
  refine ⟨rfl, fun q hq hr => ?_⟩
  obtain ⟨B, c1, c2, c3⟩ := hv' q hq
  refine ⟨B, c1, c2, fun r h => ?_⟩
  rw [c3 r h, hr r h]
  funext c
  exact store_small hC ht (hslow r h c)

/-! ## A saddle -/

/-- Rules of a machine; what it does with numbers that do not fit is of no importance here. -/
noncomputable def plainRules : CastRules ℝ := ⟨intPart, fun t _ => t.lo, fun t => t.lo⟩

/-- Particles given as 64-bit integers, the default of `np.array([[-1, 0], ...])`, and a velocity
function that fills `np.empty_like(coordinates)`. -/
noncomputable def intStorage : Storage ℝ := ⟨plainRules, fun _ _ => .signed .w64, .signed .w64, false⟩

/-- The run of the witness: the flow `(x/2, -y/2)`, one group around the origin, two steps of
length 1. -/
noncomputable def intSaddle (p : Particles ℝ) : Solver ℝ :=
  ⟨.analytical ⟨p, 1, [0, 1]⟩, .analytical (.fresh (some (saddleFn (1 / 2)))), .fresh .euler⟩

theorem crossSeed_whole : WholeIn (.signed .w64) crossSeed (4 * 1) 2 := by
  intro r hr c hc
  have : ∀ z : ℤ, -1 ≤ z → z ≤ 1 → (DType.signed .w64).lo ≤ z ∧ z ≤ (DType.signed .w64).hi := by
    intro z h1 h2
    simp only [DType.lo, DType.hi, Width.bits]
    constructor <;> norm_num <;> linarith
  have l : r < 4 := hr
  interval_cases r <;> interval_cases c
  all_goals
    simp only [crossSeed, List.getD_cons_zero, List.getD_cons_succ]
  · exact ⟨-1, (this _ (by norm_num) (by norm_num)).1, (this _ (by norm_num) (by norm_num)).2, by norm_num⟩
  · exact ⟨0, (this _ (by norm_num) (by norm_num)).1, (this _ (by norm_num) (by norm_num)).2, by norm_num⟩
  · exact ⟨1, (this _ (by norm_num) (by norm_num)).1, (this _ (by norm_num) (by norm_num)).2, by norm_num⟩
  · exact ⟨0, (this _ (by norm_num) (by norm_num)).1, (this _ (by norm_num) (by norm_num)).2, by norm_num⟩
  · exact ⟨0, (this _ (by norm_num) (by norm_num)).1, (this _ (by norm_num) (by norm_num)).2, by norm_num⟩
  · exact ⟨1, (this _ (by norm_num) (by norm_num)).1, (this _ (by norm_num) (by norm_num)).2, by norm_num⟩
  · exact ⟨0, (this _ (by norm_num) (by norm_num)).1, (this _ (by norm_num) (by norm_num)).2, by norm_num⟩
  · exact ⟨-1, (this _ (by norm_num) (by norm_num)).1, (this _ (by norm_num) (by norm_num)).2, by norm_num⟩

/-- **C124 is false of the code (witness).**  Four seeds around the origin in the flow
`(x/2, -y/2)`: given as `float64` the run reports `log (9/4)`, given as integers it
reports 0, and with RK4 it raises. -/
theorem C124_saddle_fails : ∃ p, mkParticles crossSeed = .ok p ∧
    ((intSaddle p).run realEnv false none).result = .ok (some [.fin (Real.log (9 / 4))]) ∧
    ((intSaddle p).runOf intStorage realEnv false none).result = .ok (some [.fin 0]) ∧
    0 < Real.log (9 / 4) := by
  obtain ⟨p, hp, -⟩ := mkParticles_2d (show crossSeed.shape = [4 * 1, 2] from rfl)
  refine ⟨p, hp, ?_, ?_, Real.log_pos (by norm_num)⟩
  · have h := C41_euler_2d realEnv_ok false ⟨p, 1, [0, 1]⟩ (saddleFn (1 / 2)) (N := 1) rfl hp
      crossSeed_aligned (saddle (1 / 2)) (sourceOf_pointwise _ _ _) (le_refl 2) (by simp)
    obtain ⟨σ, h1, h2, -⟩ := h
    have e : (1 + (1 : ℝ) • saddle (1 / 2)) ^ 2 = !![9 / 4, 0; 0, 1 / 4] := by
      rw [saddle_euler, pow_two]
      ext i j
      fin_cases i <;> fin_cases j <;> simp [Matrix.mul_apply] <;> norm_num
    simp only [List.length_cons, List.length_nil] at h1 h2
    rw [show (0 + 1 + 1 : ℕ) = 2 from rfl, e] at h1 h2
    have hσ := h1.unique (maxStretch_diag (x := 9 / 4) (y := 1 / 4) (by norm_num [abs_of_pos]))
    obtain ⟨-, h3⟩ := h2 (fun h => by have := congrFun (congrFun h 0) 0; norm_num at this)
    rw [hσ, abs_of_pos (by norm_num)] at h3
    unfold intSaddle
    rw [h3]
    norm_num
  · refine C124_zero_fails (sg := intStorage) rfl rfl (by simp [intStorage]) realEnv_ok
      (s := ⟨p, 1, [0, 1]⟩) (k := .euler) (by simp) (N := 1) rfl hp crossSeed_aligned crossSeed_whole
      (sourceOf_pointwise _ _ _) ?_ (le_refl 2) (by simp) false
    intro r hr c
    have l : r < 4 := hr
    interval_cases r <;> fin_cases c <;>
      simp [saddle, rowOf, crossSeed, Matrix.mulVec, dotProduct, Fin.sum_univ_two, abs_of_pos] <;>
      norm_num

/-- The hypotheses of the theorems on exceptions are met by the same seeds. -/
example : ∃ p, mkParticles crossSeed = .ok p ∧
    (∃ e, ((⟨.analytical ⟨p, 1, [0, 1]⟩, .analytical (.fresh (some (saddleFn (1 / 2)))), .fresh .rk4⟩ :
      Solver ℝ).runOf intStorage realEnv false none).result = .error e) ∧
    ∃ e, ((intSaddle p).runOf { intStorage with own := true } realEnv false none).result =
      .error e := by
  obtain ⟨p, hp, -⟩ := mkParticles_2d (show crossSeed.shape = [4 * 1, 2] from rfl)
  exact ⟨p, hp, C124_rk4_fails (by simp [Source.seedType, intStorage]) rfl (by simp [Source.numSteps])
    false none, C124_function_fails rfl (by simp [intStorage]) _ _ (by simp) false none⟩

end Verif
