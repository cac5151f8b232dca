import Verif.Lemmas.Integrate
import Verif.Props.Solver
import Mathlib.Algebra.CharZero.Defs
import Mathlib.Tactic.Ring
import Mathlib.Tactic.FieldSimp
import Mathlib.Data.Rat.Cast.CharZero

/-!
# C93: which shapes a velocity array may have

`np.copyto(self._velocity, interpolate(...))` accepts every array that can be stretched to
the shape of the positions.  A velocity function supplied by the user may therefore return
a single vector for all particles, or one number per particle; the transposed layout that
the annotations of `integrate.py` announce (`Array2xN | Array3xN`) is refused.
-/

namespace Verif

/-- Counted from the last axis, every axis of `w` has length one or the length of the same
axis of `p`. -/
def Stretches (w p : List ℕ) : Prop :=
  ∀ (k a : ℕ), w.reverse[k]? = some a → a = 1 ∨ p.reverse[k]? = some a

/-- `j` is the entry of an array of shape `w` that is used for entry `idx` of the stretched
array: axes of length one are read at 0, the others at the same place, counted from the
last axis. -/
def Under (w idx j : List ℕ) : Prop :=
  j.length = w.length ∧ ∀ (k a : ℕ), w.reverse[k]? = some a →
    j.reverse[k]? = some (if a = 1 then 0 else idx.reverse.getD k 0)

section
variable {K : Type*}

theorem bcastOk_iff : ∀ ss ds : List ℕ,
    bcastOk ss ds = true ↔ ∀ (k a : ℕ), ss[k]? = some a → a = 1 ∨ ds[k]? = some a
  | [], _ => by simp [bcastOk]
  | s :: ss, [] => by
    simp only [bcastOk, Bool.and_eq_true, beq_iff_eq, bcastOk_iff ss []]
    constructor
    · rintro ⟨h1, h2⟩ (_ | k) a h
      · left; simpa [h1] using h.symm
      · exact h2 k a (by simpa using h)
    · intro h
      exact ⟨by simpa using h 0 s rfl, fun k a hk => by simpa using h (k + 1) a (by simpa using hk)⟩
  | s :: ss, d :: ds => by
    simp only [bcastOk, Bool.and_eq_true, Bool.or_eq_true, beq_iff_eq, bcastOk_iff ss ds]
    constructor
    · rintro ⟨h1, h2⟩ (_ | k) a h
      · simp only [List.getElem?_cons_zero, Option.some.injEq] at h ⊢
        subst h
        rcases h1 with h1 | h1
        · exact .inr h1.symm
        · exact .inl h1
      · simpa using h2 k a (by simpa using h)
    · intro h
      refine ⟨?_, fun k a hk => by simpa using h (k + 1) a (by simpa using hk)⟩
      rcases h 0 s rfl with h0 | h0
      · exact .inr h0
      · left; simpa using h0.symm

theorem stretches_iff (w p : List ℕ) : bcastOk w.reverse p.reverse = true ↔ Stretches w p :=
  bcastOk_iff _ _

theorem bcastIdx_eq : ∀ ss is j : List ℕ, j.length = ss.length →
    (∀ (k a : ℕ), ss[k]? = some a → j[k]? = some (if a = 1 then 0 else is.getD k 0)) →
    bcastIdx ss is = j
  | [], is, j, hl, _ => by
    have : j = [] := List.length_eq_zero_iff.1 hl
    cases is <;> simp [bcastIdx, this]
  | s :: ss, is, [], hl, _ => by simp at hl
  | s :: ss, [], b :: j, hl, h => by
    have h0 := h 0 s rfl
    have := bcastIdx_eq ss [] j (by simpa using hl) fun k a hk => by
      simpa using h (k + 1) a (by simpa using hk)
    simp only [bcastIdx, this]
    congr 1
    simpa using h0.symm
  | s :: ss, i :: is, b :: j, hl, h => by
    have h0 := h 0 s rfl
    have := bcastIdx_eq ss is j (by simpa using hl) fun k a hk => by
      simpa using h (k + 1) a (by simpa using hk)
    simp only [bcastIdx, this]
    congr 1
    simpa using h0.symm

theorem under_eq {w idx j : List ℕ} (h : Under w idx j) :
    (bcastIdx w.reverse idx.reverse).reverse = j := by
  rw [bcastIdx_eq w.reverse idx.reverse j.reverse (by simp [h.1]) h.2, List.reverse_reverse]

theorem copyto_stretch {dst src : NDArray K} (h : Stretches src.shape dst.shape) :
    ∃ A, copyto dst src = .ok A ∧ A.shape = dst.shape ∧
      ∀ idx j, Under src.shape idx j → A.get idx = src.get j :=
  ⟨⟨dst.shape, fun idx => src.get (bcastIdx src.shape.reverse idx.reverse).reverse⟩,
    by rw [copyto, if_pos ((stretches_iff _ _).2 h)], rfl, fun idx j hj => by
    show src.get _ = _
    rw [under_eq hj]⟩

theorem copyto_refuse {dst src : NDArray K} (h : ¬ Stretches src.shape dst.shape) :
    copyto dst src = .error .valueError := by
  rw [copyto, if_neg (fun hb => h ((stretches_iff _ _).1 hb))]

variable [Add K] [Sub K] [Mul K] [Div K] [NumLits K]

omit [Add K] [Sub K] [Mul K] [Div K] [NumLits K] in
theorem rk4Bufs_shape (junk : List ℕ → K) {bufs : Option (Rk4Bufs K)} {pos : NDArray K} {R d : ℕ}
    (hI : (Integ.rk4 bufs : Integ K).Fits R d) :
    (rk4Bufs junk bufs pos).k1.shape = pos.shape ∧ (rk4Bufs junk bufs pos).k2.shape = pos.shape ∧
      (rk4Bufs junk bufs pos).k3.shape = pos.shape ∧
      (rk4Bufs junk bufs pos).k4.shape = pos.shape ∧
      (rk4Bufs junk bufs pos).tmp.shape = pos.shape := by
  cases bufs with
  | none => exact ⟨rfl, rfl, rfl, rfl, rfl⟩
  | some b =>
    obtain ⟨h2, h3, h4, h5⟩ := hI
    unfold rk4Bufs
    by_cases h : b.k1.shape = pos.shape
    · simp [h, h2, h3, h4, h5]
    · simp [h, rk4Alloc, emptyLike]

/-- **C93.** One step on an `R × d` particle array, with velocities that always have shape
`w`: it succeeds exactly when `w` can be stretched to `R × d`, and otherwise raises
`ValueError`.  This holds for every integrator whose work arrays fit, in particular for a
new one, and for every scalar type. -/
theorem C93_accepted_shapes (junk : List ℕ → K) {vel : Velocity K} {w : List ℕ}
    (hv : ∀ q, ∃ V, vel q = .ok V ∧ V.shape = w) (h : K) {I : Integ K} {pos : NDArray K}
    {R d : ℕ} (hp : pos.shape = [R, d]) (hI : I.Fits R d) :
    (Stretches w [R, d] → ∃ pos', (I.step junk vel h pos).2 = .ok pos' ∧ pos'.shape = [R, d]) ∧
    (¬ Stretches w [R, d] → (I.step junk vel h pos).2 = .error .valueError) := by
  have fill : ∀ b : NDArray K, b.shape = pos.shape → ∀ q, Stretches w [R, d] →
      ∃ A, fillFrom b vel q = .ok A ∧ A.shape = pos.shape := fun b hb q hw => by
    obtain ⟨V, v1, v2⟩ := hv q
    obtain ⟨A, a1, a2, -⟩ := copyto_stretch (dst := b) (src := V) (by rw [v2, hb, hp]; exact hw)
    exact ⟨A, by simp only [fillFrom, v1, a1], a2.trans hb⟩
  have refuse : ∀ b : NDArray K, b.shape = pos.shape → ∀ q, ¬ Stretches w [R, d] →
      fillFrom b vel q = .error .valueError := fun b hb q hw => by
    obtain ⟨V, v1, v2⟩ := hv q
    simp only [fillFrom, v1]
    exact copyto_refuse (by rw [v2, hb, hp]; exact hw)
  have zip : ∀ (f : K → K → K) (a b : NDArray K), a.shape = pos.shape → b.shape = pos.shape →
      ∃ A, NDArray.zipWith f a b = .ok A ∧ A.shape = pos.shape := fun f a b ha hb => by
    rw [hp] at ha hb ⊢
    obtain ⟨A, a1, a2, -⟩ := zipWith_rows (f := f) ha hb
    exact ⟨A, a1, a2⟩
  have stage : ∀ (t : NDArray K) (c : K) (k : NDArray K), t.shape = pos.shape →
      k.shape = pos.shape → ∃ A, stagePoint t pos c k = .ok A ∧ A.shape = pos.shape :=
    fun t c k ht hk => by
      rw [hp] at ht hk ⊢
      obtain ⟨A, a1, a2, -⟩ := stagePoint_rows (c := c) ht hp hk
      exact ⟨A, a1, a2⟩
  have cp : ∀ a b : NDArray K, a.shape = pos.shape → b.shape = pos.shape →
      ∃ A, copyto a b = .ok A := fun a b ha hb => by
    rw [hp] at ha hb
    obtain ⟨A, a1, -⟩ := copyto_same ha hb
    exact ⟨A, a1⟩
  cases I with
  | euler buf =>
    constructor
    · intro hw
      obtain ⟨v, v1, v2⟩ := fill _ (reuseOrAlloc_shape junk buf pos) pos hw
      obtain ⟨A, a1, a2⟩ := zip (fun x v => x + h * v) pos v rfl v2
      exact ⟨A, by simp only [Integ.step, eulerStep, v1, eulerKernel, a1], a2.trans hp⟩
    · intro hw
      simp only [Integ.step, eulerStep, refuse _ (reuseOrAlloc_shape junk buf pos) pos hw]
  | ab2 prev buf =>
    constructor
    · intro hw
      obtain ⟨v, v1, v2⟩ := fill _ (reuseOrAlloc_shape junk buf pos) pos hw
      cases prev with
      | none =>
        obtain ⟨A, a1, a2⟩ := zip (fun x v => x + h * v) pos v rfl v2
        obtain ⟨B, b1⟩ := cp (emptyLike junk v) v v2 v2
        exact ⟨A, by simp only [Integ.step, ab2Step, v1, eulerKernel, a1, b1], a2.trans hp⟩
      | some p =>
        have hpp : p.shape = pos.shape := Eq.trans hI hp.symm
        obtain ⟨W, w1, w2⟩ := zip
          (fun v p => NumLits.onePointFive * v - NumLits.half * p) v p v2 hpp
        obtain ⟨A, a1, a2⟩ := zip (fun x v => x + h * v) pos W rfl w2
        obtain ⟨B, b1⟩ := cp p v hpp v2
        exact ⟨A, by simp only [Integ.step, ab2Step, v1, ab2Kernel, w1, a1, b1], a2.trans hp⟩
    · intro hw
      simp only [Integ.step, ab2Step, refuse _ (reuseOrAlloc_shape junk buf pos) pos hw]
  | rk4 bufs =>
    obtain ⟨s1, s2, s3, s4, s5⟩ := rk4Bufs_shape junk (pos := pos) hI
    constructor
    · intro hw
      obtain ⟨k1, e1, f1⟩ := fill _ s1 pos hw
      obtain ⟨t1, g1, i1⟩ := stage _ (NumLits.half * h) k1 s5 f1
      obtain ⟨k2, e2, f2⟩ := fill _ s2 t1 hw
      obtain ⟨t2, g2, i2⟩ := stage t1 (NumLits.half * h) k2 i1 f2
      obtain ⟨k3, e3, f3⟩ := fill _ s3 t2 hw
      obtain ⟨t3, g3, i3⟩ := stage t2 h k3 i2 f3
      obtain ⟨k4, e4, f4⟩ := fill _ s4 t3 hw
      obtain ⟨A1, a1, b1⟩ := zip (fun a b => a + NumLits.two * b) k1 k2 f1 f2
      obtain ⟨A2, a2, b2⟩ := zip (fun a b => a + NumLits.two * b) A1 k3 b1 f3
      obtain ⟨A3, a3, b3⟩ := zip (fun a b => a + b) A2 k4 b2 f4
      obtain ⟨A4, a4, b4⟩ := zip (fun x s => x + (h / NumLits.six) * s) pos A3 rfl b3
      exact ⟨A4, by
        simp only [Integ.step, rk4Step, e1, g1, e2, g2, e3, g3, e4, rk4Kernel, a1, a2, a3, a4],
        b4.trans hp⟩
    · intro hw
      simp only [Integ.step, rk4Step, refuse _ s1 pos hw]

/-- **C93, the annotated layout.** Velocities in the layout `d × R` that the annotations of
the kernels announce are refused by every integrator as soon as there are more particles
than axes (a seed set has at least four rows). -/
theorem C93_transposed_refused (junk : List ℕ → K) {vel : Velocity K} {R d : ℕ}
    (hv : ∀ q, ∃ V, vel q = .ok V ∧ V.shape = [d, R]) (h : K) {I : Integ K} {pos : NDArray K}
    (hp : pos.shape = [R, d]) (hI : I.Fits R d) (hR : d < R) (hd : 1 < d) :
    (I.step junk vel h pos).2 = .error .valueError := by
  refine (C93_accepted_shapes junk hv h hp hI).2 fun hs => ?_
  have := hs 0 R rfl
  simp at this
  omega

end

/-- **C93, a whole run.** If the user's velocity function returns arrays that cannot be
stretched to the shape of the particle positions, the run raises `ValueError` before it has
sent, computed or written anything, and the particles are where they were. -/
theorem C93_run_refused {K F : Type} [Zero K] [One K] [Add K] [Sub K] [Mul K] [Div K] [NatCast K]
    [IntCast K] [Min K] [Max K] [NumLits K] [DecidableEq K] (env : Env K F) (queue : Bool)
    (writer : Option (WriteFn K F)) {s : AnalyticalSource K} {f : VelocityFn K} {t : K}
    {I : Integ K} {R d : ℕ} {w : List ℕ} (hf : ∀ q, ∃ V, f t q = .ok V ∧ V.shape = w)
    (hp : s.particles.positions.shape = [R, d]) (hI : I.Fits R d) (ht : s.times ≠ [])
    (hw : ¬ Stretches w [R, d]) :
    let out := Solver.run env queue writer ⟨.analytical s, .analytical ⟨some f, t⟩, I⟩
    out.result = .error .valueError ∧ out.trace = [] ∧ out.solver.source = .analytical s := by
  obtain ⟨t0, ts, hts⟩ := List.exists_cons_of_ne_nil ht
  have hvel : ∀ q, ∃ V, AnyInterp.velocity env (.analytical ⟨some f, t⟩) q = .ok V ∧
      V.shape = w := hf
  have hstep := (C93_accepted_shapes env.junk hvel s.timestep hp hI).2 hw
  obtain ⟨I', hI'⟩ : ∃ I', I.step env.junk (AnyInterp.velocity env (.analytical ⟨some f, t⟩))
      s.timestep s.particles.positions = (I', .error .valueError) :=
    ⟨_, Prod.ext rfl hstep⟩
  have hr : List.range (Source.analytical s).numSteps =
      0 :: (List.range ts.length).map Nat.succ := by
    rw [Source.numSteps, hts, List.length_cons, List.range_succ_eq_map]
  intro out
  have hout : out = Solver.run env queue writer ⟨.analytical s, .analytical ⟨some f, t⟩, I⟩ := rfl
  unfold Solver.run at hout
  have hid : Source.id env (.analytical s) = .ok (env.timeName t0) := by
    rw [Source.id, hts]
  simp only [Source.getParticles, hid, hr, Loop.steps, Loop.step, Source.updateInterp,
    Integ.integrate, Source.timestep, hI', Source.withParticles] at hout
  rw [hout]
  exact ⟨rfl, rfl, rfl⟩

/-- **C93, the values.** A velocity array `V` that does not depend on the positions moves
every entry of the positions by `h` times the entry of `V` lying under it, for each of the
three integrators. -/
theorem C93_stretched_values {K : Type*} [Field K] [CharZero K] (junk : List ℕ → K)
    (V : NDArray K) (h : K) (k : Kind) {pos : NDArray K} {R d : ℕ} (hp : pos.shape = [R, d])
    (hV : Stretches V.shape [R, d]) :
    ∃ pos', ((Integ.fresh k).step junk (fun _ => .ok V) h pos).2 = .ok pos' ∧
      pos'.shape = [R, d] ∧ ∀ r < R, ∀ c < d, ∀ j, Under V.shape [r, c] j →
        pos'.get [r, c] = pos.get [r, c] + h * V.get j := by
  obtain ⟨W, w1, w2, w3⟩ := copyto_stretch (dst := pos) (src := V) (by rw [hp]; exact hV)
  have hfill : ∀ b q : NDArray K, b.shape = pos.shape →
      fillFrom b (fun _ => .ok V) q = .ok W := fun b q hb => by
    rw [fillFrom]
    exact (copyto_congr hb V).trans w1
  have zip : ∀ (f : K → K → K) (a b : NDArray K), a.shape = [R, d] → b.shape = [R, d] →
      NDArray.zipWith f a b = .ok ⟨a.shape, fun idx => f (a.get idx) (b.get idx)⟩ :=
    fun f a b ha hb => by rw [NDArray.zipWith, if_pos (ha.trans hb.symm)]
  have w2' := w2
  rw [hp] at w2'
  cases k with
  | euler =>
    refine ⟨⟨pos.shape, fun idx => pos.get idx + h * W.get idx⟩, by
      simp only [Integ.step, Integ.fresh, eulerStep, hfill _ _ (reuseOrAlloc_shape junk none pos),
        eulerKernel, zip _ pos W hp w2'], hp, fun r _ c _ j hj => ?_⟩
    show pos.get [r, c] + h * W.get [r, c] = _
    rw [w3 _ _ hj]
  | ab2 =>
    obtain ⟨B, b1, -⟩ := copyto_same (dst := emptyLike junk W) w2' w2'
    refine ⟨⟨pos.shape, fun idx => pos.get idx + h * W.get idx⟩, by
      simp only [Integ.step, Integ.fresh, ab2Step, hfill _ _ (reuseOrAlloc_shape junk none pos),
        eulerKernel, zip _ pos W hp w2', b1], hp, fun r _ c _ j hj => ?_⟩
    show pos.get [r, c] + h * W.get [r, c] = _
    rw [w3 _ _ hj]
  | rk4 =>
    obtain ⟨t1, g1, i1, -⟩ := stagePoint_rows (tmp := emptyLike junk pos)
      (c := NumLits.half * h) hp hp w2'
    obtain ⟨t2, g2, i2, -⟩ := stagePoint_rows (tmp := t1) (c := NumLits.half * h) i1 hp w2'
    obtain ⟨t3, g3, i3, -⟩ := stagePoint_rows (tmp := t2) (c := h) i2 hp w2'
    have f1 : ∀ q, fillFrom (emptyLike junk pos) (fun _ => .ok V) q = .ok W :=
      fun q => hfill _ q rfl
    refine ⟨_, by
      simp only [Integ.step, Integ.fresh, rk4Step, rk4Bufs, rk4Alloc, f1, g1, g2, g3,
        rk4Kernel, NDArray.zipWith, w2', hp, if_true]
      rfl, rfl, fun r _ c _ j hj => ?_⟩
    show pos.get [r, c] + h / 6 *
      (W.get [r, c] + 2 * W.get [r, c] + 2 * W.get [r, c] + W.get [r, c]) = _
    rw [w3 _ _ hj]
    have : (6 : K) ≠ 0 := by norm_num
    field_simp
    ring

/-! ## Examples -/

/-- Eight rows of positions in the plane. -/
def eightRows : NDArray ℚ := ⟨[8, 2], fun idx => ((idx.getD 0 0 : ℕ) : ℚ)⟩

/-- A single wind vector `(3, 5)`. -/
def wind : NDArray ℚ := ⟨[2], fun idx => if idx = [0] then 3 else 5⟩

/-- One speed per row, `r + 1`, stored as a column. -/
def speeds : NDArray ℚ := ⟨[8, 1], fun idx => ((idx.getD 0 0 : ℕ) : ℚ) + 1⟩

theorem stretches_decide (w p : List ℕ) : Stretches w p ↔ bcastOk w.reverse p.reverse = true :=
  (stretches_iff w p).symm

/-- A single vector moves all particles alike; a column moves both coordinates alike. -/
example (k : Kind) :
    (∃ pos', ((Integ.fresh k).step (fun _ => 0) (fun _ => .ok wind) (1 / 2) eightRows).2 =
        .ok pos' ∧ pos'.get [6, 0] = 6 + 1 / 2 * 3 ∧ pos'.get [6, 1] = 6 + 1 / 2 * 5) ∧
    (∃ pos', ((Integ.fresh k).step (fun _ => 0) (fun _ => .ok speeds) (1 / 2) eightRows).2 =
        .ok pos' ∧ pos'.get [6, 0] = 6 + 1 / 2 * 7 ∧ pos'.get [6, 1] = 6 + 1 / 2 * 7) := by
  constructor
  · obtain ⟨P, h1, -, h3⟩ := C93_stretched_values (fun _ => (0 : ℚ)) wind (1 / 2) k
      (pos := eightRows) (R := 8) (d := 2) rfl ((stretches_iff _ _).1 (by decide))
    refine ⟨P, h1, ?_, ?_⟩
    · rw [h3 6 (by norm_num) 0 (by norm_num) [0] ⟨rfl, fun k a h => by
        match k with
        | 0 => simp [wind] at h; subst h; rfl
        | k + 1 => simp [wind] at h⟩]
      norm_num [eightRows, wind]
    · rw [h3 6 (by norm_num) 1 (by norm_num) [1] ⟨rfl, fun k a h => by
        match k with
        | 0 => simp [wind] at h; subst h; rfl
        | k + 1 => simp [wind] at h⟩]
      norm_num [eightRows, wind]
  · obtain ⟨P, h1, -, h3⟩ := C93_stretched_values (fun _ => (0 : ℚ)) speeds (1 / 2) k
      (pos := eightRows) (R := 8) (d := 2) rfl ((stretches_iff _ _).1 (by decide))
    have u : ∀ c, Under speeds.shape [6, c] [6, 0] := fun c => ⟨rfl, fun k a h => by
        match k with
        | 0 => simp [speeds] at h; subst h; rfl
        | 1 => simp [speeds] at h; subst h; rfl
        | k + 2 => simp [speeds] at h⟩
    refine ⟨P, h1, ?_, ?_⟩
    · rw [h3 6 (by norm_num) 0 (by norm_num) [6, 0] (u 0)]
      norm_num [eightRows, speeds]
    · rw [h3 6 (by norm_num) 1 (by norm_num) [6, 0] (u 1)]
      norm_num [eightRows, speeds]

/-- The transposed array is refused, and so is a vector with three components. -/
example (k : Kind) (x : ℚ) :
    ((Integ.fresh k).step (fun _ => 0) (fun _ => .ok ⟨[2, 8], fun _ => x⟩) 1 eightRows).2 =
      .error .valueError ∧
    ((Integ.fresh k).step (fun _ => 0) (fun _ => .ok ⟨[3], fun _ => x⟩) 1 eightRows).2 =
      .error .valueError :=
  ⟨C93_transposed_refused _ (R := 8) (d := 2) (fun _ => ⟨_, rfl, rfl⟩) 1 rfl
      (Integ.fits_fresh 8 2 k) (by norm_num) (by norm_num),
    (C93_accepted_shapes _ (R := 8) (d := 2) (fun _ => ⟨_, rfl, rfl⟩) 1 rfl
      (Integ.fits_fresh 8 2 k)).2 (by rw [stretches_decide]; show ¬ bcastOk [3] [2, 8] = true; decide)⟩

/-- A run with a velocity function that returns its arrays transposed. -/
example (k : Kind) :
    (Solver.run exEnv true none ⟨.analytical exSource,
      .analytical ⟨some fun t _ => .ok ⟨[2, 4], fun _ => t⟩, 0⟩, Integ.fresh k⟩).result =
      .error .valueError :=
  (C93_run_refused exEnv true none (s := exSource) (R := 4) (d := 2)
    (fun _ => ⟨_, rfl, rfl⟩) rfl (Integ.fits_fresh 4 2 k) (by simp [exSource])
    (by rw [stretches_decide]; show ¬ bcastOk [4, 2] [2, 4] = true; decide)).1

/-- A surplus leading axis of length one is harmless. -/
example : Stretches [1, 8, 2] [8, 2] ∧ ¬ Stretches [2, 8, 2] [8, 2] := by
  constructor <;> rw [stretches_decide] <;> decide

end Verif
