import Verif.Props.Integrate

/-!
# C21-C23: relational properties of the integrators

None of the theorems uses laws of exact arithmetic, except the sign symmetries of C23,
which also hold for rounded IEEE arithmetic.
-/

set_option linter.unusedSectionVars false

namespace Verif

variable {K : Type*} [Add K] [Sub K] [Mul K] [Div K] [NumLits K]

/-! ## C21 -/

/-- **C21.**  Let every snapshot's velocity at a point depend on that point only.  Advect
two particle sets (possibly of different size) such that row `r` of the first starts
where row `σ r` of the second starts.  After any number of steps of either integrator
both runs succeed and row `r` of the first is row `σ r` of the second.  Holds for any
arithmetic and whatever uninitialised memory contains. -/
theorem C21_no_cross_talk (junk junk' : List ℕ → K) (k : Kind) {R R' d : ℕ}
    {calls : List (Velocity K × K)} {gs : List (((Fin d → K) → Fin d → K) × K)}
    (hc : CallsOf R d calls gs) (hc' : CallsOf R' d calls gs)
    {pos pos' : NDArray K} (hp : pos.shape = [R, d]) (hp' : pos'.shape = [R', d])
    (σ : ℕ → ℕ) (hσ : ∀ r < R, σ r < R') (h0 : ∀ r < R, rowOf pos d r = rowOf pos' d (σ r)) :
    ∃ q q', (Integ.steps junk calls (Integ.fresh k) pos).2 = .ok q ∧
      (Integ.steps junk' calls (Integ.fresh k) pos').2 = .ok q' ∧
      q.shape = [R, d] ∧ q'.shape = [R', d] ∧
      ∀ r < R, rowOf q d r = rowOf q' d (σ r) := by
  obtain ⟨_, q, e1, _, _, e4, e5⟩ := steps_rows junk hc (Integ.fresh k)
    (Integ.fits_fresh R d k) pos hp
  obtain ⟨_, q', f1, _, _, f4, f5⟩ := steps_rows junk' hc' (Integ.fresh k)
    (Integ.fits_fresh R' d k) pos' hp'
  refine ⟨q, q', by rw [e1], by rw [f1], e4, f4, fun r hr => ?_⟩
  rw [e5 r hr, f5 (σ r) (hσ r hr), h0 r hr, Integ.prevRow_fresh, Integ.prevRow_fresh]

/-- C21 is not vacuous: one particle against a reordered set of four, a nonlinear field. -/
example : CallsOf 1 2 [(sourceOf 2 fun x => ![x 1 * x 0, -x 0], (1 / 10 : ℚ))]
      [((fun x => ![x 1 * x 0, -x 0]), 1 / 10)] ∧
    CallsOf 4 2 [(sourceOf 2 fun x => ![x 1 * x 0, -x 0], (1 / 10 : ℚ))]
      [((fun x => ![x 1 * x 0, -x 0]), 1 / 10)] ∧
    ∃ pos : NDArray ℚ, pos.shape = [1, 2] ∧ ∀ r < 1, rowOf pos 2 r = rowOf exSeeds 2 (r + 2) := by
  have hg := fun R => sourceOf_pointwise R 2 fun x : Fin 2 → ℚ => ![x 1 * x 0, -x 0]
  refine ⟨.cons ⟨hg 1, rfl⟩ .nil, .cons ⟨hg 4, rfl⟩ .nil,
    ⟨[1, 2], fun idx => exSeeds.get ((idx.headD 0 + 2) :: idx.tail)⟩, rfl, fun r _ => rfl⟩

/-! ## C22 -/

/-- Integrator states that can arise from a new object of class `k` by any sequence of
calls, successful or not, on any particle arrays. -/
inductive Reachable (k : Kind) : Integ K → Prop
  | fresh : Reachable k (Integ.fresh k)
  | call {I : Integ K} (h : Reachable k I) (junk : List ℕ → K) (vel : Velocity K) (dt : K)
      (pos : NDArray K) : Reachable k (I.step junk vel dt pos).1

/-- The five RK4 work arrays have one common shape. -/
def Rk4Bufs.Uniform (b : Rk4Bufs K) : Prop :=
  b.k2.shape = b.k1.shape ∧ b.k3.shape = b.k1.shape ∧ b.k4.shape = b.k1.shape ∧
    b.tmp.shape = b.k1.shape

/-- State invariant of each class. -/
def Integ.Inv : Kind → Integ K → Prop
  | .euler, .euler _ => True
  | .ab2, .ab2 _ _ => True
  | .rk4, .rk4 none => True
  | .rk4, .rk4 (some b) => b.Uniform
  | _, _ => False

theorem fillFrom_shape {buf pts A : NDArray K} {vel : Velocity K}
    (h : fillFrom buf vel pts = .ok A) : A.shape = buf.shape := by
  unfold fillFrom at h
  split at h
  · cases h
  · exact copyto_shape h

theorem stagePoint_shape {tmp pos k A : NDArray K} {c : K}
    (h : stagePoint tmp pos c k = .ok A) : A.shape = tmp.shape := by
  unfold stagePoint at h
  split at h
  · cases h
  · rename_i t ht
    rw [(zipWith_shape h).1, copyto_shape ht]

theorem rk4Bufs_uniform (junk : List ℕ → K) (bufs : Option (Rk4Bufs K)) (pos : NDArray K)
    (h : ∀ b, bufs = some b → b.Uniform) :
    (rk4Bufs junk bufs pos).Uniform ∧ (rk4Bufs junk bufs pos).k1.shape = pos.shape := by
  cases bufs with
  | none => exact ⟨⟨rfl, rfl, rfl, rfl⟩, rfl⟩
  | some b =>
    unfold rk4Bufs
    by_cases hs : b.k1.shape = pos.shape
    · simp only [hs, ne_eq, not_true_eq_false, if_false]
      exact ⟨h b rfl, trivial⟩
    · simp only [hs, ne_eq, not_false_eq_true, if_true]
      exact ⟨⟨rfl, rfl, rfl, rfl⟩, rfl⟩

theorem step_inv (k : Kind) (junk : List ℕ → K) (vel : Velocity K) (dt : K) (pos : NDArray K)
    {I : Integ K} (hI : I.Inv k) : ((I.step junk vel dt pos).1).Inv k := by
  cases I with
  | euler buf =>
    cases k <;> simp only [Integ.Inv] at hI
    simp only [Integ.step, eulerStep]
    split <;> trivial
  | ab2 prev buf =>
    cases k <;> simp only [Integ.Inv] at hI
    simp only [Integ.step, ab2Step]
    repeat' split
    all_goals trivial
  | rk4 bufs =>
    cases k
    · cases bufs <;> exact hI.elim
    · cases bufs <;> exact hI.elim
    have hu : ∀ b, bufs = some b → b.Uniform := by
      intro b hb; subst hb; exact hI
    obtain ⟨⟨u2, u3, u4, u5⟩, -⟩ := rk4Bufs_uniform junk bufs pos hu
    simp only [Integ.step, rk4Step]
    split
    · exact ⟨u2, u3, u4, u5⟩
    rename_i k1 h1
    have s1 := fillFrom_shape h1
    split
    · exact ⟨u2.trans s1.symm, u3.trans s1.symm, u4.trans s1.symm, u5.trans s1.symm⟩
    rename_i t1 ht1
    have st1 := (stagePoint_shape ht1).trans u5
    split
    · exact ⟨u2.trans s1.symm, u3.trans s1.symm, u4.trans s1.symm, st1.trans s1.symm⟩
    rename_i k2 h2
    have s2 := (fillFrom_shape h2).trans u2
    split
    · exact ⟨s2.trans s1.symm, u3.trans s1.symm, u4.trans s1.symm, st1.trans s1.symm⟩
    rename_i t2 ht2
    have st2 := (stagePoint_shape ht2).trans st1
    split
    · exact ⟨s2.trans s1.symm, u3.trans s1.symm, u4.trans s1.symm, st2.trans s1.symm⟩
    rename_i k3 h3
    have s3 := (fillFrom_shape h3).trans u3
    split
    · exact ⟨s2.trans s1.symm, s3.trans s1.symm, u4.trans s1.symm, st2.trans s1.symm⟩
    rename_i t3 ht3
    have st3 := (stagePoint_shape ht3).trans st2
    split
    · exact ⟨s2.trans s1.symm, s3.trans s1.symm, u4.trans s1.symm, st3.trans s1.symm⟩
    rename_i k4 h4
    have s4 := (fillFrom_shape h4).trans u4
    exact ⟨s2.trans s1.symm, s3.trans s1.symm, s4.trans s1.symm, st3.trans s1.symm⟩

theorem Reachable.inv {k : Kind} {I : Integ K} (h : Reachable k I) : I.Inv k := by
  induction h with
  | fresh => cases k <;> trivial
  | call _ junk vel dt pos ih => exact step_inv k junk vel dt pos ih

theorem fillFrom_congr {b b' : NDArray K} (h : b.shape = b'.shape) (vel : Velocity K)
    (pts : NDArray K) : fillFrom b vel pts = fillFrom b' vel pts := by
  unfold fillFrom
  split
  · rfl
  · exact copyto_congr h _

theorem stagePoint_congr {t t' : NDArray K} (h : t.shape = t'.shape) (pos : NDArray K) (c : K)
    (k : NDArray K) : stagePoint t pos c k = stagePoint t' pos c k := by
  unfold stagePoint
  rw [copyto_congr h]

theorem euler_no_leak {I : Integ K} (hinv : I.Inv .euler) (junk junk' : List ℕ → K)
    (vel : Velocity K) (dt : K) (pos : NDArray K) :
    (I.step junk vel dt pos).2 = ((Integ.fresh .euler).step junk' vel dt pos).2 := by
  cases I with
  | ab2 _ _ => exact hinv.elim
  | rk4 b => cases b <;> exact hinv.elim
  | euler buf =>
    simp only [Integ.fresh, Integ.step, eulerStep]
    have hs : (reuseOrAlloc junk buf pos).shape = (reuseOrAlloc junk' none pos).shape := by
      rw [reuseOrAlloc_shape, reuseOrAlloc_shape]
    rw [fillFrom_congr hs]
    split <;> rfl

theorem rk4_no_leak {I : Integ K} (hinv : I.Inv .rk4) (junk junk' : List ℕ → K)
    (vel : Velocity K) (dt : K) (pos : NDArray K) :
    (I.step junk vel dt pos).2 = ((Integ.fresh .rk4).step junk' vel dt pos).2 := by
  cases I with
  | ab2 _ _ => exact hinv.elim
  | euler _ => exact hinv.elim
  | rk4 bufs =>
    have hu : ∀ b, bufs = some b → b.Uniform := by
      intro b hb; subst hb; exact hinv
    obtain ⟨⟨u2, u3, u4, u5⟩, u1⟩ := rk4Bufs_uniform junk bufs pos hu
    obtain ⟨⟨w2, w3, w4, w5⟩, w1⟩ := rk4Bufs_uniform junk' (none : Option (Rk4Bufs K)) pos (by simp)
    simp only [Integ.fresh, Integ.step, rk4Step]
    generalize hb : rk4Bufs junk bufs pos = b at *
    generalize hb' : rk4Bufs junk' (none : Option (Rk4Bufs K)) pos = b' at *
    rw [fillFrom_congr (u1.trans w1.symm)]
    split
    · rfl
    rw [stagePoint_congr ((u5.trans u1).trans (w5.trans w1).symm)]
    split
    · rfl
    rw [fillFrom_congr ((u2.trans u1).trans (w2.trans w1).symm)]
    split
    · rfl
    split
    · rfl
    rw [fillFrom_congr ((u3.trans u1).trans (w3.trans w1).symm)]
    split
    · rfl
    split
    · rfl
    rw [fillFrom_congr ((u4.trans u1).trans (w4.trans w1).symm)]
    split <;> rfl

/-- **C22 (Euler).**  Whatever an Euler integrator did before, its next step gives the same
positions, or the same exception, as a new object; whatever new memory contains. -/
theorem C22_euler_no_leak {I : Integ K} (hI : Reachable .euler I) (junk junk' : List ℕ → K)
    (vel : Velocity K) (dt : K) (pos : NDArray K) :
    (I.step junk vel dt pos).2 = ((Integ.fresh .euler).step junk' vel dt pos).2 :=
  euler_no_leak hI.inv junk junk' vel dt pos

/-- **C22 (RK4).** -/
theorem C22_rk4_no_leak {I : Integ K} (hI : Reachable .rk4 I) (junk junk' : List ℕ → K)
    (vel : Velocity K) (dt : K) (pos : NDArray K) :
    (I.step junk vel dt pos).2 = ((Integ.fresh .rk4).step junk' vel dt pos).2 :=
  rk4_no_leak hI.inv junk junk' vel dt pos

/-- **C22 (AB2, 1).**  The next AB2 step depends on the history through the stored previous
velocity only. -/
theorem C22_ab2_only_previous (junk junk' : List ℕ → K) (prev buf buf' : Option (NDArray K))
    (vel : Velocity K) (dt : K) (pos : NDArray K) :
    ((Integ.ab2 prev buf).step junk vel dt pos).2 =
      ((Integ.ab2 prev buf').step junk' vel dt pos).2 := by
  simp only [Integ.step, ab2Step]
  have hs : (reuseOrAlloc junk buf pos).shape = (reuseOrAlloc junk' buf' pos).shape := by
    rw [reuseOrAlloc_shape, reuseOrAlloc_shape]
  rw [fillFrom_congr hs]
  split
  · rfl
  rename_i v hv
  cases prev with
  | none =>
    simp only []
    split
    · rfl
    rw [copyto_congr (dst := emptyLike junk v) (dst' := emptyLike junk' v) rfl]
    split <;> rfl
  | some p => rfl

/-- **C22 (AB2, 2).**  Once an AB2 object holds a previous velocity, a call on particles of
another shape never mixes data: it raises (the velocity source's exception or
`ValueError`), and the stored velocity is kept. -/
theorem C22_ab2_shape_change_raises (junk : List ℕ → K) (p : NDArray K) (buf : Option (NDArray K))
    (vel : Velocity K) (dt : K) (pos : NDArray K) (hne : pos.shape ≠ p.shape) :
    ∃ e buf', (Integ.ab2 (some p) buf).step junk vel dt pos = (.ab2 (some p) (some buf'), .error e) ∧
      (∀ v, vel pos = .ok v → e = .valueError) ∧ (∀ e', vel pos = .error e' → e = e') := by
  simp only [Integ.step, ab2Step]
  cases hv : vel pos with
  | error e =>
    refine ⟨e, reuseOrAlloc junk buf pos, by simp only [fillFrom, hv], by simp, ?_⟩
    intro e' h; cases h; rfl
  | ok v =>
    cases hcp : copyto (reuseOrAlloc junk buf pos) v with
    | error e =>
      refine ⟨e, reuseOrAlloc junk buf pos, by simp only [fillFrom, hv, hcp], ?_, by simp⟩
      intro _ _
      unfold copyto at hcp
      split at hcp
      · cases hcp
      · cases hcp; rfl
    | ok w =>
      have hw : w.shape = pos.shape := (copyto_shape hcp).trans (reuseOrAlloc_shape junk buf pos)
      have hk : ab2Kernel pos dt w p = .error .valueError := by
        unfold ab2Kernel NDArray.zipWith
        simp [hw, hne]
      exact ⟨.valueError, w, by simp only [fillFrom, hv, hcp, hk], by simp, by simp⟩

/-- **C22 (AB2, 3).**  The stored velocity keeps its shape for ever: an AB2 object that has
been used for one particle count is unusable for any other. -/
theorem C22_ab2_locked {I : Integ K} {p : NDArray K} {buf : Option (NDArray K)}
    (hI : I = .ab2 (some p) buf) (cs : List ((List ℕ → K) × Velocity K × K × NDArray K)) :
    ∃ p' buf', cs.foldl (fun I c => (I.step c.1 c.2.1 c.2.2.1 c.2.2.2).1) I = .ab2 (some p') buf' ∧
      p'.shape = p.shape := by
  induction cs generalizing I p buf with
  | nil => exact ⟨p, buf, hI, rfl⟩
  | cons c cs ih =>
    subst hI
    have key : ∃ p' buf', ((Integ.ab2 (some p) buf).step c.1 c.2.1 c.2.2.1 c.2.2.2).1 =
        .ab2 (some p') buf' ∧ p'.shape = p.shape := by
      simp only [Integ.step, ab2Step]
      split
      · exact ⟨_, _, rfl, rfl⟩
      split
      · exact ⟨_, _, rfl, rfl⟩
      split
      · exact ⟨_, _, rfl, rfl⟩
      · rename_i hcp
        exact ⟨_, _, rfl, copyto_shape hcp⟩
    obtain ⟨p', buf', e1, e2⟩ := key
    obtain ⟨p'', buf'', f1, f2⟩ := ih e1
    exact ⟨p'', buf'', f1, f2.trans e2⟩

/-- C22 is not vacuous: a state reached after a successful call and a failed one on another
shape. -/
example : Reachable .rk4 ((((Integ.fresh .rk4 : Integ ℚ).step (fun _ => 5) (sourceOf 2 fun x => x) 1
    exSeeds).1).step (fun _ => 5) (fun _ => .error .valueError) 1 ⟨[6, 3], fun _ => 0⟩).1 ∧
    ∃ p buf, ((Integ.fresh .ab2 : Integ ℚ).step (fun _ => 5) (sourceOf 2 fun x => x) 1 exSeeds).1 =
      .ab2 (some p) buf ∧ p.shape ≠ [6, 3] :=
  ⟨.call (.call .fresh _ _ _ _) _ _ _ _, _, _, rfl, by decide⟩

/-! ## C23 -/

/-- Sign symmetries of the arithmetic.  They hold in every field and for IEEE-754
arithmetic with rounding to nearest (as equalities of values). -/
class SignSymmetric (K : Type*) [Add K] [Sub K] [Mul K] [Div K] [Neg K] : Prop where
  neg_mul_comm : ∀ a b : K, (-a) * b = a * (-b)
  mul_neg : ∀ a b : K, a * (-b) = -(a * b)
  neg_sub_neg : ∀ a b : K, (-a) - (-b) = -(a - b)
  neg_add_neg : ∀ a b : K, (-a) + (-b) = -(a + b)
  neg_div : ∀ a b : K, (-a) / b = -(a / b)

instance {F : Type*} [Field F] : SignSymmetric F where
  neg_mul_comm a b := by ring
  mul_neg a b := by ring
  neg_sub_neg a b := by ring
  neg_add_neg a b := by ring
  neg_div a b := by ring

variable [Neg K] [SignSymmetric K]

/-- The array with all signs changed. -/
def negArr (a : NDArray K) : NDArray K := a.map fun x => -x

/-- The reversed velocity source `-V` (same exceptions). -/
def reversed (vel : Velocity K) : Velocity K := fun pos =>
  match vel pos with
  | .error e => .error e
  | .ok v => .ok (negArr v)

/-- States of the two runs: equal shapes, opposite stored velocities. -/
def Mirror : Integ K → Integ K → Prop
  | .euler b, .euler b' => b'.map NDArray.shape = b.map NDArray.shape
  | .ab2 p b, .ab2 p' b' => p' = p.map negArr ∧ b'.map NDArray.shape = b.map NDArray.shape
  | .rk4 none, .rk4 none => True
  | .rk4 (some b), .rk4 (some b') => b'.k1.shape = b.k1.shape ∧ b'.k2.shape = b.k2.shape ∧
      b'.k3.shape = b.k3.shape ∧ b'.k4.shape = b.k4.shape ∧ b'.tmp.shape = b.tmp.shape
  | _, _ => False

theorem copyto_neg (dst src : NDArray K) :
    copyto dst (negArr src) =
      match copyto dst src with
      | .error e => .error e
      | .ok A => .ok (negArr A) := by
  unfold copyto negArr NDArray.map
  simp only []
  split <;> rfl

theorem fillFrom_reversed {b b' : NDArray K} (h : b'.shape = b.shape) (vel : Velocity K)
    (pts : NDArray K) :
    fillFrom b' (reversed vel) pts =
      match fillFrom b vel pts with
      | .error e => .error e
      | .ok A => .ok (negArr A) := by
  unfold fillFrom reversed
  cases vel pts with
  | error e => rfl
  | ok v => simp only []; rw [copyto_neg, copyto_congr h]

theorem zipWith_congr2 {f f' : K → K → K} {a b b' : NDArray K} (hs : b'.shape = b.shape)
    (hv : ∀ idx, f' (a.get idx) (b'.get idx) = f (a.get idx) (b.get idx)) :
    NDArray.zipWith f' a b' = NDArray.zipWith f a b := by
  unfold NDArray.zipWith
  rw [hs]
  simp only [hv]

theorem zipWith_neg {f : K → K → K} (hf : ∀ a b, f (-a) (-b) = -(f a b)) (a b : NDArray K) :
    NDArray.zipWith f (negArr a) (negArr b) =
      match NDArray.zipWith f a b with
      | .error e => .error e
      | .ok A => .ok (negArr A) := by
  unfold NDArray.zipWith negArr NDArray.map
  simp only [hf]
  split <;> rfl

theorem stagePoint_reversed {t t' : NDArray K} (h : t'.shape = t.shape) (pos : NDArray K)
    {c c' : K} (hc : ∀ x : K, c' * (-x) = c * x) (k : NDArray K) :
    stagePoint t' pos c' (negArr k) = stagePoint t pos c k := by
  unfold stagePoint
  rw [copyto_congr h]
  split
  · rfl
  · exact zipWith_congr2 rfl fun idx => by simp only [negArr, NDArray.map, hc]

theorem eulerKernel_reversed (pos v : NDArray K) (h : K) :
    eulerKernel pos h (negArr v) = eulerKernel pos (-h) v :=
  zipWith_congr2 rfl fun idx => by
    simp only [negArr, NDArray.map, SignSymmetric.neg_mul_comm]

theorem ab2Kernel_reversed (pos v p : NDArray K) (h : K) :
    ab2Kernel pos h (negArr v) (negArr p) = ab2Kernel pos (-h) v p := by
  unfold ab2Kernel
  rw [zipWith_neg (fun a b => by
    simp only [SignSymmetric.mul_neg, SignSymmetric.neg_sub_neg])]
  split
  · rename_i heq
    split at heq
    · rename_i h2; cases heq; rw [h2]
    · cases heq
  · rename_i heq
    split at heq
    · cases heq
    · rename_i A h2
      cases heq
      rw [h2]
      exact eulerKernel_reversed pos A h

theorem rk4Kernel_reversed (pos k1 k2 k3 k4 : NDArray K) (h : K) :
    rk4Kernel pos h (negArr k1) (negArr k2) (negArr k3) (negArr k4) =
      rk4Kernel pos (-h) k1 k2 k3 k4 := by
  have h2 : ∀ a b : K, -a + NumLits.two * -b = -(a + NumLits.two * b) := fun a b => by
    rw [SignSymmetric.mul_neg, SignSymmetric.neg_add_neg]
  unfold rk4Kernel
  rw [zipWith_neg h2]
  cases NDArray.zipWith (fun a b => a + NumLits.two * b) k1 k2 with
  | error e => rfl
  | ok s12 =>
    simp only []
    rw [zipWith_neg h2]
    cases NDArray.zipWith (fun a b => a + NumLits.two * b) s12 k3 with
    | error e => rfl
    | ok s123 =>
      simp only []
      rw [zipWith_neg SignSymmetric.neg_add_neg]
      cases NDArray.zipWith (fun a b => a + b) s123 k4 with
      | error e => rfl
      | ok s =>
        refine zipWith_congr2 rfl fun idx => ?_
        simp only [negArr, NDArray.map, SignSymmetric.neg_div, SignSymmetric.neg_mul_comm]

theorem reuseOrAlloc_mirror (junk : List ℕ → K) (b b' : Option (NDArray K)) (pos : NDArray K) :
    (reuseOrAlloc junk b' pos).shape = (reuseOrAlloc junk b pos).shape := by
  rw [reuseOrAlloc_shape, reuseOrAlloc_shape]

theorem step_mirror (junk : List ℕ → K) (vel : Velocity K) (h : K) (pos : NDArray K)
    {I I' : Integ K} (hm : Mirror I I') :
    (I.step junk vel (-h) pos).2 = (I'.step junk (reversed vel) h pos).2 ∧
      Mirror (I.step junk vel (-h) pos).1 (I'.step junk (reversed vel) h pos).1 := by
  cases I with
  | euler b =>
    cases I' with
    | ab2 _ _ => exact hm.elim
    | rk4 b => cases b <;> exact hm.elim
    | euler b' =>
      simp only [Integ.step, eulerStep]
      have hs := reuseOrAlloc_mirror junk b b' pos
      rw [fillFrom_reversed hs]
      cases fillFrom (reuseOrAlloc junk b pos) vel pos with
      | error e => exact ⟨rfl, by simp [Mirror, hs]⟩
      | ok v => exact ⟨(eulerKernel_reversed pos v h).symm, rfl⟩
  | ab2 p b =>
    cases I' with
    | euler _ => exact hm.elim
    | rk4 b => cases b <;> exact hm.elim
    | ab2 p' b' =>
      obtain ⟨rfl, hb⟩ := hm
      simp only [Integ.step, ab2Step]
      have hs := reuseOrAlloc_mirror junk b b' pos
      rw [fillFrom_reversed hs]
      cases fillFrom (reuseOrAlloc junk b pos) vel pos with
      | error e => exact ⟨rfl, rfl, by simp [hs]⟩
      | ok v =>
        cases p with
        | none =>
          simp only [Option.map_none]
          rw [eulerKernel_reversed, copyto_neg]
          have hcp : copyto (emptyLike junk (negArr v)) v = copyto (emptyLike junk v) v :=
            copyto_congr rfl v
          rw [hcp]
          have hok : ∃ B, copyto (emptyLike junk v) v = .ok B := by
            have : ∀ l : List ℕ, bcastOk l l = true := fun l => by
              induction l with
              | nil => rfl
              | cons a l ih => simp [bcastOk, ih]
            exact ⟨_, by simp only [copyto, emptyLike, this, if_true]; rfl⟩
          obtain ⟨B, hB⟩ := hok
          rw [hB]
          cases eulerKernel pos (-h) v with
          | error e => exact ⟨rfl, rfl, rfl⟩
          | ok A => exact ⟨rfl, rfl, rfl⟩
        | some q =>
          simp only [Option.map_some]
          rw [ab2Kernel_reversed, copyto_neg,
            copyto_congr (dst := negArr q) (dst' := q) rfl v]
          cases ab2Kernel pos (-h) v q with
          | error e => exact ⟨rfl, rfl, rfl⟩
          | ok A =>
            cases copyto q v with
            | error e => exact ⟨rfl, rfl, rfl⟩
            | ok B => exact ⟨rfl, rfl, rfl⟩
  | rk4 b =>
    cases I' with
    | euler _ => cases b <;> exact hm.elim
    | ab2 _ _ => cases b <;> exact hm.elim
    | rk4 b' =>
      have hb : (rk4Bufs junk b' pos).k1.shape = (rk4Bufs junk b pos).k1.shape ∧
          (rk4Bufs junk b' pos).k2.shape = (rk4Bufs junk b pos).k2.shape ∧
          (rk4Bufs junk b' pos).k3.shape = (rk4Bufs junk b pos).k3.shape ∧
          (rk4Bufs junk b' pos).k4.shape = (rk4Bufs junk b pos).k4.shape ∧
          (rk4Bufs junk b' pos).tmp.shape = (rk4Bufs junk b pos).tmp.shape := by
        cases b with
        | none =>
          cases b' with
          | none => exact ⟨rfl, rfl, rfl, rfl, rfl⟩
          | some _ => exact hm.elim
        | some b =>
          cases b' with
          | none => exact hm.elim
          | some b' =>
            obtain ⟨m1, m2, m3, m4, m5⟩ := hm
            unfold rk4Bufs
            simp only [m1]
            split
            · exact ⟨rfl, rfl, rfl, rfl, rfl⟩
            · exact ⟨m1, m2, m3, m4, m5⟩
      obtain ⟨m1, m2, m3, m4, m5⟩ := hb
      simp only [Integ.step, rk4Step]
      generalize rk4Bufs junk b pos = c at *
      generalize rk4Bufs junk b' pos = c' at *
      have hhalf : ∀ x : K, NumLits.half * h * (-x) = NumLits.half * (-h) * x := fun x => by
        rw [SignSymmetric.mul_neg NumLits.half h, SignSymmetric.neg_mul_comm]
      have hfull : ∀ x : K, h * (-x) = -h * x := fun x => (SignSymmetric.neg_mul_comm h x).symm
      rw [fillFrom_reversed m1]
      cases fillFrom c.k1 vel pos with
      | error e => exact ⟨rfl, m1, m2, m3, m4, m5⟩
      | ok k1 =>
        simp only []
        rw [stagePoint_reversed m5 pos hhalf]
        cases stagePoint c.tmp pos (NumLits.half * -h) k1 with
        | error e => exact ⟨rfl, rfl, m2, m3, m4, m5⟩
        | ok t1 =>
          simp only []
          rw [fillFrom_reversed m2]
          cases fillFrom c.k2 vel t1 with
          | error e => exact ⟨rfl, rfl, m2, m3, m4, rfl⟩
          | ok k2 =>
            simp only []
            rw [stagePoint_reversed rfl pos hhalf]
            cases stagePoint t1 pos (NumLits.half * -h) k2 with
            | error e => exact ⟨rfl, rfl, rfl, m3, m4, rfl⟩
            | ok t2 =>
              simp only []
              rw [fillFrom_reversed m3]
              cases fillFrom c.k3 vel t2 with
              | error e => exact ⟨rfl, rfl, rfl, m3, m4, rfl⟩
              | ok k3 =>
                simp only []
                rw [stagePoint_reversed rfl pos hfull]
                cases stagePoint t2 pos (-h) k3 with
                | error e => exact ⟨rfl, rfl, rfl, rfl, m4, rfl⟩
                | ok t3 =>
                  simp only []
                  rw [fillFrom_reversed m4]
                  cases fillFrom c.k4 vel t3 with
                  | error e => exact ⟨rfl, rfl, rfl, rfl, m4, rfl⟩
                  | ok k4 =>
                    exact ⟨(rk4Kernel_reversed pos k1 k2 k3 k4 h).symm, rfl, rfl, rfl, rfl, rfl⟩

/-- **C23.**  Integrating backward (`-h`) through any sequence of velocity sources `V_j` and
steps gives the same positions, or the same exception, as integrating forward (`h`)
through `-V_j`, for all three integrators. -/
theorem C23_backward_is_reversed (junk : List ℕ → K) (k : Kind) (calls : List (Velocity K × K))
    (pos : NDArray K) :
    (Integ.steps junk (calls.map fun c => (c.1, -c.2)) (Integ.fresh k) pos).2 =
      (Integ.steps junk (calls.map fun c => (reversed c.1, c.2)) (Integ.fresh k) pos).2 := by
  have gen : ∀ (calls : List (Velocity K × K)) (I I' : Integ K) (pos : NDArray K), Mirror I I' →
      (Integ.steps junk (calls.map fun c => (c.1, -c.2)) I pos).2 =
        (Integ.steps junk (calls.map fun c => (reversed c.1, c.2)) I' pos).2 := by
    intro calls
    induction calls with
    | nil => intros; rfl
    | cons c cs ih =>
      intro I I' pos hm
      obtain ⟨e1, e2⟩ := step_mirror junk c.1 c.2 pos hm
      simp only [List.map_cons, Integ.steps]
      rcases hs : I.step junk c.1 (-c.2) pos with ⟨J, r⟩
      rcases hs' : I'.step junk (reversed c.1) c.2 pos with ⟨J', r'⟩
      rw [hs, hs'] at e1 e2
      simp only at e1 e2
      subst e1
      cases r with
      | error e => rfl
      | ok pos' => exact ih J J' pos' e2
  exact gen calls _ _ pos (by cases k <;> simp [Mirror, Integ.fresh])

/-- C23 is not vacuous: exact rationals are sign symmetric, and for the rotation field the
backward step really moves the seeds the other way. -/
example : ((Integ.fresh .rk4 : Integ ℚ).step (fun _ => 0)
      (sourceOf 2 fun x => ![-x 1, x 0]) (-(1 / 2)) exSeeds).2.toOption.map
        (fun a => a.get [0, 1]) = some (23 / 48) ∧
    ((Integ.fresh .rk4 : Integ ℚ).step (fun _ => 0)
      (sourceOf 2 fun x => ![-x 1, x 0]) (1 / 2) exSeeds).2.toOption.map
        (fun a => a.get [0, 1]) = some (-(23 / 48)) := by
  decide +kernel

end Verif
