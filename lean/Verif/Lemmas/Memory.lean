import Verif.Lemmas.Solver
import Verif.Lemmas.Rerun

/-!
# Uninitialised memory

Two runs of the same program that differ only in the contents of uninitialised memory.
Arrays are compared at their legal indices only.
-/

set_option linter.unusedSectionVars false

namespace Verif

/-! ## Relations -/

/-- Two computations raise the same exception, or return related values. -/
inductive Py.Rel {α β : Type*} (R : α → β → Prop) : Py α → Py β → Prop
  | error (e : PyErr) : Py.Rel R (.error e) (.error e)
  | ok {a : α} {b : β} (h : R a b) : Py.Rel R (.ok a) (.ok b)

theorem Py.Rel.refl {α : Type*} {R : α → α → Prop} (hR : ∀ a, R a a) (x : Py α) :
    Py.Rel R x x := by
  cases x with
  | error e => exact .error e
  | ok a => exact .ok (hR a)

theorem Py.Rel.eq {α : Type*} {x y : Py α} (h : Py.Rel (· = ·) x y) : x = y := by
  cases h with
  | error e => rfl
  | ok h => rw [h]

theorem Py.Rel.cases {α β : Type*} {R : α → β → Prop} {x : Py α} {y : Py β} (h : Py.Rel R x y) :
    (∃ e, x = .error e ∧ y = .error e) ∨ ∃ a b, x = .ok a ∧ y = .ok b ∧ R a b := by
  cases h with
  | error e => exact .inl ⟨e, rfl, rfl⟩
  | ok h => exact .inr ⟨_, _, rfl, rfl, h⟩

/-- The same array: equal shapes and equal values at every legal index. -/
def NDArray.Eqv {α : Type*} (a b : NDArray α) : Prop :=
  a.shape = b.shape ∧ ∀ idx, ValidIdx a.shape idx → a.get idx = b.get idx

theorem NDArray.Eqv.refl {α : Type*} (a : NDArray α) : a.Eqv a := ⟨rfl, fun _ _ => rfl⟩

section
variable {α β γ : Type*}

theorem Eqv.zipWith {f : α → β → γ} {a a' : NDArray α} {b b' : NDArray β} (h : a.Eqv a')
    (h' : b.Eqv b') : Py.Rel NDArray.Eqv (NDArray.zipWith f a b) (NDArray.zipWith f a' b') := by
  unfold NDArray.zipWith
  rw [← h.1, ← h'.1]
  by_cases hs : a.shape = b.shape
  · rw [if_pos hs, if_pos hs]
    refine .ok ⟨rfl, fun idx hi => ?_⟩
    show f _ _ = f _ _
    rw [h.2 idx hi, h'.2 idx (hs ▸ hi)]
  · rw [if_neg hs, if_neg hs]
    exact .error _

theorem bcastIdx_valid : ∀ {ss ds is : List ℕ}, bcastOk ss ds = true → List.Forall₂ (· < ·) is ds →
    List.Forall₂ (· < ·) (bcastIdx ss is) ss
  | [], _, _, _, _ => by simp [bcastIdx]
  | s :: ss, [], [], h, .nil => by
    simp only [bcastOk, Bool.and_eq_true, beq_iff_eq] at h
    simp only [bcastIdx]
    exact .cons (by omega) (bcastIdx_valid h.2 .nil)
  | s :: ss, d :: ds, i :: is, h, .cons hi his => by
    simp only [bcastOk, Bool.and_eq_true, Bool.or_eq_true, beq_iff_eq] at h
    simp only [bcastIdx]
    refine .cons ?_ (bcastIdx_valid h.2 his)
    split
    · omega
    · omega

theorem Eqv.copyto {dst dst' src src' : NDArray α} (hd : dst.shape = dst'.shape)
    (hs : src.Eqv src') : Py.Rel NDArray.Eqv (Verif.copyto dst src) (Verif.copyto dst' src') := by
  unfold Verif.copyto
  rw [← hd, ← hs.1]
  by_cases hb : bcastOk src.shape.reverse dst.shape.reverse = true
  · rw [if_pos hb, if_pos hb]
    refine .ok ⟨rfl, fun idx hi => hs.2 _ ?_⟩
    unfold ValidIdx
    rw [← List.forall₂_reverse_iff, List.reverse_reverse]
    exact bcastIdx_valid hb (List.forall₂_reverse_iff.2 hi)
  · rw [if_neg hb, if_neg hb]
    exact .error _

end

section
variable {K : Type}

/-- Velocity sources that cannot tell equivalent arrays apart and agree up to equivalence. -/
def VelRel (sh : List ℕ) (v v' : Velocity K) : Prop :=
  ∀ q q' : NDArray K, q.Eqv q' → q.shape = sh → Py.Rel NDArray.Eqv (v q) (v' q')

theorem Eqv.fillFrom {sh : List ℕ} {v v' : Velocity K} (hv : VelRel sh v v') {b b' q q' : NDArray K}
    (hb : b.shape = b'.shape) (hq : q.Eqv q') (hs : q.shape = sh) :
    Py.Rel NDArray.Eqv (Verif.fillFrom b v q) (Verif.fillFrom b' v' q') := by
  unfold Verif.fillFrom
  rcases (hv q q' hq hs).cases with ⟨e, e1, e2⟩ | ⟨a, a', e1, e2, h⟩ <;> rw [e1, e2]
  · exact .error e
  · exact Eqv.copyto hb h

variable [Add K] [Sub K] [Mul K] [Div K] [NumLits K]

theorem Eqv.stagePoint {t t' p p' k k' : NDArray K} (ht : t.shape = t'.shape) (hp : p.Eqv p')
    (hk : k.Eqv k') (c : K) :
    Py.Rel NDArray.Eqv (Verif.stagePoint t p c k) (Verif.stagePoint t' p' c k') := by
  unfold Verif.stagePoint
  rcases (Eqv.copyto ht hp).cases with ⟨e, e1, e2⟩ | ⟨a, a', e1, e2, h⟩ <;> rw [e1, e2]
  · exact .error e
  · exact Eqv.zipWith h hk

theorem Eqv.rk4Kernel {p p' a a' b b' c c' d d' : NDArray K} (hp : p.Eqv p') (ha : a.Eqv a')
    (hb : b.Eqv b') (hc : c.Eqv c') (hd : d.Eqv d') (h : K) :
    Py.Rel NDArray.Eqv (Verif.rk4Kernel p h a b c d) (Verif.rk4Kernel p' h a' b' c' d') := by
  unfold Verif.rk4Kernel
  rcases (Eqv.zipWith (f := fun a b => a + NumLits.two * b) ha hb).cases with
    ⟨e, e1, e2⟩ | ⟨_, _, e1, e2, h1⟩ <;> rw [e1, e2]
  · exact .error e
  simp only
  rcases (Eqv.zipWith (f := fun a b => a + NumLits.two * b) h1 hc).cases with
    ⟨e, e1, e2⟩ | ⟨_, _, e1, e2, h2⟩ <;> rw [e1, e2]
  · exact .error e
  simp only
  rcases (Eqv.zipWith (f := fun a b => a + b) h2 hd).cases with
    ⟨e, e1, e2⟩ | ⟨_, _, e1, e2, h3⟩ <;> rw [e1, e2]
  · exact .error e
  · exact Eqv.zipWith hp h3

theorem Eqv.ab2Kernel {p p' a a' b b' : NDArray K} (hp : p.Eqv p') (ha : a.Eqv a')
    (hb : b.Eqv b') (h : K) :
    Py.Rel NDArray.Eqv (Verif.ab2Kernel p h a b) (Verif.ab2Kernel p' h a' b') := by
  unfold Verif.ab2Kernel
  rcases (Eqv.zipWith (f := fun v p => NumLits.onePointFive * v - NumLits.half * p) ha hb).cases
    with ⟨e, e1, e2⟩ | ⟨_, _, e1, e2, h1⟩ <;> rw [e1, e2]
  · exact .error e
  · exact Eqv.zipWith hp h1

/-- Integrator states that agree up to the contents of work arrays. -/
inductive IntegRel : Integ K → Integ K → Prop
  | euler {b b' : Option (NDArray K)} (h : b.map NDArray.shape = b'.map NDArray.shape) :
      IntegRel (.euler b) (.euler b')
  | ab2none {b b' : Option (NDArray K)} (h : b.map NDArray.shape = b'.map NDArray.shape) :
      IntegRel (.ab2 none b) (.ab2 none b')
  | ab2some {p p' : NDArray K} {b b' : Option (NDArray K)} (hp : p.Eqv p')
      (h : b.map NDArray.shape = b'.map NDArray.shape) : IntegRel (.ab2 (some p) b) (.ab2 (some p') b')
  | rk4none : IntegRel (.rk4 none) (.rk4 none)
  | rk4some {b b' : Rk4Bufs K} (h1 : b.k1.shape = b'.k1.shape) (h2 : b.k2.shape = b'.k2.shape)
      (h3 : b.k3.shape = b'.k3.shape) (h4 : b.k4.shape = b'.k4.shape)
      (h5 : b.tmp.shape = b'.tmp.shape) : IntegRel (.rk4 (some b)) (.rk4 (some b'))

theorem IntegRel.fresh (k : Kind) : IntegRel (Integ.fresh k : Integ K) (Integ.fresh k) := by
  cases k
  · exact .euler rfl
  · exact .ab2none rfl
  · exact .rk4none

theorem reuseOrAlloc_rel (junk junk' : List ℕ → K) (b b' : Option (NDArray K)) {q q' : NDArray K}
    (hq : q.Eqv q') : (reuseOrAlloc junk b q).shape = (reuseOrAlloc junk' b' q').shape := by
  rw [reuseOrAlloc_shape, reuseOrAlloc_shape, hq.1]

theorem rk4Step_rel {sh : List ℕ} {v v' : Velocity K} (hv : VelRel sh v v')
    (junk junk' : List ℕ → K) (dt : K) (b b' : Option (Rk4Bufs K))
    {p p' : NDArray K} (hp : p.Eqv p') (hs : p.shape = sh)
    (h1 : (rk4Bufs junk b p).k1.shape = (rk4Bufs junk' b' p').k1.shape)
    (h2 : (rk4Bufs junk b p).k2.shape = (rk4Bufs junk' b' p').k2.shape)
    (h3 : (rk4Bufs junk b p).k3.shape = (rk4Bufs junk' b' p').k3.shape)
    (h4 : (rk4Bufs junk b p).k4.shape = (rk4Bufs junk' b' p').k4.shape)
    (h5 : (rk4Bufs junk b p).tmp.shape = (rk4Bufs junk' b' p').tmp.shape)
    (ht : (rk4Bufs junk b p).tmp.shape = sh) :
    Py.Rel NDArray.Eqv (rk4Step junk v dt b p).2 (rk4Step junk' v' dt b' p').2 ∧
      (∀ q, (rk4Step junk v dt b p).2 = .ok q →
        IntegRel (rk4Step junk v dt b p).1 (rk4Step junk' v' dt b' p').1) := by
  unfold rk4Step
  generalize rk4Bufs junk b p = B at *
  generalize rk4Bufs junk' b' p' = B' at *
  simp only
  rcases (Eqv.fillFrom hv h1 hp hs).cases with ⟨e, e1, e2⟩ | ⟨k1, k1', e1, e2, g1⟩ <;>
    simp only [e1, e2]
  · exact ⟨.error e, fun q h => by cases h⟩
  rcases (Eqv.stagePoint h5 hp g1 (NumLits.half * dt)).cases with
    ⟨e, e1, e2⟩ | ⟨t1, t1', e1, e2, s1⟩ <;> simp only [e1, e2]
  · exact ⟨.error e, fun q h => by cases h⟩
  have hs1 : t1.shape = sh := (stagePoint_shape e1).trans ht
  rcases (Eqv.fillFrom hv h2 s1 hs1).cases with ⟨e, e1, e2⟩ | ⟨k2, k2', e1, e2, g2⟩ <;>
    simp only [e1, e2]
  · exact ⟨.error e, fun q h => by cases h⟩
  rcases (Eqv.stagePoint s1.1 hp g2 (NumLits.half * dt)).cases with
    ⟨e, e1, e2⟩ | ⟨t2, t2', e1, e2, s2⟩ <;> simp only [e1, e2]
  · exact ⟨.error e, fun q h => by cases h⟩
  have hs2 : t2.shape = sh := (stagePoint_shape e1).trans hs1
  rcases (Eqv.fillFrom hv h3 s2 hs2).cases with ⟨e, e1, e2⟩ | ⟨k3, k3', e1, e2, g3⟩ <;>
    simp only [e1, e2]
  · exact ⟨.error e, fun q h => by cases h⟩
  rcases (Eqv.stagePoint s2.1 hp g3 dt).cases with
    ⟨e, e1, e2⟩ | ⟨t3, t3', e1, e2, s3⟩ <;> simp only [e1, e2]
  · exact ⟨.error e, fun q h => by cases h⟩
  have hs3 : t3.shape = sh := (stagePoint_shape e1).trans hs2
  rcases (Eqv.fillFrom hv h4 s3 hs3).cases with ⟨e, e1, e2⟩ | ⟨k4, k4', e1, e2, g4⟩ <;>
    simp only [e1, e2]
  · exact ⟨.error e, fun q h => by cases h⟩
  exact ⟨Eqv.rk4Kernel hp g1 g2 g3 g4 dt, fun q _ => .rk4some g1.1 g2.1 g3.1 g4.1 s3.1⟩

/-- One step of an integrator: related positions or the same exception. -/
theorem IntegRel.step {sh : List ℕ} {v v' : Velocity K} (hv : VelRel sh v v')
    (junk junk' : List ℕ → K) (dt : K) {G G' : Integ K} (hG : IntegRel G G') {k : Kind}
    (hinv : G.Inv k) (hinv' : G'.Inv k) {p p' : NDArray K} (hp : p.Eqv p') (hs : p.shape = sh) :
    Py.Rel NDArray.Eqv (G.step junk v dt p).2 (G'.step junk' v' dt p').2 ∧
      (∀ q, (G.step junk v dt p).2 = .ok q →
        IntegRel (G.step junk v dt p).1 (G'.step junk' v' dt p').1) := by
  have key : ∀ b b' : Option (Rk4Bufs K), (∀ c, b = some c → c.Uniform) →
      (∀ c, b' = some c → c.Uniform) →
      Py.Rel NDArray.Eqv (rk4Step junk v dt b p).2 (rk4Step junk' v' dt b' p').2 ∧
      (∀ q, (rk4Step junk v dt b p).2 = .ok q →
        IntegRel (rk4Step junk v dt b p).1 (rk4Step junk' v' dt b' p').1) := by
    intro b b' hb hb'
    obtain ⟨⟨u2, u3, u4, u5⟩, u1⟩ := rk4Bufs_uniform junk b p hb
    obtain ⟨⟨w2, w3, w4, w5⟩, w1⟩ := rk4Bufs_uniform junk' b' p' hb'
    have h1 := (u1.trans hp.1).trans w1.symm
    exact rk4Step_rel hv junk junk' dt b b' hp hs h1 (by rw [u2, w2, h1]) (by rw [u3, w3, h1])
      (by rw [u4, w4, h1]) (by rw [u5, w5, h1]) (by rw [u5, u1, hs])
  cases hG with
  | euler hb =>
    rename_i b b'
    simp only [Integ.step, eulerStep]
    rcases (Eqv.fillFrom hv (reuseOrAlloc_rel junk junk' b b' hp) hp hs).cases with
      ⟨e, e1, e2⟩ | ⟨a, a', e1, e2, h⟩ <;> simp only [e1, e2]
    · exact ⟨.error e, fun q h => by cases h⟩
    · refine ⟨Eqv.zipWith hp h, fun q _ => .euler ?_⟩
      simp [h.1]
  | ab2none hb =>
    rename_i b b'
    simp only [Integ.step, ab2Step]
    rcases (Eqv.fillFrom hv (reuseOrAlloc_rel junk junk' b b' hp) hp hs).cases with
      ⟨e, e1, e2⟩ | ⟨a, a', e1, e2, h⟩ <;> simp only [e1, e2]
    · exact ⟨.error e, fun q h => by cases h⟩
    have hk : Py.Rel NDArray.Eqv (eulerKernel p dt a) (eulerKernel p' dt a') := Eqv.zipWith hp h
    rcases hk.cases with ⟨e, e1, e2⟩ | ⟨_, _, e1, e2, h1⟩ <;> simp only [e1, e2]
    · exact ⟨.error e, fun q h => by cases h⟩
    rcases (Eqv.copyto (dst := emptyLike junk a) (dst' := emptyLike junk' a') h.1 h).cases with
      ⟨e, e1, e2⟩ | ⟨_, _, e1, e2, h2⟩ <;> simp only [e1, e2]
    · exact ⟨.error e, fun q h => by cases h⟩
    · refine ⟨.ok h1, fun q _ => .ab2some h2 ?_⟩
      simp [h.1]
  | ab2some hpp hb =>
    rename_i pr pr' b b'
    simp only [Integ.step, ab2Step]
    rcases (Eqv.fillFrom hv (reuseOrAlloc_rel junk junk' b b' hp) hp hs).cases with
      ⟨e, e1, e2⟩ | ⟨a, a', e1, e2, h⟩ <;> simp only [e1, e2]
    · exact ⟨.error e, fun q h => by cases h⟩
    rcases (Eqv.ab2Kernel hp h hpp dt).cases with
      ⟨e, e1, e2⟩ | ⟨_, _, e1, e2, h1⟩ <;> simp only [e1, e2]
    · exact ⟨.error e, fun q h => by cases h⟩
    rcases (Eqv.copyto (dst := pr) (dst' := pr') hpp.1 h).cases with
      ⟨e, e1, e2⟩ | ⟨_, _, e1, e2, h2⟩ <;> simp only [e1, e2]
    · exact ⟨.error e, fun q h => by cases h⟩
    · refine ⟨.ok h1, fun q _ => .ab2some h2 ?_⟩
      simp [h.1]
  | rk4none => exact key none none (by simp) (by simp)
  | rk4some h1 h2 h3 h4 h5 =>
    rename_i b b'
    refine key (some b) (some b') ?_ ?_
    · rintro c ⟨⟩
      cases k <;> first | exact hinv | exact hinv.elim
    · rintro c ⟨⟩
      cases k <;> first | exact hinv' | exact hinv'.elim

end

/-! ## Interpolators -/

section
variable {K : Type}

/-- SciPy sees the legal entries of the query array only, and only the values for existing
query rows are used. -/
def SciPy.Respects (sp : SciPy K) : Prop :=
  (∀ m p v (q q' : NDArray K), q.Eqv q' →
    Py.Rel (fun f g : ℕ → K => ∀ r < q.shape.headD 0, f r = g r)
      (sp.scatterCall m p v q) (sp.scatterCall m p v q')) ∧
  (∀ m p v (q q' : NDArray K), q.Eqv q' →
    Py.Rel (fun f g : ℕ → K => ∀ r < q.shape.headD 0, f r = g r)
      (sp.gridCall m p v q) (sp.gridCall m p v q'))

/-- A user velocity function sees the legal entries of its argument only. -/
def VelocityFn.Respects (f : VelocityFn K) : Prop :=
  ∀ t (q q' : NDArray K), q.Eqv q' → Py.Rel NDArray.Eqv (f t q) (f t q')

/-- The interpolator assigns all `d` columns of its result. -/
def AnyInterp.Complete (d : ℕ) : AnyInterp K → Prop
  | .scatter _ => d = 2
  | .highPerf _ => d = 2 ∨ d = 3
  | .grid s => d = 2 ∨ (d = 3 ∧ s.ndim = some 3)
  | .analytical s => ∀ f, s.fn = some f → VelocityFn.Respects f

/-- Arrays with the same values in the columns in `S`. -/
def ColEqv (n d : ℕ) (S : ℕ → Prop) (a b : NDArray K) : Prop :=
  a.shape = [n, d] ∧ b.shape = [n, d] ∧ ∀ r < n, ∀ c, S c → a.get [r, c] = b.get [r, c]

theorem ColEqv.eqv {n d : ℕ} {S : ℕ → Prop} {a b : NDArray K} (h : ColEqv n d S a b)
    (hS : ∀ c < d, S c) : a.Eqv b := by
  refine ⟨h.1.trans h.2.1.symm, fun idx hi => ?_⟩
  rw [h.1] at hi
  unfold ValidIdx at hi
  cases hi with
  | cons hr hi =>
    cases hi with
    | cons hc hi =>
      cases hi
      exact h.2.2 _ hr _ (hS _ hc)

theorem ColEqv.setCol {n d c : ℕ} {S : ℕ → Prop} {a b : NDArray K} (h : ColEqv n d S a b)
    {f g : ℕ → K} (hfg : ∀ r < n, f r = g r) :
    ColEqv n d (fun x => S x ∨ x = c) (Verif.setCol a c f) (Verif.setCol b c g) := by
  refine ⟨h.1, h.2.1, fun r hr x hx => ?_⟩
  simp only [Verif.setCol]
  by_cases hxc : x = c
  · rw [if_pos hxc, if_pos hxc, hfg r hr]
  · rw [if_neg hxc, if_neg hxc]
    exact h.2.2 r hr x (hx.resolve_right hxc)

theorem ColEqv.assign {n d : ℕ} {S : ℕ → Prop} {a b : NDArray K} (h : ColEqv n d S a b) (c : ℕ)
    {f g : ℕ → K} (hfg : ∀ r < n, f r = g r) :
    Py.Rel (ColEqv n d (fun x => S x ∨ x = c)) (assignCol a c f) (assignCol b c g) := by
  unfold assignCol
  rw [h.1, h.2.1]
  simp only
  by_cases hc : c < d
  · rw [if_pos hc, if_pos hc]
    exact .ok (h.setCol hfg)
  · rw [if_neg hc, if_neg hc]
    exact .error _

theorem ColEqv.start {n d : ℕ} {q q' : NDArray K} (junk junk' : List ℕ → K) (hq : q.Eqv q')
    (hs : q.shape = [n, d]) :
    ColEqv n d (fun _ => False) (emptyLike junk q) (emptyLike junk' q') :=
  ⟨hs, hq.1 ▸ hs, fun _ _ _ h => h.elim⟩

theorem scatter_rel {sp : SciPy K} (hsp : sp.Respects) (junk junk' : List ℕ → K)
    (s : ScatterState K) {n : ℕ} {q q' : NDArray K} (hq : q.Eqv q') (hs : q.shape = [n, 2]) :
    Py.Rel NDArray.Eqv (s.interpolate sp junk q) (s.interpolate sp junk' q') := by
  unfold ScatterState.interpolate
  cases s.interp with
  | none => exact .error _
  | some x =>
    obtain ⟨p, v0, v1⟩ := x
    simp only
    have hn : q.shape.headD 0 = n := by rw [hs]; rfl
    have hn' : q'.shape.headD 0 = n := by rw [← hq.1, hs]; rfl
    rcases (hsp.1 s.method p v0 q q' hq).cases with ⟨e, e1, e2⟩ | ⟨f, g, e1, e2, h1⟩ <;>
      simp only [e1, e2]
    · exact .error e
    rcases (hsp.1 s.method p v1 q q' hq).cases with ⟨e, e1, e2⟩ | ⟨f', g', e1, e2, h2⟩ <;>
      simp only [e1, e2]
    · exact .error e
    rw [hn] at h1 h2
    rcases ((ColEqv.start junk junk' hq hs).assign 0 h1).cases with
      ⟨e, e1, e2⟩ | ⟨o, o', e1, e2, h3⟩ <;> simp only [e1, e2]
    · exact .error e
    rcases (h3.assign 1 h2).cases with ⟨e, e1, e2⟩ | ⟨w, w', e1, e2, h4⟩ <;> simp only [e1, e2]
    · exact .error e
    rw [hn, hn']
    have hfin : w.Eqv w' := h4.eqv fun c hc => by omega
    by_cases hc : s.method ≠ .cubic ∧ n = 3
    · rw [if_pos hc, if_pos hc]
      cases s.interpZ with
      | none => exact .error _
      | some z =>
        obtain ⟨pz, v2⟩ := z
        simp only
        rcases (hsp.1 s.method pz v2 q q' hq).cases with ⟨e, e1, e2⟩ | ⟨f'', g'', e1, e2, h5⟩ <;>
          simp only [e1, e2]
        · exact .error e
        rw [hn] at h5
        rcases (h4.assign 2 h5).cases with ⟨e, e1, e2⟩ | ⟨u, u', e1, e2, h6⟩ <;>
          simp only [e1, e2]
        · exact .error e
        · exact .ok (h6.eqv fun c hc => by omega)
    · rw [if_neg hc, if_neg hc]
      exact .ok hfin

theorem gridCol_rel {sp : SciPy K} (hsp : sp.Respects) (m : GridMethod)
    (o : Option (List (K × K × ℕ) × NDArray K)) {n d : ℕ} {q q' : NDArray K} (hq : q.Eqv q')
    (hs : q.shape = [n, d]) {S : ℕ → Prop} {a b : NDArray K} (h : ColEqv n d S a b) (c : ℕ) :
    Py.Rel (ColEqv n d (fun x => S x ∨ x = c)) (gridCol sp m o q a c) (gridCol sp m o q' b c) := by
  unfold gridCol
  cases o with
  | none => exact .error _
  | some x =>
    obtain ⟨axes, v⟩ := x
    simp only
    rcases (hsp.2 m axes v q q' hq).cases with ⟨e, e1, e2⟩ | ⟨f, g, e1, e2, h1⟩ <;>
      simp only [e1, e2]
    · exact .error e
    · refine h.assign c ?_
      rwa [hs] at h1

theorem grid_rel {sp : SciPy K} (hsp : sp.Respects) (junk junk' : List ℕ → K)
    (s : GridState K) {n d : ℕ} (hd : d = 2 ∨ (d = 3 ∧ s.ndim = some 3)) {q q' : NDArray K}
    (hq : q.Eqv q') (hs : q.shape = [n, d]) :
    Py.Rel NDArray.Eqv (s.interpolate sp junk q) (s.interpolate sp junk' q') := by
  unfold GridState.interpolate
  cases hix : s.ix with
  | none => exact .error _
  | some x =>
    simp only
    rcases (gridCol_rel hsp s.method (some x) hq hs (ColEqv.start junk junk' hq hs) 0).cases with
      ⟨e, e1, e2⟩ | ⟨o, o', e1, e2, h1⟩ <;> simp only [e1, e2]
    · exact .error e
    rcases (gridCol_rel hsp s.method s.iy hq hs h1 1).cases with
      ⟨e, e1, e2⟩ | ⟨w, w', e1, e2, h2⟩ <;> simp only [e1, e2]
    · exact .error e
    cases hnd : s.ndim with
    | none => exact .error _
    | some nd =>
      simp only
      by_cases h3 : nd = 3
      · rw [if_pos h3, if_pos h3]
        rcases (gridCol_rel hsp s.method s.iz hq hs h2 2).cases with
          ⟨e, e1, e2⟩ | ⟨u, u', e1, e2, h4⟩ <;> simp only [e1, e2]
        · exact .error e
        · exact .ok (h4.eqv fun c hc => by omega)
      · rw [if_neg h3, if_neg h3]
        refine .ok (h2.eqv fun c hc => ?_)
        rcases hd with hd | ⟨_, hd⟩
        · omega
        · rw [hnd] at hd
          cases hd
          exact (h3 rfl).elim

end

section
variable {K : Type} [Zero K] [One K] [Add K] [Sub K] [Mul K] [Div K] [DecidableEq K]

theorem call_rel (m : CMachine K) (it : Interp K) (n d : ℕ) (o : Option ℕ) {t t' : ℕ → ℕ → K}
    (h : ∀ r < n, ∀ c < d, t r c = t' r c) : it.call m n d t o = it.call m n d t' o := by
  unfold Interp.call
  by_cases hc : d < it.axes.length
  · rw [if_pos hc, if_pos hc]
  · rw [if_neg hc, if_neg hc]
    have : ((List.range n).map fun r => it.axes.zipIdx.map fun (a, c) => a.index (t r c)) =
        ((List.range n).map fun r => it.axes.zipIdx.map fun (a, c) => a.index (t' r c)) := by
      refine List.map_congr_left fun r hr => List.map_congr_left fun x hx => ?_
      have := List.snd_lt_of_mem_zipIdx hx
      simp only
      rw [h r (List.mem_range.1 hr) x.2 (by omega)]
    simp only [this]

theorem call_length {m : CMachine K} {it : Interp K} {n d : ℕ} {o : Option ℕ} {t : ℕ → ℕ → K}
    {l : List K} (h : it.call m n d t o = .ok l) : l.length = n := by
  unfold Interp.call at h
  split at h
  · cases h
  · dsimp only at h
    split at h
    · unfold interp2dVec at h
      repeat' split at h
      all_goals first
        | cases h
        | (have := pyMap_ok_length h; simpa using this)
    · unfold interp3dVec at h
      repeat' split at h
      all_goals first
        | cases h
        | (have := pyMap_ok_length h; simpa using this)

theorem listCol_eq (l : List K) (x y : K) {n : ℕ} (h : l.length = n) :
    ∀ r < n, listCol l x r = listCol l y r := by
  intro r hr
  unfold listCol
  rw [List.getElem?_eq_getElem (by omega)]
  rfl

theorem highPerf_rel (m : CMachine K) (junk junk' : List ℕ → K)
    (s : HighPerf K) {n d : ℕ} (hd : d = 2 ∨ d = 3) {q q' : NDArray K}
    (hq : q.Eqv q') (hs : q.shape = [n, d]) :
    Py.Rel NDArray.Eqv (s.interpolate m junk q).2 (s.interpolate m junk' q').2 := by
  have hs' : q'.shape = [n, d] := hq.1 ▸ hs
  have ht : ∀ r < n, ∀ c < d, q.get [r, c] = q'.get [r, c] := by
    intro r hr c hc
    refine hq.2 _ ?_
    rw [hs]
    exact .cons hr (.cons hc .nil)
  have hc : ∀ (it : Interp K) (o : Option ℕ), it.call m n d (fun r c => q'.get [r, c]) o =
      it.call m n d (fun r c => q.get [r, c]) o := fun it o => (call_rel m it n d o ht).symm
  have h0 := ColEqv.start junk junk' hq hs
  unfold HighPerf.interpolate
  rw [hs, hs']
  simp only [hc]
  rcases hd with rfl | rfl
  · simp only [if_true]
    cases (s.ensureBuffers n 2).ix with
    | none => exact .error _
    | some x =>
      cases (s.ensureBuffers n 2).iy with
      | none => exact .error _
      | some y =>
        simp only
        cases e1 : x.call m n 2 (fun r c => q.get [r, c]) (s.ensureBuffers n 2).uLen with
        | error e => exact .error e
        | ok u =>
          simp only
          cases e2 : y.call m n 2 (fun r c => q.get [r, c]) (s.ensureBuffers n 2).uLen with
          | error e => exact .error e
          | ok v =>
            refine .ok (((h0.setCol (listCol_eq u _ _ (call_length e1))).setCol
              (listCol_eq v _ _ (call_length e2))).eqv fun c hc => ?_)
            omega
  · simp only [if_true, (by decide : ¬ (3 : ℕ) = 2), if_false]
    cases (s.ensureBuffers n 3).ix with
    | none => exact .error _
    | some x =>
      cases (s.ensureBuffers n 3).iy with
      | none => exact .error _
      | some y =>
        cases (s.ensureBuffers n 3).iz with
        | none => exact .error _
        | some z =>
          simp only
          cases e1 : x.call m n 3 (fun r c => q.get [r, c]) (s.ensureBuffers n 3).uLen with
          | error e => exact .error e
          | ok u =>
            simp only
            cases e2 : y.call m n 3 (fun r c => q.get [r, c]) (s.ensureBuffers n 3).uLen with
            | error e => exact .error e
            | ok v =>
              simp only
              cases e3 : z.call m n 3 (fun r c => q.get [r, c]) (s.ensureBuffers n 3).wLen with
              | error e => exact .error e
              | ok w =>
                refine .ok ((((h0.setCol (listCol_eq u _ _ (call_length e1))).setCol
                  (listCol_eq v _ _ (call_length e2))).setCol
                  (listCol_eq w _ _ (call_length e3))).eqv fun c hc => ?_)
                omega

end

/-! ## Completeness of the result columns is kept by updates -/

section
variable {K : Type} [Min K] [Max K]

theorem grid_init_ndim (sp : SciPy K) (s : GridState K) (h : (s.initialize sp).2 = none) :
    (s.initialize sp).1.ndim = some s.gridShape.length := by
  unfold GridState.initialize at h ⊢
  split
  · split
    · simp only at h ⊢
      repeat' split
      all_goals simp_all
    · simp_all
  · simp_all

/-- A grid interpolator for 3-D particles has a three-dimensional grid. -/
def AnyInterp.Fills (d : ℕ) : AnyInterp K → Prop
  | .scatter _ => d = 2
  | .highPerf _ => d = 2 ∨ d = 3
  | .grid s => d = 2 ∨ (d = 3 ∧ s.gridShape.length = 3 ∧ (s.ix ≠ none → s.ndim = some 3))
  | .analytical s => ∀ f, s.fn = some f → VelocityFn.Respects f

theorem grid_update_ndim (sp : SciPy K) (s : GridState K) (v : NDArray K) (p : Option (NDArray K))
    (hl : s.gridShape.length = 3) (hn : s.ix ≠ none → s.ndim = some 3)
    (h : (s.update sp v p).2 = none) : (s.update sp v p).1.ndim = some 3 := by
  have hinit : ∀ s' : GridState K, s'.gridShape = s.gridShape → (s'.initialize sp).2 = none →
      (s'.initialize sp).1.ndim = some 3 := by
    intro s' hs h'
    rw [grid_init_ndim sp s' h', hs, hl]
  unfold GridState.update at h ⊢
  cases hix : s.ix with
  | none =>
    rw [hix] at h
    exact hinit _ (by rfl) h
  | some x =>
    rw [hix] at h
    cases p with
    | some p => exact hinit _ (by rfl) h
    | none =>
      have := hn (by simp [hix])
      simp only [this] at h ⊢
      repeat' split
      all_goals simp_all

end

section
variable {K F : Type} [Zero K] [One K] [Add K] [Sub K] [Mul K] [Div K] [NatCast K] [IntCast K]
  [Min K] [Max K] [NumLits K] [DecidableEq K]

theorem Fills.update {d : ℕ} {I : AnyInterp K} (h : I.Fills d) (sp : SciPy K) (v : NDArray K)
    (p : Option (NDArray K)) (hn : (I.update sp v p).2 = none) :
    (I.update sp v p).1.Fills d ∧ (I.update sp v p).1.Complete d := by
  cases I with
  | scatter s => exact ⟨h, h⟩
  | highPerf s => exact ⟨h, h⟩
  | analytical s => exact ⟨h, h⟩
  | grid s =>
    rcases h with h | ⟨h1, h2, h3⟩
    · exact ⟨.inl h, .inl h⟩
    · have := grid_update_ndim sp s v p h2 h3 hn
      have hg : (s.update sp v p).1.gridShape.length = 3 := by
        rw [(grid_update_config sp s v p).2]
        exact h2
      exact ⟨.inr ⟨h1, hg, fun _ => this⟩, .inr ⟨h1, this⟩⟩

/-- What an interpolator is after a query depends only on the shape of the query. -/
theorem interpolate_state (sp : SciPy K) (m : CMachine K) (junk junk' : List ℕ → K)
    (I : AnyInterp K) {q q' : NDArray K} (hs : q.shape = q'.shape) :
    (I.interpolate sp m junk q).1 = (I.interpolate sp m junk' q').1 := by
  have hp : ∀ (s : HighPerf K) (junk : List ℕ → K) (q : NDArray K), (s.interpolate m junk q).1 =
      match q.shape with
      | [n, dim] => s.ensureBuffers n dim
      | _ => s := by
    intro s junk q
    unfold HighPerf.interpolate
    rcases q.shape with _ | ⟨n, _ | ⟨d, _ | ⟨_, _⟩⟩⟩ <;> try rfl
    simp only
    repeat' split
    all_goals rfl
  cases I with
  | scatter s => rfl
  | grid s => rfl
  | analytical s => rfl
  | highPerf s =>
    show AnyInterp.highPerf (s.interpolate m junk q).1 = .highPerf (s.interpolate m junk' q').1
    rw [hp, hp, hs]

theorem interpolate_fills {d : ℕ} {I : AnyInterp K} (sp : SciPy K) (m : CMachine K)
    (junk : List ℕ → K) (q : NDArray K) (h : I.Fills d) :
    (I.interpolate sp m junk q).1.Fills d := by
  cases I with
  | scatter s => exact h
  | grid s => exact h
  | analytical s => exact h
  | highPerf s => exact h

theorem interpolate_complete {d : ℕ} {I : AnyInterp K} (sp : SciPy K) (m : CMachine K)
    (junk : List ℕ → K) (q : NDArray K) (h : I.Complete d) :
    (I.interpolate sp m junk q).1.Complete d := by
  cases I with
  | scatter s => exact h
  | grid s => exact h
  | analytical s => exact h
  | highPerf s => exact h

theorem interpolate_rel {sp : SciPy K} (hsp : sp.Respects) (m : CMachine K)
    (junk junk' : List ℕ → K) {n d : ℕ} {I : AnyInterp K} (hI : I.Complete d) :
    VelRel [n, d] (fun q => (I.interpolate sp m junk q).2)
      (fun q => (I.interpolate sp m junk' q).2) := by
  intro q q' hq hs
  cases I with
  | scatter s =>
    obtain rfl : d = 2 := hI
    exact scatter_rel hsp junk junk' s hq hs
  | highPerf s => exact highPerf_rel m junk junk' s hI hq hs
  | grid s => exact grid_rel hsp junk junk' s hI hq hs
  | analytical s =>
    show Py.Rel NDArray.Eqv (s.interpolate q) (s.interpolate q')
    unfold AnalyticalState.interpolate
    cases hf : s.fn with
    | none => exact .error _
    | some f => exact hI f hf s.time q q' hq

/-! ## Jacobians -/

theorem Eqv.read {a b : NDArray K} (h : a.Eqv b) (idx : List ℕ) : a.read idx = b.read idx := by
  unfold NDArray.read
  rw [← h.1]
  by_cases hv : ValidIdx a.shape idx
  · rw [if_pos hv, if_pos hv, h.2 idx hv]
  · rw [if_neg hv, if_neg hv]

theorem Eqv.split {a b : NDArray K} (h : a.Eqv b) (k : ℕ) :
    Py.Rel (List.Forall₂ NDArray.Eqv) (a.split k) (b.split k) := by
  unfold NDArray.split
  rw [← h.1]
  cases hs : a.shape with
  | nil => exact .error _
  | cons n rest =>
    simp only
    split
    · exact .error _
    · split
      · exact .error _
      · rename_i hk hn
        refine .ok ?_
        rw [List.forall₂_map_left_iff, List.forall₂_map_right_iff, List.forall₂_same]
        intro b' hb'
        refine ⟨rfl, fun idx hi => ?_⟩
        cases hi with
        | cons hr hi =>
          rename_i r is
          refine h.2 _ ?_
          rw [hs]
          refine .cons ?_ hi
          have hb := List.mem_range.1 hb'
          have hn' : n % k = 0 := by simpa using hn
          have : k * (n / k) = n := Nat.mul_div_cancel' (Nat.dvd_of_mod_eq_zero hn')
          calc b' * (n / k) + r < b' * (n / k) + n / k := by omega
            _ = (b' + 1) * (n / k) := by ring
            _ ≤ k * (n / k) := Nat.mul_le_mul_right _ hb
            _ = n := this

theorem Eqv.deltaRL {a b : NDArray K} (h : a.Eqv b) (k : ℕ) :
    Py.Rel NDArray.Eqv (computeDeltaRL a k) (computeDeltaRL b k) := by
  unfold computeDeltaRL
  rcases (Eqv.split h k).cases with ⟨e, e1, e2⟩ | ⟨l, l', e1, e2, hl⟩ <;> rw [e1, e2]
  · exact .error e
  · rcases hl with _ | ⟨h1, _ | ⟨h2, _⟩⟩
    · exact .error _
    · exact .error _
    · exact Eqv.zipWith h2 h1

theorem Eqv.deltaTB {a b : NDArray K} (h : a.Eqv b) (k : ℕ) :
    Py.Rel NDArray.Eqv (computeDeltaTB a k) (computeDeltaTB b k) := by
  unfold computeDeltaTB
  rcases (Eqv.split h k).cases with ⟨e, e1, e2⟩ | ⟨l, l', e1, e2, hl⟩ <;> rw [e1, e2]
  · exact .error e
  · rcases hl with _ | ⟨h1, _ | ⟨h2, _ | ⟨h3, _ | ⟨h4, _⟩⟩⟩⟩
    · exact .error _
    · exact .error _
    · exact .error _
    · exact .error _
    · exact Eqv.zipWith h3 h4

theorem Eqv.deltaFB {a b : NDArray K} (h : a.Eqv b) (k : ℕ) :
    Py.Rel NDArray.Eqv (computeDeltaFB a k) (computeDeltaFB b k) := by
  unfold computeDeltaFB
  rcases (Eqv.split h k).cases with ⟨e, e1, e2⟩ | ⟨l, l', e1, e2, hl⟩ <;> rw [e1, e2]
  · exact .error e
  · have hr := List.forall₂_reverse_iff.2 hl
    simp only
    rcases hr' : l.reverse with _ | ⟨x, _ | ⟨y, t⟩⟩ <;> rcases hr'' : l'.reverse with _ | ⟨x', _ | ⟨y', t'⟩⟩ <;>
      rw [hr', hr''] at hr
    all_goals first
      | exact .error _
      | (cases hr; done)
      | (rcases hr with _ | ⟨_, _ | _⟩; done)
      | (rcases hr with _ | ⟨h1, h2 | ⟨h2, _⟩⟩; exact Eqv.zipWith h2 h1)

/-- Particle sets that differ at most in illegal entries of the positions. -/
structure Particles.Rel (p p' : Particles K) : Prop where
  positions : p.positions.Eqv p'.positions
  tb : p.initialDeltaTB = p'.initialDeltaTB
  rl : p.initialDeltaRL = p'.initialDeltaRL
  fb : p.initialDeltaFB = p'.initialDeltaFB
  centroid : p.initialCentroid = p'.initialCentroid
  nn : p.numNeighbors = p'.numNeighbors

theorem jacEntry_rel {a b : NDArray K} (h : a.Eqv b) (D : NDArray K) (i r c : ℕ) :
    jacEntry a D i r c = jacEntry b D i r c := by
  unfold jacEntry
  rw [Eqv.read h]

theorem computeFtle_rel (env : Env K F) (junk' : List ℕ → K) {p p' : Particles K} (h : p.Rel p')
    (n : ℕ) (dt : K) :
    computeFtle env p n dt = computeFtle { env with junk := junk' } p' n dt := by
  have j2 : jacobian2 p = jacobian2 p' := by
    unfold jacobian2 Particles.deltaRL Particles.deltaTB
    rw [← h.nn, ← h.positions.1, ← h.rl, ← h.tb]
    rcases (Eqv.deltaRL h.positions p.numNeighbors).cases with ⟨e, e1, e2⟩ | ⟨a, a', e1, e2, ha⟩ <;>
      simp only [e1, e2]
    rcases (Eqv.deltaTB h.positions p.numNeighbors).cases with ⟨e, e1, e2⟩ | ⟨b, b', e1, e2, hb⟩ <;>
      simp only [e1, e2]
    refine pyMap_congr fun i _ => ?_
    unfold jac2Body
    simp only [jacEntry_rel ha, jacEntry_rel hb]
  have j3 : jacobian3 p = jacobian3 p' := by
    unfold jacobian3 Particles.deltaRL Particles.deltaTB Particles.deltaFB
    rw [← h.nn, ← h.positions.1, ← h.rl, ← h.tb, ← h.fb]
    rcases (Eqv.deltaRL h.positions p.numNeighbors).cases with ⟨e, e1, e2⟩ | ⟨a, a', e1, e2, ha⟩ <;>
      simp only [e1, e2]
    rcases (Eqv.deltaTB h.positions p.numNeighbors).cases with ⟨e, e1, e2⟩ | ⟨b, b', e1, e2, hb⟩ <;>
      simp only [e1, e2]
    rcases (Eqv.deltaFB h.positions p.numNeighbors).cases with ⟨e, e1, e2⟩ | ⟨c, c', e1, e2, hc⟩ <;>
      simp only [e1, e2]
    refine pyMap_congr fun i _ => ?_
    unfold jac3Body
    simp only [jacEntry_rel ha, jacEntry_rel hb, jacEntry_rel hc]
  unfold computeFtle
  rw [j2, j3, h.nn]

/-! ## The loop -/

/-- Loop states of two runs that differ in the contents of uninitialised memory. -/
structure LoopRel (sh : List ℕ) (k : Kind) (a b : Loop K F) : Prop where
  interp : a.interp = b.interp
  integ : IntegRel a.integ b.integ
  inv : a.integ.Inv k
  inv' : b.integ.Inv k
  particles : a.particles.Rel b.particles
  shape : a.particles.positions.shape = sh
  trace : a.trace = b.trace

theorem LoopRel.step {n d : ℕ} {k : Kind} (env : Env K F) (hsp : env.sp.Respects)
    (junk' : List ℕ → K) (src : Source K) (id : String) (queue : Bool) (i : ℕ) {a b : Loop K F}
    (hI : (src.updateInterp env a.interp i).2 = none →
      (src.updateInterp env a.interp i).1.Fills d ∧ (src.updateInterp env a.interp i).1.Complete d)
    (h : LoopRel [n, d] k a b) :
    (a.step env src id queue i).2 = (b.step { env with junk := junk' } src id queue i).2 ∧
    (a.step env src id queue i).1.trace =
      (b.step { env with junk := junk' } src id queue i).1.trace ∧
    ((a.step env src id queue i).2 = none →
      LoopRel [n, d] k (a.step env src id queue i).1
        (b.step { env with junk := junk' } src id queue i).1 ∧
      (a.step env src id queue i).1.interp.Fills d ∧
      (a.step env src id queue i).1.interp.Complete d) := by
  have ht := Loop.step_trace env src id queue i a
  have ht' := Loop.step_trace { env with junk := junk' } src id queue i b
  have main : (a.step env src id queue i).2 =
        (b.step { env with junk := junk' } src id queue i).2 ∧
      ((a.step env src id queue i).2 = none →
        (a.step env src id queue i).1.interp =
          (b.step { env with junk := junk' } src id queue i).1.interp ∧
        IntegRel (a.step env src id queue i).1.integ
          (b.step { env with junk := junk' } src id queue i).1.integ ∧
        (a.step env src id queue i).1.integ.Inv k ∧
        (b.step { env with junk := junk' } src id queue i).1.integ.Inv k ∧
        (a.step env src id queue i).1.particles.Rel
          (b.step { env with junk := junk' } src id queue i).1.particles ∧
        (a.step env src id queue i).1.particles.positions.shape = [n, d] ∧
        (a.step env src id queue i).1.interp.Fills d ∧
        (a.step env src id queue i).1.interp.Complete d) := by
    have hu : src.updateInterp { env with junk := junk' } b.interp i =
        src.updateInterp env a.interp i := by
      rw [h.interp]
      cases src <;> rfl
    unfold Loop.step
    rw [hu]
    rcases hua : src.updateInterp env a.interp i with ⟨I, _ | e⟩
    · rw [hua] at hI
      obtain ⟨hF, hC⟩ := hI rfl
      simp only at hF hC
      have hv : VelRel [n, d] (I.velocity env) (I.velocity { env with junk := junk' }) :=
        interpolate_rel hsp env.m env.junk junk' hC
      have hstep := h.integ.step hv env.junk junk' src.timestep h.inv h.inv' h.particles.positions
        h.shape
      have hst := interpolate_state env.sp env.m env.junk junk' I h.particles.positions.1
      simp only [integrate_eq]
      have i1 := step_inv k env.junk (I.velocity env) src.timestep a.particles.positions h.inv
      have i2 := step_inv k junk' (I.velocity { env with junk := junk' }) src.timestep
        b.particles.positions h.inv'
      rcases hstep.1.cases with ⟨e, e1, e2⟩ | ⟨q, q', e1, e2, hq⟩ <;> simp only [e1, e2]
      · exact ⟨trivial, by intro hc; cases hc⟩
      · refine ⟨trivial, fun _ => ⟨hst, hstep.2 q e1, i1, i2,
          ⟨hq, h.particles.tb, h.particles.rl, h.particles.fb, h.particles.centroid,
            h.particles.nn⟩, ?_, interpolate_fills _ _ _ _ hF, interpolate_complete _ _ _ _ hC⟩⟩
        have he : a.integ.step env.junk (I.velocity env) src.timestep a.particles.positions =
            ((a.integ.step env.junk (I.velocity env) src.timestep a.particles.positions).1,
              .ok q) := by rw [← e1]
        exact (step_shape he).trans h.shape
    · exact ⟨rfl, by intro hc; cases hc⟩
  obtain ⟨m1, m2⟩ := main
  have m3 : (a.step env src id queue i).1.trace =
      (b.step { env with junk := junk' } src id queue i).1.trace := by
    rw [ht, ht', h.trace, m1]
  refine ⟨m1, m3, fun hn => ?_⟩
  obtain ⟨x1, x2, x3, x4, x5, x6, x7, x8⟩ := m2 hn
  exact ⟨⟨x1, x2, x3, x4, x5, x6, m3⟩, x7, x8⟩

theorem LoopRel.steps {n d : ℕ} {k : Kind} (env : Env K F) (hsp : env.sp.Respects)
    (junk' : List ℕ → K) (src : Source K) (id : String) (queue : Bool) :
    ∀ (l : List ℕ) {a b : Loop K F}, a.interp.Fills d →
    (∀ s, src = .analytical s → a.interp.Complete d) → LoopRel [n, d] k a b →
    (Loop.steps env src id queue l a).2 =
      (Loop.steps { env with junk := junk' } src id queue l b).2 ∧
    (Loop.steps env src id queue l a).1.trace =
      (Loop.steps { env with junk := junk' } src id queue l b).1.trace ∧
    ((Loop.steps env src id queue l a).2 = none →
      LoopRel [n, d] k (Loop.steps env src id queue l a).1
        (Loop.steps { env with junk := junk' } src id queue l b).1)
  | [], _, _, _, _, h => ⟨rfl, h.trace, fun _ => h⟩
  | i :: l, a, b, hF, hA, h => by
    have hI : (src.updateInterp env a.interp i).2 = none →
        (src.updateInterp env a.interp i).1.Fills d ∧
          (src.updateInterp env a.interp i).1.Complete d := by
      cases src with
      | analytical s => exact fun _ => ⟨hF, hA s rfl⟩
      | file s =>
        simp only [Source.updateInterp]
        cases s.dataForStep env.fs i with
        | error e => intro hc; cases hc
        | ok x => exact fun hn => Fills.update hF env.sp x.1 x.2 hn
    obtain ⟨s1, s2, s3⟩ := h.step env hsp junk' src id queue i hI
    simp only [Loop.steps]
    rcases ha : a.step env src id queue i with ⟨a', _ | e⟩ <;>
      rcases hb : b.step { env with junk := junk' } src id queue i with ⟨b', _ | e'⟩ <;>
      rw [ha, hb] at s1 s2 s3 <;> simp only at s1 s2 s3
    · obtain ⟨t1, t2, t3⟩ := s3 trivial
      exact LoopRel.steps env hsp junk' src id queue l t2 (fun _ _ => t3) t1
    · cases s1
    · cases s1
    · exact ⟨s1, s2, fun hc => by cases hc⟩

end

end Verif
