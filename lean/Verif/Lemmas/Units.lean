import Verif.Spec.Units
import Verif.Lemmas.Memory

/-!
# Helper lemmas: two runs in different units

As in `Lemmas/Memory.lean`, with arrays related entrywise instead of equal.
-/

set_option linter.unusedSectionVars false

namespace Verif

section
variable {α α' β β' γ γ' : Type*}

theorem RelBy.zipWith {R : List ℕ → α → α' → Prop} {S : List ℕ → β → β' → Prop}
    {T : List ℕ → γ → γ' → Prop} {f : α → β → γ} {f' : α' → β' → γ'}
    (hf : ∀ idx x x' y y', R idx x x' → S idx y y' → T idx (f x y) (f' x' y'))
    {a : NDArray α} {a' : NDArray α'} {b : NDArray β} {b' : NDArray β'}
    (h : a.RelBy R a') (h' : b.RelBy S b') :
    Py.Rel (NDArray.RelBy T) (NDArray.zipWith f a b) (NDArray.zipWith f' a' b') := by
  unfold NDArray.zipWith
  rw [← h.1, ← h'.1]
  by_cases hs : a.shape = b.shape
  · rw [if_pos hs, if_pos hs]
    exact .ok ⟨rfl, fun idx hi => hf _ _ _ _ _ (h.2 idx hi) (h'.2 idx (hs ▸ hi))⟩
  · rw [if_neg hs, if_neg hs]
    exact .error _

theorem RelBy.copyto {R : α → α → Prop} {dst dst' src src' : NDArray α}
    (hd : dst.shape = dst'.shape) (hs : src.RelBy (fun _ => R) src') :
    Py.Rel (NDArray.RelBy fun _ => R) (Verif.copyto dst src) (Verif.copyto dst' src') := by
  unfold Verif.copyto
  rw [← hd, ← hs.1]
  by_cases hb : bcastOk src.shape.reverse dst.shape.reverse = true
  · rw [if_pos hb, if_pos hb]
    refine .ok ⟨rfl, fun idx hi => hs.2 _ ?_⟩
    unfold ValidIdx
    rw [← List.forall₂_reverse_iff, List.reverse_reverse]
    exact bcastIdx_valid hb (List.forall₂_reverse_iff.2 hi)
  · rw [if_neg hb, if_neg hb]
    exact .error _

theorem bcastIdx_self : ∀ {ss is : List ℕ}, List.Forall₂ (· < ·) is ss → bcastIdx ss is = is
  | [], [], .nil => rfl
  | s :: ss, i :: is, .cons hi his => by
    simp only [bcastIdx, bcastIdx_self his]
    split
    · congr 1; omega
    · rfl

theorem bcastOk_self : ∀ ss : List ℕ, bcastOk ss ss = true
  | [] => rfl
  | s :: ss => by simp [bcastOk, bcastOk_self ss]

theorem RelBy.copyto_self {R : List ℕ → α → α → Prop} {dst dst' src src' : NDArray α}
    (h1 : dst.shape = src.shape) (h2 : dst'.shape = src'.shape) (hs : src.RelBy R src') :
    Py.Rel (NDArray.RelBy R) (Verif.copyto dst src) (Verif.copyto dst' src') := by
  have key : ∀ idx, ValidIdx src.shape idx →
      (bcastIdx src.shape.reverse idx.reverse).reverse = idx := fun idx hi => by
    rw [bcastIdx_self (List.forall₂_reverse_iff.2 hi), List.reverse_reverse]
  unfold Verif.copyto
  rw [h1, h2, ← hs.1, if_pos (bcastOk_self _), if_pos (bcastOk_self _)]
  refine .ok ⟨rfl, fun idx hi => ?_⟩
  dsimp only at hi ⊢
  rw [key idx hi]
  exact hs.2 idx hi

theorem RelBy.split {R : List ℕ → α → α' → Prop}
    (hR : ∀ r r' is x y, R (r :: is) x y → R (r' :: is) x y) {a : NDArray α} {b : NDArray α'}
    (h : a.RelBy R b) (k : ℕ) :
    Py.Rel (List.Forall₂ (NDArray.RelBy R)) (a.split k) (b.split k) := by
  unfold NDArray.split
  rw [← h.1]
  cases hs : a.shape with
  | nil => exact .error _
  | cons n rest =>
    simp only
    split
    · exact .error _
    · split
      · exact .error _
      · rename_i hk hn
        refine .ok ?_
        rw [List.forall₂_map_left_iff, List.forall₂_map_right_iff, List.forall₂_same]
        intro b' hb'
        refine ⟨rfl, fun idx hi => ?_⟩
        cases hi with
        | cons hr hi =>
          rename_i r is
          refine hR _ _ _ _ _ (h.2 ((b' * (n / k) + r) :: is) ?_)
          rw [hs]
          refine .cons ?_ hi
          have hb := List.mem_range.1 hb'
          have hn' : n % k = 0 := by simpa using hn
          have : k * (n / k) = n := Nat.mul_div_cancel' (Nat.dvd_of_mod_eq_zero hn')
          calc b' * (n / k) + r < b' * (n / k) + n / k := by omega
            _ = (b' + 1) * (n / k) := by ring
            _ ≤ k * (n / k) := Nat.mul_le_mul_right _ hb
            _ = n := this

end

variable {K F : Type} [Field K] [LinearOrder K] [IsStrictOrderedRing K]

namespace Units
variable (U : Units K)

theorem c_mul : U.τ * U.c = U.a := by
  have := U.τ_pos.ne'
  unfold c
  field_simp

/-- Velocity sources in the two systems. -/
def VelRel (sh : List ℕ) (v v' : Velocity K) : Prop :=
  ∀ q q' : NDArray K, U.Moved q q' → q.shape = sh → Py.Rel (Scaled U.c) (v q) (v' q')

variable {U}

theorem fillFrom {sh : List ℕ} {v v' : Velocity K} (hv : U.VelRel sh v v') {b b' q q' : NDArray K}
    (hb : b.shape = b'.shape) (hq : U.Moved q q') (hs : q.shape = sh) :
    Py.Rel (Scaled U.c) (Verif.fillFrom b v q) (Verif.fillFrom b' v' q') := by
  unfold Verif.fillFrom
  rcases (hv q q' hq hs).cases with ⟨e, e1, e2⟩ | ⟨a, a', e1, e2, h⟩ <;> rw [e1, e2]
  · exact .error e
  · exact RelBy.copyto (R := fun x y => y = U.c * x) hb h

/-- `x + h k` in both systems. -/
theorem advance {p p' k k' : NDArray K} (hp : U.Moved p p') (hk : Scaled U.c k k') {h h' : K}
    (hh : h' = U.τ * h) : Py.Rel U.Moved (NDArray.zipWith (fun x k => x + h * k) p k)
      (NDArray.zipWith (fun x k => x + h' * k) p' k') := by
  refine RelBy.zipWith (fun idx x x' y y' h1 h2 => ?_) hp hk
  rw [h1, h2, hh, ← U.c_mul]
  ring

theorem stagePoint {t t' p p' k k' : NDArray K} (h1 : t.shape = p.shape) (h2 : t'.shape = p'.shape)
    (hp : U.Moved p p') (hk : Scaled U.c k k') {h h' : K} (hh : h' = U.τ * h) :
    Py.Rel U.Moved (Verif.stagePoint t p h k) (Verif.stagePoint t' p' h' k') := by
  unfold Verif.stagePoint
  rcases (RelBy.copyto_self h1 h2 hp).cases with ⟨e, e1, e2⟩ | ⟨a, a', e1, e2, h⟩ <;> rw [e1, e2]
  · exact .error e
  · exact advance h hk hh

theorem rk4Kernel {p p' a a' b b' c c' d d' : NDArray K} (hp : U.Moved p p') (ha : Scaled U.c a a')
    (hb : Scaled U.c b b') (hc : Scaled U.c c c') (hd : Scaled U.c d d') {h h' : K}
    (hh : h' = U.τ * h) :
    Py.Rel U.Moved (Verif.rk4Kernel p h a b c d) (Verif.rk4Kernel p' h' a' b' c' d') := by
  have hadd : ∀ {a a' b b' : NDArray K}, Scaled U.c a a' → Scaled U.c b b' →
      Py.Rel (Scaled U.c) (NDArray.zipWith (fun a b => a + NumLits.two * b) a b)
        (NDArray.zipWith (fun a b => a + NumLits.two * b) a' b') := fun ha hb =>
    RelBy.zipWith (fun idx x x' y y' h1 h2 => by rw [h1, h2]; ring) ha hb
  unfold Verif.rk4Kernel
  rcases (hadd ha hb).cases with ⟨e, e1, e2⟩ | ⟨_, _, e1, e2, h1⟩ <;> rw [e1, e2]
  · exact .error e
  simp only
  rcases (hadd h1 hc).cases with ⟨e, e1, e2⟩ | ⟨_, _, e1, e2, h2⟩ <;> rw [e1, e2]
  · exact .error e
  simp only
  have h3 : ∀ {a a' b b' : NDArray K}, Scaled U.c a a' → Scaled U.c b b' →
      Py.Rel (Scaled U.c) (NDArray.zipWith (fun a b => a + b) a b)
        (NDArray.zipWith (fun a b => a + b) a' b') := fun ha hb =>
    RelBy.zipWith (fun idx x x' y y' h1 h2 => by rw [h1, h2]; ring) ha hb
  rcases (h3 h2 hd).cases with ⟨e, e1, e2⟩ | ⟨_, _, e1, e2, h3⟩ <;> rw [e1, e2]
  · exact .error e
  · exact advance hp h3 (by rw [hh]; ring)

theorem ab2Kernel {p p' a a' b b' : NDArray K} (hp : U.Moved p p') (ha : Scaled U.c a a')
    (hb : Scaled U.c b b') {h h' : K} (hh : h' = U.τ * h) :
    Py.Rel U.Moved (Verif.ab2Kernel p h a b) (Verif.ab2Kernel p' h' a' b') := by
  unfold Verif.ab2Kernel
  have h3 : Py.Rel (Scaled U.c)
      (NDArray.zipWith (fun v p => NumLits.onePointFive * v - NumLits.half * p) a b)
      (NDArray.zipWith (fun v p => NumLits.onePointFive * v - NumLits.half * p) a' b') :=
    RelBy.zipWith (fun idx x x' y y' h1 h2 => by rw [h1, h2]; ring) ha hb
  rcases h3.cases with ⟨e, e1, e2⟩ | ⟨_, _, e1, e2, h1⟩ <;> rw [e1, e2]
  · exact .error e
  · exact advance hp h1 hh

variable (U) in
/-- Integrator states in the two systems. -/
inductive IntegRel : Integ K → Integ K → Prop
  | euler {b b' : Option (NDArray K)} : IntegRel (.euler b) (.euler b')
  | ab2none {b b' : Option (NDArray K)} : IntegRel (.ab2 none b) (.ab2 none b')
  | ab2some {p p' : NDArray K} {b b' : Option (NDArray K)} (hp : Scaled U.c p p') :
      IntegRel (.ab2 (some p) b) (.ab2 (some p') b')
  | rk4 {b b' : Option (Rk4Bufs K)} : IntegRel (.rk4 b) (.rk4 b')

theorem IntegRel.fresh (k : Kind) : IntegRel U (Integ.fresh k) (Integ.fresh k) := by
  cases k
  · exact .euler
  · exact .ab2none
  · exact .rk4

theorem rk4Step {sh : List ℕ} {v v' : Velocity K} (hv : U.VelRel sh v v') (junk junk' : List ℕ → K)
    {dt dt' : K} (hdt : dt' = U.τ * dt) (b b' : Option (Rk4Bufs K)) {p p' : NDArray K}
    (hp : U.Moved p p') (hs : p.shape = sh) (hb : ∀ c, b = some c → c.Uniform)
    (hb' : ∀ c, b' = some c → c.Uniform) :
    Py.Rel U.Moved (Verif.rk4Step junk v dt b p).2 (Verif.rk4Step junk' v' dt' b' p').2 := by
  obtain ⟨⟨u2, u3, u4, u5⟩, u1⟩ := rk4Bufs_uniform junk b p hb
  obtain ⟨⟨w2, w3, w4, w5⟩, w1⟩ := rk4Bufs_uniform junk' b' p' hb'
  unfold Verif.rk4Step
  generalize rk4Bufs junk b p = B at *
  generalize rk4Bufs junk' b' p' = B' at *
  have h1 : B.k1.shape = B'.k1.shape := (u1.trans hp.1).trans w1.symm
  have hhalf : NumLits.half * dt' = U.τ * (NumLits.half * dt) := by rw [hdt]; ring
  simp only
  rcases (fillFrom hv h1 hp hs).cases with ⟨e, e1, e2⟩ | ⟨k1, k1', e1, e2, g1⟩ <;>
    simp only [e1, e2]
  · exact .error e
  rcases (stagePoint (t := B.tmp) (t' := B'.tmp) (u5.trans u1) (w5.trans w1) hp g1 hhalf).cases with
    ⟨e, e1, e2⟩ | ⟨t1, t1', e1, e2, s1⟩ <;> simp only [e1, e2]
  · exact .error e
  have a1 : t1.shape = p.shape := (stagePoint_shape e1).trans (u5.trans u1)
  have b1 : t1'.shape = p'.shape := (stagePoint_shape e2).trans (w5.trans w1)
  rcases (fillFrom hv (b := B.k2) (b' := B'.k2) (by rw [u2, w2, h1]) s1 (a1.trans hs)).cases with
    ⟨e, e1, e2⟩ | ⟨k2, k2', e1, e2, g2⟩ <;> simp only [e1, e2]
  · exact .error e
  rcases (stagePoint a1 b1 hp g2 hhalf).cases with
    ⟨e, e1, e2⟩ | ⟨t2, t2', e1, e2, s2⟩ <;> simp only [e1, e2]
  · exact .error e
  have a2 : t2.shape = p.shape := (stagePoint_shape e1).trans a1
  have b2 : t2'.shape = p'.shape := (stagePoint_shape e2).trans b1
  rcases (fillFrom hv (b := B.k3) (b' := B'.k3) (by rw [u3, w3, h1]) s2 (a2.trans hs)).cases with
    ⟨e, e1, e2⟩ | ⟨k3, k3', e1, e2, g3⟩ <;> simp only [e1, e2]
  · exact .error e
  rcases (stagePoint a2 b2 hp g3 hdt).cases with
    ⟨e, e1, e2⟩ | ⟨t3, t3', e1, e2, s3⟩ <;> simp only [e1, e2]
  · exact .error e
  have a3 : t3.shape = p.shape := (stagePoint_shape e1).trans a2
  rcases (fillFrom hv (b := B.k4) (b' := B'.k4) (by rw [u4, w4, h1]) s3 (a3.trans hs)).cases with
    ⟨e, e1, e2⟩ | ⟨k4, k4', e1, e2, g4⟩ <;> simp only [e1, e2]
  · exact .error e
  exact rk4Kernel hp g1 g2 g3 g4 hdt

/-- One step of an integrator. -/
theorem IntegRel.step {sh : List ℕ} {v v' : Velocity K} (hv : U.VelRel sh v v')
    (junk junk' : List ℕ → K) {dt dt' : K} (hdt : dt' = U.τ * dt) {G G' : Integ K}
    (hG : IntegRel U G G') {k : Kind} (hinv : G.Inv k) (hinv' : G'.Inv k) {p p' : NDArray K}
    (hp : U.Moved p p') (hs : p.shape = sh) :
    Py.Rel U.Moved (G.step junk v dt p).2 (G'.step junk' v' dt' p').2 ∧
      (∀ q, (G.step junk v dt p).2 = .ok q →
        IntegRel U (G.step junk v dt p).1 (G'.step junk' v' dt' p').1) := by
  have halloc : ∀ b b' : Option (NDArray K),
      (reuseOrAlloc junk b p).shape = (reuseOrAlloc junk' b' p').shape := fun b b' => by
    rw [reuseOrAlloc_shape, reuseOrAlloc_shape, hp.1]
  cases hG with
  | euler =>
    rename_i b b'
    simp only [Integ.step, eulerStep]
    rcases (fillFrom hv (halloc b b') hp hs).cases with
      ⟨e, e1, e2⟩ | ⟨a, a', e1, e2, h⟩ <;> simp only [e1, e2]
    · exact ⟨.error e, fun q h => by cases h⟩
    · exact ⟨advance hp h hdt, fun q _ => .euler⟩
  | ab2none =>
    rename_i b b'
    simp only [Integ.step, ab2Step]
    rcases (fillFrom hv (halloc b b') hp hs).cases with
      ⟨e, e1, e2⟩ | ⟨a, a', e1, e2, h⟩ <;> simp only [e1, e2]
    · exact ⟨.error e, fun q h => by cases h⟩
    have hk : Py.Rel U.Moved (eulerKernel p dt a) (eulerKernel p' dt' a') := advance hp h hdt
    rcases hk.cases with ⟨e, e1, e2⟩ | ⟨_, _, e1, e2, h1⟩ <;> simp only [e1, e2]
    · exact ⟨.error e, fun q h => by cases h⟩
    rcases (RelBy.copyto (R := fun x y => y = U.c * x) (dst := emptyLike junk a)
      (dst' := emptyLike junk' a') h.1 h).cases with
      ⟨e, e1, e2⟩ | ⟨_, _, e1, e2, h2⟩ <;> simp only [e1, e2]
    · exact ⟨.error e, fun q h => by cases h⟩
    · exact ⟨.ok h1, fun q _ => .ab2some h2⟩
  | ab2some hpp =>
    rename_i pr pr' b b'
    simp only [Integ.step, ab2Step]
    rcases (fillFrom hv (halloc b b') hp hs).cases with
      ⟨e, e1, e2⟩ | ⟨a, a', e1, e2, h⟩ <;> simp only [e1, e2]
    · exact ⟨.error e, fun q h => by cases h⟩
    rcases (ab2Kernel hp h hpp hdt).cases with
      ⟨e, e1, e2⟩ | ⟨_, _, e1, e2, h1⟩ <;> simp only [e1, e2]
    · exact ⟨.error e, fun q h => by cases h⟩
    rcases (RelBy.copyto (R := fun x y => y = U.c * x) (dst := pr) (dst' := pr') hpp.1 h).cases with
      ⟨e, e1, e2⟩ | ⟨_, _, e1, e2, h2⟩ <;> simp only [e1, e2]
    · exact ⟨.error e, fun q h => by cases h⟩
    · exact ⟨.ok h1, fun q _ => .ab2some h2⟩
  | rk4 =>
    rename_i b b'
    refine ⟨rk4Step hv junk junk' hdt b b' hp hs ?_ ?_, fun q hq => ?_⟩
    · rintro c rfl
      cases k <;> first | exact hinv | exact hinv.elim
    · rintro c rfl
      cases k <;> first | exact hinv' | exact hinv'.elim
    · have e1 : ∀ (junk : List ℕ → K) (v : Velocity K) (dt : K) (b : Option (Rk4Bufs K)) (p : NDArray K),
          ∃ B, (Verif.rk4Step junk v dt b p).1 = .rk4 (some B) := by
        intro junk v dt b p
        unfold Verif.rk4Step
        dsimp only
        repeat' split
        all_goals exact ⟨_, rfl⟩
      obtain ⟨B, hB⟩ := e1 junk v dt b p
      obtain ⟨B', hB'⟩ := e1 junk' v' dt' b' p'
      show IntegRel U (Verif.rk4Step junk v dt b p).1 (Verif.rk4Step junk' v' dt' b' p').1
      rw [hB, hB']
      exact .rk4

end Units

end Verif
