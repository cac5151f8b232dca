import Verif.Spec.Flow

/-!
# Helper lemmas: integrators row by row

For a velocity source that is pointwise (the velocity of a row depends on that row
only) one integrator step acts on every row separately; `rowStep` is that action.
-/

namespace Verif

variable {K : Type*}

theorem copyto_same {dst src : NDArray K} {R d : ℕ} (h1 : dst.shape = [R, d])
    (h2 : src.shape = [R, d]) :
    ∃ B, copyto dst src = .ok B ∧ B.shape = [R, d] ∧ ∀ r < R, rowOf B d r = rowOf src d r := by
  refine ⟨⟨dst.shape, fun idx => src.get (bcastIdx src.shape.reverse idx.reverse).reverse⟩,
    by simp [copyto, h1, h2, bcastOk], h1, ?_⟩
  intro r hr
  funext c
  have hc := c.2
  simp only [rowOf, h2]
  by_cases hR : R = 1
  · have hr0 : r = 0 := by omega
    by_cases hd : d = 1
    · have hc0 : c.1 = 0 := by omega
      simp [bcastIdx, hR, hd, hr0, hc0]
    · simp [bcastIdx, hR, hd, hr0]
  · by_cases hd : d = 1
    · have hc0 : c.1 = 0 := by omega
      simp [bcastIdx, hR, hd, hc0]
    · simp [bcastIdx, hR, hd]

theorem copyto_shape {dst src B : NDArray K} (h : copyto dst src = .ok B) :
    B.shape = dst.shape := by
  unfold copyto at h
  split at h
  · cases h; rfl
  · cases h

/-- The result of `copyto` depends on the destination only through its shape. -/
theorem copyto_congr {dst dst' : NDArray K} (h : dst.shape = dst'.shape) (src : NDArray K) :
    copyto dst src = copyto dst' src := by
  simp only [copyto, h]

theorem zipWith_rows {f : K → K → K} {a b : NDArray K} {R d : ℕ} (ha : a.shape = [R, d])
    (hb : b.shape = [R, d]) :
    ∃ A, NDArray.zipWith f a b = .ok A ∧ A.shape = [R, d] ∧
      ∀ r, rowOf A d r = fun c => f (rowOf a d r c) (rowOf b d r c) :=
  ⟨_, by simp [NDArray.zipWith, ha, hb]; rfl, rfl, fun r => rfl⟩

theorem fillFrom_rows {buf pos : NDArray K} {vel : Velocity K} {R d : ℕ}
    {g : (Fin d → K) → Fin d → K} (hv : Pointwise R d vel g) (hb : buf.shape = [R, d])
    (hp : pos.shape = [R, d]) :
    ∃ A, fillFrom buf vel pos = .ok A ∧ A.shape = [R, d] ∧
      ∀ r < R, rowOf A d r = g (rowOf pos d r) := by
  obtain ⟨A, a1, a2, a3⟩ := hv pos hp
  obtain ⟨B, b1, b2, b3⟩ := copyto_same hb a2
  exact ⟨B, by simp only [fillFrom, a1, b1], b2, fun r hr => by rw [b3 r hr, a3 r hr]⟩

theorem reuseOrAlloc_shape (junk : List ℕ → K) (buf : Option (NDArray K)) (pos : NDArray K) :
    (reuseOrAlloc junk buf pos).shape = pos.shape := by
  unfold reuseOrAlloc
  cases buf with
  | none => rfl
  | some b =>
    by_cases h : b.shape = pos.shape
    · simp [h]
    · simp [h, emptyLike]

section

set_option linter.unusedSectionVars false
set_option linter.unusedTactic false

variable [Add K] [Sub K] [Mul K] [Div K] [NumLits K]

theorem stagePoint_rows {tmp pos k : NDArray K} {c : K} {R d : ℕ} (ht : tmp.shape = [R, d])
    (hp : pos.shape = [R, d]) (hk : k.shape = [R, d]) :
    ∃ A, stagePoint tmp pos c k = .ok A ∧ A.shape = [R, d] ∧
      ∀ r < R, rowOf A d r = fun j => rowOf pos d r j + c * rowOf k d r j := by
  obtain ⟨B, b1, b2, b3⟩ := copyto_same ht hp
  obtain ⟨A, a1, a2, a3⟩ := zipWith_rows (f := fun x k => x + c * k) b2 hk
  exact ⟨A, by simp only [stagePoint, b1, a1], a2, fun r hr => by rw [a3, b3 r hr]⟩

/-- The class of an integrator. -/
def Integ.kind : Integ K → Kind
  | .euler _ => .euler
  | .ab2 _ _ => .ab2
  | .rk4 _ => .rk4

/-- The previous velocity of row `r` remembered by an AB2 integrator. -/
def Integ.prevRow (d : ℕ) (r : ℕ) : Integ K → Option (Fin d → K)
  | .ab2 (some P) _ => some (rowOf P d r)
  | _ => none

/-- The internal arrays fit `R × d` particle arrays. -/
def Integ.Fits (R d : ℕ) : Integ K → Prop
  | .euler _ => True
  | .ab2 (some P) _ => P.shape = [R, d]
  | .ab2 none _ => True
  | .rk4 none => True
  | .rk4 (some b) => b.k2.shape = b.k1.shape ∧ b.k3.shape = b.k1.shape ∧
      b.k4.shape = b.k1.shape ∧ b.tmp.shape = b.k1.shape

theorem Integ.fits_fresh (R d : ℕ) (k : Kind) : (Integ.fresh k : Integ K).Fits R d := by
  cases k <;> trivial

theorem Integ.kind_fresh (k : Kind) : (Integ.fresh k : Integ K).kind = k := by
  cases k <;> rfl

theorem Integ.prevRow_fresh (d r : ℕ) (k : Kind) :
    (Integ.fresh k : Integ K).prevRow d r = none := by
  cases k <;> rfl

/-- One integrator step for a single particle. -/
def rowStep {d : ℕ} (k : Kind) (g : (Fin d → K) → Fin d → K) (h : K) (prev : Option (Fin d → K))
    (x : Fin d → K) : Fin d → K :=
  match k with
  | .euler => fun c => x c + h * g x c
  | .ab2 =>
    match prev with
    | none => fun c => x c + h * g x c
    | some p => fun c => x c + h * (NumLits.onePointFive * g x c - NumLits.half * p c)
  | .rk4 =>
    let k1 := g x
    let k2 := g fun c => x c + (NumLits.half * h) * k1 c
    let k3 := g fun c => x c + (NumLits.half * h) * k2 c
    let k4 := g fun c => x c + h * k3 c
    fun c => x c + (h / NumLits.six) * (k1 c + NumLits.two * k2 c + NumLits.two * k3 c + k4 c)

/-- The velocity remembered for the next step. -/
def nextPrev {d : ℕ} (k : Kind) (g : (Fin d → K) → Fin d → K) (x : Fin d → K) :
    Option (Fin d → K) :=
  match k with
  | .ab2 => some (g x)
  | _ => none

theorem step_rows (junk : List ℕ → K) {vel : Velocity K} {R d : ℕ}
    {g : (Fin d → K) → Fin d → K} (hv : Pointwise R d vel g) (h : K) (I : Integ K)
    (hI : I.Fits R d) (pos : NDArray K) (hp : pos.shape = [R, d]) :
    ∃ I' pos', I.step junk vel h pos = (I', .ok pos') ∧ I'.kind = I.kind ∧ I'.Fits R d ∧
      pos'.shape = [R, d] ∧
      (∀ r < R, rowOf pos' d r = rowStep I.kind g h (I.prevRow d r) (rowOf pos d r)) ∧
      (∀ r < R, I'.prevRow d r = nextPrev I.kind g (rowOf pos d r)) := by
  cases I with
  | euler buf =>
    obtain ⟨V, v1, v2, v3⟩ := fillFrom_rows hv
      ((reuseOrAlloc_shape junk buf pos).trans hp) hp
    obtain ⟨A, a1, a2, a3⟩ := zipWith_rows (f := fun x v => x + h * v) hp v2
    refine ⟨.euler (some V), A, ?_, rfl, trivial, a2, ?_, fun _ _ => rfl⟩
    · simp only [Integ.step, eulerStep, v1, eulerKernel, a1]
    · intro r hr; rw [a3, v3 r hr]; rfl
  | ab2 prev buf =>
    obtain ⟨V, v1, v2, v3⟩ := fillFrom_rows hv
      ((reuseOrAlloc_shape junk buf pos).trans hp) hp
    cases prev with
    | none =>
      obtain ⟨A, a1, a2, a3⟩ := zipWith_rows (f := fun x v => x + h * v) hp v2
      obtain ⟨P, p1, p2, p3⟩ := copyto_same (dst := emptyLike junk V) v2 v2
      refine ⟨.ab2 (some P) (some V), A, ?_, rfl, p2, a2, ?_, ?_⟩
      · simp only [Integ.step, ab2Step, v1, eulerKernel, a1, p1]
      · intro r hr; rw [a3, v3 r hr]; rfl
      · intro r hr
        simp only [Integ.prevRow, nextPrev, Integ.kind, p3 r hr, v3 r hr]
    | some Q =>
      have hQ : Q.shape = [R, d] := hI
      obtain ⟨W, w1, w2, w3⟩ := zipWith_rows
        (f := fun v p => NumLits.onePointFive * v - NumLits.half * p) v2 hQ
      obtain ⟨A, a1, a2, a3⟩ := zipWith_rows (f := fun x w => x + h * w) hp w2
      obtain ⟨P, p1, p2, p3⟩ := copyto_same (dst := Q) hQ v2
      refine ⟨.ab2 (some P) (some V), A, ?_, rfl, p2, a2, ?_, ?_⟩
      · simp only [Integ.step, ab2Step, v1, ab2Kernel, w1, a1, p1]
      · intro r hr; rw [a3, w3, v3 r hr]; rfl
      · intro r hr
        simp only [Integ.prevRow, nextPrev, Integ.kind, p3 r hr, v3 r hr]
  | rk4 bufs =>
    obtain ⟨b, hb1, hb2, hb3, hb4, hb5, hb⟩ : ∃ b : Rk4Bufs K, b.k1.shape = [R, d] ∧
        b.k2.shape = [R, d] ∧ b.k3.shape = [R, d] ∧ b.k4.shape = [R, d] ∧ b.tmp.shape = [R, d] ∧
        rk4Bufs junk bufs pos = b := by
      cases bufs with
      | none => exact ⟨_, hp, hp, hp, hp, hp, rfl⟩
      | some b =>
        by_cases hs : b.k1.shape = pos.shape
        · obtain ⟨e2, e3, e4, e5⟩ := hI
          exact ⟨b, hs.trans hp, e2.trans (hs.trans hp), e3.trans (hs.trans hp),
            e4.trans (hs.trans hp), e5.trans (hs.trans hp), by simp [rk4Bufs, hs]⟩
        · exact ⟨rk4Alloc junk pos, hp, hp, hp, hp, hp, by simp [rk4Bufs, hs]⟩
    obtain ⟨k1, u1, u2, u3⟩ := fillFrom_rows hv hb1 hp
    obtain ⟨t1, s1, s2, s3⟩ := stagePoint_rows (c := NumLits.half * h) hb5 hp u2
    obtain ⟨k2, m1, m2, m3⟩ := fillFrom_rows hv hb2 s2
    obtain ⟨t2, n1, n2, n3⟩ := stagePoint_rows (c := NumLits.half * h) s2 hp m2
    obtain ⟨k3, q1, q2, q3⟩ := fillFrom_rows hv hb3 n2
    obtain ⟨t3, w1, w2, w3⟩ := stagePoint_rows (c := h) n2 hp q2
    obtain ⟨k4, y1, y2, y3⟩ := fillFrom_rows hv hb4 w2
    obtain ⟨z12, za, zb, zc⟩ := zipWith_rows (f := fun a b => a + NumLits.two * b) u2 m2
    obtain ⟨z123, zd, ze, zf⟩ := zipWith_rows (f := fun a b => a + NumLits.two * b) zb q2
    obtain ⟨z, zg, zh, zi⟩ := zipWith_rows (f := fun a b => a + b) ze y2
    obtain ⟨A, a1, a2, a3⟩ := zipWith_rows (f := fun x s => x + (h / NumLits.six) * s) hp zh
    refine ⟨.rk4 (some ⟨k1, k2, k3, k4, t3⟩), A, ?_, rfl, ?_, a2, ?_, fun _ _ => rfl⟩
    · simp only [Integ.step, rk4Step, hb, u1, s1, m1, n1, q1, w1, y1, rk4Kernel, za, zd, zg, a1]
    · exact ⟨m2.trans u2.symm, q2.trans u2.symm, y2.trans u2.symm, w2.trans u2.symm⟩
    · intro r hr
      rw [a3, zi, zf, zc, y3 r hr, w3 r hr, q3 r hr, n3 r hr, m3 r hr, s3 r hr, u3 r hr]
      rfl

/-- Several steps for a single particle. -/
def rowRun {d : ℕ} (k : Kind) : List (((Fin d → K) → Fin d → K) × K) → Option (Fin d → K) →
    (Fin d → K) → (Fin d → K)
  | [], _, x => x
  | (g, h) :: rest, prev, x => rowRun k rest (nextPrev k g x) (rowStep k g h prev x)

/-- Step-by-step correspondence between velocity sources and velocity functions. -/
def CallsOf (R d : ℕ) (calls : List (Velocity K × K))
    (gs : List (((Fin d → K) → Fin d → K) × K)) : Prop :=
  List.Forall₂ (fun c g => Pointwise R d c.1 g.1 ∧ c.2 = g.2) calls gs

theorem steps_rows (junk : List ℕ → K) {R d : ℕ} {calls : List (Velocity K × K)}
    {gs : List (((Fin d → K) → Fin d → K) × K)} (hc : CallsOf R d calls gs) (I : Integ K)
    (hI : I.Fits R d) (pos : NDArray K) (hp : pos.shape = [R, d]) :
    ∃ I' pos', Integ.steps junk calls I pos = (I', .ok pos') ∧ I'.kind = I.kind ∧ I'.Fits R d ∧
      pos'.shape = [R, d] ∧
      (∀ r < R, rowOf pos' d r = rowRun I.kind gs (I.prevRow d r) (rowOf pos d r)) := by
  induction hc generalizing I pos with
  | nil => exact ⟨I, pos, rfl, rfl, hI, hp, fun r _ => rfl⟩
  | @cons c g cs gs hcg hcs ih =>
    obtain ⟨vel, h⟩ := c
    obtain ⟨f, h'⟩ := g
    obtain ⟨hv, rfl⟩ : Pointwise R d vel f ∧ h = h' := hcg
    obtain ⟨I1, p1, e1, e2, e3, e4, e5, e6⟩ := step_rows junk hv h I hI pos hp
    obtain ⟨I2, p2, f1, f2, f3, f4, f5⟩ := ih I1 e3 p1 e4
    refine ⟨I2, p2, ?_, f2.trans e2, f3, f4, ?_⟩
    · simp only [Integ.steps, e1, f1]
    · intro r hr
      rw [f5 r hr, e2, e5 r hr, e6 r hr]
      rfl

theorem steps_append (junk : List ℕ → K) (cs ds : List (Velocity K × K)) (I : Integ K)
    (pos : NDArray K) :
    Integ.steps junk (cs ++ ds) I pos =
      match Integ.steps junk cs I pos with
      | (I', .error e) => (I', .error e)
      | (I', .ok pos') => Integ.steps junk ds I' pos' := by
  induction cs generalizing I pos with
  | nil => rfl
  | cons c cs ih =>
    obtain ⟨vel, h⟩ := c
    simp only [List.cons_append, Integ.steps]
    rcases hs : I.step junk vel h pos with ⟨I', _ | pos'⟩
    · rfl
    · exact ih I' pos'

theorem callsOf_replicate {R d : ℕ} {vel : Velocity K} {g : (Fin d → K) → Fin d → K}
    (hv : Pointwise R d vel g) (h : K) (n : ℕ) :
    CallsOf R d (List.replicate n (vel, h)) (List.replicate n (g, h)) := by
  induction n with
  | zero => exact List.Forall₂.nil
  | succ n ih => exact List.Forall₂.cons ⟨hv, rfl⟩ ih

/-! ### Shapes and frames of arbitrary calls -/

theorem zipWith_shape {α β γ : Type*} {f : α → β → γ} {a : NDArray α} {b : NDArray β}
    {c : NDArray γ} (h : NDArray.zipWith f a b = .ok c) :
    c.shape = a.shape ∧ b.shape = a.shape := by
  unfold NDArray.zipWith at h
  split at h
  · rename_i hs; cases h; exact ⟨rfl, hs.symm⟩
  · cases h

theorem step_shape {junk : List ℕ → K} {vel : Velocity K} {h : K} {I I' : Integ K}
    {pos pos' : NDArray K} (hs : I.step junk vel h pos = (I', .ok pos')) :
    pos'.shape = pos.shape := by
  cases I with
  | euler buf =>
    simp only [Integ.step, eulerStep] at hs
    split at hs
    · cases hs
    · simp only [Prod.mk.injEq] at hs
      exact (zipWith_shape hs.2).1
  | ab2 prev buf =>
    simp only [Integ.step, ab2Step] at hs
    repeat' split at hs
    all_goals first
      | cases hs; done
      | skip
    · rename_i hk _ _ _
      simp only [Prod.mk.injEq, Except.ok.injEq] at hs
      rw [← hs.2]
      exact (zipWith_shape hk).1
    · rename_i hk _ _ _
      simp only [Prod.mk.injEq, Except.ok.injEq] at hs
      rw [← hs.2]
      unfold ab2Kernel at hk
      split at hk
      · cases hk
      · exact (zipWith_shape hk).1
  | rk4 bufs =>
    simp only [Integ.step, rk4Step] at hs
    repeat' split at hs
    all_goals first
      | cases hs; done
      | skip
    all_goals
      simp only [Prod.mk.injEq] at hs
      have hk := hs.2
      unfold rk4Kernel at hk
      repeat' split at hk
      all_goals first
        | cases hk; done
        | exact (zipWith_shape hk).1

end

end Verif
