import Verif.Lemmas.Converge

/-!
# Runs whose velocities are known on part of the space only

`step_rows` and `loop_flow` ask for a velocity source that answers at all positions.  A grid
interpolator answers safely near its grid only; here the positions visited have to lie in a
region in which the source answers.
-/

set_option linter.unusedSectionVars false

namespace Verif

section
variable {K : Type*}

/-- `vel` evaluates `g` at the rows of an `R × d` array if all of them lie in `S`. -/
def PointwiseOn {d : ℕ} (S : Set (Fin d → K)) (R : ℕ) (vel : Velocity K)
    (g : (Fin d → K) → Fin d → K) : Prop :=
  ∀ pos : NDArray K, pos.shape = [R, d] → (∀ r < R, rowOf pos d r ∈ S) →
    ∃ A, vel pos = .ok A ∧ A.shape = [R, d] ∧ ∀ r < R, rowOf A d r = g (rowOf pos d r)

theorem fillFrom_rows_on {buf pos : NDArray K} {vel : Velocity K} {R d : ℕ}
    {S : Set (Fin d → K)} {g : (Fin d → K) → Fin d → K} (hv : PointwiseOn S R vel g)
    (hb : buf.shape = [R, d]) (hp : pos.shape = [R, d]) (hS : ∀ r < R, rowOf pos d r ∈ S) :
    ∃ A, fillFrom buf vel pos = .ok A ∧ A.shape = [R, d] ∧
      ∀ r < R, rowOf A d r = g (rowOf pos d r) := by
  obtain ⟨A, a1, a2, a3⟩ := hv pos hp hS
  obtain ⟨B, b1, b2, b3⟩ := copyto_same hb a2
  exact ⟨B, by simp only [fillFrom, a1, b1], b2, fun r hr => by rw [b3 r hr, a3 r hr]⟩

variable [Add K] [Sub K] [Mul K] [Div K] [NumLits K]

/-- The points at which one step evaluates the velocity. -/
def stages {d : ℕ} (k : Kind) (g : (Fin d → K) → Fin d → K) (h : K) (x : Fin d → K) :
    List (Fin d → K) :=
  match k with
  | .euler => [x]
  | .ab2 => [x]
  | .rk4 =>
    let k1 := g x
    let k2 := g fun c => x c + (NumLits.half * h) * k1 c
    let k3 := g fun c => x c + (NumLits.half * h) * k2 c
    [x, fun c => x c + (NumLits.half * h) * k1 c, fun c => x c + (NumLits.half * h) * k2 c,
      fun c => x c + h * k3 c]

theorem step_rows_on (junk : List ℕ → K) {vel : Velocity K} {R d : ℕ} {S : Set (Fin d → K)}
    {g : (Fin d → K) → Fin d → K} (hv : PointwiseOn S R vel g) (h : K) (I : Integ K)
    (hI : I.Fits R d) (pos : NDArray K) (hp : pos.shape = [R, d])
    (hS : ∀ r < R, ∀ z ∈ stages I.kind g h (rowOf pos d r), z ∈ S) :
    ∃ I' pos', I.step junk vel h pos = (I', .ok pos') ∧ I'.kind = I.kind ∧ I'.Fits R d ∧
      pos'.shape = [R, d] ∧
      (∀ r < R, rowOf pos' d r = rowStep I.kind g h (I.prevRow d r) (rowOf pos d r)) ∧
      (∀ r < R, I'.prevRow d r = nextPrev I.kind g (rowOf pos d r)) := by
  cases I with
  | euler buf =>
    obtain ⟨V, v1, v2, v3⟩ := fillFrom_rows_on hv
      ((reuseOrAlloc_shape junk buf pos).trans hp) hp
      (fun r hr => hS r hr _ (by simp [stages, Integ.kind]))
    obtain ⟨A, a1, a2, a3⟩ := zipWith_rows (f := fun x v => x + h * v) hp v2
    refine ⟨.euler (some V), A, ?_, rfl, trivial, a2, ?_, fun _ _ => rfl⟩
    · simp only [Integ.step, eulerStep, v1, eulerKernel, a1]
    · intro r hr; rw [a3, v3 r hr]; rfl
  | ab2 prev buf =>
    obtain ⟨V, v1, v2, v3⟩ := fillFrom_rows_on hv
      ((reuseOrAlloc_shape junk buf pos).trans hp) hp
      (fun r hr => hS r hr _ (by simp [stages, Integ.kind]))
    cases prev with
    | none =>
      obtain ⟨A, a1, a2, a3⟩ := zipWith_rows (f := fun x v => x + h * v) hp v2
      obtain ⟨P, p1, p2, p3⟩ := copyto_same (dst := emptyLike junk V) v2 v2
      refine ⟨.ab2 (some P) (some V), A, ?_, rfl, p2, a2, ?_, ?_⟩
      · simp only [Integ.step, ab2Step, v1, eulerKernel, a1, p1]
      · intro r hr; rw [a3, v3 r hr]; rfl
      · intro r hr
        simp only [Integ.prevRow, nextPrev, Integ.kind, p3 r hr, v3 r hr]
    | some Q =>
      have hQ : Q.shape = [R, d] := hI
      obtain ⟨W, w1, w2, w3⟩ := zipWith_rows
        (f := fun v p => NumLits.onePointFive * v - NumLits.half * p) v2 hQ
      obtain ⟨A, a1, a2, a3⟩ := zipWith_rows (f := fun x w => x + h * w) hp w2
      obtain ⟨P, p1, p2, p3⟩ := copyto_same (dst := Q) hQ v2
      refine ⟨.ab2 (some P) (some V), A, ?_, rfl, p2, a2, ?_, ?_⟩
      · simp only [Integ.step, ab2Step, v1, ab2Kernel, w1, a1, p1]
      · intro r hr; rw [a3, w3, v3 r hr]; rfl
      · intro r hr
        simp only [Integ.prevRow, nextPrev, Integ.kind, p3 r hr, v3 r hr]
  | rk4 bufs =>
    obtain ⟨b, hb1, hb2, hb3, hb4, hb5, hb⟩ : ∃ b : Rk4Bufs K, b.k1.shape = [R, d] ∧
        b.k2.shape = [R, d] ∧ b.k3.shape = [R, d] ∧ b.k4.shape = [R, d] ∧ b.tmp.shape = [R, d] ∧
        rk4Bufs junk bufs pos = b := by
      cases bufs with
      | none => exact ⟨_, hp, hp, hp, hp, hp, rfl⟩
      | some b =>
        by_cases hs : b.k1.shape = pos.shape
        · obtain ⟨e2, e3, e4, e5⟩ := hI
          exact ⟨b, hs.trans hp, e2.trans (hs.trans hp), e3.trans (hs.trans hp),
            e4.trans (hs.trans hp), e5.trans (hs.trans hp), by simp [rk4Bufs, hs]⟩
        · exact ⟨rk4Alloc junk pos, hp, hp, hp, hp, hp, by simp [rk4Bufs, hs]⟩
    obtain ⟨k1, u1, u2, u3⟩ := fillFrom_rows_on hv hb1 hp
      (fun r hr => hS r hr _ (by simp [stages, Integ.kind]))
    obtain ⟨t1, s1, s2, s3⟩ := stagePoint_rows (c := NumLits.half * h) hb5 hp u2
    obtain ⟨k2, m1, m2, m3⟩ := fillFrom_rows_on hv hb2 s2 (fun r hr => by
      rw [s3 r hr, u3 r hr]
      exact hS r hr _ (by simp [stages, Integ.kind]))
    obtain ⟨t2, n1, n2, n3⟩ := stagePoint_rows (c := NumLits.half * h) s2 hp m2
    obtain ⟨k3, q1, q2, q3⟩ := fillFrom_rows_on hv hb3 n2 (fun r hr => by
      rw [n3 r hr, m3 r hr, s3 r hr, u3 r hr]
      exact hS r hr _ (by simp [stages, Integ.kind]))
    obtain ⟨t3, w1, w2, w3⟩ := stagePoint_rows (c := h) n2 hp q2
    obtain ⟨k4, y1, y2, y3⟩ := fillFrom_rows_on hv hb4 w2 (fun r hr => by
      rw [w3 r hr, q3 r hr, n3 r hr, m3 r hr, s3 r hr, u3 r hr]
      exact hS r hr _ (by simp [stages, Integ.kind]))
    obtain ⟨z12, za, zb, zc⟩ := zipWith_rows (f := fun a b => a + NumLits.two * b) u2 m2
    obtain ⟨z123, zd, ze, zf⟩ := zipWith_rows (f := fun a b => a + NumLits.two * b) zb q2
    obtain ⟨z, zg, zh, zi⟩ := zipWith_rows (f := fun a b => a + b) ze y2
    obtain ⟨A, a1, a2, a3⟩ := zipWith_rows (f := fun x s => x + (h / NumLits.six) * s) hp zh
    refine ⟨.rk4 (some ⟨k1, k2, k3, k4, t3⟩), A, ?_, rfl, ?_, a2, ?_, fun _ _ => rfl⟩
    · simp only [Integ.step, rk4Step, hb, u1, s1, m1, n1, q1, w1, y1, rk4Kernel, za, zd, zg, a1]
    · exact ⟨m2.trans u2.symm, q2.trans u2.symm, y2.trans u2.symm, w2.trans u2.symm⟩
    · intro r hr
      rw [a3, zi, zf, zc, y3 r hr, w3 r hr, q3 r hr, n3 r hr, m3 r hr, s3 r hr, u3 r hr]
      rfl

end

section
variable {K F : Type} [Zero K] [One K] [Add K] [Sub K] [Mul K] [Div K] [NatCast K] [IntCast K]
  [Min K] [Max K] [NumLits K] [DecidableEq K]

theorem Twin.pointwiseOn {R d : ℕ} {I J : AnyInterp K} (h : Twin [R, d] I J) (env : Env K F)
    {S : Set (Fin d → K)} {g : (Fin d → K) → Fin d → K}
    (hv : PointwiseOn S R (I.velocity env) g) : PointwiseOn S R (J.velocity env) g := by
  intro pos hp hS
  rw [h.velocity env pos hp]
  exact hv pos hp hS

/-- The loop of a run applies `flowMap` to every row, provided that the positions visited on the
way stay where the velocities are known. -/
theorem loop_flow_on (env : Env K F) (src : Source K) (id : String) (queue : Bool)
    {I0 : AnyInterp K} (hI : I0.Unused) (k : Kind) {p : Particles K} {R d : ℕ}
    (hp : p.positions.shape = [R, d]) (g : ℕ → (Fin d → K) → Fin d → K)
    (S : ℕ → Set (Fin d → K)) (n : ℕ)
    (hup : ∀ i < n, (src.updated env I0 (i + 1)).2 = none)
    (hv : ∀ i < n, PointwiseOn (S i) R ((src.updated env I0 (i + 1)).1.velocity env) (g i))
    (hS : ∀ r < R, ∀ i < n, ∀ z ∈ stages k (g i) src.timestep
      (flowMap k g src.timestep i (rowOf p.positions d r)), z ∈ S i) :
    ∃ st pos, Loop.steps env src id queue (List.range n) ⟨I0, .fresh k, p, []⟩ = (st, none) ∧
      st.particles = { p with positions := pos } ∧ pos.shape = [R, d] ∧
      ∀ r < R, rowOf pos d r = flowMap k g src.timestep n (rowOf p.positions d r) := by
  suffices H : ∃ st pos,
      Loop.steps env src id queue (List.range n) ⟨I0, .fresh k, p, []⟩ = (st, none) ∧
      Twin [R, d] (src.updated env I0 n).1 st.interp ∧ st.particles = { p with positions := pos } ∧
      pos.shape = [R, d] ∧ st.integ.kind = k ∧ st.integ.Fits R d ∧
      (∀ r < R, rowOf pos d r = flowMap k g src.timestep n (rowOf p.positions d r)) ∧
      ∀ r < R, st.integ.prevRow d r = flowPrev k g src.timestep (rowOf p.positions d r) n by
    obtain ⟨st, pos, h1, -, h3, h4, -, -, h5, -⟩ := H
    exact ⟨st, pos, h1, h3, h4, h5⟩
  induction n with
  | zero =>
    exact ⟨_, p.positions, rfl, hI.twin _, rfl, hp, Integ.kind_fresh k, Integ.fits_fresh R d k,
      fun r hr => rfl, fun r hr => Integ.prevRow_fresh d r k⟩
  | succ n ih =>
    obtain ⟨st, pos, h1, h2, h3, h4, h5, h6, h7, h8⟩ := ih (fun i hi => hup i (by omega))
      (fun i hi => hv i (by omega)) (fun r hr i hi => hS r hr i (by omega))
    obtain ⟨u1, u2⟩ := h2.updateInterp env src n
    have hu := hup n (by omega)
    have hvn := hv n (by omega)
    have hdef : src.updated env I0 (n + 1) = src.updateInterp env (src.updated env I0 n).1 n := by
      simp only [Source.updated] at hu ⊢
      rcases hn : src.updated env I0 n with ⟨J, _ | e⟩
      · rfl
      · rw [hn] at hu
        simp at hu
    rw [hdef] at hu hvn
    rw [hu] at u1
    rcases hJ : src.updateInterp env st.interp n with ⟨J, e⟩
    rw [hJ] at u1 u2
    simp only at u1 u2
    subst u1
    have hvJ := u2.pointwiseOn env hvn
    obtain ⟨G, pos2, f1, f2, f3, f4, f5, f6⟩ := step_rows_on env.junk hvJ src.timestep st.integ h6
      pos h4 (fun r hr z hz => by
        rw [h5, h7 r hr] at hz
        exact hS r hr n (by omega) z hz)
    refine ⟨⟨(J.interpolate env.sp env.m env.junk pos).1, G, { p with positions := pos2 },
        st.trace ++ (if queue then [.progress id n] else [])⟩, pos2, ?_, ?_, rfl, f4,
        f2.trans h5, f3, ?_, ?_⟩
    · rw [List.range_succ, Loop.steps_append, h1]
      simp only [Loop.steps, Loop.step, hJ, Integ.integrate, f1, h3]
    · rw [hdef]
      exact u2.interpolate env.sp env.m env.junk pos h4
    · intro r hr
      rw [f5 r hr, h5, h7 r hr, h8 r hr, flowMap_succ]
    · intro r hr
      rw [f6 r hr, h5, h7 r hr]
      rfl

end

/-! ## Stage points stay near exact trajectories -/

section
variable {d : ℕ}

theorem stages_near (k : Kind) {g : (Fin d → ℝ) → Fin d → ℝ} {h ε L B r : ℝ}
    {x y w : Fin d → ℝ} (hL : 0 ≤ L) (hε : 0 ≤ ε)
    (hg : ∀ z, ‖z - y‖ ≤ r → ‖g z - w‖ ≤ ε + L * ‖z - y‖) (hB : ‖w‖ ≤ B)
    (hx : ‖x - y‖ ≤ r / 2) (hr : |h| * (2 * B + 2 * ε + 2 * L * r) ≤ r / 2) :
    ∀ z ∈ stages k g h x, ‖z - y‖ ≤ r := by
  have hr0 : 0 ≤ r := by linarith [norm_nonneg (x - y)]
  have hB0 : 0 ≤ B := (norm_nonneg _).trans hB
  have hLr : 0 ≤ L * r := mul_nonneg hL hr0
  have hx' : ‖x - y‖ ≤ r := by linarith
  have size : ∀ z, ‖z - y‖ ≤ r → ‖g z‖ ≤ B + ε + L * r := by
    intro z hz
    have h1 : g z = w + (g z - w) := by abel
    rw [h1]
    have h2 := norm_add_le w (g z - w)
    have h3 := hg z hz
    have h4 := mul_le_mul_of_nonneg_left hz hL
    linarith
  have stage : ∀ a z, |a| ≤ |h| → ‖z - y‖ ≤ r → ‖(fun c => x c + a * g z c) - y‖ ≤ r := by
    intro a z ha hz
    have h1 : (fun c => x c + a * g z c) - y = (x - y) + a • g z := by
      funext c
      simp only [Pi.sub_apply, Pi.add_apply, Pi.smul_apply, smul_eq_mul]
      ring
    rw [h1]
    have h2 := norm_add_le (x - y) (a • g z)
    rw [norm_smul, Real.norm_eq_abs] at h2
    have h3 : |a| * ‖g z‖ ≤ |h| * (2 * B + 2 * ε + 2 * L * r) := by
      refine mul_le_mul ha ((size z hz).trans ?_) (norm_nonneg _) (abs_nonneg _)
      linarith
    linarith
  have half : |(NumLits.half : ℝ) * h| ≤ |h| := by
    show |(1 / 2 : ℝ) * h| ≤ |h|
    rw [abs_mul, abs_of_pos (by norm_num : (0 : ℝ) < 1 / 2)]
    linarith [abs_nonneg h]
  intro z hz
  cases k with
  | euler => simp only [stages, List.mem_singleton] at hz; rw [hz]; exact hx'
  | ab2 => simp only [stages, List.mem_singleton] at hz; rw [hz]; exact hx'
  | rk4 =>
    have s2 := stage _ _ half hx'
    have s3 := stage _ _ half s2
    have s4 := stage h _ le_rfl s3
    simp only [stages, List.mem_cons, List.not_mem_nil, or_false] at hz
    rcases hz with rfl | rfl | rfl | rfl
    · exact hx'
    · exact s2
    · exact s3
    · exact s4

end

end Verif
