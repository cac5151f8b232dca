import Verif.Spec.Groups
import Verif.Lemmas.Rerun
import Verif.Lemmas.Jacobian

/-!
# A run as one flow map applied to all particles

The interpolator a step queries is the one obtained by the updates alone, up to the work
buffers of `HighPerfInterpolator`; for pointwise velocities the particles of a run are the
images of the seeds under a map that does not depend on the seeds.
-/

set_option linter.unusedSectionVars false

namespace Verif

section
variable {K F : Type} [Zero K] [One K] [Add K] [Sub K] [Mul K] [Div K] [NatCast K] [IntCast K]
  [Min K] [Max K] [NumLits K] [DecidableEq K]

/-- The interpolator after the first `k` updates, no queries in between. -/
def Source.updated (env : Env K F) (src : Source K) (I : AnyInterp K) :
    ℕ → AnyInterp K × Option PyErr
  | 0 => (I, none)
  | k + 1 =>
    match src.updated env I k with
    | (J, some e) => (J, some e)
    | (J, none) => src.updateInterp env J k

/-- A `HighPerfInterpolator` without its work buffers. -/
def HighPerf.noBuf (s : HighPerf K) : HighPerf K := { s with uLen := none, wLen := none }

/-- Equal apart from the work buffers, which fit particles of shape `sh`. -/
def Twin (sh : List ℕ) : AnyInterp K → AnyInterp K → Prop
  | .highPerf s, .highPerf s' => s'.noBuf = s.noBuf ∧ s.BufFor sh ∧ s'.BufFor sh
  | I, J => J = I

/-- No query has been made yet. -/
def AnyInterp.Unused : AnyInterp K → Prop
  | .highPerf s => s.uLen = none
  | _ => True

theorem AnyInterp.Unused.twin {I : AnyInterp K} (h : I.Unused) (sh : List ℕ) : Twin sh I I := by
  cases I with
  | highPerf s =>
    have hb : s.BufFor sh := by
      intro n _ hu
      rw [show s.uLen = none from h] at hu
      cases hu
    exact ⟨rfl, hb, hb⟩
  | scatter s => rfl
  | grid s => rfl
  | analytical s => rfl

theorem Twin.cases {sh : List ℕ} {I J : AnyInterp K} (h : Twin sh I J) :
    (J = I ∧ ∀ s, I ≠ .highPerf s) ∨ ∃ s s', I = .highPerf s ∧ J = .highPerf s' ∧
      s'.noBuf = s.noBuf ∧ s.BufFor sh ∧ s'.BufFor sh := by
  cases I with
  | highPerf s =>
    cases J with
    | highPerf s' => exact .inr ⟨s, s', rfl, rfl, h⟩
    | scatter s' => simp [Twin] at h
    | grid s' => simp [Twin] at h
    | analytical s' => simp [Twin] at h
  | scatter s => exact .inl ⟨by simpa [Twin] using h, by simp⟩
  | grid s => exact .inl ⟨by simpa [Twin] using h, by simp⟩
  | analytical s => exact .inl ⟨by simpa [Twin] using h, by simp⟩

theorem highPerf_initialize_noBuf (s : HighPerf K) :
    s.noBuf.initialize = (s.initialize.1.noBuf, s.initialize.2) := by
  unfold HighPerf.initialize
  simp only [HighPerf.noBuf]
  repeat' split
  all_goals simp_all

theorem highPerf_update_noBuf (s : HighPerf K) (v : NDArray K) (p : Option (NDArray K)) :
    s.noBuf.update v p = ((s.update v p).1.noBuf, (s.update v p).2) := by
  cases p with
  | some p =>
    exact highPerf_initialize_noBuf { s with velocities := some v, points := some p }
  | none =>
    unfold HighPerf.update
    rcases hx : s.ix with _ | x <;> rcases hy : s.iy with _ | y <;> rcases hz : s.iz with _ | z <;>
      simp only [HighPerf.noBuf, hx, hy, hz] <;> repeat' split <;> simp_all

theorem Twin.update {sh : List ℕ} {I J : AnyInterp K} (h : Twin sh I J) (sp : SciPy K)
    (v : NDArray K) (p : Option (NDArray K)) :
    (J.update sp v p).2 = (I.update sp v p).2 ∧ Twin sh (I.update sp v p).1 (J.update sp v p).1 := by
  rcases h.cases with ⟨rfl, hn⟩ | ⟨s, s', rfl, rfl, h1, h2, h3⟩
  · refine ⟨rfl, ?_⟩
    cases J with
    | highPerf s => exact absurd rfl (hn s)
    | scatter s => rfl
    | grid s => rfl
    | analytical s => rfl
  have e1 := highPerf_update_noBuf s v p
  have e2 := highPerf_update_noBuf s' v p
  rw [h1, e1] at e2
  obtain ⟨-, c2, c3⟩ := highPerf_update_config s v p
  obtain ⟨-, d2, d3⟩ := highPerf_update_config s' v p
  simp only [AnyInterp.update, Twin]
  refine ⟨(congrArg Prod.snd e2).symm, (congrArg Prod.fst e2).symm, ?_, ?_⟩
  · intro n hn hu
    rw [c2] at hu; rw [c3]; exact h2 n hn hu
  · intro n hn hu
    rw [d2] at hu; rw [d3]; exact h3 n hn hu

theorem Twin.updateInterp {sh : List ℕ} {I J : AnyInterp K} (h : Twin sh I J) (env : Env K F)
    (src : Source K) (i : ℕ) :
    (src.updateInterp env J i).2 = (src.updateInterp env I i).2 ∧
      Twin sh (src.updateInterp env I i).1 (src.updateInterp env J i).1 := by
  unfold Source.updateInterp
  cases src with
  | analytical s => exact ⟨rfl, h⟩
  | file s =>
    dsimp only
    split
    · exact ⟨rfl, h⟩
    · exact h.update env.sp _ _

theorem ensureBuffers_noBuf (s : HighPerf K) (n d : ℕ) : (s.ensureBuffers n d).noBuf = s.noBuf := by
  unfold HighPerf.ensureBuffers
  repeat' split
  all_goals rfl

/-- A query leaves a twin behind. -/
theorem Twin.interpolate {sh : List ℕ} {I J : AnyInterp K} (h : Twin sh I J) (sp : SciPy K)
    (m : CMachine K) (junk : List ℕ → K) (q : NDArray K) (hq : q.shape = sh) :
    Twin sh I (J.interpolate sp m junk q).1 := by
  rcases h.cases with ⟨rfl, hn⟩ | ⟨s, s', rfl, rfl, h1, h2, h3⟩
  · cases J with
    | highPerf s => exact absurd rfl (hn s)
    | scatter s => rfl
    | grid s => rfl
    | analytical s => rfl
  simp only [AnyInterp.interpolate, Twin]
  rw [highPerf_interpolate_state]
  split
  · rename_i n d hnd
    rw [hq] at hnd
    subst hnd
    exact ⟨(ensureBuffers_noBuf s' n d).trans h1, h2, ensureBuffers_bufFor s' n d h3⟩
  · exact ⟨h1, h2, h3⟩

/-- Twins answer queries alike. -/
theorem Twin.velocity {sh : List ℕ} {I J : AnyInterp K} (h : Twin sh I J) (env : Env K F)
    (q : NDArray K) (hq : q.shape = sh) : J.velocity env q = I.velocity env q := by
  rcases h.cases with ⟨rfl, hn⟩ | ⟨s, s', rfl, rfl, h1, h2, h3⟩
  · rfl
  have key : ∀ n d, sh = [n, d] →
      (s'.ensureBuffers n d).uLen = (s.ensureBuffers n d).uLen ∧
      (d = 3 → (s'.ensureBuffers n d).wLen = (s.ensureBuffers n d).wLen) := by
    intro n d hnd
    have a := (ensureBuffers_fields s n d).2.2.2.2.2
    have b := (ensureBuffers_fields s' n d).2.2.2.2.2
    refine ⟨by rw [a, b], fun hd => ?_⟩
    subst hd
    subst hnd
    rw [ensureBuffers_bufFor s n 3 h2 n rfl a, ensureBuffers_bufFor s' n 3 h3 n rfl b]
  have f1 : s'.ix = s.ix ∧ s'.iy = s.iy ∧ s'.iz = s.iz := by
    have := h1
    simp only [HighPerf.noBuf, HighPerf.mk.injEq] at this
    exact ⟨this.2.2.2.1, this.2.2.2.2.1, this.2.2.2.2.2.1⟩
  simp only [AnyInterp.velocity, AnyInterp.interpolate, HighPerf.interpolate]
  rw [hq]
  rcases sh with _ | ⟨n, _ | ⟨d, _ | ⟨_, _⟩⟩⟩
  · rfl
  · rfl
  · obtain ⟨k1, k2⟩ := key n d rfl
    obtain ⟨-, -, x1, y1, z1, -⟩ := ensureBuffers_fields s n d
    obtain ⟨-, -, x2, y2, z2, -⟩ := ensureBuffers_fields s' n d
    simp only [x1, x2, y1, y2, z1, z2, f1.1, f1.2.1, f1.2.2, k1]
    by_cases hd2 : d = 2
    · simp only [hd2, if_true]
      cases s.ix <;> cases s.iy <;> simp only
      repeat' split
      all_goals rfl
    · by_cases hd3 : d = 3
      · subst hd3
        simp only [k2 rfl]
        cases s.ix <;> cases s.iy <;> cases s.iz <;> simp only
        repeat' split
        all_goals simp_all
      · simp only [hd2, hd3, if_false]
  · rfl

theorem Twin.pointwise {R d : ℕ} {I J : AnyInterp K} (h : Twin [R, d] I J) (env : Env K F)
    {g : (Fin d → K) → Fin d → K} (hv : Pointwise R d (I.velocity env) g) :
    Pointwise R d (J.velocity env) g := by
  intro pos hp
  rw [h.velocity env pos hp]
  exact hv pos hp

/-- The images of the seeds under one integrator run, particle by particle. -/
def flowMap {d : ℕ} (k : Kind) (g : ℕ → (Fin d → K) → Fin d → K) (h : K) (n : ℕ) :
    (Fin d → K) → Fin d → K :=
  rowRun k ((List.range n).map fun i => (g i, h)) none

/-- The loop of a run with pointwise velocities succeeds and applies `flowMap` to every row. -/
theorem loop_flow (env : Env K F) (src : Source K) (id : String) (queue : Bool)
    {I0 : AnyInterp K} (hI : I0.Unused) (k : Kind) {p : Particles K} {R d : ℕ}
    (hp : p.positions.shape = [R, d]) (g : ℕ → (Fin d → K) → Fin d → K) (n : ℕ)
    (hup : ∀ i < n, (src.updated env I0 (i + 1)).2 = none)
    (hv : ∀ i < n, Pointwise R d ((src.updated env I0 (i + 1)).1.velocity env) (g i)) :
    ∃ st pos, Loop.steps env src id queue (List.range n) ⟨I0, .fresh k, p, []⟩ = (st, none) ∧
      st.particles = { p with positions := pos } ∧ pos.shape = [R, d] ∧
      ∀ r < R, rowOf pos d r = flowMap k g src.timestep n (rowOf p.positions d r) := by
  suffices H : ∃ st pos cs,
      Loop.steps env src id queue (List.range n) ⟨I0, .fresh k, p, []⟩ = (st, none) ∧
      Twin [R, d] (src.updated env I0 n).1 st.interp ∧ st.particles = { p with positions := pos } ∧
      CallsOf R d cs ((List.range n).map fun i => (g i, src.timestep)) ∧
      Integ.steps env.junk cs (.fresh k) p.positions = (st.integ, .ok pos) by
    obtain ⟨st, pos, cs, h1, -, h3, h4, h5⟩ := H
    obtain ⟨I', pos', e1, -, -, e4, e5⟩ := steps_rows env.junk h4 (.fresh k)
      (Integ.fits_fresh R d k) p.positions hp
    rw [h5] at e1
    cases e1
    refine ⟨st, pos, h1, h3, e4, fun r hr => ?_⟩
    rw [e5 r hr, Integ.prevRow_fresh, Integ.kind_fresh]
    rfl
  induction n with
  | zero =>
    exact ⟨_, p.positions, [], rfl, hI.twin _, rfl, .nil, rfl⟩
  | succ n ih =>
    obtain ⟨st, pos, cs, h1, h2, h3, h4, h5⟩ := ih (fun i hi => hup i (by omega))
      (fun i hi => hv i (by omega))
    obtain ⟨I', pos', e1, e2, e3, e4, -⟩ := steps_rows env.junk h4 (.fresh k)
      (Integ.fits_fresh R d k) p.positions hp
    rw [h5] at e1
    cases e1
    obtain ⟨u1, u2⟩ := h2.updateInterp env src n
    have hu := hup n (by omega)
    have hvn := hv n (by omega)
    have hdef : src.updated env I0 (n + 1) = src.updateInterp env (src.updated env I0 n).1 n := by
      simp only [Source.updated] at hu ⊢
      rcases hn : src.updated env I0 n with ⟨J, _ | e⟩
      · rfl
      · rw [hn] at hu
        simp at hu
    rw [hdef] at hu hvn
    rw [hu] at u1
    rcases hJ : src.updateInterp env st.interp n with ⟨J, e⟩
    rw [hJ] at u1 u2
    simp only at u1 u2
    subst u1
    have hvJ := u2.pointwise env hvn
    obtain ⟨G, pos2, f1, f2, f3, f4, -⟩ := step_rows env.junk hvJ src.timestep st.integ e3 pos e4
    refine ⟨⟨(J.interpolate env.sp env.m env.junk pos).1, G, { p with positions := pos2 },
        st.trace ++ (if queue then [.progress id n] else [])⟩, pos2,
      cs ++ [(J.velocity env, src.timestep)], ?_, ?_, ?_, ?_, ?_⟩
    · rw [List.range_succ, Loop.steps_append, h1]
      simp only [Loop.steps, Loop.step, hJ, Integ.integrate, f1, h3]
    · rw [hdef]
      exact u2.interpolate env.sp env.m env.junk pos e4
    · rfl
    · rw [List.range_succ, List.map_append]
      exact List.rel_append h4 (.cons ⟨hvJ, rfl⟩ .nil)
    · rw [steps_append, h5]
      simp only [Integ.steps, f1]

end

/-! ## Jacobians as finite differences of the flow map -/

section
variable {K : Type} [Add K] [Sub K] [Div K] [Zero K] [NatCast K] [DecidableEq K]

theorem pyDiv_eq (a b : K) : pyDiv a b = if b = 0 then .error .zeroDivisionError else .ok (a / b) := by
  unfold pyDiv
  by_cases h : b = 0 <;> simp [h]

theorem jacEntry_get {d D : NDArray K} {n k l i r c : ℕ} (h : d.shape = [n, k])
    (H : D.shape = [n, l]) (hi : i < n) (hr : r < k) (hc : c < l) :
    jacEntry d D i r c = if D.get [i, c] = 0 then .error .zeroDivisionError
      else .ok (d.get [i, r] / D.get [i, c]) := by
  simp only [jacEntry, read_ok h hi hr, read_ok H hi hc, pyDiv_eq]

/-- The 2-D Jacobian, any arithmetic. -/
theorem jacobian2_groups {seed pos : NDArray K} {N : ℕ} {p : Particles K}
    (hs : seed.shape = [4 * N, 2]) (hp : pos.shape = [4 * N, 2]) (h : mkParticles seed = .ok p) :
    jacobian2 { p with positions := pos } =
      pyMap (fun i => centralDiff2 (groupOf pos 4 N 2 i) (groupOf seed 4 N 2 i))
        (List.range N) := by
  obtain ⟨p', q1, q2, q3, q4, q5, -, -, q8, q9, -⟩ := mkParticles_2d hs
  rw [h] at q1; cases q1
  obtain ⟨rl, r1, r2, r3⟩ := deltaRL_eq (k := 4) (by omega) hp
  obtain ⟨tb, t1, t2, t3⟩ := deltaTB_eq (k := 4) (by omega) hp
  unfold jacobian2 Particles.deltaRL Particles.deltaTB
  simp only [q3, r1, t1, hp, List.headD_cons, Nat.mul_div_cancel_left N (by omega : 0 < 4)]
  apply pyMap_congr
  intro i hi
  have hi := List.mem_range.1 hi
  simp only [jac2Body, jacEntry_get r2 q4 hi (by omega : 0 < 2) (by omega : 0 < 2),
    jacEntry_get t2 q5 hi (by omega : 0 < 2) (by omega : 1 < 2),
    jacEntry_get r2 q4 hi (by omega : 1 < 2) (by omega : 0 < 2),
    jacEntry_get t2 q5 hi (by omega : 1 < 2) (by omega : 1 < 2)]
  simp only [r3, t3, q8, q9, centralDiff2, groupOf, rowOf]
  by_cases hx : seed.get [N + i, 0] - seed.get [i, 0] = 0
  · simp [hx]
  · by_cases hy : seed.get [2 * N + i, 1] - seed.get [3 * N + i, 1] = 0
    · simp [hx, hy]
    · simp [hx, hy]

/-- The 3-D Jacobian, any arithmetic. -/
theorem jacobian3_groups {seed pos : NDArray K} {N : ℕ} {p : Particles K}
    (hs : seed.shape = [6 * N, 3]) (hp : pos.shape = [6 * N, 3]) (h : mkParticles seed = .ok p) :
    jacobian3 { p with positions := pos } =
      pyMap (fun i => centralDiff3 (groupOf pos 6 N 3 i) (groupOf seed 6 N 3 i))
        (List.range N) := by
  obtain ⟨p', q1, q2, q3, q4, q5, q6, -, q8, q9, q10, -⟩ := mkParticles_3d hs
  rw [h] at q1; cases q1
  obtain ⟨rl, r1, r2, r3⟩ := deltaRL_eq (k := 6) (by omega) hp
  obtain ⟨tb, t1, t2, t3⟩ := deltaTB_eq (k := 6) (by omega) hp
  obtain ⟨fb, f1, f2, f3⟩ := deltaFB_eq (k := 4) hp
  unfold jacobian3 Particles.deltaRL Particles.deltaTB Particles.deltaFB
  simp only [q3, r1, t1, f1, hp, List.headD_cons, Nat.mul_div_cancel_left N (by omega : 0 < 6)]
  apply pyMap_congr
  intro i hi
  have hi := List.mem_range.1 hi
  simp only [jac3Body, jacEntry_get r2 q4 hi (by omega : 0 < 3) (by omega : 0 < 3),
    jacEntry_get t2 q5 hi (by omega : 0 < 3) (by omega : 1 < 3),
    jacEntry_get f2 q6 hi (by omega : 0 < 3) (by omega : 2 < 3),
    jacEntry_get r2 q4 hi (by omega : 1 < 3) (by omega : 0 < 3),
    jacEntry_get t2 q5 hi (by omega : 1 < 3) (by omega : 1 < 3),
    jacEntry_get f2 q6 hi (by omega : 1 < 3) (by omega : 2 < 3),
    jacEntry_get r2 q4 hi (by omega : 2 < 3) (by omega : 0 < 3),
    jacEntry_get t2 q5 hi (by omega : 2 < 3) (by omega : 1 < 3),
    jacEntry_get f2 q6 hi (by omega : 2 < 3) (by omega : 2 < 3), bind, Except.bind,
    pure, Except.pure]
  simp only [r3, t3, f3, q8, q9, q10, centralDiff3, groupOf, rowOf]
  by_cases hx : seed.get [N + i, 0] - seed.get [i, 0] = 0
  · simp [hx]
  · by_cases hy : seed.get [2 * N + i, 1] - seed.get [3 * N + i, 1] = 0
    · simp [hx, hy]
    · by_cases hz : seed.get [4 * N + i, 2] - seed.get [5 * N + i, 2] = 0
      · simp [hx, hy, hz]
      · simp [hx, hy, hz]
        ext r c
        fin_cases r <;> fin_cases c <;> simp

end

end Verif
