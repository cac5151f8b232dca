import Verif.Lemmas.Solver
import Verif.Props.IntegrateRel
import Verif.Props.Interpolate

/-!
# Two solver states that cannot be told apart

`Similar`: same class and configuration.  `Alike`: in addition, everything that later queries
of particles of shape `sh` can observe is the same.
-/

set_option linter.unusedSectionVars false

namespace Verif

variable {K F : Type} [Zero K] [One K] [Add K] [Sub K] [Mul K] [Div K] [NatCast K] [IntCast K]
  [Min K] [Max K] [NumLits K] [DecidableEq K]

/-! ## Integrators -/

/-- A step only sees the velocities at arrays of the shape of the particles. -/
theorem step_congr {k : Kind} {I : Integ K} (hI : I.Inv k) (junk : List ℕ → K)
    {vel vel' : Velocity K} (h : K) (pos : NDArray K)
    (hv : ∀ q : NDArray K, q.shape = pos.shape → vel q = vel' q) :
    I.step junk vel h pos = I.step junk vel' h pos := by
  have hf : ∀ b q : NDArray K, q.shape = pos.shape → fillFrom b vel q = fillFrom b vel' q := by
    intro b q hq
    unfold fillFrom
    rw [hv q hq]
  cases I with
  | euler buf =>
    simp only [Integ.step, eulerStep]
    rw [hf _ pos rfl]
  | ab2 prev buf =>
    simp only [Integ.step, ab2Step]
    rw [hf _ pos rfl]
  | rk4 bufs =>
    have hu : ∀ b, bufs = some b → b.Uniform := by
      intro b hb; subst hb
      cases k <;> simp only [Integ.Inv] at hI
      exact hI
    obtain ⟨⟨u2, u3, u4, u5⟩, u1⟩ := rk4Bufs_uniform junk bufs pos hu
    simp only [Integ.step, rk4Step]
    rw [hf _ pos rfl]
    split
    · rfl
    split
    · rfl
    rename_i t1 ht1
    have st1 := ((stagePoint_shape ht1).trans u5).trans u1
    rw [hf _ t1 st1]
    split
    · rfl
    split
    · rfl
    rename_i t2 ht2
    have st2 := (stagePoint_shape ht2).trans st1
    rw [hf _ t2 st2]
    split
    · rfl
    split
    · rfl
    rename_i t3 ht3
    have st3 := (stagePoint_shape ht3).trans st2
    rw [hf _ t3 st3]

/-- For Euler and RK4 the positions do not depend on the earlier use of the object. -/
theorem step_no_leak {k : Kind} (hk : k ≠ .ab2) {I I' : Integ K} (hI : I.Inv k) (hI' : I'.Inv k)
    (junk : List ℕ → K) (vel : Velocity K) (dt : K) (pos : NDArray K) :
    (I.step junk vel dt pos).2 = (I'.step junk vel dt pos).2 := by
  have fresh : ∀ I : Integ K, I.Inv k →
      (I.step junk vel dt pos).2 = ((Integ.fresh k).step junk vel dt pos).2 := by
    intro I hI
    cases k with
    | ab2 => exact absurd rfl hk
    | euler => exact euler_no_leak hI junk junk vel dt pos
    | rk4 => exact rk4_no_leak hI junk junk vel dt pos
  rw [fresh I hI, fresh I' hI']

/-- A successful step has obtained velocities at the positions. -/
theorem step_ok_vel {junk : List ℕ → K} {vel : Velocity K} {dt : K} {I I' : Integ K}
    {pos pos' : NDArray K} (h : I.step junk vel dt pos = (I', .ok pos')) :
    ∃ A, vel pos = .ok A := by
  rcases hv : vel pos with e | A
  · exfalso
    have hf : ∀ b, fillFrom b vel pos = .error e := by
      intro b; unfold fillFrom; rw [hv]
    cases I <;> simp [Integ.step, eulerStep, ab2Step, rk4Step, hf] at h
  · exact ⟨A, rfl⟩

/-- If the velocities at the positions cannot be obtained, the step raises that exception. -/
theorem step_vel_error {junk : List ℕ → K} {vel : Velocity K} {dt : K} (I : Integ K)
    {pos : NDArray K} {e : PyErr} (h : vel pos = .error e) :
    (I.step junk vel dt pos).2 = .error e := by
  have hf : ∀ b, fillFrom b vel pos = .error e := by
    intro b; unfold fillFrom; rw [h]
  cases I <;> simp [Integ.step, eulerStep, ab2Step, rk4Step, hf]

/-! ## Interpolators -/

/-- The work buffers fit particle arrays of shape `sh`. -/
def HighPerf.BufFor (sh : List ℕ) (s : HighPerf K) : Prop :=
  ∀ n, sh = [n, 3] → s.uLen = some n → s.wLen = some n

/-- Same class and configuration (and usable work buffers). -/
def Similar (sh : List ℕ) : AnyInterp K → AnyInterp K → Prop
  | .scatter s, .scatter s' => s'.method = s.method
  | .highPerf s, .highPerf s' => s'.gridShape = s.gridShape ∧ s.BufFor sh ∧ s'.BufFor sh
  | .grid s, .grid s' => s'.method = s.method ∧ s'.gridShape = s.gridShape
  | .analytical s, .analytical s' => s' = s
  | _, _ => False

/-- Indistinguishable from now on. -/
def Alike (sh : List ℕ) : AnyInterp K → AnyInterp K → Prop
  | .scatter s, .scatter s' =>
    s'.method = s.method ∧ s'.points = s.points ∧ s'.interp = s.interp
  | .highPerf s, .highPerf s' => s'.gridShape = s.gridShape ∧ s.BufFor sh ∧ s'.BufFor sh ∧
      s'.points = s.points ∧ s'.ix = s.ix ∧ s'.iy = s.iy ∧ s'.iz = s.iz
  | .grid s, .grid s' => s'.method = s.method ∧ s'.gridShape = s.gridShape ∧
      s'.points = s.points ∧ s'.ix = s.ix ∧ s'.iy = s.iy ∧ s'.ndim = s.ndim ∧
      (s.ndim = some 2 ∨ (s.ndim = some 3 ∧ s'.iz = s.iz))
  | .analytical s, .analytical s' => s' = s
  | _, _ => False

theorem Alike.similar {sh : List ℕ} {I I' : AnyInterp K} (h : Alike sh I I') :
    Similar sh I I' := by
  cases I <;> cases I' <;> simp only [Alike] at h <;> simp only [Similar]
  · exact h.1
  · exact ⟨h.1, h.2.1, h.2.2.1⟩
  · exact ⟨h.1, h.2.1⟩
  · exact h

theorem scatter_init_method (sp : SciPy K) (s : ScatterState K) :
    (s.initialize sp).1.method = s.method := by
  unfold ScatterState.initialize
  repeat' split
  all_goals rfl

theorem highPerf_update_config (s : HighPerf K) (v : NDArray K) (p : Option (NDArray K)) :
    (s.update v p).1.gridShape = s.gridShape ∧ (s.update v p).1.uLen = s.uLen ∧
      (s.update v p).1.wLen = s.wLen := by
  cases p with
  | some p =>
    unfold HighPerf.update HighPerf.initialize
    dsimp only
    split <;> exact ⟨rfl, rfl, rfl⟩
  | none =>
    unfold HighPerf.update
    dsimp only
    cases s.ix with
    | none =>
      dsimp only
      repeat' split
      all_goals exact ⟨rfl, rfl, rfl⟩
    | some x =>
      cases s.iy with
      | none =>
        dsimp only
        repeat' split
        all_goals exact ⟨rfl, rfl, rfl⟩
      | some y =>
        dsimp only
        repeat' split
        all_goals exact ⟨rfl, rfl, rfl⟩

theorem grid_init_config (sp : SciPy K) (s : GridState K) :
    (s.initialize sp).1.method = s.method ∧ (s.initialize sp).1.gridShape = s.gridShape := by
  unfold GridState.initialize
  repeat' split
  all_goals exact ⟨rfl, rfl⟩

theorem grid_update_config (sp : SciPy K) (s : GridState K) (v : NDArray K)
    (p : Option (NDArray K)) :
    (s.update sp v p).1.method = s.method ∧ (s.update sp v p).1.gridShape = s.gridShape := by
  cases p with
  | some p =>
    rw [grid_update_some]
    exact grid_init_config sp _
  | none =>
    unfold GridState.update
    cases s.ix with
    | none => exact grid_init_config sp _
    | some x =>
      dsimp only
      repeat' split
      all_goals exact ⟨rfl, rfl⟩

/-- Updates do not change class and configuration. -/
theorem Similar.update {sh : List ℕ} {I J : AnyInterp K} (h : Similar sh I J) (sp : SciPy K)
    (v : NDArray K) (p : Option (NDArray K)) : Similar sh I (J.update sp v p).1 := by
  cases I <;> cases J <;> simp only [Similar] at h
  · simp only [AnyInterp.update, Similar]
    rw [scatter_update_eq, scatter_init_method]
    exact h
  · rename_i s s'
    obtain ⟨c1, c2, c3⟩ := highPerf_update_config s' v p
    simp only [AnyInterp.update, Similar]
    refine ⟨c1.trans h.1, h.2.1, ?_⟩
    intro n hn hu
    rw [c2] at hu
    rw [c3]
    exact h.2.2 n hn hu
  · rename_i s s'
    obtain ⟨c1, c2⟩ := grid_update_config sp s' v p
    simp only [AnyInterp.update, Similar]
    exact ⟨c1.trans h.1, c2.trans h.2⟩
  · simp only [AnyInterp.update, Similar, AnalyticalState.update]
    exact h

theorem ensureBuffers_bufFor (s : HighPerf K) (n d : ℕ) (h : s.BufFor [n, d]) :
    (s.ensureBuffers n d).BufFor [n, d] := by
  unfold HighPerf.ensureBuffers
  split
  · exact h
  · split
    · intro m hm hu
      exact hu
    · rename_i hd
      intro m hm hu
      simp only [List.cons.injEq, and_true] at hm
      exact absurd hm.2 hd

theorem ensureBuffers_fields (s : HighPerf K) (n d : ℕ) :
    (s.ensureBuffers n d).gridShape = s.gridShape ∧ (s.ensureBuffers n d).points = s.points ∧
      (s.ensureBuffers n d).ix = s.ix ∧ (s.ensureBuffers n d).iy = s.iy ∧
      (s.ensureBuffers n d).iz = s.iz ∧ (s.ensureBuffers n d).uLen = some n := by
  unfold HighPerf.ensureBuffers
  split
  · exact ⟨rfl, rfl, rfl, rfl, rfl, by assumption⟩
  · split <;> exact ⟨rfl, rfl, rfl, rfl, rfl, rfl⟩

/-- Queries do not change class and configuration. -/
theorem Similar.interpolate {sh : List ℕ} {I J : AnyInterp K} (h : Similar sh I J) (sp : SciPy K)
    (m : CMachine K) (junk : List ℕ → K) (q : NDArray K) (hq : q.shape = sh) :
    Similar sh I (J.interpolate sp m junk q).1 := by
  cases I <;> cases J <;> simp only [Similar] at h
  · exact h
  · rename_i s s'
    simp only [AnyInterp.interpolate, Similar]
    rw [highPerf_interpolate_state]
    split
    · rename_i n d hnd
      rw [hq] at hnd
      subst hnd
      exact ⟨(ensureBuffers_fields s' n d).1.trans h.1, h.2.1, ensureBuffers_bufFor s' n d h.2.2⟩
    · exact h
  · exact h
  · exact h

/-- An update with coordinates makes similar interpolators alike. -/
theorem Similar.update_alike {sh : List ℕ} {I J : AnyInterp K} (h : Similar sh I J)
    (sp : SciPy K) (v p : NDArray K) :
    (I.update sp v (some p)).2 = (J.update sp v (some p)).2 ∧
      ((I.update sp v (some p)).2 = none →
        Alike sh (I.update sp v (some p)).1 (J.update sp v (some p)).1) := by
  cases I <;> cases J <;> simp only [Similar] at h
  · rename_i s s'
    simp only [AnyInterp.update, ScatterState.update, ScatterState.initialize, h]
    repeat' split
    all_goals simp_all [Alike]
  · rename_i s s'
    obtain ⟨h1, h2, h3⟩ := h
    simp only [AnyInterp.update, HighPerf.update, HighPerf.initialize, h1]
    cases HighPerf.build s.gridShape v p with
    | error e => simp
    | ok r => exact ⟨rfl, fun _ => ⟨rfl, h2, h3, rfl, rfl, rfl, rfl⟩⟩
  · rename_i s s'
    obtain ⟨h1, h2⟩ := h
    simp only [AnyInterp.update, grid_update_some, GridState.initialize, h1, h2]
    split
    · rename_i nd npts _
      split
      · simp
      split
      · simp
      split
      · repeat' split
        all_goals simp_all [Alike]
      · repeat' split
        all_goals simp_all [Alike]
      · simp
    · simp
  · subst h
    exact ⟨rfl, fun _ => rfl⟩

theorem setValues_ok {o o' : Option (List (K × K × ℕ) × NDArray K)} {f : NDArray K}
    (h : setValues o f = .ok o') : o'.isSome := by
  unfold setValues at h
  split at h
  · cases h
  · cases h; rfl

/-- Alike interpolators stay alike under updates without coordinates. -/
theorem Alike.update {sh : List ℕ} {I J : AnyInterp K} (h : Alike sh I J)
    (sp : SciPy K) (v : NDArray K) (po : Option (NDArray K)) :
    (I.update sp v po).2 = (J.update sp v po).2 ∧
      ((I.update sp v po).2 = none → Alike sh (I.update sp v po).1 (J.update sp v po).1) := by
  cases po with
  | some p => exact h.similar.update_alike sp v p
  | none =>
    cases I <;> cases J <;> simp only [Alike] at h
    · rename_i s s'
      obtain ⟨h1, h2, h3⟩ := h
      simp only [AnyInterp.update, ScatterState.update, ScatterState.initialize, h1, h2]
      repeat' split
      all_goals simp_all [Alike]
    · rename_i s s'
      obtain ⟨h1, h2, h3, h4, h5, h6, h7⟩ := h
      simp only [AnyInterp.update, HighPerf.update, h1, h4, h5, h6, h7]
      rcases s.ix with _ | x
      · rcases s.iz with _ | z
        · simp_all [Alike, HighPerf.BufFor]
        · cases rowColon v 2 <;> simp_all [Alike, HighPerf.BufFor]
      · rcases s.iy with _ | y
        · rcases s.iz with _ | z
          · simp_all [Alike, HighPerf.BufFor]
          · cases rowColon v 2 <;> simp_all [Alike, HighPerf.BufFor]
        · cases rowColon v 0 with
          | error e => simp
          | ok v0 =>
            cases rowColon v 1 with
            | error e => simp
            | ok v1 =>
              rcases s.iz with _ | z
              · simp_all [Alike, HighPerf.BufFor]
              · cases rowColon v 2 <;> simp_all [Alike, HighPerf.BufFor]
    · rename_i s s'
      obtain ⟨h1, h2, h3, h4, h5, h6, h7⟩ := h
      simp only [AnyInterp.update, GridState.update, h1, h2, h3, h4, h5, h6]
      rcases s.ix with _ | x
      · simp only [GridState.initialize]
        repeat' split
        all_goals simp_all [Alike]
      · rcases h7 with h7 | ⟨h7, h8⟩
        · simp only [h7]
          cases v.reshapeF (2 :: s.gridShape) with
          | error e => simp
          | ok f =>
            simp only
            cases hy : setValues s.iy (f.row 1) with
            | error e => simp
            | ok y => simp_all [Alike]
        · simp only [h7, h8]
          cases v.reshapeC (3 :: s.gridShape) with
          | error e => simp
          | ok f =>
            simp only
            cases rowAt f 0 with
            | error e => simp
            | ok f0 =>
              simp only
              cases rowAt f 1 with
              | error e => simp
              | ok f1 =>
                simp only
                cases setValues s.iy f1 with
                | error e => simp
                | ok y =>
                  simp only
                  cases rowAt f 2 with
                  | error e => simp
                  | ok f2 =>
                    simp only
                    cases setValues s.iz f2 with
                    | error e => simp
                    | ok z => simp_all [Alike]
    · subst h
      exact ⟨rfl, fun _ => rfl⟩

/-- Alike interpolators answer queries at arrays of shape `sh` alike and stay alike. -/
theorem Alike.interpolate {sh : List ℕ} (h3 : sh.headD 0 ≠ 3) {I J : AnyInterp K}
    (h : Alike sh I J) (sp : SciPy K) (m : CMachine K) (junk : List ℕ → K) (q : NDArray K)
    (hq : q.shape = sh) :
    (I.interpolate sp m junk q).2 = (J.interpolate sp m junk q).2 ∧
      Alike sh (I.interpolate sp m junk q).1 (J.interpolate sp m junk q).1 := by
  cases I <;> cases J <;> simp only [Alike] at h
  · rename_i s s'
    obtain ⟨h1, h2, h4⟩ := h
    refine ⟨?_, h1, h2, h4⟩
    simp only [AnyInterp.interpolate, ScatterState.interpolate, h1, h4, hq, h3, and_false,
      if_false]
  · rename_i s s'
    obtain ⟨g1, g2, g3, g4, g5, g6, g7⟩ := h
    simp only [AnyInterp.interpolate, highPerf_interpolate_state, hq]
    unfold HighPerf.interpolate
    rw [hq]
    rcases sh with _ | ⟨n, _ | ⟨d, _ | ⟨e, sh⟩⟩⟩
    · exact ⟨rfl, g1, g2, g3, g4, g5, g6, g7⟩
    · exact ⟨rfl, g1, g2, g3, g4, g5, g6, g7⟩
    · obtain ⟨a1, a2, a3, a4, a5, a6⟩ := ensureBuffers_fields s n d
      obtain ⟨b1, b2, b3, b4, b5, b6⟩ := ensureBuffers_fields s' n d
      have hB := ensureBuffers_bufFor s n d g2
      have hB' := ensureBuffers_bufFor s' n d g3
      constructor
      · simp only [a3, a4, a5, a6, b3, b4, b5, b6, g5, g6, g7]
        by_cases hd : d = 2
        · simp only [hd, if_true]
          split
          · split
            · rfl
            · split <;> rfl
          · rfl
        · simp only [hd, if_false]
          by_cases hd3 : d = 3
          · subst hd3
            have hw := hB n rfl a6
            have hw' := hB' n rfl b6
            simp only [if_true, hw, hw']
            split
            · split
              · rfl
              · split
                · rfl
                · split <;> rfl
            · rfl
          · simp only [hd3, if_false]
      · exact ⟨by rw [a1, b1, g1], hB, hB', by rw [a2, b2, g4], by rw [a3, b3, g5],
          by rw [a4, b4, g6], by rw [a5, b5, g7]⟩
    · exact ⟨rfl, g1, g2, g3, g4, g5, g6, g7⟩
  · rename_i s s'
    obtain ⟨g1, g2, g3', g4, g5, g6, g7⟩ := h
    refine ⟨?_, g1, g2, g3', g4, g5, g6, g7⟩
    simp only [AnyInterp.interpolate, GridState.interpolate, g1, g4, g5, g6]
    rcases g7 with g7 | ⟨g7, g8⟩
    · simp only [g7, (by decide : ¬ (2 : ℕ) = 3), if_false]
    · simp only [g7, g8]
  · subst h
    exact ⟨rfl, rfl⟩

/-! ## The loop -/

/-- Two loop states that differ only in what later steps cannot observe. -/
structure SameRun (sh : List ℕ) (k : Kind) (R : AnyInterp K → AnyInterp K → Prop)
    (a b : Loop K F) : Prop where
  interp : R a.interp b.interp
  integ : a.integ.Inv k
  integ' : b.integ.Inv k
  particles : b.particles = a.particles
  shape : a.particles.positions.shape = sh
  trace : b.trace = a.trace

theorem integrate_eq (junk : List ℕ → K) (vel : Velocity K) (dt : K) (G : Integ K)
    (p : Particles K) : G.integrate junk vel dt p =
      ((G.step junk vel dt p.positions).1,
        match (G.step junk vel dt p.positions).2 with
        | .ok pos => ({ p with positions := pos }, none)
        | .error e => (p, some e)) := by
  unfold Integ.integrate
  rcases G.step junk vel dt p.positions with ⟨G', e | pos⟩ <;> rfl

/-- The part of a step after the update. -/
theorem advance_same {sh : List ℕ} (h3 : sh.headD 0 ≠ 3) {k : Kind} (hk : k ≠ .ab2)
    (env : Env K F) (dt : K) {I J : AnyInterp K} (hI : Alike sh I J) {G G' : Integ K}
    (hG : G.Inv k) (hG' : G'.Inv k) {p : Particles K} (hp : p.positions.shape = sh) :
    (G.integrate env.junk (I.velocity env) dt p).2 =
      (G'.integrate env.junk (J.velocity env) dt p).2 ∧
    (G.integrate env.junk (I.velocity env) dt p).1.Inv k ∧
    (G'.integrate env.junk (J.velocity env) dt p).1.Inv k ∧
    (G.integrate env.junk (I.velocity env) dt p).2.1.positions.shape = sh ∧
    Alike sh (I.interpolate env.sp env.m env.junk p.positions).1
      (J.interpolate env.sp env.m env.junk p.positions).1 := by
  have hv : ∀ q : NDArray K, q.shape = p.positions.shape →
      I.velocity env q = J.velocity env q := fun q hq =>
    (hI.interpolate h3 env.sp env.m env.junk q (hq.trans hp)).1
  have e1 : (G.step env.junk (I.velocity env) dt p.positions).2 =
      (G'.step env.junk (J.velocity env) dt p.positions).2 := by
    rw [step_congr hG env.junk dt p.positions hv]
    exact step_no_leak hk hG hG' _ _ _ _
  rw [integrate_eq, integrate_eq, e1]
  refine ⟨rfl, step_inv k _ _ _ _ hG, step_inv k _ _ _ _ hG', ?_,
    (hI.interpolate h3 env.sp env.m env.junk p.positions hp).2⟩
  rcases hs : G'.step env.junk (J.velocity env) dt p.positions with ⟨G'', e | pos⟩
  · exact hp
  · exact (step_shape hs).trans hp

theorem step_same {sh : List ℕ} (h3 : sh.headD 0 ≠ 3) {k : Kind} (hk : k ≠ .ab2)
    (env : Env K F) (src : Source K) (id : String) (queue : Bool) (i : ℕ) {a b : Loop K F}
    (hu : (src.updateInterp env a.interp i).2 = (src.updateInterp env b.interp i).2)
    (hal : (src.updateInterp env a.interp i).2 = none →
      Alike sh (src.updateInterp env a.interp i).1 (src.updateInterp env b.interp i).1)
    {R : AnyInterp K → AnyInterp K → Prop} (h : SameRun sh k R a b) :
    (a.step env src id queue i).2 = (b.step env src id queue i).2 ∧
    (b.step env src id queue i).1.trace = (a.step env src id queue i).1.trace ∧
    (b.step env src id queue i).1.particles = (a.step env src id queue i).1.particles ∧
    ((a.step env src id queue i).2 = none →
      SameRun sh k (Alike sh) (a.step env src id queue i).1 (b.step env src id queue i).1) := by
  have ht := Loop.step_trace env src id queue i a
  have ht' := Loop.step_trace env src id queue i b
  have main : (a.step env src id queue i).2 = (b.step env src id queue i).2 ∧
    (b.step env src id queue i).1.particles = (a.step env src id queue i).1.particles ∧
    ((a.step env src id queue i).2 = none →
      Alike sh (a.step env src id queue i).1.interp (b.step env src id queue i).1.interp ∧
      (a.step env src id queue i).1.integ.Inv k ∧ (b.step env src id queue i).1.integ.Inv k ∧
      (a.step env src id queue i).1.particles.positions.shape = sh) := by
    unfold Loop.step
    rcases hua : src.updateInterp env a.interp i with ⟨Ia, ea⟩
    rcases hub : src.updateInterp env b.interp i with ⟨Ib, eb⟩
    rw [hua, hub] at hu hal
    simp only at hu hal
    subst hu
    cases ea with
    | some e => exact ⟨rfl, h.particles, by intro hc; cases hc⟩
    | none =>
      have hI := hal rfl
      obtain ⟨e1, e2, e3, e4, e5⟩ := advance_same h3 hk env src.timestep hI h.integ h.integ'
        (p := a.particles) h.shape
      simp only [h.particles]
      rcases hga : a.integ.integrate env.junk (Ia.velocity env) src.timestep a.particles
        with ⟨Ga, pa, ra⟩
      rcases hgb : b.integ.integrate env.junk (Ib.velocity env) src.timestep a.particles
        with ⟨Gb, pb, rb⟩
      rw [hga, hgb] at e1
      rw [hga] at e2 e4
      rw [hgb] at e3
      simp only [Prod.mk.injEq] at e1 e2 e3 e4
      obtain ⟨rfl, rfl⟩ := e1
      cases ra with
      | some e => exact ⟨rfl, rfl, by intro hc; cases hc⟩
      | none => exact ⟨rfl, rfl, fun _ => ⟨e5, e2, e3, e4⟩⟩
  obtain ⟨m1, m2, m3⟩ := main
  have m4 : (b.step env src id queue i).1.trace = (a.step env src id queue i).1.trace := by
    rw [ht, ht', h.trace, m1]
  exact ⟨m1, m4, m2, fun hn => ⟨(m3 hn).1, (m3 hn).2.1, (m3 hn).2.2.1, m2, (m3 hn).2.2.2, m4⟩⟩

/-- Alike states give the same rest of the run. -/
theorem steps_same {sh : List ℕ} (h3 : sh.headD 0 ≠ 3) {k : Kind} (hk : k ≠ .ab2)
    (env : Env K F) (src : Source K) (id : String) (queue : Bool) (l : List ℕ) {a b : Loop K F}
    (h : SameRun sh k (Alike sh) a b) :
    (Loop.steps env src id queue l a).2 = (Loop.steps env src id queue l b).2 ∧
    (Loop.steps env src id queue l b).1.trace = (Loop.steps env src id queue l a).1.trace ∧
    (Loop.steps env src id queue l b).1.particles =
      (Loop.steps env src id queue l a).1.particles := by
  induction l generalizing a b with
  | nil => exact ⟨rfl, h.trace, h.particles⟩
  | cons i l ih =>
    have hup : (src.updateInterp env a.interp i).2 = (src.updateInterp env b.interp i).2 ∧
        ((src.updateInterp env a.interp i).2 = none →
          Alike sh (src.updateInterp env a.interp i).1 (src.updateInterp env b.interp i).1) := by
      cases src with
      | analytical s => exact ⟨rfl, fun _ => h.interp⟩
      | file s =>
        simp only [Source.updateInterp]
        rcases s.dataForStep env.fs i with e | ⟨v, c⟩
        · exact ⟨rfl, by intro hc; cases hc⟩
        · exact h.interp.update env.sp v c
    obtain ⟨e1, e2, e3, e4⟩ := step_same h3 hk env src id queue i hup.1 hup.2 h
    simp only [Loop.steps]
    rcases hsa : a.step env src id queue i with ⟨a', ra⟩
    rcases hsb : b.step env src id queue i with ⟨b', rb⟩
    rw [hsa, hsb] at e1 e2 e3 e4
    simp only at e1 e2 e3 e4
    subst e1
    cases ra with
    | some e => exact ⟨rfl, e2, e3⟩
    | none => exact ih (e4 rfl)

/-- Similar states give the same run of a file source. -/
theorem steps_same_file {sh : List ℕ} (h3 : sh.headD 0 ≠ 3) {k : Kind} (hk : k ≠ .ab2)
    (env : Env K F) (s : FileSource K) (id : String) (queue : Bool) (n : ℕ) {a b : Loop K F}
    (h : SameRun sh k (Similar sh) a b) :
    (Loop.steps env (.file s) id queue (List.range n) a).2 =
      (Loop.steps env (.file s) id queue (List.range n) b).2 ∧
    (Loop.steps env (.file s) id queue (List.range n) b).1.trace =
      (Loop.steps env (.file s) id queue (List.range n) a).1.trace ∧
    (Loop.steps env (.file s) id queue (List.range n) b).1.particles =
      (Loop.steps env (.file s) id queue (List.range n) a).1.particles := by
  cases n with
  | zero => exact ⟨rfl, h.trace, h.particles⟩
  | succ n =>
    rw [List.range_succ_eq_map]
    have hup : ((Source.file s).updateInterp env a.interp 0).2 =
          ((Source.file s).updateInterp env b.interp 0).2 ∧
        (((Source.file s).updateInterp env a.interp 0).2 = none →
          Alike sh ((Source.file s).updateInterp env a.interp 0).1
            ((Source.file s).updateInterp env b.interp 0).1) := by
      simp only [Source.updateInterp]
      rcases hd : s.dataForStep env.fs 0 with e | ⟨v, c⟩
      · exact ⟨rfl, by intro hc; cases hc⟩
      · obtain ⟨c', rfl⟩ : ∃ c', c = some c' := by
          unfold FileSource.dataForStep at hd
          repeat' split at hd
          all_goals first
            | (cases hd; done)
            | skip
          · simp only [Except.ok.injEq, Prod.mk.injEq] at hd
            exact ⟨_, hd.2.symm⟩
          · rename_i hc; simp at hc
        exact h.interp.update_alike env.sp v c'
    obtain ⟨e1, e2, e3, e4⟩ := step_same h3 hk env (.file s) id queue 0 hup.1 hup.2 h
    simp only [Loop.steps]
    rcases hsa : a.step env (.file s) id queue 0 with ⟨a', ra⟩
    rcases hsb : b.step env (.file s) id queue 0 with ⟨b', rb⟩
    rw [hsa, hsb] at e1 e2 e3 e4
    simp only at e1 e2 e3 e4
    subst e1
    cases ra with
    | some e => exact ⟨rfl, e2, e3⟩
    | none => exact steps_same h3 hk env (.file s) id queue _ (e4 rfl)

/-- A run keeps class and configuration of the interpolator and the integrator invariant. -/
theorem steps_similar {sh : List ℕ} {k : Kind} (env : Env K F) (src : Source K) (id : String)
    (queue : Bool) (l : List ℕ) {I : AnyInterp K} {st : Loop K F} (hI : Similar sh I st.interp)
    (hG : st.integ.Inv k) (hp : st.particles.positions.shape = sh) :
    Similar sh I (Loop.steps env src id queue l st).1.interp ∧
      (Loop.steps env src id queue l st).1.integ.Inv k := by
  induction l generalizing st with
  | nil => exact ⟨hI, hG⟩
  | cons i l ih =>
    have hu : Similar sh I (src.updateInterp env st.interp i).1 := by
      cases src with
      | analytical s => exact hI
      | file s =>
        simp only [Source.updateInterp]
        rcases s.dataForStep env.fs i with e | ⟨v, c⟩
        · exact hI
        · exact hI.update env.sp v c
    have hstep : Similar sh I (st.step env src id queue i).1.interp ∧
        (st.step env src id queue i).1.integ.Inv k ∧
        (st.step env src id queue i).1.particles.positions.shape = sh := by
      unfold Loop.step
      rcases hua : src.updateInterp env st.interp i with ⟨J, _ | e⟩
      · rw [hua] at hu
        simp only at hu
        have hJ := hu.interpolate env.sp env.m env.junk st.particles.positions hp
        have hinv := step_inv k env.junk (J.velocity env) src.timestep st.particles.positions hG
        simp only [integrate_eq]
        rcases hs : st.integ.step env.junk (J.velocity env) src.timestep st.particles.positions
          with ⟨G', e | pos⟩
        · rw [hs] at hinv
          exact ⟨hJ, hinv, hp⟩
        · rw [hs] at hinv
          exact ⟨hJ, hinv, (step_shape hs).trans hp⟩
      · rw [hua] at hu
        exact ⟨hu, hG, hp⟩
    simp only [Loop.steps]
    rcases hst : st.step env src id queue i with ⟨st', _ | e⟩
    · rw [hst] at hstep
      exact ih hstep.1 hstep.2.1 hstep.2.2
    · rw [hst] at hstep
      exact ⟨hstep.1, hstep.2.1⟩

end Verif
