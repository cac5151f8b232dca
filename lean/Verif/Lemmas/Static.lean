import Verif.Props.Snapshots
import Verif.Props.Program

/-!
# The first two steps on a static grid with the fast interpolator
-/

set_option linter.unusedSectionVars false

namespace Verif

section
variable {K F : Type} [Zero K] [One K] [Add K] [Sub K] [Mul K] [Div K] [NatCast K] [IntCast K]
  [Min K] [Max K] [NumLits K] [DecidableEq K]

/-- The state of a fast interpolator made for a grid of shape `gs`. -/
structure HighPerf.Made (gs : List ℕ) (t : HighPerf K) (x y : Interp K) : Prop where
  ix : t.ix = some x
  iy : t.iy = some y
  axes : x.axes.length = gs.length
  iz : t.iz.isSome ↔ gs.length = 3
  dim : gs.length = 2 ∨ gs.length = 3

theorem highPerf_made {gs : List ℕ} {t : HighPerf K} {v c : NDArray K}
    (h : (HighPerf.fresh gs).update v (some c) = (t, none)) : ∃ x y, t.Made gs x y := by
  unfold HighPerf.update HighPerf.initialize at h
  simp only [HighPerf.fresh] at h
  split at h
  · cases h
  · rename_i x y z hb
    cases h
    unfold HighPerf.build at hb
    repeat' split at hb
    all_goals first
      | (cases hb; done)
      | skip
    · cases hb
      exact ⟨_, _, rfl, rfl, rfl, by simp, .inl rfl⟩
    · cases hb
      exact ⟨_, _, rfl, rfl, rfl, by simp, .inr rfl⟩

theorem HighPerf.Made.buffers {gs : List ℕ} {t : HighPerf K} {x y : Interp K} (h : t.Made gs x y)
    (n d : ℕ) : (t.ensureBuffers n d).Made gs x y := by
  obtain ⟨h1, h2, h3, h4, h5⟩ := h
  unfold HighPerf.ensureBuffers
  repeat' split
  all_goals exact ⟨h1, h2, h3, h4, h5⟩

theorem HighPerf.Made.queried {gs : List ℕ} {t : HighPerf K} {x y : Interp K} (h : t.Made gs x y)
    (m : CMachine K) (junk : List ℕ → K) (q : NDArray K) :
    (t.interpolate m junk q).1.Made gs x y := by
  rw [highPerf_interpolate_state]
  split
  · exact h.buffers _ _
  · exact h

theorem interp2dVec_cols {m : CMachine K} {v : NDArray K} {d : ℕ} {pts : List (List (Option K))}
    {o : Option ℕ} {l : List K} (h : interp2dVec m v d pts o = .ok l) : d = 2 := by
  by_contra hd
  unfold interp2dVec at h
  simp only [ne_eq, hd, not_false_eq_true, if_true] at h
  repeat' split at h
  all_goals cases h

theorem interp3dVec_cols {m : CMachine K} {v : NDArray K} {d : ℕ} {pts : List (List (Option K))}
    {o : Option ℕ} {l : List K} (h : interp3dVec m v d pts o = .ok l) : d = 3 := by
  by_contra hd
  unfold interp3dVec at h
  simp only [ne_eq, hd, not_false_eq_true, if_true] at h
  repeat' split at h
  all_goals cases h

/-- Only queries of the dimension of the grid succeed. -/
theorem HighPerf.Made.columns {gs : List ℕ} {t : HighPerf K} {x y : Interp K} (h : t.Made gs x y)
    (m : CMachine K) (junk : List ℕ → K) {q A : NDArray K} (hq : (t.interpolate m junk q).2 = .ok A) :
    ∃ n, q.shape = [n, gs.length] := by
  unfold HighPerf.interpolate at hq
  split at hq
  · rename_i n d hs
    have hb := h.buffers n d
    refine ⟨n, ?_⟩
    rw [hs]
    have hcall : ∀ l, x.call m n d (fun r c => q.get [r, c]) (t.ensureBuffers n d).uLen = .ok l →
        d = gs.length := by
      intro l hl
      unfold Interp.call at hl
      split at hl
      · cases hl
      · rename_i hlt
        rw [h.axes] at hlt
        dsimp only at hl
        rcases h.dim with h2 | h3
        · rw [h.axes, h2] at hl
          rw [h2]
          exact interp2dVec_cols (l := l) hl
        · rw [h.axes, h3] at hl
          rw [h3]
          exact interp3dVec_cols (l := l) hl
    simp only [hb.ix, hb.iy] at hq
    have : ∃ l, x.call m n d (fun r c => q.get [r, c]) (t.ensureBuffers n d).uLen = .ok l := by
      cases hc : x.call m n d (fun r c => q.get [r, c]) (t.ensureBuffers n d).uLen with
      | ok l => exact ⟨l, rfl⟩
      | error e =>
        exfalso
        rw [hc] at hq
        repeat' split at hq
        all_goals simp_all
    obtain ⟨l, hl⟩ := this
    rw [hcall l hl]
  · cases hq

/-- The velocity-only update leaves a flat array behind; if the file has as many components as the
grid has axes it succeeds, and the next query of the dimension of the grid is a `RuntimeError`. -/
theorem HighPerf.Made.flat {gs : List ℕ} {t : HighPerf K} {x y : Interp K} (h : t.Made gs x y)
    {v : NDArray K} {r N : ℕ} (hv : v.shape = [r, N]) (hr : gs.length ≤ r) :
    ∃ t', t.update v none = (t', none) ∧
      ∀ (m : CMachine K) (junk : List ℕ → K) (q : NDArray K) (n : ℕ), q.shape = [n, gs.length] →
        (t'.interpolate m junk q).2 = .error .runtimeError := by
  have hd := h.dim
  have key : ∀ t' : HighPerf K, t'.ix = some { x with v := v.row 0 } →
      (∃ y', t'.iy = some y') → (t'.iz.isSome ↔ gs.length = 3) →
      ∀ (m : CMachine K) (junk : List ℕ → K) (q : NDArray K) (n : ℕ), q.shape = [n, gs.length] →
        (t'.interpolate m junk q).2 = .error .runtimeError := by
    rintro t' hx ⟨y', hy⟩ hz m junk q n hq
    have hb : (t'.ensureBuffers n gs.length).uLen = some n ∧
        (t'.ensureBuffers n gs.length).ix = t'.ix ∧
        (t'.ensureBuffers n gs.length).iy = t'.iy ∧
        (t'.ensureBuffers n gs.length).iz = t'.iz := by
      unfold HighPerf.ensureBuffers
      split
      · exact ⟨by assumption, rfl, rfl, rfl⟩
      · split <;> exact ⟨rfl, rfl, rfl, rfl⟩
    obtain ⟨b1, b2, b3, b4⟩ := hb
    have hcall : ∀ tt, Interp.call m { x with v := v.row 0 } n gs.length tt (some n) =
        .error .runtimeError := by
      intro tt
      unfold Interp.call
      simp only [h.axes, lt_irrefl, if_false]
      rcases hd with h2 | h3
      · rw [h2]; simp only [interp2dVec, NDArray.row, hv, List.tail_cons]
      · rw [h3]; simp only [interp3dVec, NDArray.row, hv, List.tail_cons]
    unfold HighPerf.interpolate
    rw [hq]
    simp only [b1, b2, b3, b4, hx, hy]
    rcases hd with h2 | h3
    · simp only [h2, if_true]
      rw [h2] at hcall
      rw [hcall]
    · obtain ⟨z, hz'⟩ := Option.isSome_iff_exists.1 (hz.2 h3)
      rw [h3] at hcall
      simp only [h3, hz', (by decide : ¬ (3 : ℕ) = 2), if_false, if_true]
      rw [hcall]
  have h0 : rowColon v 0 = .ok (v.row 0) := by
    simp only [rowColon, hv]; rw [if_pos (by omega)]
  have h1 : rowColon v 1 = .ok (v.row 1) := by
    simp only [rowColon, hv]; rw [if_pos (by omega)]
  unfold HighPerf.update
  simp only [h.ix, h.iy, h0, h1]
  cases hz : t.iz with
  | none =>
    refine ⟨_, rfl, key _ rfl ⟨_, rfl⟩ ?_⟩
    have := h.iz
    rw [hz] at this
    exact this
  | some z =>
    have h3 : gs.length = 3 := h.iz.1 (by rw [hz]; rfl)
    have h2 : rowColon v 2 = .ok (v.row 2) := by
      simp only [rowColon, hv]; rw [if_pos (by omega)]
    simp only [h2]
    refine ⟨_, rfl, key _ rfl ⟨_, rfl⟩ ?_⟩
    simp [h3]

/-- A failing query makes every integrator fail with the same exception. -/
theorem integrate_error {junk : List ℕ → K} {vel : Velocity K} {dt : K} (G : Integ K)
    (p : Particles K) {e : PyErr} (h : vel p.positions = .error e) :
    ∃ G', G.integrate junk vel dt p = (G', p, some e) := by
  have hf : ∀ b, fillFrom b vel p.positions = .error e := by
    intro b; unfold fillFrom; rw [h]
  unfold Integ.integrate
  cases G with
  | euler b => simp only [Integ.step, eulerStep, hf]; exact ⟨_, rfl⟩
  | ab2 pr b => simp only [Integ.step, ab2Step, hf]; exact ⟨_, rfl⟩
  | rk4 b => simp only [Integ.step, rk4Step, hf]; exact ⟨_, rfl⟩

/-- The first step. -/
theorem static_first {env : Env K F} {s : FileSource K} {gs : List ℕ} {G : Integ K}
    {p : Particles K} {id : String} {st : Loop K F}
    (h : (⟨.highPerf (.fresh gs), G, p, []⟩ : Loop K F).step env (.file s) id true 0 =
      (st, none)) :
    st.trace = [.progress id 0] ∧ ∃ t x y n, st.interp = .highPerf t ∧ t.Made gs x y ∧
      st.particles.positions.shape = [n, gs.length] := by
  unfold Loop.step at h
  rcases hu : (Source.file s).updateInterp env (.highPerf (.fresh gs)) 0 with ⟨I, _ | e⟩
  swap
  · simp [hu] at h
  simp only [hu] at h
  rcases hi : G.integrate env.junk (I.velocity env) (Source.file s).timestep p with ⟨G', p', _ | e⟩
  swap
  · simp [hi] at h
  simp only [hi] at h
  cases h
  obtain ⟨v, po, hd, hup⟩ := file_update_ok hu
  obtain ⟨f, g, hf, hv, hg, hc, -⟩ := dataForStep_ok hd
  obtain ⟨c, rfl, hc⟩ := hc (.inl rfl)
  simp only [AnyInterp.update] at hup
  rcases hu' : (HighPerf.fresh gs : HighPerf K).update v (some c) with ⟨t, e⟩
  rw [hu'] at hup
  simp only [Prod.mk.injEq] at hup
  obtain ⟨rfl, rfl⟩ := hup
  obtain ⟨x, y, hm⟩ := highPerf_made hu'
  obtain ⟨A, hA⟩ := integrate_queried hi
  obtain ⟨n, hn⟩ := hm.columns env.m env.junk (q := p.positions) (A := A) hA
  refine ⟨by simp, (t.interpolate env.m env.junk p.positions).1, x, y, n, rfl,
    hm.queried _ _ _, ?_⟩
  unfold Integ.integrate at hi
  rcases hs : G.step env.junk ((AnyInterp.highPerf t).velocity env) (Source.file s).timestep
    p.positions with ⟨G'', _ | pos⟩
  · rw [hs] at hi; cases hi
  · rw [hs] at hi
    cases hi
    rw [← hn]
    exact step_shape hs

/-- The second step. -/
theorem static_second {env : Env K F} {s : FileSource K} (hr : s.reuseCoordinates = true)
    {gs : List ℕ} {st : Loop K F} {id : String} {t : HighPerf K} {x y : Interp K} {n : ℕ}
    (hI : st.interp = .highPerf t) (hm : t.Made gs x y)
    (hp : st.particles.positions.shape = [n, gs.length]) {file : String}
    (hf : s.snapshotFiles[1]? = some file) (hc : 1 < s.coordinateFiles.length) {v : NDArray K}
    (hv : readVelocity env.fs file = .ok v) (hd : gs.length ≤ v.shape.headD 0) :
    ∃ st', st.step env (.file s) id true 1 = (st', some .runtimeError) := by
  obtain ⟨r, N, hs⟩ := readVelocity_shape hv
  rw [hs] at hd
  obtain ⟨t', hu, hq⟩ := hm.flat hs hd
  have hdata : s.dataForStep env.fs 1 = .ok (v, none) := by
    unfold FileSource.dataForStep
    rw [hf, List.getElem?_eq_getElem hc]
    simp [hv, hr]
  unfold Loop.step
  simp only [hI, Source.updateInterp, hdata, AnyInterp.update, hu]
  obtain ⟨G', hG⟩ := integrate_error (junk := env.junk) (dt := (Source.file s).timestep)
    (vel := (AnyInterp.highPerf t').velocity env) st.integ st.particles
    (e := .runtimeError) (hq env.m env.junk _ n hp)
  simp only [hG]
  exact ⟨_, rfl⟩

/-- The second step never succeeds. -/
theorem static_second_fails {env : Env K F} {s : FileSource K} (hr : s.reuseCoordinates = true)
    {gs : List ℕ} {st st' : Loop K F} {id : String} {t : HighPerf K} {x y : Interp K}
    (hI : st.interp = .highPerf t) (hm : t.Made gs x y) :
    st.step env (.file s) id true 1 ≠ (st', none) := by
  intro h
  unfold Loop.step at h
  rcases hu : (Source.file s).updateInterp env st.interp 1 with ⟨I, _ | e⟩
  swap
  · simp [hu] at h
  simp only [hu] at h
  rcases hi : st.integ.integrate env.junk (I.velocity env) (Source.file s).timestep st.particles
    with ⟨G', p', _ | e⟩
  swap
  · simp [hi] at h
  rw [hI] at hu
  obtain ⟨v, po, hd, hup⟩ := file_update_ok hu
  obtain ⟨f, g, hf, hv, hg, -, hc2⟩ := dataForStep_ok hd
  obtain rfl := hc2 (by omega) hr
  obtain ⟨r, N, hvs⟩ := readVelocity_shape hv
  simp only [AnyInterp.update] at hup
  rcases hu' : t.update v none with ⟨t2, e⟩
  rw [hu'] at hup
  simp only [Prod.mk.injEq] at hup
  obtain ⟨rfl, rfl⟩ := hup
  obtain ⟨x', hx', hx's⟩ : ∃ x', t2.ix = some x' ∧ x'.v.shape = [N] := by
    have hrow : ∀ w, rowColon v 0 = .ok w → w.shape = [N] := by
      intro w hw
      simp only [rowColon, hvs] at hw
      split at hw
      · cases hw; simp [NDArray.row, hvs]
      · cases hw
    unfold HighPerf.update at hu'
    simp only [hm.ix, hm.iy] at hu'
    split at hu'
    · simp at hu'
    · rename_i w hw
      repeat' split at hu'
      all_goals first
        | (simp at hu'; done)
        | (cases hu'; exact ⟨_, rfl, hrow w hw⟩)
  obtain ⟨A, hA⟩ := integrate_queried hi
  obtain ⟨e, he⟩ := highPerf_flat_fails env.m env.junk hx' hx's st.particles.positions
  have : (t2.interpolate env.m env.junk st.particles.positions).2 = .ok A := hA
  rw [he] at this
  cases this

/-- A step with an exception sends nothing. -/
theorem step_error_trace {env : Env K F} {src : Source K} {id : String} {queue : Bool} {i : ℕ}
    {st st' : Loop K F} {e : PyErr} (h : st.step env src id queue i = (st', some e)) :
    st'.trace = st.trace := by
  unfold Loop.step at h
  repeat' split at h
  all_goals first
    | (cases h; rfl)
    | (simp at h; done)

/-- A run on a static grid with the fast interpolator. -/
theorem static_run (env : Env K F) (writer : Option (WriteFn K F)) {s : FileSource K}
    (hr : s.reuseCoordinates = true) (h2 : 2 ≤ s.snapshotFiles.length) (gs : List ℕ) (G : Integ K) :
    ∃ e, ((⟨.file s, .highPerf (.fresh gs), G⟩ : Solver K).run env true writer).result = .error e ∧
      (((⟨.file s, .highPerf (.fresh gs), G⟩ : Solver K).run env true writer).trace = [] ∨
        ((⟨.file s, .highPerf (.fresh gs), G⟩ : Solver K).run env true writer).trace =
          [.progress s.id 0] ∧
        ∃ (st st' : Loop K F) (t : HighPerf K) (x y : Interp K) (n : ℕ),
          st.interp = .highPerf t ∧ t.Made gs x y ∧
          st.particles.positions.shape = [n, gs.length] ∧
          st.step env (.file s) s.id true 1 = (st', some e)) := by
  obtain ⟨n, hn⟩ : ∃ n, s.snapshotFiles.length = n + 2 := ⟨s.snapshotFiles.length - 2, by omega⟩
  have hrange : List.range (n + 2) = 0 :: 1 :: (List.range n).map (· + 2) := by
    rw [List.range_succ_eq_map, List.range_succ_eq_map]
    simp [Function.comp_def]
  unfold Solver.run
  simp only [Source.getParticles, Source.id, Source.numSteps, hn, hrange]
  cases hp : readSeedParticles env.fs s.particleFile with
  | error e => exact ⟨e, rfl, .inl rfl⟩
  | ok p =>
    simp only [Loop.steps]
    rcases h0 : (⟨.highPerf (.fresh gs), G, p, []⟩ : Loop K F).step env (.file s) s.id true 0
      with ⟨st, _ | e⟩
    · obtain ⟨htr, t, x, y, m, hI, hm, hsh⟩ := static_first h0
      rcases h1 : st.step env (.file s) s.id true 1 with ⟨st', _ | e⟩
      · exact absurd h1 (static_second_fails hr hI hm)
      · simp only [h1]
        exact ⟨e, rfl, .inr ⟨(step_error_trace h1).trans htr, st, st', t, x, y, m, hI, hm, hsh,
          h1⟩⟩
    · exact ⟨e, rfl, .inl (step_error_trace h0)⟩

/-- If the first step succeeds the run reports it. -/
theorem static_reported {env : Env K F} {writer : Option (WriteFn K F)} {s : FileSource K}
    (hr : s.reuseCoordinates = true) (h2 : 2 ≤ s.snapshotFiles.length) {gs : List ℕ} {G : Integ K}
    {p : Particles K} (hp : readSeedParticles env.fs s.particleFile = .ok p)
    (h0 : ((⟨.highPerf (.fresh gs), G, p, []⟩ : Loop K F).step env (.file s) s.id true 0).2 =
      none) :
    ((⟨.file s, .highPerf (.fresh gs), G⟩ : Solver K).run env true writer).trace ≠ [] := by
  obtain ⟨n, hn⟩ : ∃ n, s.snapshotFiles.length = n + 2 := ⟨s.snapshotFiles.length - 2, by omega⟩
  have hrange : List.range (n + 2) = 0 :: 1 :: (List.range n).map (· + 2) := by
    rw [List.range_succ_eq_map, List.range_succ_eq_map]
    simp [Function.comp_def]
  unfold Solver.run
  simp only [Source.getParticles, Source.id, Source.numSteps, hn, hrange, hp, Loop.steps]
  rcases hs : (⟨.highPerf (.fresh gs), G, p, []⟩ : Loop K F).step env (.file s) s.id true 0
    with ⟨st, _ | e⟩
  · obtain ⟨htr, t, x, y, m, hI, hm, hsh⟩ := static_first hs
    rcases h1 : st.step env (.file s) s.id true 1 with ⟨st', _ | e⟩
    · exact absurd h1 (static_second_fails hr hI hm)
    · simp only [h1]
      rw [step_error_trace h1, htr]
      simp
  · rw [hs] at h0
    cases h0

end

end Verif
