import Verif.Props.Rerun

/-!
# C35: which data a step uses
-/

set_option linter.unusedSectionVars false

namespace Verif

section
variable {K F : Type} [Zero K] [One K] [Add K] [Sub K] [Mul K] [Div K] [NatCast K] [IntCast K]
  [Min K] [Max K] [NumLits K] [DecidableEq K]

/-- The interpolator that step `k` of a run queries, or the exception its update raises. -/
def Solver.usedAt (env : Env K F) (S : Solver K) (p : Particles K) (id : String) (k : ℕ) :
    AnyInterp K × Option PyErr :=
  S.source.updateInterp env (Loop.steps (F := F) env S.source id false (List.range k)
    ⟨S.interp, S.integ, p, []⟩).1.interp k

/-- Step `k` is reached and its update succeeds; `I` is the interpolator it queries. -/
def Solver.Queries (env : Env K F) (S : Solver K) (p : Particles K) (id : String) (k : ℕ)
    (I : AnyInterp K) : Prop :=
  S.firstSteps env p id k = none ∧ S.usedAt env p id k = (I, none)

/-- The snapshot and the coordinates listed for step `k`, as read from the files. -/
def FileSource.Listed (fs : MatFS K) (s : FileSource K) (k : ℕ) (v c : NDArray K) : Prop :=
  (∃ f, s.snapshotFiles[k]? = some f ∧ readVelocity fs f = .ok v) ∧
  ∃ f, s.coordinateFiles[k]? = some f ∧ readCoordinate fs f = .ok c

/-- Invariants of the interpolator along the steps. -/
theorem steps_interp_inv {env : Env K F} {src : Source K} {id : String} {queue : Bool} {st0 : Loop K F}
    (P : ℕ → AnyInterp K → Prop) (h0 : P 0 st0.interp)
    (hstep : ∀ i I I', P i I → src.updateInterp env I i = (I', none) →
      ∀ q, P (i + 1) (I'.interpolate env.sp env.m env.junk q).1) (k : ℕ)
    (hk : (Loop.steps env src id queue (List.range k) st0).2 = none) :
    P k (Loop.steps env src id queue (List.range k) st0).1.interp := by
  induction k with
  | zero => exact h0
  | succ k ih =>
    rw [List.range_succ, Loop.steps_append] at hk ⊢
    rcases hs : Loop.steps env src id queue (List.range k) st0 with ⟨st, _ | e⟩
    · rw [hs] at hk ih
      have hP := ih rfl
      simp only [Loop.steps] at hk ⊢
      unfold Loop.step at hk ⊢
      rcases hu : src.updateInterp env st.interp k with ⟨I, _ | e⟩
      · simp only [hu] at hk ⊢
        rcases hi : st.integ.integrate env.junk (I.velocity env) src.timestep st.particles
          with ⟨G, p, _ | e⟩
        · simp only
          exact hstep k _ _ hP hu _
        · simp [hi] at hk
      · simp [hu] at hk
    · simp [hs] at hk

/-- A loop without exception has reached every step, and its update and integration
succeeded. -/
theorem steps_reached {env : Env K F} {src : Source K} {id : String} {queue : Bool}
    {st0 : Loop K F} {n k : ℕ} (hkn : k < n)
    (h : (Loop.steps env src id queue (List.range n) st0).2 = none) :
    ∃ st I G p, Loop.steps env src id queue (List.range k) st0 = (st, none) ∧
      src.updateInterp env st.interp k = (I, none) ∧
      st.integ.integrate env.junk (I.velocity env) src.timestep st.particles = (G, p, none) := by
  obtain ⟨m, rfl⟩ : ∃ m, n = (k + 1) + m := ⟨n - (k + 1), by omega⟩
  rw [List.range_add, Loop.steps_append, List.range_succ, Loop.steps_append] at h
  rcases hs : Loop.steps env src id queue (List.range k) st0 with ⟨st, _ | e⟩
  · rw [hs] at h
    simp only [Loop.steps] at h
    unfold Loop.step at h
    rcases hu : src.updateInterp env st.interp k with ⟨I, _ | e⟩
    · rcases hi : st.integ.integrate env.junk (I.velocity env) src.timestep st.particles
        with ⟨G, p, _ | e⟩
      · exact ⟨st, I, G, p, rfl, hu, hi⟩
      · simp [hu, hi] at h
    · simp [hu] at h
  · simp [hs] at h

/-- A successful integration has queried the interpolator at the positions. -/
theorem integrate_queried {junk : List ℕ → K} {vel : Velocity K} {dt : K} {G G' : Integ K}
    {p p' : Particles K} (h : G.integrate junk vel dt p = (G', p', none)) :
    ∃ A, vel p.positions = .ok A := by
  unfold Integ.integrate at h
  split at h
  · rename_i hs; exact step_ok_vel hs
  · cases h

/-- `len(set(coordinate_files)) == 1`: all coordinate paths are equal. -/
theorem dedup_one {l : List String} (h : l.dedup.length = 1) {i j : ℕ} {a b : String}
    (ha : l[i]? = some a) (hb : l[j]? = some b) : a = b := by
  obtain ⟨x, hx⟩ := List.length_eq_one_iff.1 h
  have hm : ∀ y ∈ l, y = x := by
    intro y hy
    have := List.mem_dedup.2 hy
    rw [hx] at this
    simpa using this
  rw [hm a (List.mem_of_getElem? ha), hm b (List.mem_of_getElem? hb)]

/-- What `get_data_for_step` returns. -/
theorem dataForStep_ok {fs : MatFS K} {s : FileSource K} {i : ℕ} {v : NDArray K}
    {c : Option (NDArray K)} (h : s.dataForStep fs i = .ok (v, c)) :
    ∃ f g, s.snapshotFiles[i]? = some f ∧ readVelocity fs f = .ok v ∧
      s.coordinateFiles[i]? = some g ∧
      ((i = 0 ∨ s.reuseCoordinates = false) → ∃ c', c = some c' ∧ readCoordinate fs g = .ok c') ∧
      (i ≠ 0 → s.reuseCoordinates = true → c = none) := by
  unfold FileSource.dataForStep at h
  split at h
  · cases h
  · rename_i f hf
    split at h
    · cases h
    · rename_i g hg
      split at h
      · cases h
      · rename_i v' hv
        split at h
        · rename_i hc
          split at h
          · cases h
          · rename_i c' hc'
            cases h
            refine ⟨f, g, hf, hv, hg, fun _ => ⟨c', rfl, hc'⟩, fun h1 h2 => ?_⟩
            rcases hc with hc | hc
            · exact absurd hc h1
            · exact absurd h2 hc
        · rename_i hc
          cases h
          refine ⟨f, g, hf, hv, hg, fun h1 => ?_, fun _ _ => rfl⟩
          exact absurd (h1.imp id fun e => by simp [e]) hc

/-- The update of a file source. -/
theorem file_update_ok {env : Env K F} {s : FileSource K} {I I' : AnyInterp K} {i : ℕ}
    (h : (Source.file s).updateInterp env I i = (I', none)) :
    ∃ v c, s.dataForStep env.fs i = .ok (v, c) ∧ I.update env.sp v c = (I', none) := by
  unfold Source.updateInterp at h
  simp only at h
  split at h
  · cases h
  · rename_i v c hd
    exact ⟨v, c, hd, h⟩

/-- A successful update of a scattered-data interpolator has the coordinates. -/
theorem scatter_update_points {sp : SciPy K} {s s' : ScatterState K} {v : NDArray K}
    {po : Option (NDArray K)} (h : s.update sp v po = (s', none)) :
    s'.points = pointsAfter s po ∧ s'.method = s.method ∧ s'.points.isSome := by
  rw [scatter_update_eq] at h
  have hm := scatter_init_method sp { s with velocities := some v, points := pointsAfter s po }
  rw [h] at hm
  unfold ScatterState.initialize at h
  repeat' split at h
  all_goals first
    | (simp at h; done)
    | (cases h; exact ⟨rfl, hm, by simp_all⟩)

/-- **C35 (scattered data).**  In every run with a file source and a scattered-data interpolator
(`cubic`, `linear`, `nearest`), with or without the static-grid shortcut, the field queried in
step `k` is that of a new interpolator given snapshot `k` and the coordinates listed for
snapshot `k`.  (Queries of exactly three points do not occur, see `seeds_not_three`.) -/
theorem C35_scatter {env : Env K F} {stem : String → String} {snaps coords : List String}
    {pf : String} {dt : K} {s : FileSource K}
    (hs : FileSource.create stem snaps coords pf dt = .ok s) (me : Scatter) (G : Integ K)
    (p : Particles K) (id : String) (k : ℕ) {I : AnyInterp K}
    (hI : (⟨.file s, .scatter (.fresh me), G⟩ : Solver K).Queries env p id k I) :
    ∃ v c J, s.Listed env.fs k v c ∧
      (AnyInterp.scatter (.fresh me)).update env.sp v (some c) = (J, none) ∧
      ∀ q : NDArray K, q.shape.headD 0 ≠ 3 → I.velocity env q = J.velocity env q := by
  obtain ⟨hk, hu⟩ := hI
  have hreuse : s.reuseCoordinates = true → s.coordinateFiles.dedup.length = 1 := by
    intro h
    unfold FileSource.create at hs
    split at hs
    · cases hs
    · cases hs; simpa using h
  -- the points are those of the first coordinate file as long as the shortcut is taken
  have hinv := steps_interp_inv (env := env) (src := .file s) (id := id)
    (st0 := (⟨.scatter (.fresh me), G, p, []⟩ : Loop K F))
    (fun i I => ∃ t : ScatterState K, I = .scatter t ∧ t.method = me ∧
      (0 < i → s.reuseCoordinates = true → ∃ g c, s.coordinateFiles[0]? = some g ∧
        readCoordinate env.fs g = .ok c ∧ t.points = some c))
    ⟨.fresh me, rfl, rfl, fun h => absurd h (lt_irrefl 0)⟩
    (by
      rintro i _ I' ⟨t, rfl, ht, hc⟩ hup q
      obtain ⟨v, po, hd, hup⟩ := file_update_ok hup
      simp only [AnyInterp.update] at hup
      rcases hu' : t.update env.sp v po with ⟨t', e⟩
      rw [hu'] at hup
      simp only [Prod.mk.injEq] at hup
      obtain ⟨rfl, rfl⟩ := hup
      obtain ⟨h1, h2, h3⟩ := scatter_update_points hu'
      refine ⟨t', rfl, h2.trans ht, fun _ hr => ?_⟩
      obtain ⟨f, g, hf, hv, hg, hc1, hc2⟩ := dataForStep_ok hd
      by_cases hi : i = 0
      · subst hi
        obtain ⟨c', rfl, hc'⟩ := hc1 (.inl rfl)
        exact ⟨g, c', hg, hc', h1⟩
      · rw [hc2 hi hr] at h1
        obtain ⟨g', c, e1, e2, e3⟩ := hc (by omega) hr
        exact ⟨g', c, e1, e2, h1.trans e3⟩) k hk
  obtain ⟨t, ht, hme, hc⟩ := hinv
  unfold Solver.usedAt at hu
  simp only [ht] at hu
  obtain ⟨v, po, hd, hup⟩ := file_update_ok hu
  simp only [AnyInterp.update] at hup
  rcases hu' : t.update env.sp v po with ⟨t', e⟩
  rw [hu'] at hup
  simp only [Prod.mk.injEq] at hup
  obtain ⟨rfl, rfl⟩ := hup
  obtain ⟨f, g, hf, hv, hg, hc1, hc2⟩ := dataForStep_ok hd
  obtain ⟨c, hcr, hpo⟩ : ∃ c, readCoordinate env.fs g = .ok c ∧ pointsAfter t po = some c := by
    by_cases hi : k = 0 ∨ s.reuseCoordinates = false
    · obtain ⟨c, rfl, h⟩ := hc1 hi
      exact ⟨c, h, rfl⟩
    · have hk0 : k ≠ 0 := fun h => hi (.inl h)
      have hr : s.reuseCoordinates = true := by
        cases h : s.reuseCoordinates
        · exact absurd (.inr h) hi
        · rfl
      obtain ⟨g0, c, e1, e2, e3⟩ := hc (by omega) hr
      rw [dedup_one (hreuse hr) hg e1]
      exact ⟨c, e2, by rw [hc2 hk0 hr]; exact e3⟩
  have hup : (AnyInterp.scatter t).update env.sp v (some c) = (.scatter t', none) := by
    rw [scatter_update_eq, hpo] at hu'
    simp only [AnyInterp.update, scatter_update_eq, pointsAfter, hu']
  have hsim : ∀ sh, Similar (K := K) sh (.scatter t) (.scatter (.fresh me)) := fun _ => hme.symm
  have hfr := (hsim []).update_alike env.sp v c
  rw [hup] at hfr
  rcases hJ : (AnyInterp.scatter (.fresh me)).update env.sp v (some c) with ⟨J, e⟩
  rw [hJ] at hfr
  obtain rfl : none = e := hfr.1
  refine ⟨v, c, J, ⟨⟨f, hf, hv⟩, g, hg, hcr⟩, hJ, fun q hq => ?_⟩
  have hq' := ((hsim q.shape).update_alike env.sp v c).2
  rw [hup, hJ] at hq'
  exact ((hq' rfl).interpolate hq env.sp env.m env.junk q rfl).1

/-- **C35 (no shortcut).**  Any interpolator of the factory, coordinate files not all equal: the
field queried in step `k` is that of a new interpolator given snapshot `k` and its
coordinates. -/
theorem C35_moving_partial {env : Env K F} {s : FileSource K} (hr : s.reuseCoordinates = false)
    {I0 : AnyInterp K} {lower : String → String} {name : String} {gs : Option (List ℕ)}
    {fn : Option (VelocityFn K)} (h0 : createInterpolator lower name gs fn = .ok I0) (kd : Kind)
    (p : Particles K) (h3 : p.positions.shape.headD 0 ≠ 3) (id : String) (k : ℕ)
    {I : AnyInterp K} (hI : (⟨.file s, I0, .fresh kd⟩ : Solver K).Queries env p id k I) :
    ∃ v c J, s.Listed env.fs k v c ∧ I0.update env.sp v (some c) = (J, none) ∧
      ∀ q : NDArray K, q.shape = p.positions.shape → I.velocity env q = J.velocity env q := by
  obtain ⟨hk, hu⟩ := hI
  have hG : (Integ.fresh kd : Integ K).Inv kd := by cases kd <;> trivial
  have hsim := (steps_similar (F := F) (k := kd) env (.file s) id false (List.range k)
    (st := ⟨I0, .fresh kd, p, []⟩) (created_similar h0 p.positions.shape) hG rfl).1
  obtain ⟨v, po, hd, hup⟩ := file_update_ok hu
  obtain ⟨f, g, hf, hv, hg, hc1, -⟩ := dataForStep_ok hd
  obtain ⟨c, rfl, hc⟩ := hc1 (.inr hr)
  have ha := hsim.update_alike env.sp v c
  rw [hup] at ha
  rcases hJ : I0.update env.sp v (some c) with ⟨J, e⟩
  rw [hJ] at ha
  obtain rfl : e = none := ha.1
  exact ⟨v, c, J, ⟨⟨f, hf, hv⟩, g, hg, hc⟩, hJ, fun q hq =>
    ((ha.2 rfl).interpolate h3 env.sp env.m env.junk q hq).1.symm⟩

/-- Reading a velocity file gives a 2-D array. -/
theorem readVelocity_shape {fs : MatFS K} {path : String} {v : NDArray K}
    (h : readVelocity fs path = .ok v) : ∃ r N, v.shape = [r, N] := by
  unfold readVelocity at h
  split at h
  · cases h
  · unfold readComponents at h
    repeat' split at h
    all_goals first
      | cases h
      | (unfold NDArray.stack at h
         split at h
         · cases h; exact ⟨_, _, rfl⟩
         · cases h)

/-- A fast interpolator whose first component holds a 1-D array cannot be queried. -/
theorem highPerf_flat_fails (m : CMachine K) (junk : List ℕ → K) {s : HighPerf K} {x : Interp K}
    {N : ℕ} (hx : s.ix = some x) (hN : x.v.shape = [N]) (q : NDArray K) :
    ∃ e, (s.interpolate m junk q).2 = .error e := by
  have hcall : ∀ n d t l, ∃ e, x.call m n d t l = .error e := by
    intro n d t l
    unfold Interp.call
    split
    · exact ⟨_, rfl⟩
    · dsimp only
      split
      · unfold interp2dVec; rw [hN]; cases l <;> exact ⟨_, rfl⟩
      · unfold interp3dVec; rw [hN]; cases l <;> exact ⟨_, rfl⟩
  unfold HighPerf.interpolate
  split
  · rename_i n d hq
    obtain ⟨-, e2, e3, e4, -⟩ := ensureBuffers_fields s n d
    obtain ⟨e, he⟩ := hcall n d (fun r c => q.get [r, c]) (s.ensureBuffers n d).uLen
    have hix : (s.ensureBuffers n d).ix = some x := by
      unfold HighPerf.ensureBuffers
      split
      · exact hx
      · split <;> exact hx
    simp only [hix]
    repeat' split
    all_goals first
      | exact ⟨_, rfl⟩
      | (exfalso; simp_all)
  · exact ⟨_, rfl⟩

/-- **C35 is false of the code (fast interpolator on a static grid).**  Whatever the files
contain, a run with the static-grid shortcut, the fast interpolator and at least two snapshots
never gets past the second step: the values set by the velocity-only update are a 1-D array. -/
theorem C35_fast_static_fails (env : Env K F) (queue : Bool) (writer : Option (WriteFn K F))
    {s : FileSource K} (hr : s.reuseCoordinates = true) (h2 : 2 ≤ s.snapshotFiles.length)
    (t : HighPerf K) (G : Integ K) :
    ∃ e, ((⟨.file s, .highPerf t, G⟩ : Solver K).run env queue writer).result = .error e := by
  rcases hres : ((⟨.file s, .highPerf t, G⟩ : Solver K).run env queue writer).result with e | o
  · exact ⟨e, rfl⟩
  exfalso
  unfold Solver.run at hres
  simp only [Source.id] at hres
  split at hres
  · cases hres
  rename_i p hp
  rcases hst : Loop.steps env (.file s) s.id queue (List.range (Source.file s).numSteps)
    ⟨.highPerf t, G, p, []⟩ with ⟨st, _ | e⟩
  swap
  · simp [hst] at hres
  have hnone : (Loop.steps env (.file s) s.id queue (List.range (Source.file s).numSteps)
    ⟨.highPerf t, G, p, []⟩).2 = none := by rw [hst]
  obtain ⟨st1, I, G1, p1, h1, hu, hi⟩ := steps_reached (k := 1) h2 hnone
  have hinv := steps_interp_inv (env := env) (src := .file s) (id := s.id) (queue := queue)
    (st0 := (⟨.highPerf t, G, p, []⟩ : Loop K F))
    (fun i I => ∃ t : HighPerf K, I = .highPerf t ∧ (0 < i → ∃ x y, t.ix = some x ∧ t.iy = some y))
    ⟨t, rfl, fun h => absurd h (lt_irrefl 0)⟩
    (by
      rintro i _ I' ⟨t, rfl, ht⟩ hup q
      obtain ⟨v, po, hd, hup⟩ := file_update_ok hup
      simp only [AnyInterp.update] at hup
      rcases hu' : t.update v po with ⟨t', e⟩
      rw [hu'] at hup
      simp only [Prod.mk.injEq] at hup
      obtain ⟨rfl, rfl⟩ := hup
      have hxy : ∃ x y, t'.ix = some x ∧ t'.iy = some y := by
        obtain ⟨f, g, hf, hv, hg, hc1, hc2⟩ := dataForStep_ok hd
        cases po with
        | some c =>
          unfold HighPerf.update HighPerf.initialize at hu'
          simp only at hu'
          split at hu'
          · cases hu'
          · cases hu'; exact ⟨_, _, rfl, rfl⟩
        | none =>
          by_cases hi : i = 0
          · obtain ⟨c', hc', -⟩ := hc1 (.inl hi)
            cases hc'
          · obtain ⟨x, y, hx, hy⟩ := ht (by omega)
            unfold HighPerf.update at hu'
            simp only [hx, hy] at hu'
            repeat' split at hu'
            all_goals first
              | (simp at hu'; done)
              | (cases hu'; exact ⟨_, _, rfl, rfl⟩)
      simp only [AnyInterp.interpolate]
      rw [highPerf_interpolate_state]
      refine ⟨_, rfl, fun _ => ?_⟩
      split
      · rename_i n d _
        obtain ⟨x, y, hx, hy⟩ := hxy
        refine ⟨x, y, ?_, ?_⟩
        · unfold HighPerf.ensureBuffers
          split
          · exact hx
          · split <;> exact hx
        · unfold HighPerf.ensureBuffers
          split
          · exact hy
          · split <;> exact hy
      · exact hxy) 1 (by rw [h1])
  rw [h1] at hinv
  obtain ⟨t1, ht1, hxy⟩ := hinv
  obtain ⟨x, y, hx, hy⟩ := hxy (by omega)
  simp only at ht1
  rw [ht1] at hu
  obtain ⟨v, po, hd, hup⟩ := file_update_ok hu
  obtain ⟨f, g, hf, hv, hg, -, hc2⟩ := dataForStep_ok hd
  obtain rfl := hc2 (by omega) hr
  obtain ⟨r, N, hvs⟩ := readVelocity_shape hv
  simp only [AnyInterp.update] at hup
  rcases hu' : t1.update v none with ⟨t2, e⟩
  rw [hu'] at hup
  simp only [Prod.mk.injEq] at hup
  obtain ⟨rfl, rfl⟩ := hup
  obtain ⟨x', hx', hx's⟩ : ∃ x', t2.ix = some x' ∧ x'.v.shape = [N] := by
    have hrow : ∀ w, rowColon v 0 = .ok w → w.shape = [N] := by
      intro w hw
      simp only [rowColon, hvs] at hw
      split at hw
      · cases hw; simp [NDArray.row, hvs]
      · cases hw
    unfold HighPerf.update at hu'
    simp only [hx, hy] at hu'
    split at hu'
    · simp at hu'
    · rename_i w hw
      repeat' split at hu'
      all_goals first
        | (simp at hu'; done)
        | (cases hu'; exact ⟨_, rfl, hrow w hw⟩)
  obtain ⟨A, hA⟩ := integrate_queried hi
  obtain ⟨e, he⟩ := highPerf_flat_fails env.m env.junk hx' hx's st1.particles.positions
  simp only [AnyInterp.velocity, AnyInterp.interpolate, he] at hA
  cases hA

/-! ## The SciPy grid interpolator -/

/-- Axes of component `c` of a structured interpolator. -/
def GridState.nodeAxes (s : GridState K) (c : ℕ) : Option (List (K × K × ℕ)) :=
  match c with
  | 0 => s.ix.map Prod.fst
  | 1 => s.iy.map Prod.fst
  | _ => s.iz.map Prod.fst

/-- The axes of a grid with the given sizes whose node coordinates are `c`: axis `i` runs from
the smallest to the largest coordinate in row `i`. -/
def AxesOf (c : NDArray K) (gs : List ℕ) (axes : List (K × K × ℕ)) : Prop :=
  axes.length = gs.length ∧
    ∀ i lo hi n, axes[i]? = some (lo, hi, n) →
      gs[i]? = some n ∧ npMin (c.row i) = .ok lo ∧ npMax (c.row i) = .ok hi

/-- Every component of the interpolator lives on the grid given by the coordinates `c`. -/
def GridState.On (s : GridState K) (nd : ℕ) (gs : List ℕ) (c : NDArray K) : Prop :=
  s.Ready nd ∧ s.gridShape = gs ∧ ∀ j < nd, ∃ axes, s.nodeAxes j = some axes ∧ AxesOf c gs axes

theorem gridAxis_ok {c : NDArray K} {i n : ℕ} {a : K × K × ℕ} (h : gridAxis c i n = .ok a) :
    a.2.2 = n ∧ npMin (c.row i) = .ok a.1 ∧ npMax (c.row i) = .ok a.2.1 := by
  unfold gridAxis at h
  split at h
  · cases h
  · rename_i lo hlo
    split at h
    · cases h
    · rename_i hi hhi
      cases h; exact ⟨rfl, hlo, hhi⟩

theorem axesOf_2d {c : NDArray K} {nx ny : ℕ} {x y : K × K × ℕ} (hx : gridAxis c 0 nx = .ok x)
    (hy : gridAxis c 1 ny = .ok y) : AxesOf c [nx, ny] [x, y] := by
  obtain ⟨a1, a2, a3⟩ := gridAxis_ok hx
  obtain ⟨b1, b2, b3⟩ := gridAxis_ok hy
  refine ⟨rfl, fun i lo hi n h => ?_⟩
  rcases i with _ | _ | i
  · simp only [List.getElem?_cons_zero, Option.some.injEq] at h
    subst h; exact ⟨by simp [← a1], a2, a3⟩
  · simp only [zero_add, List.getElem?_cons_succ, List.getElem?_cons_zero, Option.some.injEq] at h
    subst h; exact ⟨by simp [← b1], b2, b3⟩
  · simp at h

theorem axesOf_3d {c : NDArray K} {nx ny nz : ℕ} {x y z : K × K × ℕ}
    (hx : gridAxis c 0 nx = .ok x) (hy : gridAxis c 1 ny = .ok y) (hz : gridAxis c 2 nz = .ok z) :
    AxesOf c [nx, ny, nz] [x, y, z] := by
  obtain ⟨a1, a2, a3⟩ := gridAxis_ok hx
  obtain ⟨b1, b2, b3⟩ := gridAxis_ok hy
  obtain ⟨c1, c2, c3⟩ := gridAxis_ok hz
  refine ⟨rfl, fun i lo hi n h => ?_⟩
  rcases i with _ | _ | _ | i
  · simp only [List.getElem?_cons_zero, Option.some.injEq] at h
    subst h; exact ⟨by simp [← a1], a2, a3⟩
  · simp only [zero_add, List.getElem?_cons_succ, List.getElem?_cons_zero, Option.some.injEq] at h
    subst h; exact ⟨by simp [← b1], b2, b3⟩
  · simp only [zero_add, Nat.reduceAdd, List.getElem?_cons_succ, List.getElem?_cons_zero,
      Option.some.injEq] at h
    subst h; exact ⟨by simp [← c1], c2, c3⟩
  · simp at h

theorem gridObject_axes {sp : SciPy K} {me : GridMethod} {axes : List (K × K × ℕ)} {v : NDArray K}
    {c : ℕ} {sh : List ℕ} {o : List (K × K × ℕ) × NDArray K}
    (h : gridObject sp me axes v c sh = .ok o) : o.1 = axes := by
  unfold gridObject at h
  repeat' split at h
  all_goals first
    | (cases h; done)
    | (cases h; rfl)

/-- An update with coordinates `c` puts the interpolator on the grid of `c`. -/
theorem grid_init_on {sp : SciPy K} {s s' : GridState K} {v c : NDArray K} {nd N : ℕ}
    {gs : List ℕ} (hgs : s.gridShape = gs) (hc : c.shape = [nd, N])
    (h : s.update sp v (some c) = (s', none)) : s'.On nd gs c := by
  rw [grid_update_some] at h
  unfold GridState.initialize at h
  simp only [hc, hgs] at h
  split at h
  · simp at h
  split at h
  · simp at h
  split at h
  · rename_i nx ny
    split at h
    · simp at h
    rename_i x hx
    split at h
    · simp at h
    rename_i y hy
    split at h
    · simp at h
    rename_i ox hox
    split at h
    · simp at h
    rename_i oy hoy
    cases h
    refine ⟨⟨rfl, rfl, rfl, by simp⟩, hgs ▸ rfl, fun j hj => ⟨[x, y], ?_, axesOf_2d hx hy⟩⟩
    interval_cases j
    · simp [GridState.nodeAxes, gridObject_axes hox]
    · simp [GridState.nodeAxes, gridObject_axes hoy]
  · rename_i nx ny nz
    split at h
    · simp at h
    rename_i x hx
    split at h
    · simp at h
    rename_i y hy
    split at h
    · simp at h
    rename_i z hz
    split at h
    · simp at h
    rename_i ox hox
    split at h
    · simp at h
    rename_i oy hoy
    split at h
    · simp at h
    rename_i oz hoz
    cases h
    refine ⟨⟨rfl, rfl, rfl, fun _ => rfl⟩, hgs ▸ rfl,
      fun j hj => ⟨[x, y, z], ?_, axesOf_3d hx hy hz⟩⟩
    interval_cases j
    · simp [GridState.nodeAxes, gridObject_axes hox]
    · simp [GridState.nodeAxes, gridObject_axes hoy]
    · simp [GridState.nodeAxes, gridObject_axes hoz]
  · simp at h

theorem setValues_some {o o' : Option (List (K × K × ℕ) × NDArray K)} {f : NDArray K}
    (h : setValues o f = .ok o') : o'.isSome ∧ o'.map Prod.fst = o.map Prod.fst := by
  unfold setValues at h
  split at h
  · cases h
  · cases h; exact ⟨rfl, rfl⟩

/-- A velocity-only update keeps the grid. -/
theorem grid_reuse_on {sp : SciPy K} {s s' : GridState K} {v c : NDArray K} {nd : ℕ}
    {gs : List ℕ} (hnd : nd = 2 ∨ nd = 3) (hs : s.On nd gs c)
    (h : s.update sp v none = (s', none)) : s'.On nd gs c := by
  obtain ⟨hr, hgs, hax⟩ := hs
  obtain ⟨ox, hx⟩ := Option.isSome_iff_exists.1 hr.ix
  unfold GridState.update at h
  rcases hnd with rfl | rfl
  · simp only [hx, hr.ndim] at h
    split at h
    · simp at h
    split at h
    · simp at h
    rename_i y hy
    obtain ⟨hy1, hy2⟩ := setValues_some hy
    cases h
    refine ⟨⟨rfl, rfl, hy1, by simp⟩, hgs, fun j hj => ?_⟩
    obtain ⟨axes, h1, h2⟩ := hax j hj
    refine ⟨axes, ?_, h2⟩
    rw [← h1]
    interval_cases j
    · simp [GridState.nodeAxes, hx]
    · simpa [GridState.nodeAxes] using hy2
  · simp only [hx, hr.ndim] at h
    split at h
    · simp at h
    split at h
    · simp at h
    split at h
    · simp at h
    split at h
    · simp at h
    rename_i y hy
    split at h
    · simp at h
    split at h
    · simp at h
    rename_i z hz
    obtain ⟨hy1, hy2⟩ := setValues_some hy
    obtain ⟨hz1, hz2⟩ := setValues_some hz
    cases h
    refine ⟨⟨rfl, rfl, hy1, fun _ => hz1⟩, hgs, fun j hj => ?_⟩
    obtain ⟨axes, h1, h2⟩ := hax j hj
    refine ⟨axes, ?_, h2⟩
    rw [← h1]
    interval_cases j
    · simp [GridState.nodeAxes, hx]
    · simpa [GridState.nodeAxes] using hy2
    · simpa [GridState.nodeAxes] using hz2

/-- All listed files hold data for a grid of `N` nodes in `nd` dimensions. -/
def FileSource.Uniform (fs : MatFS K) (s : FileSource K) (nd N : ℕ) : Prop :=
  ∀ (k : ℕ) (f : String),
    (s.snapshotFiles[k]? = some f → ∀ v, readVelocity fs f = .ok v → v.shape = [nd, N]) ∧
    (s.coordinateFiles[k]? = some f → ∀ c, readCoordinate fs f = .ok c → c.shape = [nd, N])

/-- State of the interpolator before step `k`, and the data of step `k`. -/
theorem grid_used {env : Env K F} {stem : String → String} {snaps coords : List String}
    {pf : String} {dt : K} {s : FileSource K}
    (hs : FileSource.create stem snaps coords pf dt = .ok s) {nd N : ℕ} (hnd : nd = 2 ∨ nd = 3)
    (hun : s.Uniform env.fs nd N) (me : GridMethod)
    (gs : List ℕ) (G : Integ K) (p : Particles K) (id : String) (k : ℕ) {I : AnyInterp K}
    (hI : (⟨.file s, .grid (.fresh me gs), G⟩ : Solver K).Queries env p id k I) :
    ∃ (v c : NDArray K) (t t' : GridState K), s.Listed env.fs k v c ∧ I = .grid t' ∧ t'.On nd gs c ∧ t.gridShape = gs ∧
      v.shape = [nd, N] ∧ c.shape = [nd, N] ∧
      ((k = 0 ∨ s.reuseCoordinates = false) ∧ t.update env.sp v (some c) = (t', none) ∨
        k ≠ 0 ∧ s.reuseCoordinates = true ∧ t.On nd gs c ∧
          t.update env.sp v none = (t', none)) := by
  obtain ⟨hk, hu⟩ := hI
  have hreuse : s.reuseCoordinates = true → s.coordinateFiles.dedup.length = 1 := by
    intro h
    unfold FileSource.create at hs
    split at hs
    · cases hs
    · cases hs; simpa using h
  have hinv := steps_interp_inv (env := env) (src := .file s) (id := id) (queue := false)
    (st0 := (⟨.grid (.fresh me gs), G, p, []⟩ : Loop K F))
    (fun i I => ∃ t : GridState K, I = .grid t ∧ t.gridShape = gs ∧
      (0 < i → s.reuseCoordinates = true → ∃ g c, s.coordinateFiles[0]? = some g ∧
        readCoordinate env.fs g = .ok c ∧ t.On nd gs c))
    ⟨.fresh me gs, rfl, rfl, fun h => absurd h (lt_irrefl 0)⟩
    (by
      rintro i _ I' ⟨t, rfl, ht, hc⟩ hup q
      obtain ⟨v, po, hd, hup⟩ := file_update_ok hup
      simp only [AnyInterp.update] at hup
      rcases hu' : t.update env.sp v po with ⟨t', e⟩
      rw [hu'] at hup
      simp only [Prod.mk.injEq] at hup
      obtain ⟨rfl, rfl⟩ := hup
      have hcfg := (grid_update_config env.sp t v po).2
      rw [hu'] at hcfg
      refine ⟨t', rfl, hcfg.trans ht, fun _ hr => ?_⟩
      obtain ⟨f, g, hf, hv, hg, hc1, hc2⟩ := dataForStep_ok hd
      by_cases hi : i = 0
      · subst hi
        obtain ⟨c', rfl, hc'⟩ := hc1 (.inl rfl)
        exact ⟨g, c', hg, hc', grid_init_on ht ((hun 0 g).2 hg c' hc') hu'⟩
      · obtain ⟨g', c, e1, e2, e3⟩ := hc (by omega) hr
        rw [hc2 hi hr] at hu'
        exact ⟨g', c, e1, e2, grid_reuse_on hnd e3 hu'⟩) k hk
  obtain ⟨t, ht, hgs, hc⟩ := hinv
  unfold Solver.usedAt at hu
  simp only [ht] at hu
  obtain ⟨v, po, hd, hup⟩ := file_update_ok hu
  simp only [AnyInterp.update] at hup
  rcases hu' : t.update env.sp v po with ⟨t', e⟩
  rw [hu'] at hup
  simp only [Prod.mk.injEq] at hup
  obtain ⟨rfl, rfl⟩ := hup
  obtain ⟨f, g, hf, hv, hg, hc1, hc2⟩ := dataForStep_ok hd
  by_cases hi : k = 0 ∨ s.reuseCoordinates = false
  · obtain ⟨c, rfl, h⟩ := hc1 hi
    exact ⟨v, c, t, t', ⟨⟨f, hf, hv⟩, g, hg, h⟩, rfl,
      grid_init_on hgs ((hun k g).2 hg c h) hu', hgs, (hun k f).1 hf v hv, (hun k g).2 hg c h,
      .inl ⟨hi, hu'⟩⟩
  · have hk0 : k ≠ 0 := fun h => hi (.inl h)
    have hr : s.reuseCoordinates = true := by
      cases h : s.reuseCoordinates
      · exact absurd (.inr h) hi
      · rfl
    obtain ⟨g0, c, e1, e2, e3⟩ := hc (by omega) hr
    obtain rfl := dedup_one (hreuse hr) hg e1
    rw [hc2 hk0 hr] at hu'
    exact ⟨v, c, t, t', ⟨⟨f, hf, hv⟩, g, hg, e2⟩, rfl, grid_reuse_on hnd e3 hu', hgs,
      (hun k f).1 hf v hv, (hun k g).2 hg c e2, .inr ⟨hk0, hr, e3, hu'⟩⟩

/-- **C35 (SciPy grid interpolator, 3-D).**  Step `k` interpolates snapshot `k` (node `(i, j, l)`
holds entry `(i * ny + j) * nz + l`) on the grid of the coordinates listed for it, with or
without the shortcut. -/
theorem C35_grid_3d_partial {env : Env K F} {stem : String → String} {snaps coords : List String}
    {pf : String} {dt : K} {s : FileSource K}
    (hs : FileSource.create stem snaps coords pf dt = .ok s) {nx ny nz : ℕ}
    (hun : s.Uniform env.fs 3 (nx * ny * nz)) (me : GridMethod) (G : Integ K) (p : Particles K)
    (id : String) (k : ℕ) {I : AnyInterp K}
    (hI : (⟨.file s, .grid (.fresh me [nx, ny, nz]), G⟩ : Solver K).Queries env p id k I) :
    ∃ v c t, s.Listed env.fs k v c ∧ I = .grid t ∧ t.On 3 [nx, ny, nz] c ∧
      ∀ b < 3, ∃ A, t.nodeValues b = some A ∧ A.shape = [nx, ny, nz] ∧
        ∀ i < nx, ∀ j < ny, ∀ l < nz, A.get [i, j, l] = v.get [b, (i * ny + j) * nz + l] := by
  obtain ⟨v, c, t, t', hl, rfl, hon, hgs, hv, hc, h⟩ :=
    grid_used hs (.inr rfl) hun me _ G p id k hI
  refine ⟨v, c, t', hl, rfl, hon, ?_⟩
  rcases h with ⟨-, hu⟩ | ⟨-, -, ht, hu⟩
  · exact (grid_init_values_3d hgs hc hv hu).2.2.2
  · obtain ⟨t2, h2, h3⟩ := grid_reuse_values_3d (sp := env.sp) hgs ht.1 hv
    rw [hu] at h2
    cases h2
    exact h3

/-- **C35 is false of the code (SciPy grid interpolator, static 2-D grid).**  The first step puts
entry `i * ny + j` of its snapshot at node `(i, j)`, every later step entry `i + nx * j`: the
listed coordinates are not respected by both. -/
theorem C35_grid_2d_static_fails {env : Env K F} {stem : String → String}
    {snaps coords : List String} {pf : String} {dt : K} {s : FileSource K}
    (hs : FileSource.create stem snaps coords pf dt = .ok s) (hr : s.reuseCoordinates = true)
    {nx ny : ℕ} (hun : s.Uniform env.fs 2 (nx * ny)) (me : GridMethod) (G : Integ K)
    (p : Particles K) (id : String) (k : ℕ) {I : AnyInterp K}
    (hI : (⟨.file s, .grid (.fresh me [nx, ny]), G⟩ : Solver K).Queries env p id k I) :
    ∃ v c t, s.Listed env.fs k v c ∧ I = .grid t ∧ t.On 2 [nx, ny] c ∧
      ∀ b < 2, ∃ A, t.nodeValues b = some A ∧
        ∀ i < nx, ∀ j < ny,
          A.get [i, j] = v.get [b, if k = 0 then i * ny + j else i + nx * j] := by
  obtain ⟨v, c, t, t', hl, rfl, hon, hgs, hv, hc, h⟩ :=
    grid_used hs (.inl rfl) hun me _ G p id k hI
  refine ⟨v, c, t', hl, rfl, hon, ?_⟩
  rcases h with ⟨hk, hu⟩ | ⟨hk, -, ht, hu⟩
  · have hk : k = 0 := hk.resolve_right (by simp [hr])
    intro b hb
    obtain ⟨A, h1, -, h2⟩ := (grid_init_values_2d hgs hc hv hu).2.2.2 b hb
    exact ⟨A, h1, fun i hi j hj => by rw [if_pos hk]; exact h2 i hi j hj⟩
  · obtain ⟨t2, h2, h3⟩ := grid_reuse_values_2d (sp := env.sp) hgs ht.1 hv
    rw [hu] at h2
    cases h2
    intro b hb
    obtain ⟨A, h1, -, h2⟩ := h3 b hb
    exact ⟨A, h1, fun i hi j hj => by rw [if_neg hk]; exact h2 i hi j hj⟩

end

/-! ## The theorems above apply to concrete runs -/

theorem queries_of {K F : Type} [Zero K] [One K] [Add K] [Sub K] [Mul K] [Div K] [NatCast K]
    [IntCast K] [Min K] [Max K] [NumLits K] [DecidableEq K] {env : Env K F} {S : Solver K}
    {p : Particles K} {id : String} {k : ℕ} (h1 : S.firstSteps env p id k = none)
    (h2 : (S.usedAt env p id k).2 = none) : S.Queries env p id k (S.usedAt env p id k).1 :=
  ⟨h1, Prod.ext rfl h2⟩

/-- C35 (scattered data): step 1 of the run with static coordinates. -/
example : ∃ I, (⟨.file exFileSource, .scatter (.fresh .linear), .fresh .euler⟩ : Solver ℚ).Queries
    exFileEnv exParticles "v" 1 I :=
  ⟨_, queries_of (by decide +kernel) (by decide +kernel)⟩

/-- Two snapshots with their own coordinate files. -/
def exMoving : FileSource ℚ := ⟨["v", "w"], ["c", "d"], "p", 1, "v", false⟩

/-- C35 (no shortcut): step 1 of runs with the fast and with the SciPy grid interpolator. -/
example : (∃ I, (⟨.file exMoving, .highPerf (.fresh [3, 3]), .fresh .rk4⟩ : Solver ℚ).Queries
      exFileEnv exParticles "v" 1 I) ∧
    ∃ I, (⟨.file exMoving, .grid (.fresh .linear [3, 3]), .fresh .ab2⟩ : Solver ℚ).Queries
      exFileEnv exParticles "v" 1 I :=
  ⟨⟨_, queries_of (by decide +kernel) (by decide +kernel)⟩,
    ⟨_, queries_of (by decide +kernel) (by decide +kernel)⟩⟩

/-- The fast interpolator works on the same data when the coordinate files have two names, and
fails with `RuntimeError` when they have one. -/
theorem C35_fast_witness_fails :
    ((⟨.file exMoving, .highPerf (.fresh [3, 3]), .fresh .euler⟩ : Solver ℚ).run exFileEnv false
      none).result.toOption.join = some [6, 1] ∧
    (match ((⟨.file exFileSource, .highPerf (.fresh [3, 3]), .fresh .euler⟩ : Solver ℚ).run
      exFileEnv false none).result with
      | .error e => some e
      | .ok _ => none) = some .runtimeError := by
  decide +kernel

theorem exFile_uniform : exFileSource.Uniform exFileEnv.fs 2 9 := by
  have hv : ∀ f v, f = "v" ∨ f = "w" → readVelocity exFileEnv.fs f = .ok v → v.shape = [2, 9] := by
    intro f v hf h
    have e : (readVelocity exFileEnv.fs f).toOption.map (·.shape) = some [2, 9] := by
      rcases hf with rfl | rfl <;> decide +kernel
    rw [h] at e
    exact Option.some.inj e
  have hc : ∀ c, readCoordinate exFileEnv.fs "c" = .ok c → c.shape = [2, 9] := by
    intro c h
    have e : (readCoordinate exFileEnv.fs "c").toOption.map (·.shape) = some [2, 9] := by
      decide +kernel
    rw [h] at e
    exact Option.some.inj e
  rintro (_ | _ | k) f
  · exact ⟨fun h v => hv f v (.inl (Option.some.inj h).symm), fun h c hr => by
      obtain rfl := Option.some.inj h; exact hc c hr⟩
  · exact ⟨fun h v => hv f v (.inr (Option.some.inj h).symm), fun h c hr => by
      obtain rfl := Option.some.inj h; exact hc c hr⟩
  · exact ⟨fun h => by simp [exFileSource] at h, fun h => by simp [exFileSource] at h⟩

/-- C35 (2-D static grid): the hypotheses hold for step 1 of a run on the example files. -/
example : FileSource.create id ["v", "w"] ["c", "c"] "p" (1 : ℚ) = .ok exFileSource ∧
    exFileSource.reuseCoordinates = true ∧ exFileSource.Uniform exFileEnv.fs 2 (3 * 3) ∧
    ∃ I, (⟨.file exFileSource, .grid (.fresh .linear [3, 3]), .fresh .euler⟩ : Solver ℚ).Queries
      exFileEnv exParticles "v" 1 I :=
  ⟨rfl, rfl, exFile_uniform, ⟨_, queries_of (by decide +kernel) (by decide +kernel)⟩⟩

/-- Files of a 2 × 2 × 2 grid. -/
def exFiles3 : MatFS ℚ := fun _ => some fun key =>
  if key = "coordinate_x" then some (exRow [0, 0, 0, 0, 1, 1, 1, 1])
  else if key = "coordinate_y" then some (exRow [0, 0, 1, 1, 0, 0, 1, 1])
  else if key = "coordinate_z" then some (exRow [0, 1, 0, 1, 0, 1, 0, 1])
  else some (exRow [1, 2, 3, 4, 5, 6, 7, 8])

/-- C35 (3-D): the hypotheses hold for step 1 of a run on the files above. -/
example : exFileSource.Uniform exFiles3 3 (2 * 2 * 2) ∧
    ∃ I, (⟨.file exFileSource, .grid (.fresh .linear [2, 2, 2]), .fresh .euler⟩ :
        Solver ℚ).Queries { exFileEnv with fs := exFiles3 }
      ⟨⟨[6, 3], fun idx => idx.getD 0 0 / 6⟩, exRow [], exRow [], exRow [], exRow [], 6⟩ "v" 1 I := by
  refine ⟨fun k f => ⟨fun _ v h => ?_, fun _ c h => ?_⟩,
    ⟨_, queries_of (by decide +kernel) (by decide +kernel)⟩⟩
  · have e : (readVelocity exFiles3 f).toOption.map (·.shape) = some [3, 8] := by
      unfold readVelocity loadmat exFiles3; decide +kernel
    rw [h] at e
    exact Option.some.inj e
  · have e : (readCoordinate exFiles3 f).toOption.map (·.shape) = some [3, 8] := by
      unfold readCoordinate loadmat exFiles3; decide +kernel
    rw [h] at e
    exact Option.some.inj e

end Verif
