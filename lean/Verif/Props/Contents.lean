import Verif.Spec.Contents
import Verif.Props.Snapshots
import Verif.Props.Batches

/-!
# C127: the names of the files do not matter
-/

namespace Verif

section
variable {K F : Type} [Zero K] [One K] [Add K] [Sub K] [Mul K] [Div K] [NatCast K] [IntCast K]
  [Min K] [Max K] [NumLits K] [DecidableEq K]

theorem loadmat_congr {fs fs' : MatFS K} {f f' : String} (h : fs f = fs' f') :
    loadmat fs f = loadmat fs' f' := by
  unfold loadmat
  rw [h]

theorem readVelocity_congr {fs fs' : MatFS K} {f f' : String} (h : fs f = fs' f') :
    readVelocity fs f = readVelocity fs' f' := by
  unfold readVelocity
  rw [loadmat_congr h]

theorem readCoordinate_congr {fs fs' : MatFS K} {f f' : String} (h : fs f = fs' f') :
    readCoordinate fs f = readCoordinate fs' f' := by
  unfold readCoordinate
  rw [loadmat_congr h]

theorem readSeedParticles_congr {fs fs' : MatFS K} {f f' : String} (h : fs f = fs' f') :
    readSeedParticles fs f = readSeedParticles fs' f' := by
  unfold readSeedParticles
  rw [loadmat_congr h]

theorem map_getElem? {α β : Type} {f f' : α → β} {l l' : List α} (h : l.map f = l'.map f') (i : ℕ) :
    l[i]? = none ∧ l'[i]? = none ∨ ∃ a a', l[i]? = some a ∧ l'[i]? = some a' ∧ f a = f' a' := by
  have e : (l.map f)[i]? = (l'.map f')[i]? := by rw [h]
  rw [List.getElem?_map, List.getElem?_map] at e
  rcases h1 : l[i]? with _ | a <;> rcases h2 : l'[i]? with _ | a' <;> rw [h1, h2] at e
  · exact .inl ⟨rfl, rfl⟩
  · simp at e
  · simp at e
  · exact .inr ⟨a, a', rfl, rfl, by simpa using e⟩

theorem SameContents.dataForStep {fs fs' : MatFS K} {s s' : FileSource K}
    (h : SameContents fs s fs' s') {i : ℕ}
    (hr : i = 0 ∨ s.reuseCoordinates = s'.reuseCoordinates) :
    s.dataForStep fs i = s'.dataForStep fs' i := by
  unfold FileSource.dataForStep
  rcases map_getElem? h.snapshots i with ⟨h1, h2⟩ | ⟨a, a', h1, h2, h3⟩
  · rw [h1, h2]
  · rw [h1, h2]
    rcases map_getElem? h.coordinates i with ⟨k1, k2⟩ | ⟨b, b', k1, k2, k3⟩
    · rw [k1, k2]
    · rw [k1, k2]
      simp only [readVelocity_congr h3, readCoordinate_congr k3]
      rcases hr with rfl | hr
      · simp
      · rw [hr]

/-! ## Loops that meet the same interpolators -/

theorem Loop.step_congr {env env' : Env K F} (hsp : env'.sp = env.sp) (hm : env'.m = env.m)
    (hj : env'.junk = env.junk) {src src' : Source K} {id id' : String} {queue queue' : Bool} {i : ℕ}
    {st st' : Loop K F} (h1 : st'.interp = st.interp) (h2 : st'.integ = st.integ)
    (h3 : st'.particles = st.particles) (ht : src'.timestep = src.timestep)
    (hu : src'.updateInterp env' st.interp i = src.updateInterp env st.interp i) :
    (st'.step env' src' id' queue' i).2 = (st.step env src id queue i).2 ∧
      (st'.step env' src' id' queue' i).1.interp = (st.step env src id queue i).1.interp ∧
      (st'.step env' src' id' queue' i).1.integ = (st.step env src id queue i).1.integ ∧
      (st'.step env' src' id' queue' i).1.particles = (st.step env src id queue i).1.particles := by
  have hv : ∀ I : AnyInterp K, I.velocity env' = I.velocity env := fun I => by
    unfold AnyInterp.velocity
    rw [hsp, hm, hj]
  unfold Loop.step
  rw [h1, hu, ht, h2, h3, hsp, hm, hj]
  rcases src.updateInterp env st.interp i with ⟨I, _ | e⟩
  · simp only [hv]
    rcases st.integ.integrate env.junk (I.velocity env) src.timestep st.particles with ⟨G, p, _ | e⟩ <;>
      exact ⟨rfl, rfl, rfl, rfl⟩
  · exact ⟨rfl, rfl, rfl, rfl⟩

theorem Loop.steps_congr {env env' : Env K F} (hsp : env'.sp = env.sp) (hm : env'.m = env.m)
    (hj : env'.junk = env.junk) {src src' : Source K} (id id' : String) (queue queue' : Bool)
    (ht : src'.timestep = src.timestep) (Q : ℕ → AnyInterp K → Prop)
    (hu : ∀ i I, Q i I → src'.updateInterp env' I i = src.updateInterp env I i)
    (hQ : ∀ i I J q, Q i I → src.updateInterp env I i = (J, none) →
      Q (i + 1) (J.interpolate env.sp env.m env.junk q).1) (m i : ℕ) :
    ∀ st st' : Loop K F, Q i st.interp → st'.interp = st.interp → st'.integ = st.integ →
      st'.particles = st.particles →
      (Loop.steps env' src' id' queue' (List.range' i m) st').2 =
          (Loop.steps env src id queue (List.range' i m) st).2 ∧
        (Loop.steps env' src' id' queue' (List.range' i m) st').1.interp =
          (Loop.steps env src id queue (List.range' i m) st).1.interp ∧
        (Loop.steps env' src' id' queue' (List.range' i m) st').1.integ =
          (Loop.steps env src id queue (List.range' i m) st).1.integ ∧
        (Loop.steps env' src' id' queue' (List.range' i m) st').1.particles =
          (Loop.steps env src id queue (List.range' i m) st).1.particles := by
  induction m generalizing i with
  | zero => intro st st' _ h1 h2 h3; exact ⟨rfl, h1, h2, h3⟩
  | succ m ih =>
    intro st st' h0 h1 h2 h3
    obtain ⟨a1, a2, a3, a4⟩ := Loop.step_congr (id := id) (id' := id') (queue := queue)
      (queue' := queue') hsp hm hj h1 h2 h3 ht (hu i _ h0)
    have hq : ∀ st1, st.step env src id queue i = (st1, none) → Q (i + 1) st1.interp := by
      intro st1 hs
      unfold Loop.step at hs
      rcases hI : src.updateInterp env st.interp i with ⟨I, _ | e⟩
      · rw [hI] at hs
        simp only at hs
        rcases hG : st.integ.integrate env.junk (I.velocity env) src.timestep st.particles with
          ⟨G, p, _ | e⟩
        · rw [hG] at hs
          cases hs
          exact hQ i _ _ _ h0 hI
        · rw [hG] at hs
          cases hs
      · rw [hI] at hs
        cases hs
    rw [List.range'_succ]
    simp only [Loop.steps]
    rcases hs : st.step env src id queue i with ⟨st1, _ | e⟩ <;>
      rcases hs' : st'.step env' src' id' queue' i with ⟨st1', _ | e'⟩ <;> rw [hs, hs'] at a1 a2 a3 a4
    · exact ih (i + 1) st1 st1' (hq _ hs) a2 a3 a4
    · cases a1
    · cases a1
    · exact ⟨a1, a2, a3, a4⟩

/-- Runs whose loops meet the same interpolators. -/
theorem run_congr {env env' : Env K F} (hsp : env'.sp = env.sp) (hm : env'.m = env.m)
    (hj : env'.junk = env.junk) (habs : env'.abs = env.abs) (hf2 : env'.ftle2 = env.ftle2)
    (hf3 : env'.ftle3 = env.ftle3) {s s' : FileSource K} (queue queue' : Bool)
    (hs : readSeedParticles env'.fs s'.particleFile = readSeedParticles env.fs s.particleFile)
    (hn : s'.snapshotFiles.length = s.snapshotFiles.length) (ht : s'.timestep = s.timestep)
    (Q : ℕ → AnyInterp K → Prop)
    (hu : ∀ i I, Q i I → (Source.file s').updateInterp env' I i = (Source.file s).updateInterp env I i)
    (hQ : ∀ i I J q, Q i I → (Source.file s).updateInterp env I i = (J, none) →
      Q (i + 1) (J.interpolate env.sp env.m env.junk q).1) {I0 : AnyInterp K} (h0 : Q 0 I0)
    (G : Integ K) {writer writer' : Option (WriteFn K F)}
    (hw : writer'.map (· ("ftle_" ++ s'.id)) = writer.map (· ("ftle_" ++ s.id))) :
    ((⟨.file s', I0, G⟩ : Solver K).run env' queue' writer').result =
        ((⟨.file s, I0, G⟩ : Solver K).run env queue writer).result ∧
      ((⟨.file s', I0, G⟩ : Solver K).run env' queue' writer').solver.interp =
        ((⟨.file s, I0, G⟩ : Solver K).run env queue writer).solver.interp := by
  have hc : ∀ p n (t : K), computeFtle env' p n t = computeFtle env p n t := fun p n t => by
    unfold computeFtle
    rw [habs, hf2, hf3]
  unfold Solver.run
  simp only [Source.getParticles, hs]
  rcases readSeedParticles env.fs s.particleFile with e | p
  · exact ⟨rfl, rfl⟩
  · simp only [Source.id, Source.numSteps, Source.timestep, hn, ht]
    rw [List.range_eq_range']
    obtain ⟨a1, a2, a3, a4⟩ := Loop.steps_congr (src := .file s) (src' := .file s') hsp hm hj s.id s'.id
      queue queue' ht Q hu hQ s.snapshotFiles.length 0 ⟨I0, G, p, []⟩ ⟨I0, G, p, []⟩ h0 rfl rfl rfl
    rcases h1 : Loop.steps env (.file s) s.id queue (List.range' 0 s.snapshotFiles.length)
        ⟨I0, G, p, []⟩ with ⟨st, _ | e⟩ <;>
      rcases h2 : Loop.steps env' (.file s') s'.id queue' (List.range' 0 s.snapshotFiles.length)
        ⟨I0, G, p, []⟩ with ⟨st', _ | e'⟩ <;> rw [h1, h2] at a1 a2 a3 a4
    · simp only at a2 a3 a4
      simp only [hc, a4]
      rcases computeFtle env st.particles s.snapshotFiles.length s.timestep with e | field
      · exact ⟨rfl, a2⟩
      · simp only
        rcases writer with _ | w <;> rcases writer' with _ | w'
        · exact ⟨rfl, a2⟩
        · simp at hw
        · simp at hw
        · have hw : w' ("ftle_" ++ s'.id) = w ("ftle_" ++ s.id) := by simpa using hw
          simp only [hw]
          rcases w ("ftle_" ++ s.id) field st.particles.initialCentroid with _ | e
          · exact ⟨rfl, a2⟩
          · exact ⟨rfl, a2⟩
    · cases a1
    · cases a1
    · cases a1
      exact ⟨rfl, a2⟩

/-! ## C127 -/

/-- **C127.**  A run depends on the data in its files, not on their names: with any interpolator, in any state,
any method and any arithmetic, data under other names (in another folder, say) give the same result
or the same exception, provided that the coordinate files are either for both runs or for neither run one file
listed again and again. -/
theorem C127_names_partial (env : Env K F) {fs' : MatFS K} {s s' : FileSource K}
    (h : SameContents env.fs s fs' s') (hr : s.reuseCoordinates = s'.reuseCoordinates)
    (queue queue' : Bool) (I0 : AnyInterp K) (G : Integ K) {writer writer' : Option (WriteFn K F)}
    (hw : writer'.map (· ("ftle_" ++ s'.id)) = writer.map (· ("ftle_" ++ s.id))) :
    ((⟨.file s', I0, G⟩ : Solver K).run { env with fs := fs' } queue' writer').result =
      ((⟨.file s, I0, G⟩ : Solver K).run env queue writer).result := by
  refine (run_congr (env' := { env with fs := fs' }) (env := env) rfl rfl rfl rfl rfl rfl queue queue'
    (readSeedParticles_congr h.seeds.symm) ?_ h.timestep.symm (fun _ _ => True) (fun i I _ => ?_)
    (fun _ _ _ _ _ _ => trivial) trivial G hw).1
  · have := congrArg List.length h.snapshots
    simpa using this.symm
  · simp only [Source.updateInterp, h.dataForStep (i := i) (.inr hr)]

theorem ScatterState.initialize_points (sp : SciPy K) (t : ScatterState K) :
    (t.initialize sp).1.points = t.points := by
  unfold ScatterState.initialize
  repeat' split
  all_goals rfl

theorem ScatterState.update_kept (sp : SciPy K) {t : ScatterState K} {c : NDArray K}
    (h : t.points = some c) (v : NDArray K) : t.update sp v none = t.update sp v (some c) := by
  unfold ScatterState.update
  simp only [h]

/-- Runs with an interpolator for scattered data: reading the coordinates once or at every step comes to
the same, if they are the same. -/
theorem scatter_static (env : Env K F) {s : FileSource K}
    (hc : ∀ f ∈ s.coordinateFiles, ∀ g ∈ s.coordinateFiles, env.fs f = env.fs g) (queue queue' : Bool)
    (t : ScatterState K) (G : Integ K) (writer : Option (WriteFn K F)) :
    ((⟨.file s, .scatter t, G⟩ : Solver K).run env queue writer).result =
      ((⟨.file { s with reuseCoordinates := false }, .scatter t, G⟩ : Solver K).run env queue'
        writer).result := by
  refine (run_congr (env' := env) (env := env) (s' := s) (s := { s with reuseCoordinates := false }) rfl rfl
    rfl rfl rfl rfl queue' queue rfl rfl rfl (fun i I => ∃ t : ScatterState K, I = .scatter t ∧ (0 < i →
      ∀ f ∈ s.coordinateFiles, ∃ c, readCoordinate env.fs f = .ok c ∧ t.points = some c))
    ?_ ?_ ⟨t, rfl, fun h => absurd h (lt_irrefl 0)⟩ G rfl).1
  · rintro i _ ⟨t, rfl, ht⟩
    simp only [Source.updateInterp]
    rcases Nat.eq_zero_or_pos i with rfl | hi
    · simp [FileSource.dataForStep]
    · simp only [FileSource.dataForStep]
      cases h1 : s.snapshotFiles[i]? with
      | none => rfl
      | some f =>
        cases h2 : s.coordinateFiles[i]? with
        | none => rfl
        | some g =>
          obtain ⟨c, k1, k2⟩ := ht hi g (List.mem_of_getElem? h2)
          simp only
          cases readVelocity env.fs f with
          | error e => rfl
          | ok v =>
            simp only [k1]
            by_cases hr : s.reuseCoordinates = true
            · simp [hr, hi.ne', AnyInterp.update, ScatterState.update_kept env.sp k2]
            · simp [hr]
  · rintro i _ J q ⟨t, rfl, ht⟩ hJ
    simp only [Source.updateInterp] at hJ
    cases hd : FileSource.dataForStep env.fs { s with reuseCoordinates := false } i with
    | error e => rw [hd] at hJ; cases hJ
    | ok vc =>
      obtain ⟨v, c⟩ := vc
      rw [hd] at hJ
      obtain ⟨f, g, h1, h2, h3, h4, -⟩ := dataForStep_ok hd
      obtain ⟨c, rfl, hcc⟩ := h4 (.inr rfl)
      simp only [AnyInterp.update] at hJ
      obtain ⟨rfl, -⟩ := Prod.mk.inj hJ
      refine ⟨_, rfl, fun _ f' hf' => ⟨c, ?_, ?_⟩⟩
      · rw [← hcc]
        exact readCoordinate_congr (hc _ hf' _ (List.mem_of_getElem? h3))
      · simp only [ScatterState.update, ScatterState.initialize_points]

/-- **C127 (scattered data).**  With the interpolators for scattered data it does not matter either
whether the sample points are in one file listed again and again or in copies of it. -/
theorem C127_scattered_partial (env : Env K F) {fs' : MatFS K} {s s' : FileSource K}
    (h : SameContents env.fs s fs' s') (hr : s.reuseCoordinates = s'.reuseCoordinates ∨
      ∀ f ∈ s.coordinateFiles, ∀ g ∈ s.coordinateFiles, env.fs f = env.fs g)
    (queue queue' : Bool) (t : ScatterState K) (G : Integ K) {writer writer' : Option (WriteFn K F)}
    (hw : writer'.map (· ("ftle_" ++ s'.id)) = writer.map (· ("ftle_" ++ s.id))) :
    ((⟨.file s', .scatter t, G⟩ : Solver K).run { env with fs := fs' } queue' writer').result =
      ((⟨.file s, .scatter t, G⟩ : Solver K).run env queue writer).result := by
  rcases hr with hr | hr
  · exact C127_names_partial env h hr queue queue' _ G hw
  · have hr' : ∀ f ∈ s'.coordinateFiles, ∀ g ∈ s'.coordinateFiles, fs' f = fs' g := by
      have key : ∀ f ∈ s'.coordinateFiles, ∃ f0 ∈ s.coordinateFiles, env.fs f0 = fs' f := by
        intro f hf
        have := List.mem_map_of_mem (f := fs') hf
        rw [← h.coordinates] at this
        simpa using List.mem_map.1 this
      intro f hf g hg
      obtain ⟨f0, a1, a2⟩ := key f hf
      obtain ⟨g0, b1, b2⟩ := key g hg
      rw [← a2, ← b2]
      exact hr _ a1 _ b1
    rw [scatter_static env hr queue queue t G writer,
      scatter_static { env with fs := fs' } hr' queue' queue' t G writer']
    exact C127_names_partial env (s := { s with reuseCoordinates := false })
      (s' := { s' with reuseCoordinates := false }) ⟨h.snapshots, h.coordinates, h.seeds, h.timestep⟩ rfl
      queue queue' _ G hw

/-! ## Windows with the same data -/

omit [Zero K] [One K] [Add K] [Sub K] [Mul K] [Div K] [NatCast K] [IntCast K] [Min K] [Max K]
  [NumLits K] [DecidableEq K] in
theorem window_contents {fs : MatFS K} {stem : String → String} {snap coord part : List String} {dt : K}
    {p i j : ℕ} {t t' : FileSource K} (h : IsWindow stem snap coord part dt p i t)
    (h' : IsWindow stem snap coord part dt p j t')
    (hs : ∀ k < p, ∀ f g, snap[i + k]? = some f → snap[j + k]? = some g → fs f = fs g)
    (hc : ∀ f ∈ coord, ∀ g ∈ coord, fs f = fs g) (hp : ∀ f ∈ part, ∀ g ∈ part, fs f = fs g) :
    SameContents fs t fs t' where
  snapshots := by
    apply List.ext_getElem?
    intro k
    rw [List.getElem?_map, List.getElem?_map]
    by_cases hk : k < p
    · have e1 : k < t.snapshotFiles.length := by rw [h.snapshots_length]; exact hk
      have e2 : k < t'.snapshotFiles.length := by rw [h'.snapshots_length]; exact hk
      have a1 := h.snapshots k hk
      have a2 := h'.snapshots k hk
      rw [List.getElem?_eq_getElem e1] at a1 ⊢
      rw [List.getElem?_eq_getElem e2] at a2 ⊢
      simp only [Option.map_some, hs k hk _ _ a1.symm a2.symm]
    · rw [List.getElem?_eq_none (by rw [h.snapshots_length]; omega),
        List.getElem?_eq_none (by rw [h'.snapshots_length]; omega)]
  coordinates := by
    apply List.ext_getElem?
    intro k
    rw [List.getElem?_map, List.getElem?_map]
    by_cases hk : k < p
    · have e1 : k < t.coordinateFiles.length := by rw [h.coordinates_length]; exact hk
      have e2 : k < t'.coordinateFiles.length := by rw [h'.coordinates_length]; exact hk
      have a1 := h.coordinates k hk
      have a2 := h'.coordinates k hk
      rw [List.getElem?_eq_getElem e1] at a1 ⊢
      rw [List.getElem?_eq_getElem e2] at a2 ⊢
      simp only [Option.map_some, hc _ (List.mem_of_getElem? a1.symm) _ (List.mem_of_getElem? a2.symm)]
    · rw [List.getElem?_eq_none (by rw [h.coordinates_length]; omega),
        List.getElem?_eq_none (by rw [h'.coordinates_length]; omega)]
  seeds := hp _ (List.mem_of_getElem? h.particle.symm) _ (List.mem_of_getElem? h'.particle.symm)
  timestep := by rw [h.timestep, h'.timestep]

/-- All windows read the coordinates once, or none does. -/
def AlikeCoordinates (coord : List String) (p : ℕ) : Prop :=
  coord.length = 1 ∨ coord.Nodup ∧ 2 ≤ coord.length ∧ 2 ≤ p

omit [Zero K] [One K] [Add K] [Sub K] [Mul K] [Div K] [NatCast K] [IntCast K] [Min K] [Max K]
  [NumLits K] [DecidableEq K] in
theorem window_reuse {stem : String → String} {snap coord part : List String} {dt : K}
    {p i : ℕ} {t : FileSource K} (h : IsWindow stem snap coord part dt p i t)
    (ha : AlikeCoordinates coord p) : t.reuseCoordinates = true ↔ coord.length = 1 := by
  have mem : ∀ f ∈ t.coordinateFiles, ∃ k < p, coord[(i + k) % coord.length]? = some f := by
    intro f hf
    obtain ⟨k, hk⟩ := List.getElem?_of_mem hf
    have hkp : k < p := by
      rw [← h.coordinates_length]
      exact (List.getElem?_eq_some_iff.1 hk).1
    exact ⟨k, hkp, by rw [← h.coordinates k hkp, hk]⟩
  rw [h.reuse]
  constructor
  · intro hall
    rcases ha with ha | ⟨h1, h2, h3⟩
    · exact ha
    · exfalso
      have b0 : i % coord.length < coord.length := Nat.mod_lt _ (by omega)
      have b1 : (i + 1) % coord.length < coord.length := Nat.mod_lt _ (by omega)
      have a0 := h.coordinates 0 (by omega)
      have a1 := h.coordinates 1 (by omega)
      rw [Nat.add_zero, List.getElem?_eq_getElem b0] at a0
      rw [List.getElem?_eq_getElem b1] at a1
      have e := hall _ (List.mem_of_getElem? a0) _ (List.mem_of_getElem? a1)
      have e' := (h1.getElem_inj_iff).1 e
      have e'' : i ≡ i + 1 [MOD coord.length] := e'
      have : (0 : ℕ) ≡ 1 [MOD coord.length] := Nat.ModEq.add_left_cancel' i (by simpa using e'')
      have := (Nat.modEq_iff_dvd' (by omega)).1 this
      have := Nat.le_of_dvd (by omega) this
      omega
  · intro h1 f hf g hg
    obtain ⟨k, -, hk⟩ := mem f hf
    obtain ⟨l, -, hl⟩ := mem g hg
    rw [h1, Nat.mod_one] at hk hl
    rw [hk] at hl
    exact Option.some.inj hl

/-- **C127 (periodic data).**  When the data repeat after `q` snapshots, so do the fields. -/
theorem C127_periodic (env : Env K F) (stem : String → String) (M : Manager K) {p q : ℕ} (hp : 1 ≤ p)
    (hn : p ≤ M.snapshotFiles.length) (hq : M.particleFiles ≠ [])
    (ha : AlikeCoordinates M.coordinateFiles p)
    (hs : ∀ k f g, M.snapshotFiles[k]? = some f → M.snapshotFiles[k + q]? = some g → env.fs f = env.fs g)
    (hc : ∀ f ∈ M.coordinateFiles, ∀ g ∈ M.coordinateFiles, env.fs f = env.fs g)
    (hP : ∀ f ∈ M.particleFiles, ∀ g ∈ M.particleFiles, env.fs f = env.fs g) :
    ∃ tasks, M.createBatches stem p = .ok tasks ∧
      tasks.length = M.snapshotFiles.length - p + 1 ∧
      ∀ i t t', tasks[i]? = some t → tasks[i + q]? = some t' →
        ∀ (queue queue' : Bool) (I0 : AnyInterp K) (G : Integ K),
        ((⟨.file t', I0, G⟩ : Solver K).run env queue' none).result =
          ((⟨.file t, I0, G⟩ : Solver K).run env queue none).result := by
  have hc0 : M.coordinateFiles ≠ [] := by
    rintro h0
    rw [h0] at ha
    rcases ha with ha | ⟨-, ha, -⟩ <;> simp at ha
  obtain ⟨tasks, h1, h2, h3⟩ := C43_windows stem M p hp hn hc0 hq
  refine ⟨tasks, h1, h2, fun i t t' hi hi' queue queue' I0 G => ?_⟩
  have l1 := (List.getElem?_eq_some_iff.1 hi).1
  have l2 := (List.getElem?_eq_some_iff.1 hi').1
  obtain ⟨_, e1, w1⟩ := h3 i (by omega)
  obtain ⟨_, e2, w2⟩ := h3 (i + q) (by omega)
  rw [hi] at e1
  rw [hi'] at e2
  cases e1
  cases e2
  refine C127_names_partial env (window_contents w1 w2 (fun k _ f g hf hg => hs (i + k) f g hf ?_) hc hP)
    ?_ queue queue' I0 G rfl
  · rw [← hg]
    congr 1
    omega
  · rw [Bool.eq_iff_iff, window_reuse w1 ha, window_reuse w2 ha]

/-- **C127 (steady data).**  When all snapshots hold the same velocities, all fields of the program
are the same. -/
theorem C127_steady (env : Env K F) (stem : String → String) (M : Manager K) {p : ℕ} (hp : 1 ≤ p)
    (hn : p ≤ M.snapshotFiles.length) (hq : M.particleFiles ≠ [])
    (ha : AlikeCoordinates M.coordinateFiles p)
    (hs : ∀ f ∈ M.snapshotFiles, ∀ g ∈ M.snapshotFiles, env.fs f = env.fs g)
    (hc : ∀ f ∈ M.coordinateFiles, ∀ g ∈ M.coordinateFiles, env.fs f = env.fs g)
    (hP : ∀ f ∈ M.particleFiles, ∀ g ∈ M.particleFiles, env.fs f = env.fs g) :
    ∃ tasks, M.createBatches stem p = .ok tasks ∧
      tasks.length = M.snapshotFiles.length - p + 1 ∧
      ∀ t ∈ tasks, ∀ t' ∈ tasks, ∀ (queue queue' : Bool) (I0 : AnyInterp K) (G : Integ K),
        ((⟨.file t', I0, G⟩ : Solver K).run env queue' none).result =
          ((⟨.file t, I0, G⟩ : Solver K).run env queue none).result := by
  have hc0 : M.coordinateFiles ≠ [] := by
    rintro h0
    rw [h0] at ha
    rcases ha with ha | ⟨-, ha, -⟩ <;> simp at ha
  obtain ⟨tasks, h1, h2, h3⟩ := C43_windows stem M p hp hn hc0 hq
  refine ⟨tasks, h1, h2, fun t ht t' ht' queue queue' I0 G => ?_⟩
  obtain ⟨i, hi⟩ := List.getElem?_of_mem ht
  obtain ⟨j, hj⟩ := List.getElem?_of_mem ht'
  have l1 := (List.getElem?_eq_some_iff.1 hi).1
  have l2 := (List.getElem?_eq_some_iff.1 hj).1
  obtain ⟨_, e1, w1⟩ := h3 i (by omega)
  obtain ⟨_, e2, w2⟩ := h3 j (by omega)
  rw [hi] at e1
  rw [hj] at e2
  cases e1
  cases e2
  exact C127_names_partial env (window_contents w1 w2 (fun k _ f g hf hg =>
    hs f (List.mem_of_getElem? hf) g (List.mem_of_getElem? hg)) hc hP)
    (by rw [Bool.eq_iff_iff, window_reuse w1 ha, window_reuse w2 ha]) queue queue' I0 G rfl

end

end Verif
