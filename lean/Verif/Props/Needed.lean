import Verif.Spec.Needed
import Verif.Props.Program
import Verif.Props.Contents

/-!
# C136: files that are missing
-/

namespace Verif

section
variable {K F : Type} [Zero K] [One K] [Add K] [Sub K] [Mul K] [Div K] [NatCast K] [IntCast K]
  [Min K] [Max K] [NumLits K] [DecidableEq K]

theorem readComponents_ok {m : MatFile K} {x y z : String} {v : NDArray K}
    (h : readComponents m x y z = .ok v) : HoldsComponents m x y z := by
  unfold readComponents at h
  rcases h1 : m x with _ | a
  · simp [h1] at h
  rcases h2 : m y with _ | b
  · simp [h1, h2] at h
  simp only [h1, h2] at h
  refine ⟨a, b, h1, h2, ?_⟩
  rcases h3 : m z with _ | c
  · simp only [h3, NDArray.stack] at h
    split at h
    · rename_i he
      have := he b.ravelC (by simp)
      simp only [NDArray.ravelC, NDArray.ofFn1, List.cons.injEq, and_true] at this
      exact ⟨this, by simp⟩
    · cases h
  · simp only [h3, NDArray.stack] at h
    split at h
    · rename_i he
      have e1 := he b.ravelC (by simp)
      have e2 := he c.ravelC (by simp)
      simp only [NDArray.ravelC, NDArray.ofFn1, List.cons.injEq, and_true] at e1 e2
      refine ⟨e1, fun c' hc => ?_⟩
      cases hc
      exact e2
    · cases h

theorem readVelocity_ok {fs : MatFS K} {f : String} {v : NDArray K} (h : readVelocity fs f = .ok v) :
    IsVelocityFile fs f := by
  unfold readVelocity loadmat at h
  rcases hf : fs f with _ | m
  · simp [hf] at h
  · simp only [hf] at h
    exact ⟨m, hf, readComponents_ok h⟩

theorem readCoordinate_ok {fs : MatFS K} {f : String} {v : NDArray K}
    (h : readCoordinate fs f = .ok v) : IsCoordinateFile fs f := by
  unfold readCoordinate loadmat at h
  rcases hf : fs f with _ | m
  · simp [hf] at h
  · simp only [hf] at h
    exact ⟨m, hf, readComponents_ok h⟩

theorem readSeeds_ok {fs : MatFS K} {f : String} {p : Particles K}
    (h : readSeedParticles fs f = .ok p) : IsSeedFile fs f := by
  unfold readSeedParticles loadmat at h
  rcases hf : fs f with _ | m
  · simp [hf] at h
  · simp only [hf] at h
    refine ⟨m, hf, ?_⟩
    rcases h1 : m "left" with _ | a
    · simp [h1] at h
    rcases h2 : m "right" with _ | b
    · simp [h1, h2] at h
    rcases h3 : m "top" with _ | c
    · simp [h1, h2, h3] at h
    rcases h4 : m "bottom" with _ | d
    · simp [h1, h2, h3, h4] at h
    simp [h1, h2, h3, h4]

theorem step_read {env : Env K F} {s : FileSource K} {id : String} {queue : Bool} {i : ℕ}
    {st st' : Loop K F} (h : st.step env (.file s) id queue i = (st', none)) :
    ∃ x, s.dataForStep env.fs i = .ok x := by
  unfold Loop.step Source.updateInterp at h
  rcases hd : s.dataForStep env.fs i with e | x
  · simp [hd] at h
  · exact ⟨x, rfl⟩

theorem steps_read {env : Env K F} {s : FileSource K} {id : String} {queue : Bool} {l : List ℕ} :
    ∀ {st st' : Loop K F}, Loop.steps env (.file s) id queue l st = (st', none) →
      ∀ i ∈ l, ∃ x, s.dataForStep env.fs i = .ok x := by
  induction l with
  | nil => simp
  | cons j l ih =>
    intro st st' h i hi
    rcases hs : st.step env (.file s) id queue j with ⟨st1, _ | e⟩
    · rw [Loop.steps, hs] at h
      rcases List.mem_cons.1 hi with rfl | hi
      · exact step_read hs
      · exact ih h i hi
    · rw [Loop.steps, hs] at h
      cases h

/-- What a run that does not fail has gone through. -/
theorem run_ok_loop {env : Env K F} {queue : Bool} {writer : Option (WriteFn K F)} {s : FileSource K}
    {I : AnyInterp K} {G : Integ K} {r : Option (List F)}
    (h : ((⟨.file s, I, G⟩ : Solver K).run env queue writer).result = .ok r) :
    ∃ p st, readSeedParticles env.fs s.particleFile = .ok p ∧
      Loop.steps env (.file s) s.id queue (List.range s.snapshotFiles.length) ⟨I, G, p, []⟩ =
        (st, none) := by
  unfold Solver.run at h
  rcases hp : readSeedParticles env.fs s.particleFile with e | p
  · simp [Source.getParticles, hp] at h
  · simp only [Source.getParticles, hp, Source.id, Source.numSteps] at h
    rcases hl : Loop.steps env (.file s) s.id queue (List.range s.snapshotFiles.length)
        ⟨I, G, p, []⟩ with ⟨st, _ | e⟩
    · exact ⟨p, st, rfl, hl⟩
    · simp [hl] at h

/-- **C136 (one window).**  A run that does not fail has found its file of seeds, with the four
neighbours, every velocity file it lists, with two or three components of equally many samples, and
the coordinate file of every step (the first only, when it is known that all are the same). -/
theorem C136_run {env : Env K F} {queue : Bool} {writer : Option (WriteFn K F)} {s : FileSource K}
    {I : AnyInterp K} {G : Integ K} {r : Option (List F)}
    (h : ((⟨.file s, I, G⟩ : Solver K).run env queue writer).result = .ok r) :
    IsSeedFile env.fs s.particleFile ∧ (∀ f ∈ s.snapshotFiles, IsVelocityFile env.fs f) ∧
    ∀ i < s.snapshotFiles.length, ∃ f, s.coordinateFiles[i]? = some f ∧
      (i = 0 ∨ s.reuseCoordinates = false → IsCoordinateFile env.fs f) := by
  obtain ⟨p, st, h1, h2⟩ := run_ok_loop h
  have key : ∀ i < s.snapshotFiles.length, ∃ f g, s.snapshotFiles[i]? = some f ∧
      s.coordinateFiles[i]? = some g ∧ IsVelocityFile env.fs f ∧
      (i = 0 ∨ s.reuseCoordinates = false → IsCoordinateFile env.fs g) := by
    intro i hi
    obtain ⟨x, hx⟩ := steps_read h2 i (List.mem_range.2 hi)
    unfold FileSource.dataForStep at hx
    rcases e1 : s.snapshotFiles[i]? with _ | f
    · simp [e1] at hx
    rcases e2 : s.coordinateFiles[i]? with _ | g
    · simp [e1, e2] at hx
    rcases e3 : readVelocity env.fs f with e | v
    · simp [e1, e2, e3] at hx
    refine ⟨f, g, rfl, rfl, readVelocity_ok e3, fun hc => ?_⟩
    simp only [e1, e2, e3] at hx
    rw [if_pos (by simpa using hc)] at hx
    rcases e4 : readCoordinate env.fs g with e | c
    · simp [e4] at hx
    · exact readCoordinate_ok e4
  refine ⟨readSeeds_ok h1, fun f hf => ?_, fun i hi => ?_⟩
  · obtain ⟨i, hi, rfl⟩ := List.getElem_of_mem hf
    obtain ⟨f', g, a1, -, a3, -⟩ := key i hi
    rw [List.getElem?_eq_getElem hi] at a1
    cases a1
    exact a3
  · obtain ⟨f, g, -, a2, -, a4⟩ := key i hi
    exact ⟨g, a2, a4⟩

/-! ## Files taken away -/

/-- The files a window lists. -/
def FileSource.listed (s : FileSource K) : List String :=
  s.particleFile :: (s.snapshotFiles ++ s.coordinateFiles)

theorem TakenFrom.velocity {fs' fs : MatFS K} (h : TakenFrom fs' fs) (f : String) :
    fs' f = fs f ∧ readVelocity fs' f = readVelocity fs f ∨
      fs' f = none ∧ readVelocity fs' f = .error .fileNotFoundError := by
  rcases h f with e | e
  · exact .inl ⟨e, readVelocity_congr e⟩
  · exact .inr ⟨e, by simp [readVelocity, loadmat, e]⟩

theorem TakenFrom.coordinate {fs' fs : MatFS K} (h : TakenFrom fs' fs) (f : String) :
    fs' f = fs f ∧ readCoordinate fs' f = readCoordinate fs f ∨
      fs' f = none ∧ readCoordinate fs' f = .error .fileNotFoundError := by
  rcases h f with e | e
  · exact .inl ⟨e, readCoordinate_congr e⟩
  · exact .inr ⟨e, by simp [readCoordinate, loadmat, e]⟩

theorem TakenFrom.data {fs' fs : MatFS K} (h : TakenFrom fs' fs) {s : FileSource K} {i : ℕ}
    {x : NDArray K × Option (NDArray K)} (hx : s.dataForStep fs i = .ok x) :
    s.dataForStep fs' i = .ok x ∨ s.dataForStep fs' i = .error .fileNotFoundError ∧
      ∃ f ∈ s.snapshotFiles ++ s.coordinateFiles, fs' f = none := by
  unfold FileSource.dataForStep at hx ⊢
  rcases e1 : s.snapshotFiles[i]? with _ | f
  · simp [e1] at hx
  rcases e2 : s.coordinateFiles[i]? with _ | g
  · simp [e1, e2] at hx
  simp only [e1, e2] at hx ⊢
  rcases h.velocity f with ⟨-, a⟩ | ⟨n, a⟩ <;> rw [a]
  · rcases e3 : readVelocity fs f with e | v
    · simp [e3] at hx
    · simp only [e3] at hx ⊢
      split
      · rename_i hc
        rw [if_pos hc] at hx
        rcases h.coordinate g with ⟨-, b⟩ | ⟨n, b⟩ <;> rw [b]
        · exact .inl hx
        · exact .inr ⟨rfl, g, List.mem_append_right _ (List.mem_of_getElem? e2), n⟩
      · rename_i hc
        rw [if_neg hc] at hx
        exact .inl hx
  · exact .inr ⟨rfl, f, List.mem_append_left _ (List.mem_of_getElem? e1), n⟩

theorem TakenFrom.step {env : Env K F} {fs' : MatFS K} (h : TakenFrom fs' env.fs) {s : FileSource K}
    {id : String} {queue : Bool} {i : ℕ} {st st' : Loop K F}
    (hs : st.step env (.file s) id queue i = (st', none)) :
    st.step { env with fs := fs' } (.file s) id queue i = (st', none) ∨
      (∃ st1, st.step { env with fs := fs' } (.file s) id queue i =
        (st1, some .fileNotFoundError)) ∧
      ∃ f ∈ s.snapshotFiles ++ s.coordinateFiles, fs' f = none := by
  obtain ⟨x, hx⟩ := step_read hs
  rcases h.data hx with e | ⟨e, n⟩
  · left
    rw [← hs]
    unfold Loop.step Source.updateInterp
    simp only [hx, e]
    rfl
  · right
    unfold Loop.step Source.updateInterp
    simp only [e]
    exact ⟨⟨_, rfl⟩, n⟩

theorem TakenFrom.steps {env : Env K F} {fs' : MatFS K} (h : TakenFrom fs' env.fs) {s : FileSource K}
    {id : String} {queue : Bool} {l : List ℕ} : ∀ {st st' : Loop K F},
      Loop.steps env (.file s) id queue l st = (st', none) →
      Loop.steps { env with fs := fs' } (.file s) id queue l st = (st', none) ∨
      (∃ st1, Loop.steps { env with fs := fs' } (.file s) id queue l st =
        (st1, some .fileNotFoundError)) ∧
      ∃ f ∈ s.snapshotFiles ++ s.coordinateFiles, fs' f = none := by
  induction l with
  | nil => intro st st' hs; exact .inl hs
  | cons j l ih =>
    intro st st' hs
    rcases hj : st.step env (.file s) id queue j with ⟨st1, _ | e⟩
    · rw [Loop.steps, hj] at hs
      rcases h.step hj with e | ⟨⟨st2, e⟩, n⟩
      · rw [Loop.steps, e]
        exact ih hs
      · rw [Loop.steps, e]
        exact .inr ⟨⟨_, rfl⟩, n⟩
    · rw [Loop.steps, hj] at hs
      cases hs

theorem TakenFrom.run {env : Env K F} {fs' : MatFS K} (h : TakenFrom fs' env.fs) {queue : Bool}
    {writer : Option (WriteFn K F)} {s : FileSource K} {I : AnyInterp K} {G : Integ K}
    {r : Option (List F)} (hr : ((⟨.file s, I, G⟩ : Solver K).run env queue writer).result = .ok r) :
    ((⟨.file s, I, G⟩ : Solver K).run { env with fs := fs' } queue writer).result = .ok r ∨
    ((⟨.file s, I, G⟩ : Solver K).run { env with fs := fs' } queue writer).result =
      .error .fileNotFoundError ∧ ∃ f ∈ s.listed, fs' f = none := by
  obtain ⟨p, st, h1, h2⟩ := run_ok_loop hr
  rcases h s.particleFile with e | e
  · have h1' : readSeedParticles fs' s.particleFile = .ok p := by
      rw [readSeedParticles_congr e, h1]
    rcases h.steps h2 with e2 | ⟨⟨st1, e2⟩, f, hf, n⟩
    · left
      rw [← hr]
      unfold Solver.run
      simp only [Source.getParticles, h1, h1', Source.id, Source.numSteps, h2, e2]
      rfl
    · refine .inr ⟨?_, f, List.mem_cons_of_mem _ hf, n⟩
      unfold Solver.run
      simp only [Source.getParticles, h1', Source.id, Source.numSteps, e2]
  · refine .inr ⟨?_, _, List.mem_cons_self, e⟩
    unfold Solver.run
    simp [Source.getParticles, readSeedParticles, loadmat, e]

theorem presence {fs : MatFS K} {f : String} :
    (IsVelocityFile fs f → fs f ≠ none) ∧ (IsCoordinateFile fs f → fs f ≠ none) ∧
      (IsSeedFile fs f → fs f ≠ none) := by
  refine ⟨?_, ?_, ?_⟩ <;> rintro ⟨m, hm, -⟩ <;> simp [hm]

/-- A run that does not fail has found all files it lists. -/
theorem found {env : Env K F} {queue : Bool} {writer : Option (WriteFn K F)} {s : FileSource K}
    {I : AnyInterp K} {G : Integ K} (hl : s.coordinateFiles.length = s.snapshotFiles.length)
    (hne : s.snapshotFiles ≠ [])
    (hreuse : s.reuseCoordinates = true → ∀ f ∈ s.coordinateFiles, ∀ g ∈ s.coordinateFiles, f = g)
    {r : Option (List F)} (hok : ((⟨.file s, I, G⟩ : Solver K).run env queue writer).result = .ok r) :
    ∀ f ∈ s.listed, env.fs f ≠ none := by
  intro f hf hn
  obtain ⟨a1, a2, a3⟩ := C136_run hok
  rcases List.mem_cons.1 hf with rfl | hf
  · exact presence.2.2 a1 hn
  rcases List.mem_append.1 hf with hf | hf
  · exact presence.1 (a2 f hf) hn
  · obtain ⟨i, hi, rfl⟩ := List.getElem_of_mem hf
    rw [hl] at hi
    obtain ⟨g, b1, b2⟩ := a3 i hi
    rw [List.getElem?_eq_getElem (by omega)] at b1
    cases b1
    cases hre : s.reuseCoordinates with
    | false => exact presence.2.1 (b2 (.inr hre)) hn
    | true =>
      obtain ⟨g, c1, c2⟩ := a3 0 (by omega)
      have : s.coordinateFiles[i] = g := hreuse hre _ hf _ (List.mem_of_getElem? c1)
      rw [this] at hn
      exact presence.2.1 (c2 (.inl rfl)) hn

/-- **C136 (one window, files taken away).**  Of a run that does not fail some files are taken away.
It reports the same as before if all files it lists are still there, and `FileNotFoundError`
otherwise. -/
theorem C136_taken {env : Env K F} {fs' : MatFS K} (h : TakenFrom fs' env.fs) {queue : Bool}
    {writer : Option (WriteFn K F)} {s : FileSource K} {I : AnyInterp K} {G : Integ K}
    (hl : s.coordinateFiles.length = s.snapshotFiles.length) (hne : s.snapshotFiles ≠ [])
    (hreuse : s.reuseCoordinates = true → ∀ f ∈ s.coordinateFiles, ∀ g ∈ s.coordinateFiles, f = g)
    {r : Option (List F)} (hr : ((⟨.file s, I, G⟩ : Solver K).run env queue writer).result = .ok r) :
    ((∀ f ∈ s.listed, fs' f ≠ none) →
      ((⟨.file s, I, G⟩ : Solver K).run { env with fs := fs' } queue writer).result = .ok r) ∧
    ((∃ f ∈ s.listed, fs' f = none) →
      ((⟨.file s, I, G⟩ : Solver K).run { env with fs := fs' } queue writer).result =
        .error .fileNotFoundError) := by
  constructor
  · intro hp
    refine (h.run hr).resolve_right ?_
    rintro ⟨-, f, hf, hn⟩
    exact hp f hf hn
  · rintro ⟨f, hf, hn⟩
    refine ((h.run hr).resolve_left fun hok => ?_).1
    exact found hl hne hreuse hok f hf hn

/-! ## The whole program -/

theorem nonempty_window {stem : String → String} {V C P : List String} {dt : K} {p i : ℕ} (hp1 : 1 ≤ p)
    {t : FileSource K} (ht : IsWindow stem V C P dt p i t) : t.snapshotFiles ≠ [] := by
  have := ht.snapshots_length
  exact List.ne_nil_of_length_pos (by omega)

theorem listed_of_needed {stem : String → String} {V C P : List String} {dt : K} {p : ℕ} (hp1 : 1 ≤ p)
    (hpV : p ≤ V.length) {f : String} (hf : f ∈ neededFiles V C P p) :
    ∃ i < V.length - p + 1, ∀ t : FileSource K, IsWindow stem V C P dt p i t → f ∈ t.listed := by
  have pos : ∀ j < V.length, ∃ i < V.length - p + 1, ∃ k < p, i + k = j := fun j hj =>
    ⟨min j (V.length - p), by omega, j - min j (V.length - p), by omega, by omega⟩
  rcases List.mem_append.1 hf with hf | hf
  · rcases List.mem_append.1 hf with hf | hf
    · obtain ⟨j, hj, rfl⟩ := List.getElem_of_mem hf
      obtain ⟨i, hi, k, hk, e⟩ := pos j hj
      refine ⟨i, hi, fun t ht => List.mem_cons_of_mem _ (List.mem_append_left _ ?_)⟩
      have := ht.snapshots k hk
      rw [e, List.getElem?_eq_getElem hj] at this
      exact List.mem_of_getElem? this
    · obtain ⟨j, hj, rfl⟩ := List.getElem_of_mem hf
      have hj' := hj
      rw [List.length_take, lt_min_iff] at hj'
      obtain ⟨i, hi, k, hk, e⟩ := pos j hj'.1
      refine ⟨i, hi, fun t ht => List.mem_cons_of_mem _ (List.mem_append_right _ ?_)⟩
      have := ht.coordinates k hk
      rw [e, Nat.mod_eq_of_lt hj'.2, List.getElem?_eq_getElem hj'.2] at this
      rw [List.getElem_take]
      exact List.mem_of_getElem? this
  · obtain ⟨j, hj, rfl⟩ := List.getElem_of_mem hf
    have hj' := hj
    rw [List.length_take, lt_min_iff] at hj'
    refine ⟨j, hj'.1, fun t ht => ?_⟩
    have := ht.particle
    rw [Nat.mod_eq_of_lt hj'.2, List.getElem?_eq_getElem hj'.2] at this
    rw [List.getElem_take, ← Option.some.inj this]
    exact List.mem_cons_self

theorem needed_of_listed {stem : String → String} {V C P : List String} {dt : K} {p i : ℕ}
    (hpV : p ≤ V.length) (hi : i < V.length - p + 1) {t : FileSource K}
    (ht : IsWindow stem V C P dt p i t) {f : String} (hf : f ∈ t.listed) : f ∈ neededFiles V C P p := by
  have cyc : ∀ {l : List String} {j n : ℕ}, j < n → ∀ {g}, l[j % l.length]? = some g → g ∈ l.take n := by
    intro l j n hj g hg
    obtain ⟨h1, h2⟩ := List.getElem?_eq_some_iff.1 hg
    have : j % l.length ≤ j := Nat.mod_le _ _
    refine List.mem_of_getElem? (i := j % l.length) ?_
    rw [List.getElem?_take_of_lt (by omega), hg]
  rcases List.mem_cons.1 hf with rfl | hf
  · exact List.mem_append_right _ (cyc hi ht.particle.symm)
  · refine List.mem_append_left _ ?_
    rcases List.mem_append.1 hf with hf | hf
    · obtain ⟨k, hk, rfl⟩ := List.getElem_of_mem hf
      rw [ht.snapshots_length] at hk
      have := ht.snapshots k hk
      rw [List.getElem?_eq_getElem (by rw [ht.snapshots_length]; exact hk)] at this
      exact List.mem_append_left _ (List.mem_of_getElem? this.symm)
    · obtain ⟨k, hk, rfl⟩ := List.getElem_of_mem hf
      rw [ht.coordinates_length] at hk
      have := ht.coordinates k hk
      rw [List.getElem?_eq_getElem (by rw [ht.coordinates_length]; exact hk)] at this
      exact List.mem_append_right _ (cyc (by omega) this.symm)

end

section
variable {K F : Type} [Zero K] [One K] [Add K] [Sub K] [Mul K] [Div K] [NatCast K] [IntCast K]
  [Min K] [Max K] [NumLits K] [DecidableEq K] [LT K] [DecidableLT K] [Inhabited F]

/-- **C136 (the program).**  Of an experiment whose windows can all be computed some files are taken
away.  When the call ends, without a dead worker, then normally if all needed files are still there,
and with `FileNotFoundError` and status 1 otherwise. -/
theorem C136_program (lower : String → String)
    (hlow : ∀ s ∈ ["rk4", "euler", "ab2", "cubic", "linear", "nearest", "grid"], lower s = s)
    (env : Env K F) (a : ProgramArgs K) (V C P : List (List Char)) (p : ℕ)
    (integ interp fmt : String) (ha : a.WellFormed V C P p integ interp fmt)
    (prog : Program K F) (hprog : Program.create lower a = .ok prog) {fs' : MatFS K}
    (htaken : TakenFrom fs' env.fs)
    (H : Host (Shared K) (List ℕ → K) (Option (List F) × List (Event K F)))
    (hH : prog.host { env with fs := fs' } = .ok H) (mem : ℕ → List ℕ → K)
    (hok : ∀ I k w, setup lower a.options a.flowGridShape = .ok (I, k, w) →
      ∀ i < V.length - p + 1, ∀ t, IsWindow env.stem (inRunOrder a.timestep V)
        (inRunOrder a.timestep C) (inRunOrder a.timestep P) a.timestep p i t →
        ∃ r, (aloneRun { env with junk := mem i }
          (some (Writer.fresh w a.particlesGridShape).asWriteFn) (.file t) I k).result = .ok r)
    {s₀ s : HostState (Shared K) (Option (List F) × List (Event K F))}
    {as : List (Action (Option (List F) × List (Event K F)))}
    {r : Py (List (Option (Option (List F) × List (Event K F))))}
    (h₀ : H.init mem = .ok s₀) (h : HostState.Exec H mem s₀ as s) (hc : .crash ∉ as)
    (hr : s.pool.phase.result = some r) (start stop : ℤ) :
    let needed := neededFiles (inRunOrder a.timestep V) (inRunOrder a.timestep C)
      (inRunOrder a.timestep P) p
    ((∀ f ∈ needed, fs' f ≠ none) → (∃ rs, r = .ok rs) ∧
      exitStatus (mainProgram start stop r).1 = 0) ∧
    ((∃ f ∈ needed, fs' f = none) → r = .error .fileNotFoundError ∧
      exitStatus (mainProgram start stop r).1 = 1) := by
  intro needed
  have hlen : (inRunOrder a.timestep V).length = V.length := by
    unfold inRunOrder
    split <;> simp
  have window : ∀ {I k w}, setup lower a.options a.flowGridShape = .ok (I, k, w) →
      ∀ {i}, i < V.length - p + 1 → ∀ {t}, IsWindow env.stem (inRunOrder a.timestep V)
        (inRunOrder a.timestep C) (inRunOrder a.timestep P) a.timestep p i t →
        ((∀ f ∈ t.listed, fs' f ≠ none) →
          ∃ r, (aloneRun { env with fs := fs', junk := mem i }
            (some (Writer.fresh w a.particlesGridShape).asWriteFn) (.file t) I k).result = .ok r) ∧
        ((∃ f ∈ t.listed, fs' f = none) →
          (aloneRun { env with fs := fs', junk := mem i }
            (some (Writer.fresh w a.particlesGridShape).asWriteFn) (.file t) I k).result =
              .error .fileNotFoundError) := by
    intro I k w hs i hi t ht
    obtain ⟨r, hr⟩ := hok I k w hs i hi t ht
    have := C136_taken (env := { env with junk := mem i }) htaken
      (by rw [ht.coordinates_length, ht.snapshots_length])
      (nonempty_window ha.one_le ht) ht.reuse.1 hr
    exact ⟨fun hp => ⟨r, this.1 hp⟩, this.2⟩
  have hs := (main_status start stop r).1
  constructor
  · intro hp
    cases hph : s.pool.phase with
    | submitting i => rw [hph] at hr; cases hr
    | collecting => rw [hph] at hr; cases hr
    | returned rs =>
      rw [hph] at hr
      cases hr
      exact ⟨⟨rs, rfl⟩, hs.2 (.inl ⟨rs, rfl⟩)⟩
    | raised e =>
      obtain ⟨I, k, w, i, t, hsu, hi, ht, he⟩ := C77_failure lower hlow { env with fs := fs' } a V C P p
        integ interp fmt ha prog hprog H hH mem h₀ h hc hph
      obtain ⟨r', hr'⟩ := (window hsu hi ht).1 fun f hf => hp f
        (needed_of_listed (by rw [hlen]; exact ha.enough) (by rwa [hlen]) ht hf)
      have he' : (aloneRun { env with fs := fs', junk := mem i }
        (some (Writer.fresh w a.particlesGridShape).asWriteFn) (.file t) I k).result = .error e := he
      rw [hr'] at he'
      cases he'
  · rintro ⟨f, hf, hn⟩
    cases hph : s.pool.phase with
    | submitting i => rw [hph] at hr; cases hr
    | collecting => rw [hph] at hr; cases hr
    | returned rs =>
      obtain ⟨I, k, w, hsu, -, hall⟩ := C77_output lower hlow { env with fs := fs' } a V C P p integ
        interp fmt ha prog hprog H hH mem h₀ h hph
      obtain ⟨i, hi, hw⟩ := listed_of_needed (stem := env.stem) (dt := a.timestep) ha.one_le
        (by rw [hlen]; exact ha.enough) hf
      rw [hlen] at hi
      obtain ⟨t, q, first, field, events, file, ht, -, -, hrun, -⟩ := hall i hi
      exact (found (by rw [ht.coordinates_length, ht.snapshots_length])
        (nonempty_window ha.one_le ht) ht.reuse.1 hrun f (hw t ht) hn).elim
    | raised e =>
      rw [hph] at hr
      cases hr
      obtain ⟨I, k, w, i, t, hsu, hi, ht, he⟩ := C77_failure lower hlow { env with fs := fs' } a V C P p
        integ interp fmt ha prog hprog H hH mem h₀ h hc hph
      have he' : (aloneRun { env with fs := fs', junk := mem i }
        (some (Writer.fresh w a.particlesGridShape).asWriteFn) (.file t) I k).result = .error e := he
      obtain rfl : e = .fileNotFoundError := by
        by_cases hp : ∃ f ∈ t.listed, fs' f = none
        · rw [(window hsu hi ht).2 hp] at he'
          cases he'
          rfl
        · push Not at hp
          obtain ⟨r', hr'⟩ := (window hsu hi ht).1 hp
          rw [hr'] at he'
          cases he'
      exact ⟨rfl, rfl⟩

end

/-- Of three snapshots taken two at a time, two seed files are needed; of a list of three the last is
not. -/
example : neededFiles ["v", "w", "v"] ["c"] ["p", "q", "r"] 2 = ["v", "w", "v", "c", "p", "q"] := rfl

/-- The hypotheses of `C136_program` hold for the example of C77; without the coordinate file every call
that ends, ends with `FileNotFoundError`. -/
example : ∃ (prog : Program ℚ ℚ)
    (H : Host (Shared ℚ) (List ℕ → ℚ) (Option (List ℚ) × List (Event ℚ ℚ))) (s₀ : _),
    Program.create id exArgs = .ok prog ∧
    prog.host { exProgEnv with fs := fun f => if f = "c" then none else exProgEnv.fs f } = .ok H ∧
    H.init (fun _ _ => 7) = .ok s₀ ∧ ∀ as s r, HostState.Exec H (fun _ _ => 7) s₀ as s → .crash ∉ as →
      s.pool.phase.result = some r → r = .error .fileNotFoundError := by
  obtain ⟨prog, H, s₀, h1, h2, -, h4⟩ := C77_starts (F := ℚ) id (by simp)
    { exProgEnv with fs := fun f => if f = "c" then none else exProgEnv.fs f } exArgs _ _ _ _
    _ _ _ exArgs_wellFormed (fun _ _ => 7)
  refine ⟨prog, H, s₀, h1, h2, h4, fun as s r h hc hr => ?_⟩
  refine ((C136_program id (by simp) exProgEnv exArgs _ _ _ _ _ _ _ exArgs_wellFormed prog h1
    (fs' := fun f => if f = "c" then none else exProgEnv.fs f) (fun g => ?_) H h2 (fun _ _ => 7) ?_ h4 h hc
    hr 0 0).2 ⟨"c", by simp [neededFiles, inRunOrder, exArgs], if_pos rfl⟩).1
  · by_cases hg : g = "c"
    · exact .inr (if_pos hg)
    · exact .inl (if_neg hg)
  · intro I k w hs i hi t ht
    obtain ⟨rfl, rfl, rfl⟩ : I = .scatter (.fresh .linear) ∧ k = .rk4 ∧ w = .mat := by
      simp [setup, exArgs, cliInterpolator, createInterpolator, cliIntegrator, createIntegrator,
        cliWriter, createWriter] at hs
      exact ⟨hs.1.symm, hs.2.1.symm, hs.2.2.symm⟩
    have key : ∀ i < 2, (aloneRun { exProgEnv with junk := fun _ => 7 }
        (some (Writer.fresh .mat none).asWriteFn) (.file (exWindow i))
        (.scatter (.fresh .linear)) .rk4).result.toBool = true := by decide +kernel
    have hw : t = exWindow i := by
      refine ht.unique ?_
      simp only [List.length_cons, List.length_nil] at hi
      interval_cases i
      · exact ⟨rfl, by decide, rfl, by decide, rfl, rfl, rfl, by decide⟩
      · exact ⟨rfl, by decide, rfl, by decide, rfl, rfl, rfl, by decide⟩
    subst hw
    have := key i (by simpa using hi)
    revert this
    show (aloneRun { exProgEnv with junk := fun _ => 7 }
        (some (Writer.fresh .mat none).asWriteFn) (.file (exWindow i))
        (.scatter (.fresh .linear)) .rk4).result.toBool = true → _
    cases hres : (aloneRun { exProgEnv with junk := fun _ => 7 }
        (some (Writer.fresh .mat none).asWriteFn) (.file (exWindow i))
        (.scatter (.fresh .linear)) .rk4).result with
    | error e => simp [Except.toBool]
    | ok r => exact fun _ => ⟨r, hres⟩

end Verif
