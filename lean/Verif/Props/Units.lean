import Verif.Lemmas.UnitsLoop
import Verif.Props.Rerun

/-!
# C95: changing units and origin
-/

set_option linter.unusedSectionVars false

namespace Verif

open Verif.Units

section
variable {K F : Type} [Field K] [LinearOrder K] [IsStrictOrderedRing K]

theorem units_run (U : Units K) {φ : F → F} (env : Env K F) (hk : Kernels U.τ φ env)
    (junk' : List ℕ → K) (queue : Bool) {w w' : Option (WriteFn K F)}
    (hw : OptRel (SameWriter U φ) w w') {src src' : Source K} (hsrc : SourceRel U src src')
    {I I' : AnyInterp K} (hI : InterpRel U I I') (hsp : UsesSciPy I → Equivariant U env.sp) (k : Kind)
    {n d : ℕ} (hd : Dims d I) (hc : CoordsOk env.fs src I)
    (hp : ∀ p, src.getParticles env.fs = .ok p → p.positions.shape = [n, d]) :
    let R := (⟨src, I, Integ.fresh k⟩ : Solver K).run env queue w
    let R' := (⟨src', I', Integ.fresh k⟩ : Solver K).run
      { env with fs := U.files env.fs, junk := junk' } queue w'
    Py.Rel (fun o o' => o' = o.map (List.map φ)) R.result R'.result ∧
    ∃ id id', (∀ s, src = .file s → id = s.id ∧ id' = s.id) ∧
      List.Forall₂ (EventRel U φ id id') R.trace R'.trace := by
  intro R R'
  have hids : ∀ s, src = .file s → s.id = s.id ∧ s.id = s.id := fun _ _ => ⟨rfl, rfl⟩
  have any : ∃ id id', (∀ s, src = .file s → id = s.id ∧ id' = s.id) := by
    cases src with
    | file s => exact ⟨s.id, s.id, fun t ht => by cases ht; exact ⟨rfl, rfl⟩⟩
    | analytical s => exact ⟨"", "", fun t ht => by cases ht⟩
  have stop : ∀ {e : PyErr} {S S' : Solver K},
      R = ⟨S, [], .error e⟩ → R' = ⟨S', [], .error e⟩ →
      Py.Rel (fun o o' => o' = o.map (List.map φ)) R.result R'.result ∧
      ∃ id id', (∀ s, src = .file s → id = s.id ∧ id' = s.id) ∧
        List.Forall₂ (EventRel U φ id id') R.trace R'.trace := by
    intro e S S' h h'
    obtain ⟨i, i', hi⟩ := any
    rw [h, h']
    exact ⟨.error e, i, i', hi, .nil⟩
  rcases (hsrc.getParticles env.fs).cases with ⟨e, e1, e2⟩ | ⟨p, p', e1, e2, hpp⟩
  · refine stop (e := e) (S := ⟨src, I, Integ.fresh k⟩) (S' := ⟨src', I', Integ.fresh k⟩) ?_ ?_
    · simp only [R, Solver.run, e1]
    · simp only [R', Solver.run, e2]
  have hid : (∃ e, src.id env = .error e ∧
      src'.id { env with fs := U.files env.fs, junk := junk' } = .error e) ∨
      ∃ i i', src.id env = .ok i ∧
        src'.id { env with fs := U.files env.fs, junk := junk' } = .ok i' ∧
        ∀ s, src = .file s → i = s.id ∧ i' = s.id := by
    cases hsrc with
    | file s => exact .inr ⟨s.id, s.id, rfl, rfl, fun t ht => by cases ht; exact ⟨rfl, rfl⟩⟩
    | @analytical s s' hp hdt ht =>
      simp only [Source.id, ht]
      rcases hl : s.times with _ | ⟨t, l⟩
      · exact .inl ⟨_, rfl, rfl⟩
      · exact .inr ⟨_, _, rfl, rfl, fun t ht => by cases ht⟩
  rcases hid with ⟨e, i1, i2⟩ | ⟨i, i', i1, i2, hi⟩
  · refine stop (e := e) (S := ⟨src, I, Integ.fresh k⟩) (S' := ⟨src', I', Integ.fresh k⟩) ?_ ?_
    · simp only [R, Solver.run, e1, i1]
    · simp only [R', Solver.run, e2, i2]
  have hinv : (Integ.fresh k : Integ K).Inv k := by cases k <;> trivial
  have h0 : Units.LoopRel U φ i i' env.sp env.fs src n d k
      (⟨I, Integ.fresh k, p, []⟩ : Loop K F) ⟨I', Integ.fresh k, p', []⟩ :=
    ⟨hI, hsp, hd, hc, Units.IntegRel.fresh k, hinv, hinv, hpp, hp p e1, .nil⟩
  obtain ⟨s1, s2, s3⟩ := Units.LoopRel.steps junk' hsrc queue (List.range src.numSteps) h0
  simp only [R, R', Solver.run, e1, e2, i1, i2]
  rw [hsrc.numSteps, hsrc.timestep]
  rcases ha : Loop.steps env src i queue (List.range src.numSteps)
    ⟨I, Integ.fresh k, p, []⟩ with ⟨a, ra⟩
  rcases hb : Loop.steps { env with fs := U.files env.fs, junk := junk' } src' i' queue
    (List.range src.numSteps) ⟨I', Integ.fresh k, p', []⟩ with ⟨b, rb⟩
  rw [ha, hb] at s1 s2 s3
  simp only at s1 s2 s3
  subst s1
  cases rb with
  | some e => exact ⟨.error e, i, i', hi, s2⟩
  | none =>
    have hrel := (s3 rfl).particles
    simp only
    have hdone : List.Forall₂ (EventRel U φ i i')
        (a.trace ++ if queue = true then [Event.done i] else [])
        (b.trace ++ if queue = true then [Event.done i'] else []) := by
      refine List.rel_append s2 ?_
      split
      · exact .cons .done .nil
      · exact .nil
    rcases (Units.computeFtle hk (fs' := U.files env.fs) (junk' := junk') hrel src.numSteps
      src.timestep).cases with ⟨e, c1, c2⟩ | ⟨l, l', c1, c2, hl⟩ <;> simp only [c1, c2]
    · exact ⟨.error e, i, i', hi, hdone⟩
    subst hl
    have hcomp := List.rel_append hdone (.cons (EventRel.computed l) .nil)
    rcases hw.cases with ⟨rfl, rfl⟩ | ⟨f, f', rfl, rfl, hf⟩
    · exact ⟨.ok rfl, i, i', hi, hcomp⟩
    simp only
    rw [hf ("ftle_" ++ i) ("ftle_" ++ i') l _ _ hrel.centroid]
    cases f ("ftle_" ++ i) l a.particles.initialCentroid with
    | some e => exact ⟨.error e, i, i', hi, hcomp⟩
    | none =>
      exact ⟨.ok rfl, i, i', hi, List.rel_append hcomp (.cons (.written l hrel.centroid) .nil)⟩

/-- A new interpolator object is the same in both systems. -/
theorem fresh_interpRel (U : Units K) {lower : String → String} {name : String}
    {gs : Option (List ℕ)} {I : AnyInterp K}
    (h : createInterpolator lower name gs none = .ok I) : InterpRel U I I := by
  unfold createInterpolator at h
  simp only at h
  split at h
  · cases h
  split at h
  · cases h
  split at h <;> (repeat' split at h)
  all_goals first
    | (cases h; done)
    | (cases h
       first
         | exact .scatter ⟨rfl, trivial, trivial, trivial⟩
         | exact .grid ⟨rfl, rfl, trivial, rfl, trivial, trivial, trivial⟩
         | exact .highPerf ⟨rfl, trivial, trivial, trivial, rfl, rfl⟩)

/-- **C95, data from files.**  All files are converted to other units and another origin
(`x ↦ a x + b` with one `b` per axis, `t ↦ τ t`), the time step is converted, and everything else is
left alone.  Then the run raises the same exception, or the field is the old one in the new unit
(`φ`), and the same events happen in the same order; in particular the file written has the same
name, the converted values and the converted centroids.  Contents of uninitialised memory may differ.
The interpolator is any new object that assigns all velocity components (`Dims`: all of them for
2-D particles; the grid interpolators on a 3-D grid for 3-D particles), SciPy is assumed to be
equivariant only if it is used, and the fast interpolator needs coordinates with one row per grid
dimension (`CoordsOk`). -/
theorem C95_files (U : Units K) {φ : F → F} (env : Env K F) (hk : Kernels U.τ φ env)
    (junk' : List ℕ → K) (queue : Bool) {w w' : Option (WriteFn K F)}
    (hw : OptRel (SameWriter U φ) w w') (s : FileSource K) {lower : String → String} {name : String}
    {gs : Option (List ℕ)} {I : AnyInterp K} (hI : createInterpolator lower name gs none = .ok I)
    (hsp : UsesSciPy I → Equivariant U env.sp) (k : Kind) {n d : ℕ} (hd : Dims d I)
    (hc : CoordsOk env.fs (.file s) I)
    (hp : ∀ p, readSeedParticles env.fs s.particleFile = .ok p → p.positions.shape = [n, d]) :
    let R := (⟨.file s, I, Integ.fresh k⟩ : Solver K).run env queue w
    let R' := (⟨.file { s with timestep := U.τ * s.timestep }, I, Integ.fresh k⟩ : Solver K).run
      { env with fs := U.files env.fs, junk := junk' } queue w'
    Py.Rel (fun o o' => o' = o.map (List.map φ)) R.result R'.result ∧
      List.Forall₂ (EventRel U φ s.id s.id) R.trace R'.trace := by
  obtain ⟨h1, i, i', hi, h2⟩ := units_run U env hk junk' queue hw (.file s) (fresh_interpRel U hI)
    hsp k hd hc hp
  obtain ⟨rfl, rfl⟩ := hi s rfl
  exact ⟨h1, h2⟩

/-- **C95, analytical velocities.**  The seeds, the velocity function (`f'(τ t, a x + b)` is
`(a / τ) f(t, x)`, or both raise the same exception), the time step and the times are converted. -/
theorem C95_analytical (U : Units K) {φ : F → F} (env : Env K F) (hk : Kernels U.τ φ env)
    (junk' : List ℕ → K) (queue : Bool) {w w' : Option (WriteFn K F)}
    (hw : OptRel (SameWriter U φ) w w') (seed : NDArray K) {p p' : Particles K}
    (hp : mkParticles seed = .ok p) (hp' : mkParticles (U.points seed) = .ok p') (dt : K)
    (times : List K) {f f' : VelocityFn K} (hf : FnRel U f f') (k : Kind) {n d : ℕ}
    (hs : seed.shape = [n, d]) :
    let R := (⟨.analytical ⟨p, dt, times⟩, .analytical (.fresh (some f)), Integ.fresh k⟩ :
      Solver K).run env queue w
    let R' := (⟨.analytical ⟨p', U.τ * dt, times.map (U.τ * ·)⟩, .analytical (.fresh (some f')),
      Integ.fresh k⟩ : Solver K).run { env with
      fs := U.files env.fs
      junk := junk' } queue w'
    Py.Rel (fun o o' => o' = o.map (List.map φ)) R.result R'.result ∧
      ∃ id id', List.Forall₂ (EventRel U φ id id') R.trace R'.trace := by
  have hpp : U.ParticlesRel p p' := by
    have := Units.mkParticles (points_moved (U := U) seed)
    rw [hp, hp'] at this
    cases this with
    | ok h => exact h
  have hps : p.positions = seed := by
    obtain ⟨_, _, _, _, _, h, _⟩ := mkParticles_fields hp
    exact h
  obtain ⟨h1, i, i', -, h2⟩ := units_run (F := F) U env hk junk' queue hw
    (SourceRel.analytical (s := ⟨p, dt, times⟩) (s' := ⟨p', U.τ * dt, times.map (U.τ * ·)⟩) hpp rfl rfl)
    (InterpRel.analytical (s := .fresh (some f)) (s' := .fresh (some f')) hf (mul_zero _).symm)
    (fun h => h.elim) k (n := n) (d := d) trivial trivial
    (fun q hq => by cases hq; rw [hps]; exact hs)
  exact ⟨h1, i, i', h2⟩

end

/-! ## The kernels of `ftle.py` -/

theorem smul_smul_pos {c : ℝ} (hc : 0 < c) {r : ℝ} (v : FVal) :
    FVal.smul c (FVal.smul r v) = FVal.smul (c * r) v := by
  cases v with
  | fin x => simp [FVal.smul, mul_assoc]
  | nan => rfl
  | posInf =>
    rcases lt_trichotomy r 0 with hr | hr | hr
    · simp [FVal.smul, hr, mul_neg_of_pos_of_neg hc hr, hc.not_gt, hc.ne']
    · simp [FVal.smul, hr]
    · simp [FVal.smul, hr.not_gt, hr.ne', (mul_pos hc hr).not_gt, hc.not_gt, hc.ne']
  | negInf =>
    rcases lt_trichotomy r 0 with hr | hr | hr
    · simp [FVal.smul, hr, mul_neg_of_pos_of_neg hc hr, hc.not_gt, hc.ne']
    · simp [FVal.smul, hr]
    · simp [FVal.smul, hr.not_gt, hr.ne', (mul_pos hc hr).not_gt, hc.not_gt, hc.ne']

/-- With the kernels of `ftle.py` (over ℝ) the new unit is `1 / τ`: every value is divided by `τ`. -/
theorem C95_kernels {τ : ℝ} (hτ : 0 < τ) {env : Env ℝ FVal} (he : RealEnv env) :
    Kernels τ (FVal.smul (1 / τ)) env := by
  have hz : ∀ T : ℝ, τ * T = 0 ↔ T = 0 := fun T => by simp [hτ.ne']
  have hr : ∀ T : ℝ, 1 / (τ * T) = 1 / τ * (1 / T) := fun T => by rw [one_div_mul_one_div]
  refine ⟨fun x => ?_, fun js T => ?_, fun js T => ?_⟩
  · rw [he.abs]
    simp [abs_mul, abs_of_pos hτ]
  · rw [he.f2]
    unfold ftle2 recipPeriod
    simp only [hz]
    by_cases hT : T = 0
    · simp only [hT, if_true]
      exact .error _
    · simp only [hT, if_false]
      refine .ok ?_
      simp only [List.map_map, hr]
      exact List.map_congr_left fun v _ => (smul_smul_pos (one_div_pos.2 hτ) _).symm
  · rw [he.f3]
    unfold ftle3 recipPeriod
    cases pyMap maxEig3 (js.map cauchyGreen3) with
    | error e => exact .error e
    | ok eigs =>
      simp only [hz]
      by_cases hT : T = 0
      · simp only [hT, if_true]
        exact .error _
      · simp only [hT, if_false]
        refine .ok ?_
        rw [List.map_map, hr]
        exact List.map_congr_left fun v _ => (smul_smul_pos (one_div_pos.2 hτ) _).symm

/-! ## Examples -/

/-- Metres to half metres from another origin, seconds to thirds of seconds. -/
def exUnits : Units ℚ := ⟨2, 3, fun j => if j = 0 then 5 else -1, by norm_num, by norm_num⟩

/-- A SciPy that interpolates linearly between the first and the third node of the first row. -/
def exCell : SciPy ℚ where
  scatterBuild _ p v := if p.shape = [2, 9] ∧ v.shape = [9] then none else some .valueError
  scatterCall _ p v q :=
    if p.shape = [2, 9] ∧ v.shape = [9] ∧ q.shape = [4, 2] then
      if p.get [0, 2] = p.get [0, 0] then .error .runtimeError
      else .ok fun r => (v.get [2] - v.get [0]) / (p.get [0, 2] - p.get [0, 0]) *
        (q.get [r, 0] - p.get [0, 0]) + v.get [0]
    else .error .valueError
  gridBuild _ _ v := if v.shape = [3, 3] then none else some .valueError
  gridCall _ l v q :=
    match l with
    | (x, y, _) :: _ =>
      if v.shape = [3, 3] ∧ q.shape = [4, 2] then
        if y = x then .error .valueError
        else .ok fun r => (v.get [2, 0] - v.get [0, 0]) / (y - x) * (q.get [r, 0] - x) + v.get [0, 0]
      else .error .valueError
    | [] => .error .valueError

theorem exCell_equivariant : Equivariant exUnits exCell := by
  have ha : (2 : ℚ) ≠ 0 := by norm_num
  refine ⟨?_, ?_, ?_, ?_⟩
  · rintro m p p' v v' ⟨hp, -⟩ ⟨hv, -⟩
    simp only [exCell, hp, hv]
  · rintro m p p' v v' q q' ⟨hp, gp⟩ ⟨hv, gv⟩ ⟨hq, gq⟩
    simp only [exCell, ← hp, ← hv, ← hq]
    by_cases h : p.shape = [2, 9] ∧ v.shape = [9] ∧ q.shape = [4, 2]
    · obtain ⟨h1, h2, h3⟩ := h
      rw [h1] at gp
      rw [h2] at gv
      rw [h3] at gq
      have p2 := gp [0, 2] (by decide)
      have p0 := gp [0, 0] (by decide)
      have v2 := gv [2] (by decide)
      have v0 := gv [0] (by decide)
      simp only [exUnits, Units.c, List.getD_cons_zero, if_true] at p2 p0 v2 v0
      simp only [h1, h2, h3, and_self, if_true]
      have hz : p'.get [0, 2] = p'.get [0, 0] ↔ p.get [0, 2] = p.get [0, 0] := by
        rw [p2, p0]
        constructor <;> intro h <;> linarith
      by_cases hd : p.get [0, 2] = p.get [0, 0]
      · simp only [hd, hz.2 hd, if_true]
        exact .error _
      · simp only [hd, mt hz.1 hd, if_false]
        refine .ok fun r hr => ?_
        have hq0 := gq [r, 0] (by simpa [ValidIdx] using hr)
        simp only [exUnits, List.getD_cons_zero, List.getD_cons_succ, if_true] at hq0
        have hne : p.get [0, 2] - p.get [0, 0] ≠ 0 := sub_ne_zero.2 hd
        rw [p2, p0, v2, v0, hq0]
        simp only [exUnits, Units.c]
        have e1 : 2 * p.get [0, 2] + 5 - (2 * p.get [0, 0] + 5) =
          2 * (p.get [0, 2] - p.get [0, 0]) := by ring
        rw [e1]
        field_simp
        ring
    · simp only [h, if_false]
      exact .error _
  · rintro m l v v' ⟨hv, -⟩
    simp only [exCell, hv]
  · rintro m l v v' q q' ⟨hv, gv⟩ ⟨hq, gq⟩
    simp only [exCell]
    rcases l with _ | ⟨⟨x, y, n⟩, l⟩
    · exact .error _
    simp only [Units.axes, List.zipIdx_cons, List.map_cons, ← hv, ← hq]
    by_cases h : v.shape = [3, 3] ∧ q.shape = [4, 2]
    · obtain ⟨h2, h3⟩ := h
      rw [h2] at gv
      rw [h3] at gq
      have v2 := gv [2, 0] (by decide)
      have v0 := gv [0, 0] (by decide)
      simp only [exUnits, Units.c] at v2 v0
      simp only [h2, h3, and_self, if_true]
      have hz : exUnits.a * y + exUnits.b 0 = exUnits.a * x + exUnits.b 0 ↔ y = x := by
        simp [exUnits]
      by_cases hd : y = x
      · simp only [hd, if_true]
        exact .error _
      · simp only [hd, mt hz.1 hd, if_false]
        refine .ok fun r hr => ?_
        have hq0 := gq [r, 0] (by simpa [ValidIdx] using hr)
        simp only [exUnits, List.getD_cons_zero, List.getD_cons_succ, if_true] at hq0
        have hne : y - x ≠ 0 := sub_ne_zero.2 hd
        rw [v2, v0, hq0]
        simp only [exUnits, Units.c, if_true]
        have e1 : 2 * y + 5 - (2 * x + 5) = 2 * (y - x) := by ring
        rw [e1]
        field_simp
        ring
    · simp only [h, if_false]
      exact .error _

/-- Surroundings with files; the kernels divide an entry of the Jacobian by the period. -/
def exUnitsEnv : Env ℚ ℚ := { exEnv with
  fs := exFiles
  sp := exCell
  ftle2 := fun js T => if T = 0 then .error .zeroDivisionError else .ok (js.map fun J => J 0 0 / T)
  ftle3 := fun js T => if T = 0 then .error .zeroDivisionError else .ok (js.map fun J => J 0 0 / T) }

theorem exUnits_kernels : Kernels exUnits.τ (· / 3) exUnitsEnv := by
  have hz : ∀ T : ℚ, exUnits.τ * T = 0 ↔ T = 0 := fun T => by simp [exUnits]
  have key : ∀ {ι : Type} (js : List ι) (f : ι → ℚ) (T : ℚ), Py.Rel (fun l l' => l' = l.map (· / 3))
      (if T = 0 then .error .zeroDivisionError else .ok (js.map fun J => f J / T) : Py (List ℚ))
      (if exUnits.τ * T = 0 then .error .zeroDivisionError else
        .ok (js.map fun J => f J / (exUnits.τ * T))) := by
    intro ι js f T
    simp only [hz]
    by_cases hT : T = 0
    · simp only [hT, if_true]
      exact .error _
    · simp only [hT, if_false]
      refine .ok ?_
      rw [List.map_map]
      refine List.map_congr_left fun J _ => ?_
      simp only [exUnits, Function.comp]
      field_simp
  refine ⟨fun x => ?_, fun js T => key js (fun J => J 0 0) T, fun js T => key js (fun J => J 0 0) T⟩
  simp only [exUnitsEnv, exEnv, exUnits, abs_mul]
  norm_num

theorem exUnits_seeds : ∀ p, readSeedParticles exUnitsEnv.fs exFileSource.particleFile = .ok p →
    p.positions.shape = [4, 2] := by
  intro p hp
  have h : (readSeedParticles exUnitsEnv.fs exFileSource.particleFile).toOption.map
    (fun p => p.positions.shape) = some [4, 2] := by decide +kernel
  rw [hp] at h
  exact Option.some.inj h

/-- C95 with files and scattered data: AB2, two snapshots. -/
example : let S : FileSource ℚ → Solver ℚ := fun s => ⟨.file s, .scatter (.fresh .linear), Integ.fresh .ab2⟩
    let s' : FileSource ℚ := { exFileSource with timestep := exUnits.τ * exFileSource.timestep }
    Py.Rel (fun o o' => o' = o.map (List.map (· / 3)))
      ((S exFileSource).run exUnitsEnv false none).result
      ((S s').run { exUnitsEnv with
        fs := exUnits.files exFiles
        junk := fun _ => 7 } false none).result ∧
    ((S exFileSource).run exUnitsEnv false none).result.toOption.join = some [15 / 2] ∧
    ((S s').run { exUnitsEnv with
        fs := exUnits.files exFiles
        junk := fun _ => 7 } false none).result.toOption.join = some [5 / 2] :=
  ⟨(C95_files exUnits exUnitsEnv exUnits_kernels (fun _ => 7) false (w := none) (w' := none) trivial
    exFileSource (lower := id) (name := "linear") (gs := none) rfl (fun _ => exCell_equivariant) .ab2
    (n := 4) (d := 2) rfl (fun _ _ _ _ => trivial) exUnits_seeds).1,
    by decide +kernel, by decide +kernel⟩

/-- Snapshots `v`, `w` with one coordinate file each. -/
def exUnitsSource : FileSource ℚ := ⟨["v", "w"], ["c", "d"], "p", 1, "v", false⟩

theorem exUnits_coords : CoordsOk exUnitsEnv.fs (.file exUnitsSource)
    (.highPerf (HighPerf.fresh [3, 3])) := by
  intro path hpath p hp x hx
  cases hx
  have h : (readCoordinate exUnitsEnv.fs path).toOption.map (fun p => p.shape) = some [2, 9] := by
    rcases (by simpa [exUnitsSource] using hpath : path = "c" ∨ path = "d") with rfl | rfl <;>
      decide +kernel
  rw [hp] at h
  exact ⟨9, Option.some.inj h⟩

/-- C95 with files and the fast interpolator, without any assumption on SciPy. -/
example : let S : FileSource ℚ → Solver ℚ := fun s =>
      ⟨.file s, .highPerf (HighPerf.fresh [3, 3]), Integ.fresh .euler⟩
    let s' : FileSource ℚ := { exUnitsSource with timestep := exUnits.τ * exUnitsSource.timestep }
    Py.Rel (fun o o' => o' = o.map (List.map (· / 3)))
      ((S exUnitsSource).run exUnitsEnv true none).result
      ((S s').run { exUnitsEnv with
        fs := exUnits.files exFiles
        junk := fun _ => 7 } true none).result ∧
    ((S exUnitsSource).run exUnitsEnv true none).result.toOption.join = some [6] :=
  ⟨(C95_files exUnits exUnitsEnv exUnits_kernels (fun _ => 7) true (w := none) (w' := none) trivial
    exUnitsSource (lower := id) (name := "grid") (gs := some [3, 3]) rfl (fun h => h.elim) .euler
    (n := 4) (d := 2) trivial exUnits_coords exUnits_seeds).1,
    by decide +kernel⟩

/-- A velocity function, `v(t, x) = (1 - t) x`. -/
def exFn : VelocityFn ℚ := fun t q => .ok ⟨q.shape, fun idx => (1 - t) * q.get idx⟩

/-- The same in other units. -/
def exFn' : VelocityFn ℚ := fun t q =>
  .ok ⟨q.shape, fun idx => 2 / 3 * ((1 - t / 3) * ((q.get idx - exUnits.b (idx.getD 1 0)) / 2))⟩

theorem exFn_rel : FnRel exUnits exFn exFn' := by
  rintro t q q' ⟨hq, gq⟩
  refine .ok ⟨hq, fun idx hi => ?_⟩
  simp only [gq idx hi, Units.c, exUnits]
  ring

/-- C95 with a velocity function. -/
example : ∃ p p', mkParticles exSeeds = .ok p ∧ mkParticles (exUnits.points exSeeds) = .ok p' ∧
    let R := (⟨.analytical ⟨p, 1, [0, 1, 2]⟩, .analytical (.fresh (some exFn)), Integ.fresh .rk4⟩ :
      Solver ℚ).run exUnitsEnv true none
    let R' := (⟨.analytical ⟨p', 3, [0, 3, 6]⟩, .analytical (.fresh (some exFn')),
      Integ.fresh .rk4⟩ : Solver ℚ).run { exUnitsEnv with fs := exUnits.files exFiles } true none
    Py.Rel (fun o o' => o' = o.map (List.map (· / 3))) R.result R'.result := by
  obtain ⟨p, hp⟩ : ∃ p, mkParticles exSeeds = .ok p := ⟨_, rfl⟩
  obtain ⟨p', hp'⟩ : ∃ p, mkParticles (exUnits.points exSeeds) = .ok p := ⟨_, rfl⟩
  have := C95_analytical exUnits exUnitsEnv exUnits_kernels exUnitsEnv.junk true (w := none)
    (w' := none) trivial exSeeds hp hp' 1 [0, 1, 2] exFn_rel .rk4 (n := 4) (d := 2) rfl
  refine ⟨p, p', hp, hp', ?_⟩
  have h := this.1
  simp only [exUnits, List.map_cons, List.map_nil] at h
  norm_num at h
  exact h

end Verif
