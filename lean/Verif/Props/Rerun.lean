import Verif.Lemmas.Rerun
import Verif.Props.Solver

/-!
# C39: running the same solver again
-/

set_option linter.unusedSectionVars false

namespace Verif

section
variable {K F : Type} [Zero K] [One K] [Add K] [Sub K] [Mul K] [Div K] [NatCast K] [IntCast K]
  [Min K] [Max K] [NumLits K] [DecidableEq K]

/-- The solver object after `n` calls of `run` (successful or not). -/
def Solver.afterRuns (env : Env K F) (queue : Bool) (writer : Option (WriteFn K F)) :
    ℕ → Solver K → Solver K
  | 0, S => S
  | n + 1, S => Solver.afterRuns env queue writer n (S.run env queue writer).solver

/-- A number of seed rows accepted by the constructor is never 3. -/
theorem seeds_not_three {fs : MatFS K} {path : String} {p : Particles K}
    (h : readSeedParticles fs path = .ok p) : p.positions.shape.headD 0 ≠ 3 := by
  have key : ∀ a : NDArray K, mkParticles a = .ok p → p.positions.shape.headD 0 ≠ 3 := by
    intro a ha
    obtain ⟨n, d, rest, h1, h2, h3, -⟩ := mkParticles_fields ha
    rw [h3, h1, List.headD_cons]
    omega
  unfold readSeedParticles at h
  dsimp only at h
  repeat' split at h
  all_goals first
    | cases h
    | exact key _ h

theorem run_file_same {k : Kind} (hk : k ≠ .ab2) (env : Env K F) (queue : Bool)
    (writer : Option (WriteFn K F)) (s : FileSource K) (I J : AnyInterp K) (G H : Integ K)
    (hIJ : ∀ p, readSeedParticles env.fs s.particleFile = .ok p →
      Similar p.positions.shape I J) (hG : G.Inv k) (hH : H.Inv k) :
    ((⟨.file s, J, H⟩ : Solver K).run env queue writer).result =
      ((⟨.file s, I, G⟩ : Solver K).run env queue writer).result ∧
    ((⟨.file s, J, H⟩ : Solver K).run env queue writer).trace =
      ((⟨.file s, I, G⟩ : Solver K).run env queue writer).trace ∧
    (((⟨.file s, J, H⟩ : Solver K).run env queue writer).solver.source = .file s) ∧
    (((⟨.file s, J, H⟩ : Solver K).run env queue writer).solver.integ.Inv k) ∧
    (∀ p, readSeedParticles env.fs s.particleFile = .ok p → Similar p.positions.shape I
      ((⟨.file s, J, H⟩ : Solver K).run env queue writer).solver.interp) := by
  unfold Solver.run
  simp only [Source.getParticles, Source.id]
  cases hp : readSeedParticles env.fs s.particleFile with
  | error e =>
    refine ⟨rfl, rfl, rfl, hH, ?_⟩
    intro p hc; cases hc
  | ok p =>
    have h3 := seeds_not_three hp
    have hsim := hIJ p hp
    have hsame : SameRun (F := F) p.positions.shape k (Similar p.positions.shape)
        ⟨I, G, p, []⟩ ⟨J, H, p, []⟩ := ⟨hsim, hG, hH, rfl, rfl, rfl⟩
    obtain ⟨e1, e2, e3⟩ := steps_same_file h3 hk env s s.id queue (Source.file s).numSteps hsame
    obtain ⟨e4, e5⟩ := steps_similar (k := k) (st := (⟨J, H, p, []⟩ : Loop K F)) env (.file s) s.id
      queue (List.range (Source.file s).numSteps) hsim hH rfl
    rcases ha : Loop.steps env (.file s) s.id queue (List.range (Source.file s).numSteps)
      ⟨I, G, p, []⟩ with ⟨a, ra⟩
    rcases hb : Loop.steps env (.file s) s.id queue (List.range (Source.file s).numSteps)
      ⟨J, H, p, []⟩ with ⟨b, rb⟩
    rw [ha, hb] at e1 e2 e3
    rw [hb] at e4 e5
    simp only at e1 e2 e3 e4 e5
    subst e1
    dsimp only
    rw [ha, hb]
    cases ra with
    | some e =>
      refine ⟨rfl, e2, rfl, e5, ?_⟩
      intro q hq; cases hq; exact e4
    | none =>
      simp only [e2, e3]
      cases computeFtle env a.particles (Source.file s).numSteps (Source.file s).timestep with
      | error e =>
        refine ⟨rfl, rfl, rfl, e5, ?_⟩
        intro q hq; cases hq; exact e4
      | ok field =>
        cases writer with
        | none =>
          refine ⟨rfl, rfl, rfl, e5, ?_⟩
          intro q hq; cases hq; exact e4
        | some w =>
          simp only
          cases w ("ftle_" ++ s.id) field a.particles.initialCentroid with
          | none =>
            refine ⟨rfl, rfl, rfl, e5, ?_⟩
            intro q hq; cases hq; exact e4
          | some e =>
            refine ⟨rfl, rfl, rfl, e5, ?_⟩
            intro q hq; cases hq; exact e4

/-- A new interpolator has no stale work buffers. -/
theorem created_similar {I : AnyInterp K} {lower : String → String} {name : String}
    {gs : Option (List ℕ)} {fn : Option (VelocityFn K)}
    (hI : createInterpolator lower name gs fn = .ok I) (sh : List ℕ) : Similar sh I I := by
  unfold createInterpolator at hI
  simp only at hI
  repeat' split at hI
  all_goals first
    | cases hI; done
    | (cases hI; exact rfl)
    | (cases hI; exact ⟨rfl, rfl⟩)
    | (cases hI; exact ⟨rfl, (fun _ _ h => nomatch h), (fun _ _ h => nomatch h)⟩)

/-- **C39 (what holds).**  A solver with a file source, any interpolator of the factory and a
new Euler or RK4 integrator: after any number of earlier runs, failed ones included, another
run gives the same field (or exception) and the same messages and output as the first one.
Files and the contents of uninitialised memory are the same in all runs; that the latter can
matter is `C32_third_component_fails`. -/
theorem C39_file_partial {k : Kind} (hk : k ≠ .ab2) (env : Env K F) (queue : Bool)
    (writer : Option (WriteFn K F)) (s : FileSource K) (I : AnyInterp K) {lower : String → String}
    {name : String} {gs : Option (List ℕ)} {fn : Option (VelocityFn K)}
    (hI : createInterpolator lower name gs fn = .ok I) (n : ℕ) :
    let S : Solver K := ⟨.file s, I, Integ.fresh k⟩
    ((S.afterRuns env queue writer n).run env queue writer).result =
        (S.run env queue writer).result ∧
      ((S.afterRuns env queue writer n).run env queue writer).trace =
        (S.run env queue writer).trace := by
  have hfresh := created_similar hI
  have hinv : (Integ.fresh k : Integ K).Inv k := by cases k <;> trivial
  have key : ∀ (n : ℕ) (J : AnyInterp K) (H : Integ K),
      (∀ p, readSeedParticles env.fs s.particleFile = .ok p → Similar p.positions.shape I J) →
      H.Inv k →
      (((⟨.file s, J, H⟩ : Solver K).afterRuns env queue writer n).run env queue writer).result =
        ((⟨.file s, I, Integ.fresh k⟩ : Solver K).run env queue writer).result ∧
      (((⟨.file s, J, H⟩ : Solver K).afterRuns env queue writer n).run env queue writer).trace =
        ((⟨.file s, I, Integ.fresh k⟩ : Solver K).run env queue writer).trace := by
    intro n
    induction n with
    | zero =>
      intro J H hJ hH
      obtain ⟨h1, h2, -⟩ := run_file_same hk env queue writer s I J (Integ.fresh k) H hJ hinv hH
      exact ⟨h1, h2⟩
    | succ n ih =>
      intro J H hJ hH
      obtain ⟨-, -, h3, h4, h5⟩ :=
        run_file_same hk env queue writer s I J (Integ.fresh k) H hJ hinv hH
      simp only [Solver.afterRuns]
      rcases hr : ((⟨.file s, J, H⟩ : Solver K).run env queue writer).solver with ⟨src, J', H'⟩
      rw [hr] at h3 h4 h5
      simp only at h3 h4 h5
      subst h3
      exact ih J' H' h5 h4
  exact key n I (Integ.fresh k) (fun p _ => hfresh _) hinv

end

/-! ## Where it fails -/

/-- **C39 is false of the code (analytical source).**  The run moves the seed particles of the
source itself; the second run starts where the first one ended.  In the steady stretching flow
`v = (x, 0)` with Euler steps of size 1 the first run reports the Jacobian entry `4`, the
second `16`. -/
theorem C39_analytical_fails :
    let S : Solver ℚ := ⟨.analytical exSource,
      .analytical (.fresh (some fun _ => sourceOf 2 fun x => ![x 0, 0])), Integ.fresh .euler⟩
    (S.run exEnv false none).result.toOption.join = some [4, 1] ∧
    ((S.afterRuns exEnv false none 1).run exEnv false none).result.toOption.join =
      some [16, 1] := by
  decide +kernel

/-! Files for the examples: a 3 × 3 grid on `[-4, 4]²` with the velocity `(x, 0)`. -/

/-- A row vector. -/
def exRow (l : List ℚ) : NDArray ℚ := ⟨[1, l.length], fun idx => l.getD (idx.getD 1 0) 0⟩

/-- Contents of the example files. -/
def exFiles : MatFS ℚ := fun path =>
  if path = "c" ∨ path = "d" then some fun key =>
    if key = "coordinate_x" then some (exRow [-4, 0, 4, -4, 0, 4, -4, 0, 4])
    else if key = "coordinate_y" then some (exRow [-4, -4, -4, 0, 0, 0, 4, 4, 4])
    else none
  else if path = "v" ∨ path = "w" then some fun key =>
    if key = "velocity_x" then
      some (exRow (if path = "v" then [-4, 0, 4, -4, 0, 4, -4, 0, 4] else
        [-8, 0, 8, -8, 0, 8, -8, 0, 8]))
    else if key = "velocity_y" then some (exRow [0, 0, 0, 0, 0, 0, 0, 0, 0])
    else none
  else if path = "p" then some fun key =>
    if key = "left" then some ⟨[1, 2], fun idx => if idx = [0, 0] then -1 else 0⟩
    else if key = "right" then some ⟨[1, 2], fun idx => if idx = [0, 0] then 1 else 0⟩
    else if key = "top" then some ⟨[1, 2], fun idx => if idx = [0, 1] then 1 else 0⟩
    else if key = "bottom" then some ⟨[1, 2], fun idx => if idx = [0, 1] then -1 else 0⟩
    else none
  else none

/-- SciPy's scattered interpolation of the example data: `value at node 2 / 4 * x`. -/
def exScatter : SciPy ℚ where
  scatterBuild _ _ _ := none
  scatterCall _ _ v q := .ok fun r => v.get [2] / 4 * q.get [r, 0]
  gridBuild _ _ _ := none
  gridCall _ _ v q := .ok fun r => v.get [2, 0] / 4 * q.get [r, 0]

/-- Surroundings with files. -/
def exFileEnv : Env ℚ ℚ := { exEnv with fs := exFiles, sp := exScatter }

/-- Snapshots `v`, `w` on static coordinates. -/
def exFileSource : FileSource ℚ := ⟨["v", "w"], ["c", "c"], "p", 1, "v", true⟩

/-- The source is what the constructor builds. -/
example : (FileSource.create id ["v", "w"] ["c", "c"] "p" (1 : ℚ)).toOption.map
    (fun s => (s.snapshotFiles, s.coordinateFiles, s.particleFile, s.timestep, s.id,
      s.reuseCoordinates)) = some (["v", "w"], ["c", "c"], "p", 1, "v", true) := by decide +kernel

/-- **C39 is false of the code (AB2).**  With the same files, the second run of an AB2 solver
starts with the last velocity of the first run instead of an Euler step: Jacobian entries
`15/2` and `3/2`. -/
theorem C39_ab2_fails :
    let S : Solver ℚ := ⟨.file exFileSource, .scatter (.fresh .linear), Integ.fresh .ab2⟩
    (S.run exFileEnv false none).result.toOption.join = some [15 / 2, 1] ∧
    ((S.afterRuns exFileEnv false none 1).run exFileEnv false none).result.toOption.join =
      some [3 / 2, 1] := by
  decide +kernel

/-- C39 (partial) is not vacuous: with Euler and the same files the run succeeds. -/
example : createInterpolator (K := ℚ) id "linear" none none = .ok (.scatter (.fresh .linear)) ∧
    ((⟨.file exFileSource, .scatter (.fresh .linear), Integ.fresh .euler⟩ : Solver ℚ).run
      exFileEnv false none).result.toOption.join = some [6, 1] := by
  exact ⟨rfl, by decide +kernel⟩

end Verif
