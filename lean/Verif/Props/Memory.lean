import Verif.Lemmas.Memory
import Verif.Props.Rerun

/-!
# C70: results do not depend on uninitialised memory
-/

set_option linter.unusedSectionVars false

namespace Verif

section
variable {K F : Type} [Zero K] [One K] [Add K] [Sub K] [Mul K] [Div K] [NatCast K] [IntCast K]
  [Min K] [Max K] [NumLits K] [DecidableEq K]

/-- **C70 (what holds).**  A solver with a new integrator of any class: field, exception and
trace of a run do not depend on what uninitialised memory contains, provided the interpolator
assigns every column for `d`-dimensional particles (`AnyInterp.Fills`) -- all interpolators
for `d = 2`; the grid interpolators on a three-dimensional grid for `d = 3`.  SciPy and the
user's velocity function look only at legal entries of their arguments.  Missing: scattered
data in three dimensions, where it is false. -/
theorem C70_deterministic_partial (env : Env K F) (hsp : env.sp.Respects) (junk' : List ℕ → K)
    (queue : Bool) (writer : Option (WriteFn K F)) (src : Source K) (I : AnyInterp K) (k : Kind)
    {n d : ℕ} (hI : I.Fills d) (hA : ∀ s, src = .analytical s → I.Complete d)
    (hp : ∀ p, src.getParticles env.fs = .ok p → p.positions.shape = [n, d]) :
    ((⟨src, I, Integ.fresh k⟩ : Solver K).run env queue writer).result =
      ((⟨src, I, Integ.fresh k⟩ : Solver K).run { env with junk := junk' } queue writer).result ∧
    ((⟨src, I, Integ.fresh k⟩ : Solver K).run env queue writer).trace =
      ((⟨src, I, Integ.fresh k⟩ : Solver K).run { env with junk := junk' } queue writer).trace := by
  unfold Solver.run
  simp only
  cases hgp : src.getParticles env.fs with
  | error e => exact ⟨rfl, rfl⟩
  | ok p =>
    simp only
    have hid : src.id { env with junk := junk' } = src.id env := by cases src <;> rfl
    rw [hid]
    cases src.id env with
    | error e => exact ⟨rfl, rfl⟩
    | ok id =>
      simp only
      have hinv : (Integ.fresh k : Integ K).Inv k := by cases k <;> trivial
      have h0 : LoopRel (F := F) [n, d] k ⟨I, Integ.fresh k, p, []⟩ ⟨I, Integ.fresh k, p, []⟩ :=
        ⟨rfl, IntegRel.fresh k, hinv, hinv, ⟨NDArray.Eqv.refl _, rfl, rfl, rfl, rfl, rfl⟩,
          hp p hgp, rfl⟩
      obtain ⟨s1, s2, s3⟩ := LoopRel.steps env hsp junk' src id queue (List.range src.numSteps)
        hI hA h0
      rcases ha : Loop.steps env src id queue (List.range src.numSteps)
        ⟨I, Integ.fresh k, p, []⟩ with ⟨a, ra⟩
      rcases hb : Loop.steps { env with junk := junk' } src id queue (List.range src.numSteps)
        ⟨I, Integ.fresh k, p, []⟩ with ⟨b, rb⟩
      rw [ha, hb] at s1 s2 s3
      simp only at s1 s2 s3
      subst s1
      cases ra with
      | some e => exact ⟨rfl, s2⟩
      | none =>
        have hrel := (s3 rfl).particles
        simp only
        rw [← computeFtle_rel env junk' hrel, ← s2, ← hrel.centroid]
        cases computeFtle env a.particles src.numSteps src.timestep with
        | error e => exact ⟨rfl, rfl⟩
        | ok field =>
          cases writer with
          | none => exact ⟨rfl, rfl⟩
          | some w =>
            simp only
            cases w ("ftle_" ++ id) field a.particles.initialCentroid with
            | none => exact ⟨rfl, rfl⟩
            | some e => exact ⟨rfl, rfl⟩

end

/-- Files of a three-dimensional case: four velocity nodes and one group of six particles. -/
def exRest3 : MatFS ℚ := fun path =>
  let block : ℕ → ℚ → Option (NDArray ℚ) := fun c x =>
    some ⟨[1, 3], fun idx => if idx = [0, c] then x else 0⟩
  if path = "c" then some fun key =>
    if key = "coordinate_x" then some (exRow [0, 1, 0, 0])
    else if key = "coordinate_y" then some (exRow [0, 0, 1, 0])
    else if key = "coordinate_z" then some (exRow [0, 0, 0, 1])
    else none
  else if path = "v" then some fun key =>
    if key = "velocity_x" ∨ key = "velocity_y" ∨ key = "velocity_z" then some (exRow [0, 0, 0, 0])
    else none
  else if path = "p" then some fun key =>
    if key = "left" then block 0 (-1)
    else if key = "right" then block 0 1
    else if key = "top" then block 1 1
    else if key = "bottom" then block 1 (-1)
    else if key = "front" then block 2 1
    else if key = "back" then block 2 (-1)
    else none
  else none

/-- Surroundings with those files; interpolation gives zero velocity; the FTLE kernel returns
the last entries of the Jacobians. -/
def exEnv3 (junk : List ℕ → ℚ) : Env ℚ ℚ :=
  { exEnv with
    fs := exRest3
    sp := ⟨fun _ _ _ => none, fun _ _ _ _ => .ok fun _ => 0, fun _ _ _ => none,
      fun _ _ _ _ => .ok fun _ => 0⟩
    junk := junk
    ftle3 := fun js _ => .ok (js.map fun J => J 2 2) }

/-- **C70 is false of the code** for scattered data in three dimensions: in a flow at rest the
field changes with the contents of uninitialised memory (the third velocity component is
never assigned). -/
theorem C70_scattered_3d_fails :
    let S : Solver ℚ := ⟨.file ⟨["v"], ["c"], "p", 1, "v", true⟩, .scatter (.fresh .linear),
      Integ.fresh .euler⟩
    (S.run (exEnv3 fun _ => 0) false none).result.toOption.join = some [1] ∧
    (S.run (exEnv3 fun idx => if idx = [4, 2] then 6 else 0) false none).result.toOption.join =
      some [4] := by
  decide +kernel

/-- Interpolation of the example data that insists on two columns. -/
def exStrict : SciPy ℚ where
  scatterBuild _ _ _ := none
  scatterCall _ _ v q :=
    match q.shape with
    | [_, 2] => .ok fun r => v.get [2] / 4 * q.get [r, 0]
    | _ => .error .valueError
  gridBuild _ _ _ := none
  gridCall _ _ _ _ := .error .valueError

/-- A velocity function that insists on two columns. -/
def exStrictFn : VelocityFn ℚ := fun _ q =>
  match q.shape with
  | [n, 2] => .ok ⟨[n, 2], fun idx => if idx.getD 1 0 = 0 then q.get [idx.getD 0 0, 0] else 0⟩
  | _ => .error .indexError

theorem exStrict_respects : exStrict.Respects := by
  refine ⟨fun m p v q q' h => ?_, fun m p v q q' h => .error _⟩
  simp only [exStrict]
  rw [← h.1]
  split
  · rename_i n hs
    refine .ok fun r hr => ?_
    rw [h.2 [r, 0] ?_]
    rw [hs] at hr ⊢
    exact .cons hr (.cons (by omega) .nil)
  · exact .error _

theorem exStrictFn_respects : exStrictFn.Respects := by
  intro t q q' h
  simp only [exStrictFn]
  rw [← h.1]
  split
  · rename_i n hs
    refine .ok ⟨rfl, fun idx hi => ?_⟩
    cases hi with
    | cons hr hi =>
      simp only
      split
      · simp only [List.getD_cons_zero]
        refine h.2 _ ?_
        rw [hs]
        exact .cons hr (.cons (by omega) .nil)
      · rfl
  · exact .error _

/-- Two cases that meet the hypotheses of `C70_deterministic_partial` and in which the run
succeeds: files in two dimensions ... -/
example :
    let env : Env ℚ ℚ := { exEnv with fs := exFiles, sp := exStrict }
    env.sp.Respects ∧ (AnyInterp.scatter (.fresh .linear) : AnyInterp ℚ).Fills 2 ∧
    (∀ p, (Source.file exFileSource).getParticles env.fs = .ok p →
      p.positions.shape = [4, 2]) ∧
    ((⟨.file exFileSource, .scatter (.fresh .linear), Integ.fresh .rk4⟩ : Solver ℚ).run
      env false none).result.toBool = true := by
  refine ⟨exStrict_respects, rfl, fun p hp => ?_, by decide +kernel⟩
  have : ((Source.file exFileSource).getParticles exFiles).toOption.map (·.positions.shape) =
      some [4, 2] := by decide +kernel
  simp only [hp, Except.toOption, Option.map_some, Option.some.injEq] at this
  exact this

/-- ... and an analytical run. -/
example :
    let I : AnyInterp ℚ := .analytical (.fresh (some exStrictFn))
    exEnv.sp.Respects ∧ I.Fills 2 ∧ I.Complete 2 ∧ exParticles.positions.shape = [4, 2] ∧
    ((⟨.analytical exSource, I, Integ.fresh .rk4⟩ : Solver ℚ).run
      exEnv false none).result.toBool = true := by
  refine ⟨⟨fun _ _ _ _ _ _ => .error _, fun _ _ _ _ _ _ => .error _⟩, ?_, ?_, rfl,
    by decide +kernel⟩
  all_goals
    intro f hf
    cases hf
    exact exStrictFn_respects

end Verif
