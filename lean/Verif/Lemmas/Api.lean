import Verif.Model.Api
import Verif.Lemmas.Solver
import Verif.Lemmas.Integrate
import Verif.Lemmas.Jacobian
import Verif.Lemmas.Particles

/-!
# Helper lemmas: what a successful run consists of
-/

set_option linter.unusedSectionVars false

namespace Verif

section
variable {K F : Type} [Zero K] [One K] [Add K] [Sub K] [Mul K] [Div K] [NatCast K] [IntCast K]
  [Min K] [Max K] [NumLits K] [DecidableEq K]

theorem integrate_frame {junk : List ℕ → K} {vel : Velocity K} {dt : K} {G : Integ K}
    {p : Particles K} :
    ∃ x : NDArray K, x.shape = p.positions.shape ∧
      (G.integrate junk vel dt p).2.1 = { p with positions := x } := by
  unfold Integ.integrate
  rcases hs : G.step junk vel dt p.positions with ⟨G', e | pos⟩
  · exact ⟨p.positions, rfl, rfl⟩
  · exact ⟨pos, step_shape hs, rfl⟩

/-- A run of the loop changes the particles only by moving them. -/
theorem Loop.steps_particles (env : Env K F) (src : Source K) (id : String) (queue : Bool)
    (l : List ℕ) (st : Loop K F) :
    ∃ x : NDArray K, x.shape = st.particles.positions.shape ∧
      (Loop.steps env src id queue l st).1.particles = { st.particles with positions := x } := by
  induction l generalizing st with
  | nil => exact ⟨st.particles.positions, rfl, rfl⟩
  | cons i l ih =>
    simp only [Loop.steps, Loop.step]
    rcases hu : src.updateInterp env st.interp i with ⟨I', _ | e⟩
    · simp only
      obtain ⟨x, hx, hp⟩ := integrate_frame (junk := env.junk) (vel := I'.velocity env)
        (dt := src.timestep) (G := st.integ) (p := st.particles)
      rcases hi : st.integ.integrate env.junk (I'.velocity env) src.timestep st.particles
        with ⟨G', p', _ | e⟩
      · rw [hi] at hp
        simp only at hp ⊢
        obtain ⟨y, hy, hq⟩ := ih
          { interp := (I'.interpolate env.sp env.m env.junk st.particles.positions).1
            integ := G'
            particles := p'
            trace := st.trace ++ (if queue then [.progress id i] else []) }
        refine ⟨y, ?_, ?_⟩
        · rw [hy, hp]; exact hx
        · rw [hq, hp]
      · rw [hi] at hp
        exact ⟨x, hx, hp⟩
    · exact ⟨st.particles.positions, rfl, rfl⟩

/-- The parts of a successful run. -/
theorem run_ok_parts {env : Env K F} {queue : Bool} {writer : Option (WriteFn K F)} {S : Solver K}
    {r : Option (List F)} (h : (S.run env queue writer).result = .ok r) :
    ∃ p id x field,
      S.source.getParticles env.fs = .ok p ∧ S.source.id env = .ok id ∧
      x.shape = p.positions.shape ∧
      computeFtle env { p with positions := x } S.source.numSteps S.source.timestep = .ok field ∧
      (S.run env queue none).result = .ok (some field) ∧
      (writer = none → r = some field) ∧
      ∀ w, writer = some w → r = none ∧ w ("ftle_" ++ id) field p.initialCentroid = none ∧
        (S.run env queue writer).trace = (S.run env queue none).trace ++
          [.written ("ftle_" ++ id) field p.initialCentroid] := by
  unfold Solver.run at h ⊢
  cases hp : S.source.getParticles env.fs with
  | error e => rw [hp] at h; cases h
  | ok p =>
    simp only [hp] at h ⊢
    cases hid : S.source.id env with
    | error e => rw [hid] at h; cases h
    | ok id =>
      simp only [hid] at h ⊢
      obtain ⟨x, hx, hpar⟩ := Loop.steps_particles env S.source id queue
        (List.range S.source.numSteps) ⟨S.interp, S.integ, p, []⟩
      rcases hst : Loop.steps env S.source id queue (List.range S.source.numSteps)
        ⟨S.interp, S.integ, p, []⟩ with ⟨st, _ | e⟩
      · rw [hst] at hpar
        simp only at hpar
        simp only [hst] at h ⊢
        cases hf : computeFtle env st.particles S.source.numSteps S.source.timestep with
        | error e => rw [hf] at h; cases h
        | ok field =>
          refine ⟨p, id, x, field, rfl, rfl, hx, by rw [← hpar]; exact hf, rfl, ?_, ?_⟩
          · rintro rfl
            simp only [hf] at h
            cases h
            rfl
          · rintro w rfl
            simp only [hf] at h ⊢
            have hc : st.particles.initialCentroid = p.initialCentroid := by rw [hpar]
            cases hw : w ("ftle_" ++ id) field st.particles.initialCentroid with
            | some e => rw [hw] at h; cases h
            | none =>
              rw [hw] at h
              cases h
              rw [hc] at hw
              exact ⟨rfl, hw, by rw [hc]⟩
      · rw [hst] at h; cases h

/-- The converse: a run that succeeds without a writer succeeds with every writer that accepts
its field. -/
theorem run_with_writer {env : Env K F} {queue : Bool} {S : Solver K} {field : List F}
    (h : (S.run env queue none).result = .ok (some field)) :
    ∃ p id, S.source.getParticles env.fs = .ok p ∧ S.source.id env = .ok id ∧
      ∀ w : WriteFn K F,
        (S.run env queue (some w)).result =
          match w ("ftle_" ++ id) field p.initialCentroid with
          | none => .ok none
          | some e => .error e := by
  unfold Solver.run at h ⊢
  cases hp : S.source.getParticles env.fs with
  | error e => rw [hp] at h; cases h
  | ok p =>
    simp only [hp] at h ⊢
    cases hid : S.source.id env with
    | error e => rw [hid] at h; cases h
    | ok id =>
      refine ⟨p, id, rfl, rfl, fun w => ?_⟩
      simp only [hid] at h ⊢
      obtain ⟨x, hx, hpar⟩ := Loop.steps_particles env S.source id queue
        (List.range S.source.numSteps) ⟨S.interp, S.integ, p, []⟩
      rcases hst : Loop.steps env S.source id queue (List.range S.source.numSteps)
        ⟨S.interp, S.integ, p, []⟩ with ⟨st, _ | e⟩
      · rw [hst] at hpar
        simp only at hpar
        simp only [hst] at h ⊢
        have hc : st.particles.initialCentroid = p.initialCentroid := by rw [hpar]
        cases hf : computeFtle env st.particles S.source.numSteps S.source.timestep with
        | error e => rw [hf] at h; cases h
        | ok field' =>
          rw [hf] at h
          cases h
          simp only [hc]
          cases w ("ftle_" ++ id) field p.initialCentroid <;> rfl
      · rw [hst] at h; cases h

/-- The FTLE kernels return one value per matrix. -/
structure Env.PerMatrix (env : Env K F) : Prop where
  two : ∀ js T v, env.ftle2 js T = .ok v → v.length = js.length
  three : ∀ js T v, env.ftle3 js T = .ok v → v.length = js.length

theorem computeFtle_length {env : Env K F} (he : env.PerMatrix) {p : Particles K} {N d : ℕ}
    (hd : d = 2 ∨ d = 3) (hs : p.positions.shape = [2 * d * N, d]) (hn : p.numNeighbors = 2 * d)
    {steps : ℕ} {dt : K} {field : List F} (h : computeFtle env p steps dt = .ok field) :
    field.length = N := by
  unfold computeFtle at h
  rcases hd with rfl | rfl
  · rw [if_pos (by omega)] at h
    cases hj : jacobian2 p with
    | error e => rw [hj] at h; cases h
    | ok js =>
      rw [hj] at h
      rw [he.two _ _ _ h]
      unfold jacobian2 at hj
      repeat' split at hj
      all_goals first
        | cases hj
        | (rw [pyMap_ok_length hj, hs]; simp)
  · rw [if_neg (by omega)] at h
    cases hj : jacobian3 p with
    | error e => rw [hj] at h; cases h
    | ok js =>
      rw [hj] at h
      rw [he.three _ _ _ h]
      unfold jacobian3 at hj
      repeat' split at hj
      all_goals first
        | cases hj
        | (rw [pyMap_ok_length hj, hs]; simp)

/-- A particle set built from `N` groups in `d` dimensions. -/
theorem mkParticles_groups {a : NDArray K} {p : Particles K} {N d : ℕ} (hd : d = 2 ∨ d = 3)
    (ha : a.shape = [2 * d * N, d]) (hp : mkParticles a = .ok p) :
    p.positions = a ∧ p.numNeighbors = 2 * d ∧ p.initialCentroid.shape = [N, d] ∧ p.len = N := by
  rcases hd with rfl | rfl
  · obtain ⟨q, h1, h2, h3, -, -, h4, -⟩ := mkParticles_2d (K := K) (a := a) (m := N) ha
    rw [h1] at hp
    cases hp
    refine ⟨h2, h3, h4, ?_⟩
    simp [Particles.len, h2, h3, ha]
  · obtain ⟨q, h1, h2, h3, -, -, -, h4, -⟩ := mkParticles_3d (K := K) (a := a) (m := N) ha
    rw [h1] at hp
    cases hp
    refine ⟨h2, h3, h4, ?_⟩
    simp [Particles.len, h2, h3, ha]

/-- One value per group: every successful run. -/
theorem run_field_length {env : Env K F} (he : env.PerMatrix) {queue : Bool} {S : Solver K}
    {field : List F} {a : NDArray K} {p : Particles K} {N d : ℕ} (hd : d = 2 ∨ d = 3)
    (ha : a.shape = [2 * d * N, d]) (hp : mkParticles a = .ok p)
    (hg : S.source.getParticles env.fs = .ok p)
    (h : (S.run env queue none).result = .ok (some field)) : field.length = N := by
  obtain ⟨p', id, x, field', h1, -, h3, h4, -, h6, -⟩ := run_ok_parts h
  rw [hg] at h1
  cases h1
  cases h6 rfl
  obtain ⟨g1, g2, -, -⟩ := mkParticles_groups hd ha hp
  exact computeFtle_length he (p := { p with positions := x }) hd (by rw [h3, g1, ha]) g2 h4

end

end Verif
