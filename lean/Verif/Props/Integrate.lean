import Verif.Lemmas.Integrate
import Verif.Lemmas.Particles
import Mathlib.Data.Matrix.Mul
import Mathlib.LinearAlgebra.Matrix.NonsingularInverse
import Mathlib.LinearAlgebra.Matrix.Notation
import Mathlib.Algebra.Field.Rat
import Mathlib.Tactic.FieldSimp
import Mathlib.Tactic.LinearCombination
import Mathlib.Tactic.NormNum
import Mathlib.Tactic.Abel
import Mathlib.Tactic.Module

/-!
# C03, C18-C23: the integrators
-/

set_option linter.unusedSectionVars false

namespace Verif

variable {K : Type*}

/-! ## C03 -/

section C03

variable [Add K] [Sub K] [Mul K] [Div K] [NumLits K] [NatCast K]

/-- One call `integrator.integrate(h, particles)`: the integrator in whatever state it
is, the velocity source at that moment, the step, and the contents of freshly
allocated memory. -/
structure Call (K : Type*) where
  integ : Integ K
  vel : Velocity K
  h : K
  junk : List ℕ → K

/-- The particles after a sequence of calls; exceptions are caught by the caller and the
next call is made on the same object. -/
def afterCalls : List (Call K) → Particles K → Particles K
  | [], p => p
  | c :: cs, p => afterCalls cs (c.integ.integrate c.junk c.vel c.h p).2.1

theorem afterCalls_frame (cs : List (Call K)) (p : Particles K) :
    (afterCalls cs p).initialDeltaRL = p.initialDeltaRL ∧
    (afterCalls cs p).initialDeltaTB = p.initialDeltaTB ∧
    (afterCalls cs p).initialDeltaFB = p.initialDeltaFB ∧
    (afterCalls cs p).initialCentroid = p.initialCentroid ∧
    (afterCalls cs p).numNeighbors = p.numNeighbors ∧
    (afterCalls cs p).positions.shape = p.positions.shape := by
  induction cs generalizing p with
  | nil => exact ⟨rfl, rfl, rfl, rfl, rfl, rfl⟩
  | cons c cs ih =>
    simp only [afterCalls]
    have key : ∃ pos', (c.integ.integrate c.junk c.vel c.h p).2.1 = { p with positions := pos' } ∧
        pos'.shape = p.positions.shape := by
      unfold Integ.integrate
      rcases hs : c.integ.step c.junk c.vel c.h p.positions with ⟨I', _ | pos'⟩
      · exact ⟨p.positions, rfl, rfl⟩
      · exact ⟨pos', rfl, step_shape hs⟩
    obtain ⟨pos', e1, e2⟩ := key
    rw [e1]
    obtain ⟨a, b, c', d, e, f⟩ := ih { p with positions := pos' }
    exact ⟨a, b, c', d, e, f.trans e2⟩

/-- **C03 (2D).**  After any sequence of integration calls on the particles built from
`4N × 2` seeds: the recorded differences, centroids and neighbour number are still those
of the seeds, the current differences and centroids are those of the current positions. -/
theorem C03_reference_2d {seed : NDArray K} {N : ℕ} (hs : seed.shape = [4 * N, 2])
    {p : Particles K} (hp : mkParticles seed = .ok p) (cs : List (Call K)) :
    let q := afterCalls cs p
    (q.numNeighbors = 4 ∧ q.positions.shape = [4 * N, 2] ∧
      q.initialDeltaRL.shape = [N, 2] ∧ q.initialDeltaTB.shape = [N, 2] ∧
      q.initialCentroid.shape = [N, 2] ∧
      ∀ i < N, ∀ c < 2,
        q.initialDeltaRL.get [i, c] = seed.get [N + i, c] - seed.get [i, c] ∧
        q.initialDeltaTB.get [i, c] = seed.get [2 * N + i, c] - seed.get [3 * N + i, c] ∧
        q.initialCentroid.get [i, c] = (seed.get [i, c] + seed.get [N + i, c] +
          seed.get [2 * N + i, c] + seed.get [3 * N + i, c]) / ((4 : ℕ) : K)) ∧
    ∃ rl tb ce, q.deltaRL = .ok rl ∧ q.deltaTB = .ok tb ∧ q.centroid = .ok ce ∧
      ∀ i < N, ∀ c < 2,
        rl.get [i, c] = q.positions.get [N + i, c] - q.positions.get [i, c] ∧
        tb.get [i, c] = q.positions.get [2 * N + i, c] - q.positions.get [3 * N + i, c] ∧
        ce.get [i, c] = (q.positions.get [i, c] + q.positions.get [N + i, c] +
          q.positions.get [2 * N + i, c] + q.positions.get [3 * N + i, c]) / ((4 : ℕ) : K) := by
  intro q
  obtain ⟨p', p1, p2, p3, p4, p5, p6, _, p8, p9, p10⟩ := mkParticles_2d hs
  rw [hp] at p1
  cases p1
  obtain ⟨f1, f2, f3, f4, f5, f6⟩ := afterCalls_frame cs p
  have hq : q.positions.shape = [4 * N, 2] := by rw [f6, p2, hs]
  have hn : q.numNeighbors = 4 := by rw [f5, p3]
  refine ⟨⟨hn, hq, by rw [f1]; exact p4, by rw [f2]; exact p5, by rw [f4]; exact p6, ?_⟩, ?_⟩
  · intro i hi c _
    rw [f1, f2, f4, p8, p9, p10]
    exact ⟨rfl, rfl, rfl⟩
  · obtain ⟨q', q1, q2, q3, _, _, _, _, q8, q9, q10⟩ := mkParticles_2d hq
    obtain ⟨c1, c2, c3, _⟩ := mkParticles_current q1
    refine ⟨q'.initialDeltaRL, q'.initialDeltaTB, q'.initialCentroid, ?_, ?_, ?_, ?_⟩
    · rw [← c1]; simp only [Particles.deltaRL, q2, q3, hn]
    · rw [← c2]; simp only [Particles.deltaTB, q2, q3, hn]
    · rw [← c3]; simp only [Particles.centroid, q2, q3, hn]
    · intro i hi c _
      rw [q8, q9, q10]
      exact ⟨rfl, rfl, rfl⟩

/-- **C03 (3D).** -/
theorem C03_reference_3d {seed : NDArray K} {N : ℕ} (hs : seed.shape = [6 * N, 3])
    {p : Particles K} (hp : mkParticles seed = .ok p) (cs : List (Call K)) :
    let q := afterCalls cs p
    (q.numNeighbors = 6 ∧ q.positions.shape = [6 * N, 3] ∧
      q.initialDeltaRL.shape = [N, 3] ∧ q.initialDeltaTB.shape = [N, 3] ∧
      q.initialDeltaFB.shape = [N, 3] ∧ q.initialCentroid.shape = [N, 3] ∧
      ∀ i < N, ∀ c < 3,
        q.initialDeltaRL.get [i, c] = seed.get [N + i, c] - seed.get [i, c] ∧
        q.initialDeltaTB.get [i, c] = seed.get [2 * N + i, c] - seed.get [3 * N + i, c] ∧
        q.initialDeltaFB.get [i, c] = seed.get [4 * N + i, c] - seed.get [5 * N + i, c] ∧
        q.initialCentroid.get [i, c] = (seed.get [i, c] + seed.get [N + i, c] +
          seed.get [2 * N + i, c] + seed.get [3 * N + i, c] + seed.get [4 * N + i, c] +
          seed.get [5 * N + i, c]) / ((6 : ℕ) : K)) ∧
    ∃ rl tb fb ce, q.deltaRL = .ok rl ∧ q.deltaTB = .ok tb ∧ q.deltaFB = .ok fb ∧
      q.centroid = .ok ce ∧
      ∀ i < N, ∀ c < 3,
        rl.get [i, c] = q.positions.get [N + i, c] - q.positions.get [i, c] ∧
        tb.get [i, c] = q.positions.get [2 * N + i, c] - q.positions.get [3 * N + i, c] ∧
        fb.get [i, c] = q.positions.get [4 * N + i, c] - q.positions.get [5 * N + i, c] ∧
        ce.get [i, c] = (q.positions.get [i, c] + q.positions.get [N + i, c] +
          q.positions.get [2 * N + i, c] + q.positions.get [3 * N + i, c] +
          q.positions.get [4 * N + i, c] + q.positions.get [5 * N + i, c]) / ((6 : ℕ) : K) := by
  intro q
  obtain ⟨p', p1, p2, p3, p4, p5, p6, p7, p8, p9, p10, p11⟩ := mkParticles_3d hs
  rw [hp] at p1
  cases p1
  obtain ⟨f1, f2, f3, f4, f5, f6⟩ := afterCalls_frame cs p
  have hq : q.positions.shape = [6 * N, 3] := by rw [f6, p2, hs]
  have hn : q.numNeighbors = 6 := by rw [f5, p3]
  refine ⟨⟨hn, hq, by rw [f1]; exact p4, by rw [f2]; exact p5, by rw [f3]; exact p6,
    by rw [f4]; exact p7, ?_⟩, ?_⟩
  · intro i hi c _
    rw [f1, f2, f3, f4, p8, p9, p10, p11]
    exact ⟨rfl, rfl, rfl, rfl⟩
  · obtain ⟨q', q1, q2, q3, _, _, _, _, q8, q9, q10, q11⟩ := mkParticles_3d hq
    obtain ⟨c1, c2, c3, c4⟩ := mkParticles_current q1
    refine ⟨q'.initialDeltaRL, q'.initialDeltaTB, q'.initialDeltaFB, q'.initialCentroid,
      ?_, ?_, ?_, ?_, ?_⟩
    · rw [← c1]; simp only [Particles.deltaRL, q2, q3, hn]
    · rw [← c2]; simp only [Particles.deltaTB, q2, q3, hn]
    · rw [← c4 q3]; simp only [Particles.deltaFB, q2, q3, hn]
    · rw [← c3]; simp only [Particles.centroid, q2, q3, hn]
    · intro i hi c _
      rw [q8, q9, q10, q11]
      exact ⟨rfl, rfl, rfl, rfl⟩

end C03

/-- Four seeds around the origin. -/
def exSeeds : NDArray ℚ := ⟨[4, 2], fun idx =>
  match idx with
  | [0, 0] => -1 | [1, 0] => 1 | [2, 1] => 1 | [3, 1] => -1 | _ => 0⟩

/-- C03 is not vacuous: a rotation field moves the seeds (an Euler and an RK4 call), the
hypotheses hold and the current difference is not the recorded one. -/
example : ∃ p, mkParticles exSeeds = .ok p ∧ exSeeds.shape = [4 * 1, 2] ∧
    let q := afterCalls
      [⟨.fresh .euler, sourceOf 2 (fun x => ![-x 1, x 0]), 1, fun _ => 7⟩,
       ⟨.fresh .rk4, sourceOf 2 (fun x => ![-x 1, x 0]), 1, fun _ => 7⟩] p
    q.positions.get [0, 1] ≠ p.positions.get [0, 1] := by
  refine ⟨_, rfl, rfl, ?_⟩
  decide +kernel

/-! ## C18 -/

section C18

variable [Field K] [CharZero K]

theorem rowStep_uniform {d : ℕ} (k : Kind) (v : Fin d → K) (h : K) (prev : Option (Fin d → K))
    (hprev : ∀ p, prev = some p → p = v) (x : Fin d → K) :
    rowStep k (fun _ => v) h prev x = fun c => x c + h * v c := by
  cases k with
  | euler => rfl
  | ab2 =>
    cases prev with
    | none => rfl
    | some p =>
      rw [hprev p rfl]
      funext c
      simp only [rowStep, NumLits.onePointFive, NumLits.half]
      ring
  | rk4 =>
    funext c
    simp only [rowStep, NumLits.two, NumLits.six]
    have h6 : (6 : K) ≠ 0 := by norm_num
    field_simp
    ring

theorem rowRun_uniform {d : ℕ} (k : Kind) (v : Fin d → K) (h : K) (n : ℕ)
    (prev : Option (Fin d → K)) (hprev : ∀ p, prev = some p → p = v) (x : Fin d → K) :
    rowRun k (List.replicate n (fun _ => v, h)) prev x = fun c => x c + n * h * v c := by
  induction n generalizing prev x with
  | zero => funext c; simp [rowRun]
  | succ n ih =>
    simp only [List.replicate_succ, rowRun]
    rw [ih, rowStep_uniform k v h prev hprev]
    · funext c; push_cast; ring
    · intro p hp
      cases k <;> simp_all [nextPrev]

/-- **C18.**  In a uniform steady velocity field `v` every integrator moves every
particle by exactly `n * h * v` in `n` steps (exact arithmetic). -/
theorem C18_uniform_exact (junk : List ℕ → K) (k : Kind) {R d : ℕ} {vel : Velocity K}
    {v : Fin d → K} (hv : Pointwise R d vel (fun _ => v)) (h : K) (n : ℕ) {pos : NDArray K}
    (hp : pos.shape = [R, d]) :
    ∃ pos', (Integ.steps junk (List.replicate n (vel, h)) (Integ.fresh k) pos).2 = .ok pos' ∧
      pos'.shape = [R, d] ∧
      ∀ r < R, ∀ c : Fin d, pos'.get [r, c.1] = pos.get [r, c.1] + n * h * v c := by
  obtain ⟨I', pos', e1, _, _, e4, e5⟩ := steps_rows junk (callsOf_replicate hv h n)
    (Integ.fresh k) (Integ.fits_fresh R d k) pos hp
  refine ⟨pos', by rw [e1], e4, fun r hr c => ?_⟩
  have := congrFun (e5 r hr) c
  rw [Integ.kind_fresh, Integ.prevRow_fresh, rowRun_uniform k v h n none (by simp)] at this
  exact this

/-- C18 is not vacuous: the field `(2, -1)` on the example seeds. -/
example : Pointwise 4 2 (sourceOf 2 fun _ => ![(2 : ℚ), -1]) (fun _ => ![2, -1]) ∧
    exSeeds.shape = [4, 2] := ⟨sourceOf_pointwise 4 2 _, rfl⟩

end C18

/-! ## C19 -/

section C19

variable [Field K] [CharZero K]

open Matrix

/-- The RK4 polynomial `1 + z + z²/2 + z³/6 + z⁴/24` of a matrix. -/
def taylor4 {d : ℕ} (Z : Matrix (Fin d) (Fin d) K) : Matrix (Fin d) (Fin d) K :=
  1 + Z + (1 / 2 : K) • Z ^ 2 + (1 / 6 : K) • Z ^ 3 + (1 / 24 : K) • Z ^ 4

theorem rowStep_euler_linear {d : ℕ} (A : Matrix (Fin d) (Fin d) K) (h : K)
    (prev : Option (Fin d → K)) (x : Fin d → K) :
    rowStep .euler (fun y => A *ᵥ y) h prev x = (1 + h • A) *ᵥ x := by
  funext c
  simp [rowStep, add_mulVec, smul_mulVec]

theorem rowStep_rk4_linear {d : ℕ} (A : Matrix (Fin d) (Fin d) K) (h : K)
    (prev : Option (Fin d → K)) (x : Fin d → K) :
    rowStep .rk4 (fun y => A *ᵥ y) h prev x = taylor4 (h • A) *ᵥ x := by
  have e2 : (fun c => x c + NumLits.half * h * (A *ᵥ x) c) =
      x + (1 / 2 * h) • (A *ᵥ x) := by funext c; rfl
  have hp2 : A ^ 2 = A * A := pow_two A
  have hp3 : A ^ 3 = A * (A * A) := by rw [pow_succ, pow_two, mul_assoc]
  have hp4 : A ^ 4 = A * (A * (A * A)) := by
    rw [pow_succ, pow_succ, pow_two, mul_assoc, mul_assoc]
  have h6 : (6 : K) ≠ 0 := by norm_num
  have h24 : (24 : K) ≠ 0 := by norm_num
  have h2 : (2 : K) ≠ 0 := by norm_num
  have k2 : A *ᵥ (fun c => x c + NumLits.half * h * (A *ᵥ x) c) =
      A *ᵥ x + (1 / 2 * h) • (A *ᵥ (A *ᵥ x)) := by rw [e2, mulVec_add, mulVec_smul]
  have k3 : A *ᵥ (fun c => x c + NumLits.half * h * (A *ᵥ x + (1 / 2 * h) • (A *ᵥ (A *ᵥ x))) c) =
      A *ᵥ x + (1 / 2 * h) • (A *ᵥ (A *ᵥ x)) +
        (1 / 2 * h * (1 / 2 * h)) • (A *ᵥ (A *ᵥ (A *ᵥ x))) := by
    have : (fun c => x c + NumLits.half * h * (A *ᵥ x + (1 / 2 * h) • (A *ᵥ (A *ᵥ x))) c) =
      x + (1 / 2 * h) • (A *ᵥ x) + (1 / 2 * h * (1 / 2 * h)) • (A *ᵥ (A *ᵥ x)) := by
      funext c
      simp only [Pi.add_apply, Pi.smul_apply, smul_eq_mul, NumLits.half]
      ring
    rw [this, mulVec_add, mulVec_add, mulVec_smul, mulVec_smul]
  funext c
  simp only [rowStep]
  rw [k2, k3]
  have e4 : (fun c => x c + h * (A *ᵥ x + (1 / 2 * h) • (A *ᵥ (A *ᵥ x)) +
        (1 / 2 * h * (1 / 2 * h)) • (A *ᵥ (A *ᵥ (A *ᵥ x)))) c) =
      x + h • (A *ᵥ x) + (h * (1 / 2 * h)) • (A *ᵥ (A *ᵥ x)) +
        (h * (1 / 2 * h * (1 / 2 * h))) • (A *ᵥ (A *ᵥ (A *ᵥ x))) := by
    funext c
    simp only [Pi.add_apply, Pi.smul_apply, smul_eq_mul]
    ring
  rw [e4, mulVec_add, mulVec_add, mulVec_add, mulVec_smul, mulVec_smul, mulVec_smul]
  simp only [taylor4, smul_pow, add_mulVec, smul_mulVec, one_mulVec, hp2, hp3, hp4,
    ← mulVec_mulVec, Pi.add_apply, Pi.smul_apply, smul_eq_mul, NumLits.two, NumLits.six]
  field_simp
  ring

theorem rowRun_pow {d : ℕ} (k : Kind) (g : (Fin d → K) → Fin d → K) (h : K)
    (M : Matrix (Fin d) (Fin d) K) (hk : k ≠ .ab2)
    (hM : ∀ x, rowStep k g h none x = M *ᵥ x) (n : ℕ) (x : Fin d → K) :
    rowRun k (List.replicate n (g, h)) none x = (M ^ n) *ᵥ x := by
  induction n generalizing x with
  | zero => simp [rowRun]
  | succ n ih =>
    have hn : nextPrev k g x = none := by cases k <;> simp_all [nextPrev]
    simp only [List.replicate_succ, rowRun, hn]
    rw [ih, hM, mulVec_mulVec, pow_succ]

/-- **C19 (Euler).**  `n` steps of length `h` in the flow `v(x) = A x` multiply every
position by `(1 + hA)^n`. -/
theorem C19_euler_linear (junk : List ℕ → K) {R d : ℕ} {vel : Velocity K}
    (A : Matrix (Fin d) (Fin d) K) (hv : Pointwise R d vel (fun x => A *ᵥ x)) (h : K) (n : ℕ)
    {pos : NDArray K} (hp : pos.shape = [R, d]) :
    ∃ pos', (Integ.steps junk (List.replicate n (vel, h)) (Integ.fresh .euler) pos).2 =
        .ok pos' ∧ pos'.shape = [R, d] ∧
      ∀ r < R, rowOf pos' d r = ((1 + h • A) ^ n) *ᵥ rowOf pos d r := by
  obtain ⟨I', pos', e1, _, _, e4, e5⟩ := steps_rows junk (callsOf_replicate hv h n)
    (Integ.fresh .euler) (Integ.fits_fresh R d .euler) pos hp
  refine ⟨pos', by rw [e1], e4, fun r hr => ?_⟩
  rw [e5 r hr]
  exact rowRun_pow .euler _ h _ (by decide) (fun x => rowStep_euler_linear A h none x) n _

/-- **C19 (RK4).**  `n` steps multiply every position by the `n`-th power of the fourth
order Taylor polynomial of `exp(hA)`. -/
theorem C19_rk4_linear (junk : List ℕ → K) {R d : ℕ} {vel : Velocity K}
    (A : Matrix (Fin d) (Fin d) K) (hv : Pointwise R d vel (fun x => A *ᵥ x)) (h : K) (n : ℕ)
    {pos : NDArray K} (hp : pos.shape = [R, d]) :
    ∃ pos', (Integ.steps junk (List.replicate n (vel, h)) (Integ.fresh .rk4) pos).2 =
        .ok pos' ∧ pos'.shape = [R, d] ∧
      ∀ r < R, rowOf pos' d r = (taylor4 (h • A) ^ n) *ᵥ rowOf pos d r := by
  obtain ⟨I', pos', e1, _, _, e4, e5⟩ := steps_rows junk (callsOf_replicate hv h n)
    (Integ.fresh .rk4) (Integ.fits_fresh R d .rk4) pos hp
  refine ⟨pos', by rw [e1], e4, fun r hr => ?_⟩
  rw [e5 r hr]
  exact rowRun_pow .rk4 _ h _ (by decide) (fun x => rowStep_rk4_linear A h none x) n _

/-- The two-step recurrence of AB2 started with one Euler step. -/
def ab2Seq {d : ℕ} (A : Matrix (Fin d) (Fin d) K) (h : K) (x : Fin d → K) : ℕ → Fin d → K
  | 0 => x
  | 1 => (1 + h • A) *ᵥ x
  | n + 2 => (1 + (3 / 2 * h) • A) *ᵥ ab2Seq A h x (n + 1) - ((1 / 2 * h) • A) *ᵥ ab2Seq A h x n

theorem rowRun_ab2_aux {d : ℕ} (A : Matrix (Fin d) (Fin d) K) (h : K) (x : Fin d → K) (m n : ℕ) :
    rowRun .ab2 (List.replicate n (fun y => A *ᵥ y, h)) (some (A *ᵥ ab2Seq A h x m))
      (ab2Seq A h x (m + 1)) = ab2Seq A h x (m + 1 + n) := by
  induction n generalizing m with
  | zero => rfl
  | succ n ih =>
    simp only [List.replicate_succ, rowRun, nextPrev]
    have : rowStep .ab2 (fun y => A *ᵥ y) h (some (A *ᵥ ab2Seq A h x m)) (ab2Seq A h x (m + 1)) =
        ab2Seq A h x (m + 1 + 1) := by
      funext c
      simp only [rowStep, ab2Seq, add_mulVec, one_mulVec, smul_mulVec, Pi.add_apply, Pi.sub_apply,
        Pi.smul_apply, smul_eq_mul, NumLits.onePointFive, NumLits.half]
      ring
    rw [this, ih (m + 1)]
    congr 1
    omega

theorem rowRun_ab2 {d : ℕ} (A : Matrix (Fin d) (Fin d) K) (h : K) (x : Fin d → K) (n : ℕ) :
    rowRun .ab2 (List.replicate n (fun y => A *ᵥ y, h)) none x = ab2Seq A h x n := by
  cases n with
  | zero => rfl
  | succ n =>
    simp only [List.replicate_succ, rowRun, nextPrev]
    have : rowStep .ab2 (fun y => A *ᵥ y) h none x = ab2Seq A h x 1 := by
      funext c
      simp [rowStep, ab2Seq, add_mulVec, smul_mulVec]
    rw [this]
    have := rowRun_ab2_aux A h x 0 n
    simp only [ab2Seq, Nat.zero_add] at this ⊢
    rw [this, Nat.add_comm]

/-- **C19 (AB2).**  The positions `X n` after `n` steps satisfy
`X 1 = (1 + hA) X 0` and `X (n+2) = (1 + 3/2 hA) X (n+1) - 1/2 hA X n`. -/
theorem C19_ab2_linear (junk : List ℕ → K) {R d : ℕ} {vel : Velocity K}
    (A : Matrix (Fin d) (Fin d) K) (hv : Pointwise R d vel (fun x => A *ᵥ x)) (h : K)
    {pos : NDArray K} (hp : pos.shape = [R, d]) :
    ∃ X : ℕ → NDArray K,
      (∀ n, (Integ.steps junk (List.replicate n (vel, h)) (Integ.fresh .ab2) pos).2 =
        .ok (X n) ∧ (X n).shape = [R, d]) ∧
      ∀ r < R, rowOf (X 0) d r = rowOf pos d r ∧
        rowOf (X 1) d r = (1 + h • A) *ᵥ rowOf pos d r ∧
        ∀ n, rowOf (X (n + 2)) d r =
          (1 + (3 / 2 * h) • A) *ᵥ rowOf (X (n + 1)) d r - ((1 / 2 * h) • A) *ᵥ rowOf (X n) d r := by
  choose I' X e1 _ _ e4 e5 using fun n => steps_rows junk (callsOf_replicate hv h n)
    (Integ.fresh .ab2) (Integ.fits_fresh R d .ab2) pos hp
  have key : ∀ n, ∀ r < R, rowOf (X n) d r = ab2Seq A h (rowOf pos d r) n := fun n r hr => by
    rw [e5 n r hr]; exact rowRun_ab2 A h _ n
  refine ⟨X, fun n => ⟨by rw [e1 n], e4 n⟩, fun r hr => ⟨?_, ?_, fun n => ?_⟩⟩
  · rw [key 0 r hr]; rfl
  · rw [key 1 r hr]; rfl
  · rw [key _ r hr, key _ r hr, key _ r hr]; rfl

/-- C19 is not vacuous: a saddle with shear on the example seeds; and the three
polynomials differ. -/
example : Pointwise 4 2 (sourceOf 2 fun x => !![(1 : ℚ), 1; 0, -1] *ᵥ x)
      (fun x => !![(1 : ℚ), 1; 0, -1] *ᵥ x) ∧ exSeeds.shape = [4, 2] ∧
    (1 + (1 : ℚ) • !![(1 : ℚ), 1; 0, -1]) ≠ taylor4 ((1 : ℚ) • !![(1 : ℚ), 1; 0, -1]) := by
  refine ⟨sourceOf_pointwise 4 2 _, rfl, ?_⟩
  intro he
  have := congrFun (congrFun he 0) 0
  simp [taylor4, pow_succ] at this
  norm_num at this

end C19

/-! ## C20 -/

section C20

variable [Field K] [CharZero K]

/-- Snapshots that are uniform in space: the `j`-th velocity source is `v j` everywhere. -/
def UniformSnapshots (R d : ℕ) (vels : List (Velocity K)) (vs : List (Fin d → K)) : Prop :=
  List.Forall₂ (fun vel v => Pointwise R d vel (fun _ => v)) vels vs

/-- `k2 = f(t + h/2, ·)`, `k4 = f(t + h, ·)` as documented (integrate.py:272-278), for a
velocity `f t` that depends on time only, on the time grid `0, h, 2h, ...`. -/
def documentedRK4 {d : ℕ} (f : K → Fin d → K) (h : K) (x : Fin d → K) : ℕ → Fin d → K
  | 0 => x
  | n + 1 => fun c => documentedRK4 f h x n c +
      h / 6 * (f (n * h) c + 2 * f (n * h + h / 2) c + 2 * f (n * h + h / 2) c +
        f (n * h + h) c)

theorem callsOf_uniform {R d : ℕ} {vels : List (Velocity K)} {vs : List (Fin d → K)}
    (hu : UniformSnapshots R d vels vs) (h : K) :
    CallsOf R d (vels.map fun v => (v, h)) (vs.map fun v => ((fun _ => v), h)) := by
  induction hu with
  | nil => exact List.Forall₂.nil
  | cons hv _ ih => exact List.Forall₂.cons ⟨hv, rfl⟩ ih

theorem rowRun_uniform_sum {d : ℕ} (k : Kind) (hk : k ≠ .ab2) (h : K) (vs : List (Fin d → K))
    (x : Fin d → K) :
    rowRun k (vs.map fun v => ((fun _ => v), h)) none x =
      fun c => x c + h * (vs.map fun v => v c).sum := by
  induction vs generalizing x with
  | nil => funext c; simp [rowRun]
  | cons v vs ih =>
    have hn : nextPrev k (fun _ => v) x = none := by cases k <;> simp_all [nextPrev]
    simp only [List.map_cons, rowRun, hn]
    rw [rowStep_uniform k v h none (by simp), ih]
    funext c
    simp only [List.sum_cons]
    ring

/-- **C20 fails.**  On every sequence of spatially uniform snapshots RK4 gives exactly the
Euler result `x + h * Σ v_j`: all stages use the snapshot of the beginning of the step. -/
theorem C20_intermediate_times_fails (junk : List ℕ → K) {R d : ℕ} {vels : List (Velocity K)}
    {vs : List (Fin d → K)} (hu : UniformSnapshots R d vels vs) (h : K) {pos : NDArray K}
    (hp : pos.shape = [R, d]) :
    ∃ pe pr, (Integ.steps junk (vels.map fun v => (v, h)) (Integ.fresh .euler) pos).2 = .ok pe ∧
      (Integ.steps junk (vels.map fun v => (v, h)) (Integ.fresh .rk4) pos).2 = .ok pr ∧
      ∀ r < R, rowOf pr d r = rowOf pe d r ∧
        rowOf pr d r = fun c => pos.get [r, c.1] + h * (vs.map fun v => v c).sum := by
  obtain ⟨_, pe, e1, _, _, e4, e5⟩ := steps_rows junk (callsOf_uniform hu h)
    (Integ.fresh .euler) (Integ.fits_fresh R d .euler) pos hp
  obtain ⟨_, pr, f1, _, _, f4, f5⟩ := steps_rows junk (callsOf_uniform hu h)
    (Integ.fresh .rk4) (Integ.fits_fresh R d .rk4) pos hp
  refine ⟨pe, pr, by rw [e1], by rw [f1], fun r hr => ?_⟩
  have he := e5 r hr
  have hf := f5 r hr
  rw [Integ.kind_fresh, Integ.prevRow_fresh, rowRun_uniform_sum _ (by decide)] at he hf
  exact ⟨by rw [he, hf], hf⟩

theorem documentedRK4_linear {d : ℕ} (h : K) (x : Fin d → K) (n : ℕ) :
    documentedRK4 (fun t _ => t) h x n = fun c => x c + (n * h) ^ 2 / 2 := by
  induction n with
  | zero => funext c; simp [documentedRK4]
  | succ n ih =>
    funext c
    have h6 : (6 : K) ≠ 0 := by norm_num
    have h2 : (2 : K) ≠ 0 := by norm_num
    simp only [documentedRK4, ih]
    push_cast
    field_simp
    ring

theorem sum_range_map (h : K) (n : ℕ) :
    ((List.range n).map fun j : ℕ => (j : K) * h).sum = h * n * (n - 1) / 2 := by
  induction n with
  | zero => simp
  | succ n ih =>
    rw [List.range_succ, List.map_append, List.sum_append, ih]
    simp
    ring

/-- **C20 fails (quantitatively).**  For the velocity `t` in every component, sampled at
`0, h, ..., (n-1)h`, the code's RK4 ends at `x + h² n(n-1)/2`; the documented scheme
ends at the exact `x + (nh)²/2`; they differ for every `n ≥ 1` and `h ≠ 0`. -/
theorem C20_time_ramp_fails (junk : List ℕ → K) {R d : ℕ} {vel : K → Velocity K}
    (hv : ∀ t, Pointwise R d (vel t) (fun _ _ => t)) (h : K) (hh : h ≠ 0) (n : ℕ) (hn : 0 < n)
    {pos : NDArray K} (hp : pos.shape = [R, d]) :
    ∃ pr, (Integ.steps junk ((List.range n).map fun j : ℕ => (vel (j * h), h))
        (Integ.fresh .rk4) pos).2 = .ok pr ∧
      ∀ r < R, ∀ c : Fin d,
        pr.get [r, c.1] = pos.get [r, c.1] + h ^ 2 * n * (n - 1) / 2 ∧
        documentedRK4 (fun t _ => t) h (rowOf pos d r) n c = pos.get [r, c.1] + (n * h) ^ 2 / 2 ∧
        pr.get [r, c.1] ≠ documentedRK4 (fun t _ => t) h (rowOf pos d r) n c := by
  have hu : UniformSnapshots R d ((List.range n).map fun j : ℕ => vel (j * h))
      ((List.range n).map fun j : ℕ => fun _ : Fin d => (j : K) * h) := by
    unfold UniformSnapshots
    rw [List.forall₂_map_left_iff, List.forall₂_map_right_iff]
    exact List.forall₂_same.2 fun j _ => hv _
  obtain ⟨_, pr, _, e2, e3⟩ := C20_intermediate_times_fails junk hu h hp
  refine ⟨pr, by rw [← e2, List.map_map]; rfl, fun r hr c => ?_⟩
  have h1 : pr.get [r, c.1] = pos.get [r, c.1] + h ^ 2 * n * (n - 1) / 2 := by
    have := congrFun (e3 r hr).2 c
    simp only [List.map_map, Function.comp_def, sum_range_map, rowOf] at this
    rw [this]
    ring
  have h2 : documentedRK4 (fun t _ => t) h (rowOf pos d r) n c =
      pos.get [r, c.1] + (n * h) ^ 2 / 2 := congrFun (documentedRK4_linear h _ n) c
  refine ⟨h1, h2, ?_⟩
  rw [h1, h2]
  intro he
  have hnn : (n : K) ≠ 0 := by exact_mod_cast hn.ne'
  have : h ^ 2 * n = 0 := by linear_combination (-2) * he
  rcases mul_eq_zero.1 this with h0 | h0
  · exact hh (pow_eq_zero_iff (two_ne_zero) |>.1 h0)
  · exact hnn h0

/-- Witness that the hypotheses of both C20 theorems can be met. -/
example : (∀ t : ℚ, Pointwise 4 2 (sourceOf 2 fun _ _ => t) (fun _ _ => t)) ∧
    exSeeds.shape = [4, 2] := ⟨fun _ => sourceOf_pointwise 4 2 _, rfl⟩

/-- **C20 (partial).**  For velocities that do not change in time nothing is missed: the
code's RK4 step is the classical RK4 step of the autonomous field `g`. -/
theorem C20_steady_rk4_partial (junk : List ℕ → K) {R d : ℕ} {vel : Velocity K}
    {g : (Fin d → K) → Fin d → K} (hv : Pointwise R d vel g) (h : K) {pos : NDArray K}
    (hp : pos.shape = [R, d]) :
    ∃ pos', ((Integ.fresh .rk4).step junk vel h pos).2 = .ok pos' ∧ pos'.shape = [R, d] ∧
      ∀ r < R, ∀ x k1 k2 k3 k4 : Fin d → K, x = rowOf pos d r → k1 = g x →
        k2 = g (x + (h / 2) • k1) → k3 = g (x + (h / 2) • k2) → k4 = g (x + h • k3) →
        rowOf pos' d r = x + (h / 6) • (k1 + (2 : K) • k2 + (2 : K) • k3 + k4) := by
  obtain ⟨_, pos', e1, _, _, e4, e5, _⟩ := step_rows junk hv h (Integ.fresh .rk4)
    (Integ.fits_fresh R d .rk4) pos hp
  refine ⟨pos', by rw [e1], e4, ?_⟩
  rintro r hr x k1 k2 k3 k4 rfl rfl rfl rfl rfl
  have hh : (NumLits.half : K) * h = h / 2 := by simp only [NumLits.half]; ring
  rw [e5 r hr]
  simp only [Integ.kind_fresh, rowStep, hh, NumLits.two, NumLits.six]
  rfl

end C20

end Verif
