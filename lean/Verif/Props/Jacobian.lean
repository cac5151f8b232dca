import Verif.Lemmas.Jacobian
import Mathlib.Algebra.Field.Rat
import Mathlib.Tactic.NormNum
import Mathlib.Tactic.IntervalCases
import Mathlib.Tactic.LinearCombination
import Mathlib.LinearAlgebra.Matrix.NonsingularInverse

/-!
# C06 - C09: the flow-map Jacobian

Exact arithmetic over an arbitrary field with decidable equality.  A particle set is
built from the seed array `seed` by the constructor; `advected` replaces its current
positions (what the integrators do).
-/

namespace Verif

open Matrix

variable {K : Type*} [Field K] [DecidableEq K]

/-- The particle set after advection to `pos`. -/
def advected (p : Particles K) (pos : NDArray K) : Particles K := { p with positions := pos }

/-- Every row of `pos` is the image of the same row of `seed` under `x ↦ A x + b`. -/
def AffineImage {d : ℕ} (A : Matrix (Fin d) (Fin d) K) (b : Fin d → K) (rows : ℕ)
    (seed pos : NDArray K) : Prop :=
  pos.shape = seed.shape ∧
  ∀ r < rows, ∀ c : Fin d, pos.get [r, c.1] = (A *ᵥ fun k => seed.get [r, k.1]) c + b c

/-- Coordinate `c` of neighbour block `blk` (0 left, 1 right, 2 top, 3 bottom, 4 front,
5 back) of group `i` in a stacked array with `N` groups. -/
def pt {K : Type*} (a : NDArray K) (N blk i c : ℕ) : K := a.get [blk * N + i, c]

/-- All four points of group `i` lie on the axes through its centre, and the two arms
have non-zero length. -/
def AxisAligned2 (seed : NDArray K) (N i : ℕ) : Prop :=
  pt seed N 1 i 0 ≠ pt seed N 0 i 0 ∧ pt seed N 1 i 1 = pt seed N 0 i 1 ∧
  pt seed N 2 i 1 ≠ pt seed N 3 i 1 ∧ pt seed N 2 i 0 = pt seed N 3 i 0

/-- 3D version of `AxisAligned2`. -/
def AxisAligned3 (seed : NDArray K) (N i : ℕ) : Prop :=
  (pt seed N 1 i 0 ≠ pt seed N 0 i 0 ∧ pt seed N 1 i 1 = pt seed N 0 i 1 ∧
    pt seed N 1 i 2 = pt seed N 0 i 2) ∧
  (pt seed N 2 i 1 ≠ pt seed N 3 i 1 ∧ pt seed N 2 i 0 = pt seed N 3 i 0 ∧
    pt seed N 2 i 2 = pt seed N 3 i 2) ∧
  (pt seed N 4 i 2 ≠ pt seed N 5 i 2 ∧ pt seed N 4 i 0 = pt seed N 5 i 0 ∧
    pt seed N 4 i 1 = pt seed N 5 i 1)

theorem pt0 {K : Type*} (a : NDArray K) (N i c : ℕ) : pt a N 0 i c = a.get [i, c] := by
  simp [pt]

theorem pt1 {K : Type*} (a : NDArray K) (N i c : ℕ) : pt a N 1 i c = a.get [N + i, c] := by
  simp [pt]

/-- The matrix with which an arbitrary non-degenerate 2D stencil distorts the Jacobian
of an affine map: `S = [[1, tbₓ/tb_y], [rl_y/rlₓ, 1]]`. -/
def stencil2 (seed : NDArray K) (N i : ℕ) : Matrix (Fin 2) (Fin 2) K :=
  !![1, (pt seed N 2 i 0 - pt seed N 3 i 0) / (pt seed N 2 i 1 - pt seed N 3 i 1);
     (pt seed N 1 i 1 - pt seed N 0 i 1) / (pt seed N 1 i 0 - pt seed N 0 i 0), 1]

/-- The 3D analogue of `stencil2`: column `c` is the arm of axis `c` divided by its
`c`-th component. -/
def stencil3 (seed : NDArray K) (N i : ℕ) : Matrix (Fin 3) (Fin 3) K :=
  let rl := fun c => pt seed N 1 i c - pt seed N 0 i c
  let tb := fun c => pt seed N 2 i c - pt seed N 3 i c
  let fb := fun c => pt seed N 4 i c - pt seed N 5 i c
  !![1, tb 0 / tb 1, fb 0 / fb 2;
     rl 1 / rl 0, 1, fb 1 / fb 2;
     rl 2 / rl 0, tb 2 / tb 1, 1]

/-- **C09 (exact value, 2D).**  For an affine map and any stencil with non-zero axis
extents the reported Jacobian of group `i` is `A * S i`, where `S i` depends on the
stencil only. -/
theorem C09_jacobian_value_2d (seed pos : NDArray K) (N : ℕ) (p : Particles K)
    (A : Matrix (Fin 2) (Fin 2) K) (b : Fin 2 → K) (hs : seed.shape = [4 * N, 2])
    (hp : mkParticles seed = .ok p) (haff : AffineImage A b (4 * N) seed pos)
    (hx : ∀ i < N, pt seed N 1 i 0 ≠ pt seed N 0 i 0)
    (hy : ∀ i < N, pt seed N 2 i 1 ≠ pt seed N 3 i 1) :
    jacobian2 (advected p pos) = .ok ((List.range N).map fun i => A * stencil2 seed N i) := by
  obtain ⟨h1, h2⟩ := haff
  unfold advected
  rw [jacobian2_eq hs (h1.trans hs) hp]
  apply pyMap_ok
  intro i hi
  rw [List.mem_range] at hi
  have hxi := hx i hi
  have hyi := hy i hi
  have a0 := fun c => h2 i (by omega) c
  have a1 := fun c => h2 (N + i) (by omega) c
  have a2 := fun c => h2 (2 * N + i) (by omega) c
  have a3 := fun c => h2 (3 * N + i) (by omega) c
  simp only [pt0, pt1] at hxi
  simp only [pt] at hyi
  have e1 : seed.get [N + i, 0] - seed.get [i, 0] ≠ 0 := sub_ne_zero.2 hxi
  have e2 : seed.get [2 * N + i, 1] - seed.get [3 * N + i, 1] ≠ 0 := sub_ne_zero.2 hyi
  have b0 := a0 0; have b1 := a0 1; have c0 := a1 0; have c1 := a1 1
  have d0 := a2 0; have d1 := a2 1; have f0 := a3 0; have f1 := a3 1
  simp only [Fin.isValue, Fin.val_zero, Fin.val_one, Matrix.mulVec, dotProduct, Fin.sum_univ_two]
    at b0 b1 c0 c1 d0 d1 f0 f1
  unfold jac2Val
  simp only [e1, e2, or_self, if_false]
  congr 1
  ext r c
  fin_cases r <;> fin_cases c <;>
    simp [stencil2, Matrix.mul_apply, Fin.sum_univ_two, pt0, pt1, b0, b1, c0, c1, d0, d1, f0, f1,
      -add_sub_add_right_eq_sub]
    <;> (try simp only [pt]) <;> field_simp <;> ring

/-- **C09 (exact value, 3D).** -/
theorem C09_jacobian_value_3d (seed pos : NDArray K) (N : ℕ) (p : Particles K)
    (A : Matrix (Fin 3) (Fin 3) K) (b : Fin 3 → K) (hs : seed.shape = [6 * N, 3])
    (hp : mkParticles seed = .ok p) (haff : AffineImage A b (6 * N) seed pos)
    (hx : ∀ i < N, pt seed N 1 i 0 ≠ pt seed N 0 i 0)
    (hy : ∀ i < N, pt seed N 2 i 1 ≠ pt seed N 3 i 1)
    (hz : ∀ i < N, pt seed N 4 i 2 ≠ pt seed N 5 i 2) :
    jacobian3 (advected p pos) = .ok ((List.range N).map fun i => A * stencil3 seed N i) := by
  obtain ⟨h1, h2⟩ := haff
  unfold advected
  rw [jacobian3_eq hs (h1.trans hs) hp]
  apply pyMap_ok
  intro i hi
  rw [List.mem_range] at hi
  have hxi := hx i hi
  have hyi := hy i hi
  have hzi := hz i hi
  have a0 := fun c => h2 i (by omega) c
  have a1 := fun c => h2 (N + i) (by omega) c
  have a2 := fun c => h2 (2 * N + i) (by omega) c
  have a3 := fun c => h2 (3 * N + i) (by omega) c
  have a4 := fun c => h2 (4 * N + i) (by omega) c
  have a5 := fun c => h2 (5 * N + i) (by omega) c
  simp only [pt0, pt1] at hxi
  simp only [pt] at hyi hzi
  have e1 : seed.get [N + i, 0] - seed.get [i, 0] ≠ 0 := sub_ne_zero.2 hxi
  have e2 : seed.get [2 * N + i, 1] - seed.get [3 * N + i, 1] ≠ 0 := sub_ne_zero.2 hyi
  have e3 : seed.get [4 * N + i, 2] - seed.get [5 * N + i, 2] ≠ 0 := sub_ne_zero.2 hzi
  have b0 := a0 0; have b1 := a0 1; have b2 := a0 2
  have c0 := a1 0; have c1 := a1 1; have c2 := a1 2
  have d0 := a2 0; have d1 := a2 1; have d2 := a2 2
  have f0 := a3 0; have f1 := a3 1; have f2 := a3 2
  have g0 := a4 0; have g1 := a4 1; have g2 := a4 2
  have k0 := a5 0; have k1 := a5 1; have k2 := a5 2
  simp only [Fin.isValue, Fin.val_zero, Fin.val_one, Fin.val_two, Matrix.mulVec, dotProduct,
    Fin.sum_univ_three] at b0 b1 b2 c0 c1 c2 d0 d1 d2 f0 f1 f2 g0 g1 g2 k0 k1 k2
  unfold jac3Val
  simp only [e1, e2, e3, or_self, if_false]
  congr 1
  ext r c
  fin_cases r <;> fin_cases c <;>
    simp [stencil3, Matrix.mul_apply, Fin.sum_univ_three, pt0, pt1, b0, b1, b2, c0, c1, c2,
      d0, d1, d2, f0, f1, f2, g0, g1, g2, k0, k1, k2, -add_sub_add_right_eq_sub]
    <;> (try simp only [pt]) <;> field_simp <;> ring

omit [DecidableEq K] in
theorem stencil2_eq_one_iff (seed : NDArray K) (N i : ℕ)
    (hx : pt seed N 1 i 0 ≠ pt seed N 0 i 0) (hy : pt seed N 2 i 1 ≠ pt seed N 3 i 1) :
    stencil2 seed N i = 1 ↔ AxisAligned2 seed N i := by
  have e1 := sub_ne_zero.2 hx
  have e2 := sub_ne_zero.2 hy
  constructor
  · intro h
    have h01 := congrFun (congrFun h 0) 1
    have h10 := congrFun (congrFun h 1) 0
    simp [stencil2, e1, e2, div_eq_zero_iff, sub_eq_zero] at h01 h10
    exact ⟨hx, h10, hy, h01⟩
  · rintro ⟨-, h1, -, h2⟩
    ext r c
    fin_cases r <;> fin_cases c <;> simp [stencil2, h1, h2]

omit [DecidableEq K] in
theorem stencil3_eq_one_iff (seed : NDArray K) (N i : ℕ)
    (hx : pt seed N 1 i 0 ≠ pt seed N 0 i 0) (hy : pt seed N 2 i 1 ≠ pt seed N 3 i 1)
    (hz : pt seed N 4 i 2 ≠ pt seed N 5 i 2) :
    stencil3 seed N i = 1 ↔ AxisAligned3 seed N i := by
  constructor
  · intro h
    have h01 := congrFun (congrFun h 0) 1
    have h02 := congrFun (congrFun h 0) 2
    have h10 := congrFun (congrFun h 1) 0
    have h12 := congrFun (congrFun h 1) 2
    have h20 := congrFun (congrFun h 2) 0
    have h21 := congrFun (congrFun h 2) 1
    simp [stencil3, div_eq_zero_iff, sub_eq_zero, hx, hy, hz] at h01 h02 h10 h12 h20 h21
    exact ⟨⟨hx, h10, h20⟩, ⟨hy, h01, h21⟩, ⟨hz, h02, h12⟩⟩
  · rintro ⟨⟨-, h1, h1'⟩, ⟨-, h2, h2'⟩, ⟨-, h3, h3'⟩⟩
    ext r c
    fin_cases r <;> fin_cases c <;> simp [stencil3, h1, h1', h2, h2', h3, h3']

theorem map_range_eq_replicate {α : Type*} {f : ℕ → α} {a : α} {N : ℕ} (h : ∀ i < N, f i = a) :
    (List.range N).map f = List.replicate N a := by
  rw [List.eq_replicate_iff]
  refine ⟨by simp, ?_⟩
  intro b hb
  obtain ⟨i, hi, rfl⟩ := List.mem_map.1 hb
  exact h i (List.mem_range.1 hi)

/-- **C06 (2D).**  Affine flow maps are recovered exactly, group by group. -/
theorem C06_affine_exact_2d (seed pos : NDArray K) (N : ℕ) (p : Particles K)
    (A : Matrix (Fin 2) (Fin 2) K) (b : Fin 2 → K) (hs : seed.shape = [4 * N, 2])
    (hp : mkParticles seed = .ok p) (haff : AffineImage A b (4 * N) seed pos)
    (hal : ∀ i < N, AxisAligned2 seed N i) :
    jacobian2 (advected p pos) = .ok (List.replicate N A) := by
  rw [C09_jacobian_value_2d seed pos N p A b hs hp haff (fun i hi => (hal i hi).1)
    (fun i hi => (hal i hi).2.2.1)]
  congr 1
  apply map_range_eq_replicate
  intro i hi
  rw [(stencil2_eq_one_iff seed N i (hal i hi).1 (hal i hi).2.2.1).2 (hal i hi), mul_one]

/-- **C06 (3D).** -/
theorem C06_affine_exact_3d (seed pos : NDArray K) (N : ℕ) (p : Particles K)
    (A : Matrix (Fin 3) (Fin 3) K) (b : Fin 3 → K) (hs : seed.shape = [6 * N, 3])
    (hp : mkParticles seed = .ok p) (haff : AffineImage A b (6 * N) seed pos)
    (hal : ∀ i < N, AxisAligned3 seed N i) :
    jacobian3 (advected p pos) = .ok (List.replicate N A) := by
  rw [C09_jacobian_value_3d seed pos N p A b hs hp haff (fun i hi => (hal i hi).1.1)
    (fun i hi => (hal i hi).2.1.1) (fun i hi => (hal i hi).2.2.1)]
  congr 1
  apply map_range_eq_replicate
  intro i hi
  rw [(stencil3_eq_one_iff seed N i (hal i hi).1.1 (hal i hi).2.1.1 (hal i hi).2.2.1).2
    (hal i hi), mul_one]

/-- **C09 is false of the code (2D).**  For an invertible affine map (the identity flow
included) the reported Jacobian is right in all groups iff every stencil is axis aligned;
so every rotated or sheared stencil gives a wrong Jacobian. -/
theorem C09_orientation_2d_fails (seed pos : NDArray K) (N : ℕ) (p : Particles K)
    (A : Matrix (Fin 2) (Fin 2) K) (b : Fin 2 → K) (hs : seed.shape = [4 * N, 2])
    (hp : mkParticles seed = .ok p) (haff : AffineImage A b (4 * N) seed pos)
    (hx : ∀ i < N, pt seed N 1 i 0 ≠ pt seed N 0 i 0)
    (hy : ∀ i < N, pt seed N 2 i 1 ≠ pt seed N 3 i 1) (hA : IsUnit A) :
    jacobian2 (advected p pos) = .ok (List.replicate N A) ↔ ∀ i < N, AxisAligned2 seed N i := by
  refine ⟨?_, C06_affine_exact_2d seed pos N p A b hs hp haff⟩
  rw [C09_jacobian_value_2d seed pos N p A b hs hp haff hx hy]
  intro h i hi
  rw [← stencil2_eq_one_iff seed N i (hx i hi) (hy i hi)]
  have h' := Except.ok.inj h
  have : A * stencil2 seed N i = A := by
    have hm : A * stencil2 seed N i ∈ (List.range N).map fun i => A * stencil2 seed N i :=
      List.mem_map.2 ⟨i, List.mem_range.2 hi, rfl⟩
    rw [h'] at hm
    exact List.eq_of_mem_replicate hm
  exact hA.mul_left_cancel (by rw [this, mul_one])

/-- **C09 is false of the code (3D).** -/
theorem C09_orientation_3d_fails (seed pos : NDArray K) (N : ℕ) (p : Particles K)
    (A : Matrix (Fin 3) (Fin 3) K) (b : Fin 3 → K) (hs : seed.shape = [6 * N, 3])
    (hp : mkParticles seed = .ok p) (haff : AffineImage A b (6 * N) seed pos)
    (hx : ∀ i < N, pt seed N 1 i 0 ≠ pt seed N 0 i 0)
    (hy : ∀ i < N, pt seed N 2 i 1 ≠ pt seed N 3 i 1)
    (hz : ∀ i < N, pt seed N 4 i 2 ≠ pt seed N 5 i 2) (hA : IsUnit A) :
    jacobian3 (advected p pos) = .ok (List.replicate N A) ↔ ∀ i < N, AxisAligned3 seed N i := by
  refine ⟨?_, C06_affine_exact_3d seed pos N p A b hs hp haff⟩
  rw [C09_jacobian_value_3d seed pos N p A b hs hp haff hx hy hz]
  intro h i hi
  rw [← stencil3_eq_one_iff seed N i (hx i hi) (hy i hi) (hz i hi)]
  have h' := Except.ok.inj h
  have : A * stencil3 seed N i = A := by
    have hm : A * stencil3 seed N i ∈ (List.range N).map fun i => A * stencil3 seed N i :=
      List.mem_map.2 ⟨i, List.mem_range.2 hi, rfl⟩
    rw [h'] at hm
    exact List.eq_of_mem_replicate hm
  exact hA.mul_left_cancel (by rw [this, mul_one])

/-- **C07 (2D).**  Shifting the final positions of every group by a vector `s i` of its
own, and all seed positions of every group by a vector `t i` of its own, leaves the
Jacobian unchanged (also when it raises). -/
theorem C07_shift_invariant_2d (seed pos seed' pos' : NDArray K) (N : ℕ) (p p' : Particles K)
    (s t : ℕ → ℕ → K) (hs : seed.shape = [4 * N, 2]) (hs' : seed'.shape = [4 * N, 2])
    (hq : pos.shape = [4 * N, 2]) (hq' : pos'.shape = [4 * N, 2])
    (hp : mkParticles seed = .ok p) (hp' : mkParticles seed' = .ok p')
    (hpos : ∀ blk < 4, ∀ i < N, ∀ c < 2, pt pos' N blk i c = pt pos N blk i c + s i c)
    (hseed : ∀ blk < 4, ∀ i < N, ∀ c < 2, pt seed' N blk i c = pt seed N blk i c + t i c) :
    jacobian2 (advected p' pos') = jacobian2 (advected p pos) := by
  unfold advected
  rw [jacobian2_eq hs hq hp, jacobian2_eq hs' hq' hp']
  apply pyMap_congr
  intro i hi
  rw [List.mem_range] at hi
  have P := fun blk hb c hc => hpos blk hb i hi c hc
  have S := fun blk hb c hc => hseed blk hb i hi c hc
  unfold jac2Val
  have e0 : ∀ a : NDArray K, ∀ c, a.get [i, c] = pt a N 0 i c := fun _ _ => (pt0 _ _ _ _).symm
  have e1 : ∀ a : NDArray K, ∀ c, a.get [N + i, c] = pt a N 1 i c := fun _ _ => (pt1 _ _ _ _).symm
  have e2 : ∀ a : NDArray K, ∀ c, a.get [2 * N + i, c] = pt a N 2 i c := fun _ _ => rfl
  have e3 : ∀ a : NDArray K, ∀ c, a.get [3 * N + i, c] = pt a N 3 i c := fun _ _ => rfl
  simp only [e0, e1, e2, e3, P 0 (by omega) 0 (by omega), P 0 (by omega) 1 (by omega),
    P 1 (by omega) 0 (by omega), P 1 (by omega) 1 (by omega), P 2 (by omega) 0 (by omega),
    P 2 (by omega) 1 (by omega), P 3 (by omega) 0 (by omega), P 3 (by omega) 1 (by omega),
    S 0 (by omega) 0 (by omega), S 1 (by omega) 0 (by omega),
    S 2 (by omega) 1 (by omega), S 3 (by omega) 1 (by omega), add_sub_add_right_eq_sub]

/-- **C07 (3D).** -/
theorem C07_shift_invariant_3d (seed pos seed' pos' : NDArray K) (N : ℕ) (p p' : Particles K)
    (s t : ℕ → ℕ → K) (hs : seed.shape = [6 * N, 3]) (hs' : seed'.shape = [6 * N, 3])
    (hq : pos.shape = [6 * N, 3]) (hq' : pos'.shape = [6 * N, 3])
    (hp : mkParticles seed = .ok p) (hp' : mkParticles seed' = .ok p')
    (hpos : ∀ blk < 6, ∀ i < N, ∀ c < 3, pt pos' N blk i c = pt pos N blk i c + s i c)
    (hseed : ∀ blk < 6, ∀ i < N, ∀ c < 3, pt seed' N blk i c = pt seed N blk i c + t i c) :
    jacobian3 (advected p' pos') = jacobian3 (advected p pos) := by
  unfold advected
  rw [jacobian3_eq hs hq hp, jacobian3_eq hs' hq' hp']
  apply pyMap_congr
  intro i hi
  rw [List.mem_range] at hi
  have P0 := fun c hc => hpos 0 (by omega) i hi c hc
  have P1 := fun c hc => hpos 1 (by omega) i hi c hc
  have P2 := fun c hc => hpos 2 (by omega) i hi c hc
  have P3 := fun c hc => hpos 3 (by omega) i hi c hc
  have P4 := fun c hc => hpos 4 (by omega) i hi c hc
  have P5 := fun c hc => hpos 5 (by omega) i hi c hc
  unfold jac3Val
  have e0 : ∀ a : NDArray K, ∀ c, a.get [i, c] = pt a N 0 i c := fun _ _ => (pt0 _ _ _ _).symm
  have e1 : ∀ a : NDArray K, ∀ c, a.get [N + i, c] = pt a N 1 i c := fun _ _ => (pt1 _ _ _ _).symm
  have e2 : ∀ a : NDArray K, ∀ c, a.get [2 * N + i, c] = pt a N 2 i c := fun _ _ => rfl
  have e3 : ∀ a : NDArray K, ∀ c, a.get [3 * N + i, c] = pt a N 3 i c := fun _ _ => rfl
  have e4 : ∀ a : NDArray K, ∀ c, a.get [4 * N + i, c] = pt a N 4 i c := fun _ _ => rfl
  have e5 : ∀ a : NDArray K, ∀ c, a.get [5 * N + i, c] = pt a N 5 i c := fun _ _ => rfl
  simp only [e0, e1, e2, e3, e4, e5, P0 0 (by omega), P0 1 (by omega), P0 2 (by omega),
    P1 0 (by omega), P1 1 (by omega), P1 2 (by omega), P2 0 (by omega), P2 1 (by omega),
    P2 2 (by omega), P3 0 (by omega), P3 1 (by omega), P3 2 (by omega), P4 0 (by omega),
    P4 1 (by omega), P4 2 (by omega), P5 0 (by omega), P5 1 (by omega), P5 2 (by omega),
    hseed 0 (by omega) i hi 0 (by omega), hseed 1 (by omega) i hi 0 (by omega),
    hseed 2 (by omega) i hi 1 (by omega), hseed 3 (by omega) i hi 1 (by omega),
    hseed 4 (by omega) i hi 2 (by omega), hseed 5 (by omega) i hi 2 (by omega),
    add_sub_add_right_eq_sub]

/-- A loop over `N` groups whose body raises `e` exactly on the bad groups. -/
theorem loop_outcome {β : Type*} (f : ℕ → Py β) (e : PyErr) (bad : ℕ → Prop) (N : ℕ)
    (hbad : ∀ i, bad i → f i = .error e) (hok : ∀ i, ¬ bad i → ∃ b, f i = .ok b) :
    (pyMap f (List.range N) = .error e ↔ ∃ i < N, bad i) ∧
    ((∀ i < N, ¬ bad i) → ∃ r, pyMap f (List.range N) = .ok r ∧ r.length = N) := by
  have hgood : (∀ i < N, ¬ bad i) → ∃ r, pyMap f (List.range N) = .ok r ∧ r.length = N := by
    intro h
    cases hr : pyMap f (List.range N) with
    | ok r => exact ⟨r, rfl, by rw [pyMap_ok_length hr, List.length_range]⟩
    | error e' =>
      exfalso
      have : ∀ l : List ℕ, (∀ i ∈ l, i < N) → ∃ r, pyMap f l = .ok r := by
        intro l
        induction l with
        | nil => intro _; exact ⟨[], rfl⟩
        | cons i l ih =>
          intro hl
          obtain ⟨b, hb⟩ := hok i (h i (hl i (by simp)))
          obtain ⟨r, hr⟩ := ih (fun j hj => hl j (by simp [hj]))
          exact ⟨b :: r, by simp only [pyMap, hb, hr]⟩
      obtain ⟨r, hr'⟩ := this (List.range N) (fun i hi => List.mem_range.1 hi)
      rw [hr] at hr'; cases hr'
  refine ⟨⟨?_, ?_⟩, hgood⟩
  · intro h
    by_contra hc
    push Not at hc
    obtain ⟨Js, h1, -⟩ := hgood hc
    rw [h1] at h; cases h
  · rintro ⟨i, hi, hdeg⟩
    refine pyMap_error ?_ ⟨i, List.mem_range.2 hi, hbad i hdeg⟩
    intro j _
    by_cases h : bad j
    · exact Or.inl (hbad j h)
    · exact Or.inr (hok j h)

/-- Zero extent of an arm of group `i` along its own axis (2D). -/
def Degenerate2 (seed : NDArray K) (N i : ℕ) : Prop :=
  pt seed N 1 i 0 = pt seed N 0 i 0 ∨ pt seed N 2 i 1 = pt seed N 3 i 1

/-- Zero extent of an arm of group `i` along its own axis (3D). -/
def Degenerate3 (seed : NDArray K) (N i : ℕ) : Prop :=
  pt seed N 1 i 0 = pt seed N 0 i 0 ∨ pt seed N 2 i 1 = pt seed N 3 i 1 ∨
    pt seed N 4 i 2 = pt seed N 5 i 2

/-- **C08 (2D).**  The computation raises `ZeroDivisionError` iff some group has a zero
arm extent, and otherwise returns exactly one matrix per group; no other outcome is
possible (in particular no out-of-bounds read). -/
theorem C08_degenerate_2d (seed pos : NDArray K) (N : ℕ) (p : Particles K)
    (hs : seed.shape = [4 * N, 2]) (hq : pos.shape = [4 * N, 2])
    (hp : mkParticles seed = .ok p) :
    (jacobian2 (advected p pos) = .error .zeroDivisionError ↔ ∃ i < N, Degenerate2 seed N i) ∧
    ((∀ i < N, ¬ Degenerate2 seed N i) →
      ∃ Js, jacobian2 (advected p pos) = .ok Js ∧ Js.length = N) := by
  unfold advected
  rw [jacobian2_eq hs hq hp]
  apply loop_outcome
  · intro i h
    rw [Degenerate2, pt0, pt1] at h
    simp only [jac2Val, sub_eq_zero]
    exact if_pos h
  · intro i h
    rw [Degenerate2, pt0, pt1] at h
    simp only [jac2Val, sub_eq_zero]
    exact ⟨_, if_neg h⟩

/-- **C08 (3D).** -/
theorem C08_degenerate_3d (seed pos : NDArray K) (N : ℕ) (p : Particles K)
    (hs : seed.shape = [6 * N, 3]) (hq : pos.shape = [6 * N, 3])
    (hp : mkParticles seed = .ok p) :
    (jacobian3 (advected p pos) = .error .zeroDivisionError ↔ ∃ i < N, Degenerate3 seed N i) ∧
    ((∀ i < N, ¬ Degenerate3 seed N i) →
      ∃ Js, jacobian3 (advected p pos) = .ok Js ∧ Js.length = N) := by
  unfold advected
  rw [jacobian3_eq hs hq hp]
  apply loop_outcome
  · intro i h
    rw [Degenerate3, pt0, pt1] at h
    simp only [jac3Val, sub_eq_zero]
    exact if_pos h
  · intro i h
    rw [Degenerate3, pt0, pt1] at h
    simp only [jac3Val, sub_eq_zero]
    exact ⟨_, if_neg h⟩

/-! ### Non-vacuity -/

/-- One group: arms `(±1, 0)`, `(0, ±2)` around the origin. -/
def exSeedA : NDArray ℚ := ⟨[4, 2], fun idx =>
  match idx with
  | [0, 0] => -1 | [1, 0] => 1 | [2, 1] => 2 | [3, 1] => -2 | _ => 0⟩

/-- The image of `exSeedA` under `(x, y) ↦ (2x + 3y + 1, y)`. -/
def exPosA : NDArray ℚ := ⟨[4, 2], fun idx =>
  match idx with
  | [0, 0] => -1 | [1, 0] => 3 | [2, 0] => 7 | [2, 1] => 2 | [3, 0] => -5 | [3, 1] => -2 | _ => 0⟩

theorem exAffineA : AffineImage !![(2 : ℚ), 3; 0, 1] ![1, 0] (4 * 1) exSeedA exPosA := by
  refine ⟨rfl, ?_⟩
  intro r hr c
  interval_cases r <;> fin_cases c <;>
    norm_num [exSeedA, exPosA, Matrix.mulVec, dotProduct, Fin.sum_univ_two]

theorem exAlignedA : ∀ i < 1, AxisAligned2 exSeedA 1 i := by
  intro i hi
  interval_cases i
  norm_num [AxisAligned2, pt, exSeedA]

example : ∃ p, mkParticles exSeedA = .ok p ∧
    jacobian2 (advected p exPosA) = .ok [!![(2 : ℚ), 3; 0, 1]] := by
  obtain ⟨p, hp, -⟩ := mkParticles_2d (a := exSeedA) (m := 1) rfl
  exact ⟨p, hp, C06_affine_exact_2d exSeedA exPosA 1 p _ _ rfl hp exAffineA exAlignedA⟩

/-- One group whose right arm is tilted: right - left = `(2, 1)`. -/
def exSeedB : NDArray ℚ := ⟨[4, 2], fun idx =>
  match idx with
  | [0, 0] => -1 | [1, 0] => 1 | [1, 1] => 1 | [2, 1] => 2 | [3, 1] => -2 | _ => 0⟩

/-- Concrete instance of the failure of C09: nothing moves (identity flow), yet the reported
Jacobian of the tilted stencil is not the identity. -/
theorem C09_identity_flow_witness : ∃ p, mkParticles exSeedB = .ok p ∧
    jacobian2 (advected p exSeedB) = .ok [!![(1 : ℚ), 0; 1 / 2, 1]] := by
  obtain ⟨p, hp, -⟩ := mkParticles_2d (a := exSeedB) (m := 1) rfl
  refine ⟨p, hp, ?_⟩
  have haff : AffineImage (1 : Matrix (Fin 2) (Fin 2) ℚ) ![0, 0] (4 * 1) exSeedB exSeedB := by
    refine ⟨rfl, ?_⟩
    intro r hr c
    fin_cases c <;> simp
  rw [C09_jacobian_value_2d exSeedB exSeedB 1 p 1 _ rfl hp haff
    (by intro i hi; interval_cases i; norm_num [pt, exSeedB])
    (by intro i hi; interval_cases i; norm_num [pt, exSeedB])]
  simp only [one_mul, List.range_one, List.map_cons, List.map_nil]
  congr 2
  ext r c
  fin_cases r <;> fin_cases c <;> norm_num [stencil2, pt, exSeedB]

/-- `C08`: the degenerate case occurs (all four points equal) and so does the regular one. -/
example : ∃ p, mkParticles (⟨[4, 2], fun _ => (0 : ℚ)⟩ : NDArray ℚ) = .ok p ∧
    jacobian2 (advected p exPosA) = .error .zeroDivisionError := by
  obtain ⟨p, hp, -⟩ := mkParticles_2d (a := (⟨[4, 2], fun _ => (0 : ℚ)⟩ : NDArray ℚ)) (m := 1) rfl
  exact ⟨p, hp, (C08_degenerate_2d _ _ 1 p rfl rfl hp).1.2 ⟨0, by omega, Or.inl rfl⟩⟩

/-- `C07`: shifting the final positions of `exPosA` by `(10, 20)`. -/
example : ∃ p, mkParticles exSeedA = .ok p ∧
    jacobian2 (advected p (exPosA.map (· + 10))) = .ok [!![(2 : ℚ), 3; 0, 1]] := by
  obtain ⟨p, hp, -⟩ := mkParticles_2d (a := exSeedA) (m := 1) rfl
  refine ⟨p, hp, ?_⟩
  rw [C07_shift_invariant_2d exSeedA exPosA exSeedA _ 1 p p (fun _ _ => 10) (fun _ _ => 0)
    rfl rfl rfl rfl hp hp (fun _ _ _ _ _ _ => rfl) (by intros; simp)]
  exact C06_affine_exact_2d exSeedA exPosA 1 p _ _ rfl hp exAffineA exAlignedA

/-- One 3D group: arms `(±1,0,0)`, `(0,±2,0)`, `(0,0,±3)`. -/
def exSeedC : NDArray ℚ := ⟨[6, 3], fun idx =>
  match idx with
  | [0, 0] => -1 | [1, 0] => 1 | [2, 1] => 2 | [3, 1] => -2 | [4, 2] => 3 | [5, 2] => -3 | _ => 0⟩

example : ∃ p, mkParticles exSeedC = .ok p ∧
    jacobian3 (advected p (exSeedC.map (2 * ·))) = .ok [(2 : ℚ) • (1 : Matrix (Fin 3) (Fin 3) ℚ)] := by
  obtain ⟨p, hp, -⟩ := mkParticles_3d (a := exSeedC) (m := 1) rfl
  refine ⟨p, hp, C06_affine_exact_3d exSeedC _ 1 p _ 0 rfl hp ⟨rfl, ?_⟩ ?_⟩
  · intro r hr c
    rw [Matrix.smul_mulVec, Matrix.one_mulVec]
    simp [NDArray.map]
  · intro i hi
    interval_cases i
    norm_num [AxisAligned3, pt, exSeedC]

end Verif
