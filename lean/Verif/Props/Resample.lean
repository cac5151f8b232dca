import Verif.Lemmas.GridLipschitz
import Verif.Props.GridError

/-!
# C144: data refined by interpolation

Data on a finer grid whose values are those of the multilinear interpolation of given data: the run on
the finer data yields the field of the run on the given data.
-/

namespace Verif

open Matrix

/-! ## One axis -/

/-- In a cell, both ends included, the interpolation is affine. -/
theorem axisValue_cell (f : ℕ → ℝ) {c : ℕ} {p : ℝ} (h0 : (c : ℝ) ≤ p) (h1 : p ≤ c + 1) :
    axisValue f p = lerp (f c) (f (c + 1)) (p - c) := by
  rcases h1.lt_or_eq with h | h
  · have : cellOf p = c := by
      unfold cellOf
      rw [show ⌊p⌋ = (c : ℤ) from Int.floor_eq_iff.2 ⟨by exact_mod_cast h0, by exact_mod_cast h⟩]
      rfl
    simp [axisValue, this]
  · subst h
    have : cellOf ((c : ℝ) + 1) = c + 1 := by
      unfold cellOf
      rw [show ⌊(c : ℝ) + 1⌋ = ((c + 1 : ℕ) : ℤ) by exact_mod_cast Int.floor_natCast (c + 1)]
      rfl
    simp [axisValue, this, lerp]

theorem axisValue_refine (f : ℕ → ℝ) {m : ℕ} (hm : 0 < m) {q : ℝ} (hq : 0 ≤ q) :
    axisValue (fun i => axisValue f (i / m)) (m * q) = axisValue f q := by
  have hm' : (0 : ℝ) < m := by exact_mod_cast hm
  have bounds : ∀ {p : ℝ}, 0 ≤ p → (cellOf p : ℝ) ≤ p ∧ p < cellOf p + 1 := by
    intro p hp
    have hc : ((cellOf p : ℕ) : ℤ) = ⌊p⌋ := by
      unfold cellOf
      exact Int.toNat_of_nonneg (Int.floor_nonneg.2 hp)
    have e : (cellOf p : ℝ) = (⌊p⌋ : ℝ) := by rw [← hc]; rfl
    rw [e]
    exact ⟨Int.floor_le p, Int.lt_floor_add_one p⟩
  obtain ⟨a1, a2⟩ := bounds hq
  obtain ⟨b1, b2⟩ := bounds (mul_nonneg hm'.le hq)
  set c := cellOf q
  set i := cellOf ((m : ℝ) * q) with hi
  have lo : m * c ≤ i := by
    have : ((m * c : ℕ) : ℝ) < ((i + 1 : ℕ) : ℝ) := by
      push_cast
      nlinarith
    have := Nat.cast_lt.1 this
    omega
  have up : i + 1 ≤ m * (c + 1) := by
    have : ((i : ℕ) : ℝ) < ((m * (c + 1) : ℕ) : ℝ) := by
      push_cast
      nlinarith
    have := Nat.cast_lt.1 this
    omega
  have lo' : (m : ℝ) * c ≤ i := by exact_mod_cast lo
  have up' : (i : ℝ) + 1 ≤ m * (c + 1) := by exact_mod_cast up
  have v0 := axisValue_cell f (c := c) (p := (i : ℝ) / m) (by rw [le_div_iff₀ hm']; linarith)
    (by rw [div_le_iff₀ hm']; linarith)
  have v1 := axisValue_cell f (c := c) (p := ((i + 1 : ℕ) : ℝ) / m)
    (by rw [le_div_iff₀ hm']; push_cast; linarith) (by rw [div_le_iff₀ hm']; push_cast; linarith)
  have v2 := axisValue_cell f a1 a2.le
  rw [v2]
  unfold axisValue at v0 v1 ⊢
  rw [← hi]
  simp only [v0, v1]
  unfold lerp
  push_cast
  field_simp
  ring

theorem axisValue_comm (G : ℕ → ℕ → ℝ) (p q : ℝ) :
    axisValue (fun a => axisValue (fun b => G a b) p) q =
      axisValue (fun b => axisValue (fun a => G a b) q) p := by
  simp only [axisValue, lerp]
  ring

theorem onAxis_refine {n m : ℕ} (hn : 2 ≤ n) (hm : 0 < m) {x0 dx x : ℝ} :
    OnAxis (m * (n - 1) + 1) x0 (dx / m) x ↔ OnAxis n x0 dx x := by
  have hm' : (m : ℝ) ≠ 0 := by positivity
  have e : (((m * (n - 1) + 1 : ℕ) : ℝ) - 1) * (dx / m) = ((n : ℝ) - 1) * dx := by
    have : ((n - 1 : ℕ) : ℝ) = (n : ℝ) - 1 := by rw [Nat.cast_sub (by omega)]; norm_num
    push_cast
    rw [this]
    field_simp
    ring
  unfold OnAxis
  rw [e]

theorem fine_coord {m : ℕ} (hm : 0 < m) (x0 dx x : ℝ) : (x - x0) / (dx / m) = m * ((x - x0) / dx) := by
  have hm' : (m : ℝ) ≠ 0 := by positivity
  rw [div_div_eq_mul_div, mul_comm, mul_div_assoc]

theorem fine_node {m : ℕ} (hm : 0 < m) {dx : ℝ} (hdx : 0 < dx) (x0 : ℝ) (a : ℕ) :
    (x0 + a * (dx / m) - x0) / dx = a / m := by
  have hm' : (m : ℝ) ≠ 0 := by positivity
  field_simp
  ring

theorem PointwiseOn.congr {d R : ℕ} {S S' : Set (Fin d → ℝ)} {vel : Velocity ℝ}
    {g g' : (Fin d → ℝ) → Fin d → ℝ} (h : PointwiseOn S R vel g) (hS : ∀ z ∈ S', z ∈ S)
    (hg : ∀ z ∈ S', g z = g' z) : PointwiseOn S' R vel g' := by
  intro pos h1 h2
  obtain ⟨A, a1, a2, a3⟩ := h pos h1 fun r hr => hS _ (h2 r hr)
  exact ⟨A, a1, a2, fun r hr => by rw [a3 r hr, hg _ (h2 r hr)]⟩

theorem sameperiod {env env' : Env ℝ FVal} (he : RealEnv env) (he' : RealEnv env') {src src' : Source ℝ}
    (hn : src'.numSteps = src.numSteps) (hh : src'.timestep = src.timestep) :
    runPeriod env' src' = runPeriod env src := by
  unfold runPeriod
  rw [he.abs, he'.abs, hn, hh]

/-! ## Two dimensions -/

/-- Linear interpolation between the nodes `(x0 + a dx, y0 + b dy)`, first in `x`, then in `y`. -/
noncomputable def between2 (v : ℝ → (Fin 2 → ℝ) → Fin 2 → ℝ) (x0 dx y0 dy t : ℝ) (z : Fin 2 → ℝ) :
    Fin 2 → ℝ := fun c =>
  axisValue (fun b => axisValue (fun a => v t ![x0 + a * dx, y0 + b * dy] c) ((z 0 - x0) / dx))
    ((z 1 - y0) / dy)

theorem bilinear_refine {v : ℝ → (Fin 2 → ℝ) → Fin 2 → ℝ} {t : ℝ} {nx ny m m' : ℕ}
    {x0 dx y0 dy : ℝ} (hnx : 2 ≤ nx) (hny : 2 ≤ ny) (hdx : 0 < dx) (hdy : 0 < dy) (hm : 0 < m)
    (hm' : 0 < m') {z : Fin 2 → ℝ} (hz : OnAxis nx x0 dx (z 0) ∧ OnAxis ny y0 dy (z 1)) :
    bilinear (between2 v x0 dx y0 dy) t (m * (nx - 1) + 1) (m' * (ny - 1) + 1) x0 (dx / m) y0 (dy / m') z =
      bilinear v t nx ny x0 dx y0 dy z := by
  have p : (0 : ℝ) < dx / m := by positivity
  have p' : (0 : ℝ) < dy / m' := by positivity
  have X0 : 0 ≤ (z 0 - x0) / dx := (hz.1.inCells hdx).1
  have Y0 : 0 ≤ (z 1 - y0) / dy := (hz.2.inCells hdy).1
  funext c
  unfold bilinear
  rw [cellValue2_lines (((onAxis_refine hnx hm).2 hz.1).inCells p)
      (((onAxis_refine hny hm').2 hz.2).inCells p'),
    cellValue2_lines (hz.1.inCells hdx) (hz.2.inCells hdy), fine_coord hm, fine_coord hm']
  simp only [between2, cons_val_zero, cons_val_one, fine_node hm hdx, fine_node hm' hdy]
  simp only [axisValue_comm _ _ ((m : ℝ) * ((z 0 - x0) / dx)), axisValue_refine _ hm X0,
    axisValue_refine _ hm' Y0]

/-- **C144 (2-D).**  The second set of files lists, on a grid `m` times finer in `x` and `m'` times finer
in `y`, the values of the first set interpolated between its nodes: the same field. -/
theorem C144_resampled_2d {env env' : Env ℝ FVal} (he : RealEnv env) (he' : RealEnv env')
    (hm : ExactTarget env.m) (hm' : ExactTarget env'.m) (queue queue' : Bool) (k : Kind)
    {v : ℝ → (Fin 2 → ℝ) → Fin 2 → ℝ} {t0 : ℝ} {s s' : FileSource ℝ} {nx ny r r' : ℕ}
    {x0 dx y0 dy : ℝ} (hr : 0 < r) (hr' : 0 < r') (hd : Samples2 env.fs s v t0 nx ny x0 dx y0 dy)
    (hd' : Samples2 env'.fs s' (between2 v x0 dx y0 dy) t0 (r * (nx - 1) + 1) (r' * (ny - 1) + 1) x0
      (dx / r) y0 (dy / r')) (hn : s'.snapshotFiles.length = s.snapshotFiles.length)
    (hh : s'.timestep = s.timestep)
    {N : ℕ} {seed : NDArray ℝ} {P : Particles ℝ} (hs : seed.shape = [4 * N, 2])
    (hp : mkParticles seed = .ok P) (hP : readSeedParticles env.fs s.particleFile = .ok P)
    (hP' : readSeedParticles env'.fs s'.particleFile = .ok P)
    (hin : ∀ i < N, ∀ q, ∀ j < s.snapshotFiles.length, ∀ z ∈ stages k
      (bilinear v (t0 + j * s.timestep) nx ny x0 dx y0 dy) s.timestep
      (flowMap k (fun j => bilinear v (t0 + (j : ℕ) * s.timestep) nx ny x0 dx y0 dy) s.timestep j
        (groupOf seed 4 N 2 i q)), OnAxis nx x0 dx (z 0) ∧ OnAxis ny y0 dy (z 1)) :
    ((⟨.file s', .highPerf (HighPerf.fresh [r * (nx - 1) + 1, r' * (ny - 1) + 1]), .fresh k⟩ :
        Solver ℝ).run env' queue' none).result =
      ((⟨.file s, .highPerf (HighPerf.fresh [nx, ny]), .fresh k⟩ : Solver ℝ).run env queue
        none).result := by
  rw [run_flow_on_2d env (.file s) (by exact (rfl : (HighPerf.fresh (K := ℝ) [nx, ny]).uLen = none)) k
      (fun j => bilinear v (t0 + (j : ℕ) * s.timestep) nx ny x0 dx y0 dy)
      (fun _ => {z | OnAxis nx x0 dx (z 0) ∧ OnAxis ny y0 dy (z 1)})
      (fun i hi => (samples_updated_2d hm hd i hi 0).1) N
      (fun i hi => (samples_updated_2d hm hd i hi (4 * N)).2) rfl seed P queue hs hp hP hin,
    run_flow_on_2d env' (.file s') (by exact (rfl : (HighPerf.fresh (K := ℝ)
        [r * (nx - 1) + 1, r' * (ny - 1) + 1]).uLen = none)) k
      (fun j => bilinear v (t0 + (j : ℕ) * s.timestep) nx ny x0 dx y0 dy)
      (fun _ => {z | OnAxis nx x0 dx (z 0) ∧ OnAxis ny y0 dy (z 1)})
      (fun i hi => (samples_updated_2d hm' hd' i hi 0).1) N
      (fun i hi => (samples_updated_2d hm' hd' i hi (4 * N)).2.congr
        (fun z hz => ⟨(onAxis_refine hd.hnx hr).2 hz.1, (onAxis_refine hd.hny hr').2 hz.2⟩)
        fun z hz => by rw [hh]; exact bilinear_refine hd.hnx hd.hny hd.hdx hd.hdy hr hr' hz)
      rfl seed P queue' hs hp hP' (fun i hi q j hj => by
        have e1 : (Source.file s').timestep = s.timestep := hh
        have e2 : j < s.snapshotFiles.length := hn ▸ hj
        rw [e1]
        exact hin i hi q j e2),
    sameperiod he he' (show (Source.file s').numSteps = (Source.file s).numSteps from hn) hh, he.f2, he'.f2]
  have e1 : (Source.file s').timestep = (Source.file s).timestep := hh
  have e2 : (Source.file s').numSteps = (Source.file s).numSteps := hn
  rw [e1, e2]

/-! ## Three dimensions -/

/-- Linear interpolation between the nodes, first in `x`, then in `y`, then in `z`. -/
noncomputable def between3 (v : ℝ → (Fin 3 → ℝ) → Fin 3 → ℝ) (x0 dx y0 dy z0 dz t : ℝ)
    (z : Fin 3 → ℝ) : Fin 3 → ℝ := fun c =>
  axisValue (fun e => axisValue (fun b => axisValue
    (fun a => v t ![x0 + a * dx, y0 + b * dy, z0 + e * dz] c) ((z 0 - x0) / dx)) ((z 1 - y0) / dy))
    ((z 2 - z0) / dz)

theorem axisValue_refine3 (F : ℕ → ℕ → ℕ → ℝ) {r r' : ℕ} (hr : 0 < r) (hr' : 0 < r') {X Y Z : ℝ}
    (hX : 0 ≤ X) (hY : 0 ≤ Y) (hZ : 0 ≤ Z) :
    axisValue (fun e => axisValue (fun b => axisValue (fun a =>
      axisValue (fun e' => axisValue (fun b' => axisValue (fun a' => F a' b' e') (a / r)) (b / r))
        (e / r')) (r * X)) (r * Y)) (r' * Z) =
      axisValue (fun e => axisValue (fun b => axisValue (fun a => F a b e) X) Y) Z := by
  have step1 : ∀ p q : ℝ, axisValue (fun a : ℕ => axisValue (fun e' => axisValue (fun b' =>
      axisValue (fun a' => F a' b' e') (a / r)) p) q) (r * X) =
      axisValue (fun e' => axisValue (fun b' => axisValue (fun a' => F a' b' e') X) p) q := by
    intro p q
    rw [axisValue_comm]
    congr 1
    funext e'
    rw [axisValue_comm]
    congr 1
    funext b'
    exact axisValue_refine _ hr hX
  simp only [step1]
  have step2 : ∀ q : ℝ, axisValue (fun b : ℕ => axisValue (fun e' => axisValue (fun b' =>
      axisValue (fun a' => F a' b' e') X) (b / r)) q) (r * Y) =
      axisValue (fun e' => axisValue (fun b' => axisValue (fun a' => F a' b' e') X) Y) q := by
    intro q
    rw [axisValue_comm]
    congr 1
    funext e'
    exact axisValue_refine _ hr hY
  simp only [step2]
  exact axisValue_refine _ hr' hZ

theorem trilinear_refine {v : ℝ → (Fin 3 → ℝ) → Fin 3 → ℝ} {t : ℝ} {m nz r r' : ℕ}
    {x0 dx y0 dy z0 dz : ℝ} (hm : 2 ≤ m) (hnz : 2 ≤ nz) (hdx : 0 < dx) (hdy : 0 < dy) (hdz : 0 < dz)
    (hr : 0 < r) (hr' : 0 < r') {z : Fin 3 → ℝ}
    (hz : OnAxis m x0 dx (z 0) ∧ OnAxis m y0 dy (z 1) ∧ OnAxis nz z0 dz (z 2)) :
    trilinear (between3 v x0 dx y0 dy z0 dz) t (r * (m - 1) + 1) (r' * (nz - 1) + 1) x0 (dx / r) y0
      (dy / r) z0 (dz / r') z = trilinear v t m nz x0 dx y0 dy z0 dz z := by
  have p : (0 : ℝ) < dx / r := by positivity
  have p' : (0 : ℝ) < dy / r := by positivity
  have p'' : (0 : ℝ) < dz / r' := by positivity
  have X0 : 0 ≤ (z 0 - x0) / dx := (hz.1.inCells hdx).1
  have Y0 : 0 ≤ (z 1 - y0) / dy := (hz.2.1.inCells hdy).1
  have Z0 : 0 ≤ (z 2 - z0) / dz := (hz.2.2.inCells hdz).1
  have n2 : ∀ a b e : ℝ, (![a, b, e] : Fin 3 → ℝ) 2 = e := fun _ _ _ => rfl
  funext c
  unfold trilinear
  rw [cellValue3_lines (((onAxis_refine hm hr).2 hz.1).inCells p)
      (((onAxis_refine hm hr).2 hz.2.1).inCells p') (((onAxis_refine hnz hr').2 hz.2.2).inCells p''),
    cellValue3_lines (hz.1.inCells hdx) (hz.2.1.inCells hdy) (hz.2.2.inCells hdz), fine_coord hr,
    fine_coord hr, fine_coord hr']
  simp only [between3, cons_val_zero, cons_val_one, n2, fine_node hr hdx, fine_node hr hdy,
    fine_node hr' hdz]
  exact axisValue_refine3 (fun a b e => v t ![x0 + a * dx, y0 + b * dy, z0 + e * dz] c) hr hr' X0 Y0 Z0

/-- **C144 (3-D).**  Grids with as many nodes in `x` as in `y` (C30), so with one factor for both. -/
theorem C144_resampled_3d {env env' : Env ℝ FVal} (he : RealEnv env) (he' : RealEnv env')
    (hm : ExactTarget env.m) (hm' : ExactTarget env'.m) (queue queue' : Bool) (k : Kind)
    {v : ℝ → (Fin 3 → ℝ) → Fin 3 → ℝ} {t0 : ℝ} {s s' : FileSource ℝ} {m nz r r' : ℕ}
    {x0 dx y0 dy z0 dz : ℝ} (hr : 0 < r) (hr' : 0 < r')
    (hd : Samples3 env.fs s v t0 m nz x0 dx y0 dy z0 dz)
    (hd' : Samples3 env'.fs s' (between3 v x0 dx y0 dy z0 dz) t0 (r * (m - 1) + 1) (r' * (nz - 1) + 1)
      x0 (dx / r) y0 (dy / r) z0 (dz / r')) (hn : s'.snapshotFiles.length = s.snapshotFiles.length)
    (hh : s'.timestep = s.timestep)
    {N : ℕ} {seed : NDArray ℝ} {P : Particles ℝ} (hs : seed.shape = [6 * N, 3])
    (hp : mkParticles seed = .ok P) (hP : readSeedParticles env.fs s.particleFile = .ok P)
    (hP' : readSeedParticles env'.fs s'.particleFile = .ok P)
    (hin : ∀ i < N, ∀ q, ∀ j < s.snapshotFiles.length, ∀ z ∈ stages k
      (trilinear v (t0 + j * s.timestep) m nz x0 dx y0 dy z0 dz) s.timestep
      (flowMap k (fun j => trilinear v (t0 + (j : ℕ) * s.timestep) m nz x0 dx y0 dy z0 dz) s.timestep j
        (groupOf seed 6 N 3 i q)), OnAxis m x0 dx (z 0) ∧ OnAxis m y0 dy (z 1) ∧ OnAxis nz z0 dz (z 2)) :
    ((⟨.file s', .highPerf (HighPerf.fresh [r * (m - 1) + 1, r * (m - 1) + 1, r' * (nz - 1) + 1]),
        .fresh k⟩ : Solver ℝ).run env' queue' none).result =
      ((⟨.file s, .highPerf (HighPerf.fresh [m, m, nz]), .fresh k⟩ : Solver ℝ).run env queue
        none).result := by
  rw [run_flow_on_3d env (.file s) (by exact (rfl : (HighPerf.fresh (K := ℝ) [m, m, nz]).uLen = none)) k
      (fun j => trilinear v (t0 + (j : ℕ) * s.timestep) m nz x0 dx y0 dy z0 dz)
      (fun _ => {z | OnAxis m x0 dx (z 0) ∧ OnAxis m y0 dy (z 1) ∧ OnAxis nz z0 dz (z 2)})
      (fun i hi => (samples_updated_3d hm hd i hi 0).1) N
      (fun i hi => (samples_updated_3d hm hd i hi (6 * N)).2) rfl seed P queue hs hp hP hin,
    run_flow_on_3d env' (.file s') (by exact (rfl : (HighPerf.fresh (K := ℝ)
        [r * (m - 1) + 1, r * (m - 1) + 1, r' * (nz - 1) + 1]).uLen = none)) k
      (fun j => trilinear v (t0 + (j : ℕ) * s.timestep) m nz x0 dx y0 dy z0 dz)
      (fun _ => {z | OnAxis m x0 dx (z 0) ∧ OnAxis m y0 dy (z 1) ∧ OnAxis nz z0 dz (z 2)})
      (fun i hi => (samples_updated_3d hm' hd' i hi 0).1) N
      (fun i hi => (samples_updated_3d hm' hd' i hi (6 * N)).2.congr
        (fun z hz => ⟨(onAxis_refine hd.hm hr).2 hz.1, (onAxis_refine hd.hm hr).2 hz.2.1,
          (onAxis_refine hd.hnz hr').2 hz.2.2⟩)
        fun z hz => by rw [hh]; exact trilinear_refine hd.hm hd.hnz hd.hdx hd.hdy hd.hdz hr hr' hz)
      rfl seed P queue' hs hp hP' (fun i hi q j hj => by
        have e1 : (Source.file s').timestep = s.timestep := hh
        have e2 : j < s.snapshotFiles.length := hn ▸ hj
        rw [e1]
        exact hin i hi q j e2),
    sameperiod he he' (show (Source.file s').numSteps = (Source.file s).numSteps from hn) hh, he.f3, he'.f3]
  have e1 : (Source.file s').timestep = (Source.file s).timestep := hh
  have e2 : (Source.file s').numSteps = (Source.file s).numSteps := hn
  rw [e1, e2]

end Verif
