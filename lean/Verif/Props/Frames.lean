import Verif.Lemmas.Frames
import Verif.Props.Rerun

/-!
# C97: moving observers

An observer who moves relative to the laboratory records the same flow at other positions and with
other velocities.  The deformation of the fluid, hence the FTLE field, is the same.
-/

set_option linter.unusedSectionVars false

namespace Verif

section
variable {K F : Type} [Field K] [LinearOrder K] [IsStrictOrderedRing K] [FloorRing K]

theorem centralDiff2_moved (X x : Fin 4 → Fin 2 → K) (C c : Fin 2 → K) :
    centralDiff2 (fun b i => X b i + C i) (fun b i => x b i + c i) = centralDiff2 X x := by
  simp only [centralDiff2, add_sub_add_right_eq_sub]

theorem centralDiff3_moved (X x : Fin 6 → Fin 3 → K) (C c : Fin 3 → K) :
    centralDiff3 (fun b i => X b i + C i) (fun b i => x b i + c i) = centralDiff3 X x := by
  simp only [centralDiff3, add_sub_add_right_eq_sub]

/-- **C97 (2-D).**  Gridded snapshots recorded by a moving observer give the same result as those
recorded in the laboratory, for Euler's method (any motion) and the Adams-Bashforth method (uniform
motion), as long as the particles are evaluated within the grid of the snapshot. -/
theorem C97_moving_frame_2d {env : Env K F} (hm : ExactTarget env.m) (fs' : MatFS K) (k : Kind)
    {s s' : FileSource K} (hh : s'.timestep = s.timestep)
    (hn : s'.snapshotFiles.length = s.snapshotFiles.length) {c w : ℕ → Fin 2 → K}
    (hc : Moves s.timestep c w) (hk : k = .euler ∨ k = .ab2 ∧ ∀ j, w j = w 0) {nx ny : ℕ} {dx dy : K}
    {o : ℕ → Fin 2 → K} {f : ℕ → Fin 2 → ℕ → ℕ → K} (hd : Snaps2 env.fs s nx ny dx dy o f)
    (hd' : Snaps2 fs' s' nx ny dx dy (fun j i => o j i + c j i) (fun j i a b => f j i a b + w j i))
    {N : ℕ} {seed seed' : NDArray K} (hs : seed.shape = [4 * N, 2]) (hs' : seed'.shape = [4 * N, 2])
    {p p' : Particles K} (hp : mkParticles seed = .ok p) (hp' : mkParticles seed' = .ok p')
    (hP : readSeedParticles env.fs s.particleFile = .ok p)
    (hP' : readSeedParticles fs' s'.particleFile = .ok p')
    (hseed : ∀ i < N, ∀ b q, groupOf seed' 4 N 2 i b q = groupOf seed 4 N 2 i b q + c 0 q)
    (hin : ∀ i < N, ∀ b, ∀ j < s.snapshotFiles.length, Within2 nx ny dx dy o j
      (flowMap k (field2 nx ny dx dy o f) s.timestep j (groupOf seed 4 N 2 i b)))
    (queue : Bool) :
    ((⟨.file s', .highPerf (HighPerf.fresh [nx, ny]), .fresh k⟩ : Solver K).run
        { env with fs := fs' } queue none).result =
      ((⟨.file s, .highPerf (HighPerf.fresh [nx, ny]), .fresh k⟩ : Solver K).run
        env queue none).result := by
  have stage : ∀ (g : (Fin 2 → K) → Fin 2 → K) (h : K) x, stages k g h x = [x] := by
    intro g h x
    rcases hk with rfl | ⟨rfl, -⟩ <;> rfl
  have flow : ∀ i < N, ∀ b, ∀ j ≤ s.snapshotFiles.length,
      flowMap k (field2 nx ny dx dy (fun j i => o j i + c j i) (fun j i a b => f j i a b + w j i))
        s.timestep j (groupOf seed' 4 N 2 i b) = fun q =>
      flowMap k (field2 nx ny dx dy o f) s.timestep j (groupOf seed 4 N 2 i b) q + c j q := by
    intro i hi b j hj
    rw [show groupOf seed' 4 N 2 i b = fun q => groupOf seed 4 N 2 i b q + c 0 q from
      funext fun q => hseed i hi b q]
    exact flow_frame k hc hk j fun j' hj' => field2_moved (hin i hi b j' (by omega)) c w
  have e := run_flow_on_2d env (.file s) (I0 := .highPerf (HighPerf.fresh [nx, ny])) rfl k _ _
    (fun i hi => (snaps_updated_2d hm hd i hi 0).1) N
    (fun i hi => (snaps_updated_2d hm hd i hi (4 * N)).2) rfl seed p queue hs hp hP
    (fun i hi b j hj z hz => by
      rw [stage, List.mem_singleton] at hz
      rw [hz]
      exact hin i hi b j hj)
  have e' := run_flow_on_2d { env with fs := fs' } (.file s')
    (I0 := .highPerf (HighPerf.fresh [nx, ny])) rfl k _ _
    (fun i hi => (snaps_updated_2d (env := { env with fs := fs' }) hm hd' i hi 0).1) N
    (fun i hi => (snaps_updated_2d (env := { env with fs := fs' }) hm hd' i hi (4 * N)).2) rfl seed'
    p' queue hs' hp' hP' (fun i hi b j hj z hz => by
      have hj' : j < s.snapshotFiles.length := hn ▸ hj
      rw [stage, List.mem_singleton] at hz
      rw [hz]
      simp only [Source.timestep, hh]
      rw [flow i hi b j hj'.le]
      exact within2_moved (hin i hi b j hj') c)
  rw [e, e']
  have hc : ∀ i ∈ List.range N, centralDiff2 (fun b => flowMap k
        (field2 nx ny dx dy (fun j i => o j i + c j i) (fun j i a b => f j i a b + w j i))
        s.timestep s.snapshotFiles.length (groupOf seed' 4 N 2 i b)) (groupOf seed' 4 N 2 i) =
      centralDiff2 (fun b => flowMap k (field2 nx ny dx dy o f) s.timestep
        s.snapshotFiles.length (groupOf seed 4 N 2 i b)) (groupOf seed 4 N 2 i) := fun i hi => by
    have hi := List.mem_range.1 hi
    rw [funext fun b => flow i hi b _ le_rfl,
      show groupOf seed' 4 N 2 i = fun b q => groupOf seed 4 N 2 i b q + c 0 q from
        funext fun b => funext fun q => hseed i hi b q]
    exact centralDiff2_moved _ _ _ _
  simp only [Source.timestep, Source.numSteps, runPeriod, hh, hn]
  rw [pyMap_congr hc]

/-- **C97 (3-D).** -/
theorem C97_moving_frame_3d {env : Env K F} (hm : ExactTarget env.m) (fs' : MatFS K) (k : Kind)
    {s s' : FileSource K} (hh : s'.timestep = s.timestep)
    (hn : s'.snapshotFiles.length = s.snapshotFiles.length) {c w : ℕ → Fin 3 → K}
    (hc : Moves s.timestep c w) (hk : k = .euler ∨ k = .ab2 ∧ ∀ j, w j = w 0) {m nz : ℕ}
    {dx dy dz : K} {o : ℕ → Fin 3 → K} {f : ℕ → Fin 3 → ℕ → ℕ → ℕ → K}
    (hd : Snaps3 env.fs s m nz dx dy dz o f)
    (hd' : Snaps3 fs' s' m nz dx dy dz (fun j i => o j i + c j i)
      (fun j i a b e => f j i a b e + w j i))
    {N : ℕ} {seed seed' : NDArray K} (hs : seed.shape = [6 * N, 3]) (hs' : seed'.shape = [6 * N, 3])
    {p p' : Particles K} (hp : mkParticles seed = .ok p) (hp' : mkParticles seed' = .ok p')
    (hP : readSeedParticles env.fs s.particleFile = .ok p)
    (hP' : readSeedParticles fs' s'.particleFile = .ok p')
    (hseed : ∀ i < N, ∀ b q, groupOf seed' 6 N 3 i b q = groupOf seed 6 N 3 i b q + c 0 q)
    (hin : ∀ i < N, ∀ b, ∀ j < s.snapshotFiles.length, Within3 m nz dx dy dz o j
      (flowMap k (field3 m nz dx dy dz o f) s.timestep j (groupOf seed 6 N 3 i b)))
    (queue : Bool) :
    ((⟨.file s', .highPerf (HighPerf.fresh [m, m, nz]), .fresh k⟩ : Solver K).run
        { env with fs := fs' } queue none).result =
      ((⟨.file s, .highPerf (HighPerf.fresh [m, m, nz]), .fresh k⟩ : Solver K).run
        env queue none).result := by
  have stage : ∀ (g : (Fin 3 → K) → Fin 3 → K) (h : K) x, stages k g h x = [x] := by
    intro g h x
    rcases hk with rfl | ⟨rfl, -⟩ <;> rfl
  have flow : ∀ i < N, ∀ b, ∀ j ≤ s.snapshotFiles.length,
      flowMap k (field3 m nz dx dy dz (fun j i => o j i + c j i)
        (fun j i a b e => f j i a b e + w j i)) s.timestep j (groupOf seed' 6 N 3 i b) = fun q =>
      flowMap k (field3 m nz dx dy dz o f) s.timestep j (groupOf seed 6 N 3 i b) q + c j q := by
    intro i hi b j hj
    rw [show groupOf seed' 6 N 3 i b = fun q => groupOf seed 6 N 3 i b q + c 0 q from
      funext fun q => hseed i hi b q]
    exact flow_frame k hc hk j fun j' hj' => field3_moved (hin i hi b j' (by omega)) c w
  have e := run_flow_on_3d env (.file s) (I0 := .highPerf (HighPerf.fresh [m, m, nz])) rfl k _ _
    (fun i hi => (snaps_updated_3d hm hd i hi 0).1) N
    (fun i hi => (snaps_updated_3d hm hd i hi (6 * N)).2) rfl seed p queue hs hp hP
    (fun i hi b j hj z hz => by
      rw [stage, List.mem_singleton] at hz
      rw [hz]
      exact hin i hi b j hj)
  have e' := run_flow_on_3d { env with fs := fs' } (.file s')
    (I0 := .highPerf (HighPerf.fresh [m, m, nz])) rfl k _ _
    (fun i hi => (snaps_updated_3d (env := { env with fs := fs' }) hm hd' i hi 0).1) N
    (fun i hi => (snaps_updated_3d (env := { env with fs := fs' }) hm hd' i hi (6 * N)).2) rfl seed'
    p' queue hs' hp' hP' (fun i hi b j hj z hz => by
      have hj' : j < s.snapshotFiles.length := hn ▸ hj
      rw [stage, List.mem_singleton] at hz
      rw [hz]
      simp only [Source.timestep, hh]
      rw [flow i hi b j hj'.le]
      exact within3_moved (hin i hi b j hj') c)
  rw [e, e']
  have hc : ∀ i ∈ List.range N, centralDiff3 (fun b => flowMap k
        (field3 m nz dx dy dz (fun j i => o j i + c j i) (fun j i a b e => f j i a b e + w j i))
        s.timestep s.snapshotFiles.length (groupOf seed' 6 N 3 i b)) (groupOf seed' 6 N 3 i) =
      centralDiff3 (fun b => flowMap k (field3 m nz dx dy dz o f) s.timestep
        s.snapshotFiles.length (groupOf seed 6 N 3 i b)) (groupOf seed 6 N 3 i) := fun i hi => by
    have hi := List.mem_range.1 hi
    rw [funext fun b => flow i hi b _ le_rfl,
      show groupOf seed' 6 N 3 i = fun b q => groupOf seed 6 N 3 i b q + c 0 q from
        funext fun b => funext fun q => hseed i hi b q]
    exact centralDiff3_moved _ _ _ _
  simp only [Source.timestep, Source.numSteps, runPeriod, hh, hn]
  rw [pyMap_congr hc]

end

/-! ## Where the result depends on the observer, and examples -/

section examples

/-- Two snapshots on 3 × 3 grids with spacing 4 that begin at `(x0 + j w, -4)`, time step 1.  The `x`
velocities in the three columns are `u + w`, the `y` velocities 0; seeds around `(0, 0)`. -/
def exFrame (w x0 : ℚ) (u : List ℚ) : MatFS ℚ := fun path =>
  if path = "c" ∨ path = "d" then some fun key =>
    if key = "coordinate_x" then some (exRow ([0, 4, 8, 0, 4, 8, 0, 4, 8].map fun x =>
      x + x0 + if path = "c" then 0 else w))
    else if key = "coordinate_y" then some (exRow [-4, -4, -4, 0, 0, 0, 4, 4, 4])
    else none
  else if path = "v" ∨ path = "w" then some fun key =>
    if key = "velocity_x" then some (exRow ((u ++ u ++ u).map fun x => x + w))
    else if key = "velocity_y" then some (exRow [0, 0, 0, 0, 0, 0, 0, 0, 0])
    else none
  else if path = "p" then exFiles "p"
  else none

/-- The source. -/
def exFrameSource : FileSource ℚ := ⟨["v", "w"], ["c", "d"], "p", 1, "v", false⟩

/-- Runs of a new solver on these files. -/
def exFrameRun (k : Kind) (w x0 : ℚ) (u : List ℚ) : Option (List ℚ) :=
  ((⟨.file exFrameSource, .highPerf (HighPerf.fresh [3, 3]), .fresh k⟩ : Solver ℚ).run
    { exFileEnv with fs := exFrame w x0 u } false none).result.toOption.join

/-- **C97 is false of the code (Runge-Kutta).**  The velocity is `(|x| / 4, 0)`, the observer moves with
velocity `(1, 0)`.  All particles stay within the grid, but the fourth-order method evaluates its
stages in a snapshot that does not move on during the step: another Jacobian. -/
theorem C97_rk4_fails :
    exFrameRun .rk4 0 (-4) [1, 0, 1] = some [42566273 / 37748736, 1] ∧
    exFrameRun .rk4 1 (-4) [1, 0, 1] = some [17280967 / 12582912, 1] := by
  decide +kernel

/-- **C97 is false of the code (particles outside the grid).**  In a fluid at rest nothing is deformed.
Seen by a moving observer, particles outside the grid have the velocity 0 instead of that of the
fluid, and a group across the boundary is stretched by the factor 2. -/
theorem C97_outside_fails :
    exFrameRun .euler 0 (-1 / 2) [0, 0, 0] = some [1, 1] ∧
    exFrameRun .euler 1 (-1 / 2) [0, 0, 0] = some [2, 1] := by
  decide +kernel

/-- The seed array of the files. -/
def exFrameSeed : NDArray ℚ :=
  match NDArray.concat0 ([⟨[1, 2], fun idx => if idx = [0, 0] then -1 else 0⟩,
    ⟨[1, 2], fun idx => if idx = [0, 0] then 1 else 0⟩,
    ⟨[1, 2], fun idx => if idx = [0, 1] then 1 else 0⟩,
    ⟨[1, 2], fun idx => if idx = [0, 1] then -1 else 0⟩] : List (NDArray ℚ)) with
  | .ok a => a
  | .error _ => exSeeds

/-- The hypotheses of C97 hold for a non-uniform flow; the field is not trivial. -/
example : (∀ k, k = .euler ∨ k = .ab2 →
    exFrameRun k 1 (-4) [1, 0, 1] = exFrameRun k 0 (-4) [1, 0, 1]) ∧
    exFrameRun .ab2 0 (-4) [1, 0, 1] = some [35 / 32, 1] := by
  refine ⟨fun k hk => ?_, by decide +kernel⟩
  unfold exFrameRun
  rw [C97_moving_frame_2d (env := { exFileEnv with fs := exFrame 0 (-4) [1, 0, 1] }) (Or.inl rfl)
    (exFrame 1 (-4) [1, 0, 1]) k (s := exFrameSource) (s' := exFrameSource) rfl rfl
    (c := fun j i => if i = 0 then (j : ℚ) else 0) (w := fun _ i => if i = 0 then 1 else 0)
    (fun j i => by simp only [exFrameSource]; split <;> simp) (hk.imp_right fun h => ⟨h, fun _ => rfl⟩)
    (nx := 3) (ny := 3) (dx := 4) (dy := 4) (o := fun _ _ => -4)
    (f := fun _ i n _ => if i = 0 then [1, 0, 1].getD n 0 else 0) ?_ ?_ (N := 1)
    (seed := exFrameSeed) (seed' := exFrameSeed) (p := exOf exFrameSeed) (p' := exOf exFrameSeed)
    rfl rfl rfl rfl rfl rfl
    (fun _ _ _ _ => by simp) ?_ false]
  · refine ⟨rfl, by norm_num, by norm_num, by decide, by decide, by norm_num, by norm_num, ?_⟩
    intro j hj
    have hj : j < 2 := hj
    interval_cases j
    all_goals
      refine ⟨_, _, ⟨⟨_, rfl, rfl⟩, ⟨_, rfl, rfl⟩⟩, rfl, rfl, ?_, ?_⟩ <;> decide +kernel
  · refine ⟨rfl, by norm_num, by norm_num, by decide, by decide, by norm_num, by norm_num, ?_⟩
    intro j hj
    have hj : j < 2 := hj
    interval_cases j
    all_goals
      refine ⟨_, _, ⟨⟨_, rfl, rfl⟩, ⟨_, rfl, rfl⟩⟩, rfl, rfl, ?_, ?_⟩ <;> decide +kernel
  · unfold Within2
    rcases hk with rfl | rfl <;> decide +kernel

/-- Two snapshots on 2 × 2 × 2 grids with spacing 8 that begin at `(-4 + j w, -4, -4)`; the velocity is
`((x - j w) / 8 + w, 0, 0)`. -/
def exFrame3 (w : ℚ) : MatFS ℚ := fun path =>
  if path = "c" ∨ path = "d" then some fun key =>
    if key = "coordinate_x" then some (exRow ([-4, -4, 4, 4, -4, -4, 4, 4].map fun x =>
      x + if path = "c" then 0 else w))
    else if key = "coordinate_y" then some (exRow [-4, -4, -4, -4, 4, 4, 4, 4])
    else if key = "coordinate_z" then some (exRow [-4, 4, -4, 4, -4, 4, -4, 4])
    else none
  else if path = "v" ∨ path = "w" then some fun key =>
    if key = "velocity_x" then some (exRow ([-4, -4, 4, 4, -4, -4, 4, 4].map fun x => x / 8 + w))
    else if key = "velocity_y" ∨ key = "velocity_z" then some (exRow [0, 0, 0, 0, 0, 0, 0, 0])
    else none
  else if path = "p" then some fun key =>
    if key = "left" then some ⟨[1, 3], fun idx => if idx = [0, 0] then -1 else 0⟩
    else if key = "right" then some ⟨[1, 3], fun idx => if idx = [0, 0] then 1 else 0⟩
    else if key = "top" then some ⟨[1, 3], fun idx => if idx = [0, 1] then 1 else 0⟩
    else if key = "bottom" then some ⟨[1, 3], fun idx => if idx = [0, 1] then -1 else 0⟩
    else if key = "front" then some ⟨[1, 3], fun idx => if idx = [0, 2] then 1 else 0⟩
    else if key = "back" then some ⟨[1, 3], fun idx => if idx = [0, 2] then -1 else 0⟩
    else none
  else none

/-- The seed array of the files. -/
def exFrameSeed3 : NDArray ℚ :=
  match NDArray.concat0 ([⟨[1, 3], fun idx => if idx = [0, 0] then -1 else 0⟩,
    ⟨[1, 3], fun idx => if idx = [0, 0] then 1 else 0⟩,
    ⟨[1, 3], fun idx => if idx = [0, 1] then 1 else 0⟩,
    ⟨[1, 3], fun idx => if idx = [0, 1] then -1 else 0⟩,
    ⟨[1, 3], fun idx => if idx = [0, 2] then 1 else 0⟩,
    ⟨[1, 3], fun idx => if idx = [0, 2] then -1 else 0⟩] : List (NDArray ℚ)) with
  | .ok a => a
  | .error _ => exSeeds

/-- An environment whose 3-D kernel shows an entry of the Jacobian. -/
def exFrameEnv3 (w : ℚ) : Env ℚ ℚ := { exFileEnv with
  fs := exFrame3 w
  ftle3 := fun js T => .ok (js.map (fun J => J 0 0) ++ [T]) }

/-- The hypotheses of C97 hold in three dimensions. -/
example : ∀ k, k = .euler ∨ k = .ab2 →
    let S : Solver ℚ := ⟨.file exFrameSource, .highPerf (HighPerf.fresh [2, 2, 2]), .fresh k⟩
    (S.run (exFrameEnv3 1) false none).result = (S.run (exFrameEnv3 0) false none).result ∧
      (k = .euler → (S.run (exFrameEnv3 0) false none).result.toOption.join = some [81 / 64, 1]) := by
  intro k hk S
  refine ⟨?_, fun h => by subst h; decide +kernel⟩
  refine C97_moving_frame_3d (env := exFrameEnv3 0) (Or.inl rfl)
    (exFrame3 1) k (s := exFrameSource) (s' := exFrameSource) rfl rfl
    (c := fun j i => if i = 0 then (j : ℚ) else 0) (w := fun _ i => if i = 0 then 1 else 0)
    (fun j i => by simp only [exFrameSource]; split <;> simp) (hk.imp_right fun h => ⟨h, fun _ => rfl⟩)
    (m := 2) (nz := 2) (dx := 8) (dy := 8) (dz := 8) (o := fun _ _ => -4)
    (f := fun _ i n _ _ => if i = 0 then n - 1 / 2 else 0) ?_ ?_ (N := 1)
    (seed := exFrameSeed3) (seed' := exFrameSeed3) (p := exOf exFrameSeed3) (p' := exOf exFrameSeed3)
    rfl rfl rfl rfl rfl rfl (fun _ _ _ _ => by simp) ?_ false
  · refine ⟨rfl, by norm_num, by norm_num, by decide, by decide, by decide, by norm_num, by norm_num,
      by norm_num, ?_⟩
    intro j hj
    have hj : j < 2 := hj
    interval_cases j
    all_goals
      refine ⟨_, _, ⟨⟨_, rfl, rfl⟩, ⟨_, rfl, rfl⟩⟩, rfl, rfl, ?_, ?_⟩ <;> decide +kernel
  · refine ⟨rfl, by norm_num, by norm_num, by decide, by decide, by decide, by norm_num, by norm_num,
      by norm_num, ?_⟩
    intro j hj
    have hj : j < 2 := hj
    interval_cases j
    all_goals
      refine ⟨_, _, ⟨⟨_, rfl, rfl⟩, ⟨_, rfl, rfl⟩⟩, rfl, rfl, ?_, ?_⟩ <;> decide +kernel
  · unfold Within3
    rcases hk with rfl | rfl <;> decide +kernel

end examples

end Verif
