import Verif.Lemmas.Interpolate
import Verif.Model.Factories
import Mathlib.Tactic.NormNum
import Mathlib.Data.Rat.Floor

/-!
# Interpolator classes: C28, C29, C30, C31, C32, C33, C34
-/

set_option linter.unusedSectionVars false

namespace Verif

/-! ## C28: layout of the fast 2-D interpolator -/

section exact
variable {K : Type} [Field K] [LinearOrder K] [IsStrictOrderedRing K] [FloorRing K]

/-- The data describe a uniform `nx × ny` grid with origin `(x0, y0)` and spacings `dx, dy`,
in whatever order the points are listed. -/
structure Grid2 (nx ny : ℕ) (x0 dx y0 dy : K) (v p : NDArray K) : Prop where
  hnx : 2 ≤ nx
  hny : 2 ≤ ny
  lnx : (nx : ℤ) < intLim
  lny : (ny : ℤ) < intLim
  hdx : 0 < dx
  hdy : 0 < dy
  hp : p.shape = [2, nx * ny]
  hv : v.shape = [2, nx * ny]
  hx : AxisValues p (nx * ny) 0 nx x0 dx
  hy : AxisValues p (nx * ny) 1 ny y0 dy

/-- The same for a uniform `nx × ny × nz` grid. -/
structure Grid3 (nx ny nz : ℕ) (x0 dx y0 dy z0 dz : K) (v p : NDArray K) : Prop where
  hnx : 2 ≤ nx
  hny : 2 ≤ ny
  hnz : 2 ≤ nz
  lnx : (nx : ℤ) < intLim
  lny : (ny : ℤ) < intLim
  lnz : (nz : ℤ) < intLim
  lxz : (nx : ℤ) * nz < intLim
  hdx : 0 < dx
  hdy : 0 < dy
  hdz : 0 < dz
  hp : p.shape = [3, nx * ny * nz]
  hv : v.shape = [3, nx * ny * nz]
  hx : AxisValues p (nx * ny * nz) 0 nx x0 dx
  hy : AxisValues p (nx * ny * nz) 1 ny y0 dy
  hz : AxisValues p (nx * ny * nz) 2 nz z0 dz

/-- Successful `update(velocities, coordinates)` of the fast interpolator, 2-D. -/
theorem highPerf_update_2d {nx ny : ℕ} {x0 dx y0 dy : K} {v p : NDArray K}
    (g : Grid2 nx ny x0 dx y0 dy v p) {s : HighPerf K} (hs : s.gridShape = [nx, ny]) :
    ∃ s' x y, s.update v (some p) = (s', none) ∧ s'.gridShape = [nx, ny] ∧ s'.ix = some x ∧
      s'.iy = some y ∧ s'.iz = none ∧ s'.uLen = s.uLen ∧ s'.wLen = s.wLen ∧
      Field2 x nx ny x0 dx y0 dy (fun i j => v.get [0, i + nx * j]) ∧
      Field2 y nx ny x0 dx y0 dy (fun i j => v.get [1, i + nx * j]) := by
  obtain ⟨x, y, hb, fx, fy⟩ := build_2d g.hnx g.hny g.hdx g.hdy g.hp g.hv g.hx g.hy
  unfold HighPerf.update HighPerf.initialize
  simp only [hs, hb]
  exact ⟨_, x, y, rfl, rfl, rfl, rfl, rfl, rfl, rfl, fx, fy⟩

/-- Successful `update(velocities, coordinates)`, 3-D. -/
theorem highPerf_update_3d {nx ny nz : ℕ} {x0 dx y0 dy z0 dz : K} {v p : NDArray K}
    (g : Grid3 nx ny nz x0 dx y0 dy z0 dz v p) {s : HighPerf K} (hs : s.gridShape = [nx, ny, nz]) :
    ∃ s' x y z, s.update v (some p) = (s', none) ∧ s'.gridShape = [nx, ny, nz] ∧ s'.ix = some x ∧
      s'.iy = some y ∧ s'.iz = some z ∧ s'.uLen = s.uLen ∧ s'.wLen = s.wLen ∧
      Field3 x ny nx nz x0 dx y0 dy z0 dz (fun i j k => v.get [0, (j * ny + i) * nz + k]) ∧
      Field3 y ny nx nz x0 dx y0 dy z0 dz (fun i j k => v.get [1, (j * ny + i) * nz + k]) ∧
      Field3 z ny nx nz x0 dx y0 dy z0 dz (fun i j k => v.get [2, (j * ny + i) * nz + k]) := by
  obtain ⟨x, y, z, hb, fx, fy, fz⟩ := build_3d g.hnx g.hny g.hnz g.hdx g.hdy g.hdz g.hp g.hv
    g.hx g.hy g.hz
  unfold HighPerf.update HighPerf.initialize
  simp only [hs, hb]
  exact ⟨_, x, y, z, rfl, rfl, rfl, rfl, rfl, rfl, rfl, fx, fy, fz⟩

/-- Node coordinates are integers in index space. -/
theorem node_index {x0 dx : K} (hdx : 0 < dx) (i : ℕ) : (x0 + i * dx - x0) / dx = i := by
  field_simp
  ring

theorem cellOf_nat (i : ℕ) : cellOf (i : K) = i := by
  simp [cellOf]

theorem inCells_nat {n i : ℕ} : InCells n (i : K) ↔ i + 1 < n := by
  unfold InCells
  constructor
  · rintro ⟨-, h⟩; exact_mod_cast h
  · intro h; exact ⟨Nat.cast_nonneg i, by exact_mod_cast h⟩

theorem cellValue2_node {nx ny i j : ℕ} (hi : i + 1 < nx) (hj : j + 1 < ny) (f : ℕ → ℕ → K) :
    cellValue2 nx ny f (i : K) (j : K) = f i j := by
  unfold cellValue2
  rw [if_pos ⟨inCells_nat.2 hi, inCells_nat.2 hj⟩]
  simp only [cellOf_nat, lerp]
  ring

theorem cellValue3_node {nx ny nz i j k : ℕ} (hi : i + 1 < nx) (hj : j + 1 < ny) (hk : k + 1 < nz)
    (f : ℕ → ℕ → ℕ → K) : cellValue3 nx ny nz f (i : K) (j : K) (k : K) = f i j k := by
  unfold cellValue3
  rw [if_pos ⟨inCells_nat.2 hi, inCells_nat.2 hj, inCells_nat.2 hk⟩]
  simp only [cellOf_nat, lerp]
  ring

/-- All queries of the array have index coordinates whose floor is a 32-bit integer other than
the largest one. -/
def SafeQueries2 (q : NDArray K) (n : ℕ) (x0 dx y0 dy : K) : Prop :=
  ∀ r < n, SafeCoord ((q.get [r, 0] - x0) / dx) ∧ SafeCoord ((q.get [r, 1] - y0) / dy)

/-- The same in 3-D. -/
def SafeQueries3 (q : NDArray K) (n : ℕ) (x0 dx y0 dy z0 dz : K) : Prop :=
  ∀ r < n, SafeCoord ((q.get [r, 0] - x0) / dx) ∧ SafeCoord ((q.get [r, 1] - y0) / dy) ∧
    SafeCoord ((q.get [r, 2] - z0) / dz)

/-- **C28.**  Starting from any state of the object, `update(velocities, coordinates)` succeeds
and a following `interpolate` returns, for every query row located at a node `(i, j)` off the
last grid lines, the two velocity components stored at flat index `i + nx * j`. -/
theorem C28_x_fastest {m : CMachine K} (hm : ExactTarget m) (junk : List ℕ → K)
    {nx ny : ℕ} {x0 dx y0 dy : K} {v p : NDArray K} (g : Grid2 nx ny x0 dx y0 dy v p)
    (s : HighPerf K) (hs : s.gridShape = [nx, ny]) (q : NDArray K) (n : ℕ) (hq : q.shape = [n, 2])
    (hsafe : SafeQueries2 q n x0 dx y0 dy) :
    ∃ s' out, s.update v (some p) = (s', none) ∧ (s'.interpolate m junk q).2 = .ok out ∧
      out.shape = [n, 2] ∧
      ∀ r < n, ∀ i j : ℕ, i + 1 < nx → j + 1 < ny →
        q.get [r, 0] = x0 + i * dx → q.get [r, 1] = y0 + j * dy →
        ∀ c < 2, out.get [r, c] = v.get [c, i + nx * j] := by
  obtain ⟨s', x, y, hu, -, hx, hy, -, -, -, fx, fy⟩ := highPerf_update_2d g hs
  obtain ⟨out, ho, hsh, hval⟩ := highPerf_interpolate_2d hm junk
    (f := fun c i j => v.get [c, i + nx * j]) hx hy fx fy g.hdx.ne' g.hdy.ne' g.lnx g.lny hq hsafe
  refine ⟨s', out, hu, ho, hsh, fun r hr i j hi hj e0 e1 c hc => ?_⟩
  rw [hval r hr c hc, e0, e1, node_index g.hdx, node_index g.hdy, cellValue2_node hi hj]

/-- **C28, corollary for x-fastest coordinate files**: the query at the position of data point
number `i + nx * j` returns the velocity of that data point. -/
theorem C28_data_points {m : CMachine K} (hm : ExactTarget m) (junk : List ℕ → K)
    {nx ny : ℕ} {x0 dx y0 dy : K} {v p : NDArray K} (g : Grid2 nx ny x0 dx y0 dy v p)
    (hxf : ∀ i < nx, ∀ j < ny, p.get [0, i + nx * j] = x0 + i * dx ∧
      p.get [1, i + nx * j] = y0 + j * dy)
    (s : HighPerf K) (hs : s.gridShape = [nx, ny]) (q : NDArray K) (n : ℕ) (hq : q.shape = [n, 2])
    (hsafe : SafeQueries2 q n x0 dx y0 dy) :
    ∃ s' out, s.update v (some p) = (s', none) ∧ (s'.interpolate m junk q).2 = .ok out ∧
      ∀ r < n, ∀ i j : ℕ, i + 1 < nx → j + 1 < ny →
        q.get [r, 0] = p.get [0, i + nx * j] → q.get [r, 1] = p.get [1, i + nx * j] →
        ∀ c < 2, out.get [r, c] = v.get [c, i + nx * j] := by
  obtain ⟨s', out, h1, h2, -, h4⟩ := C28_x_fastest hm junk g s hs q n hq hsafe
  refine ⟨s', out, h1, h2, fun r hr i j hi hj e0 e1 c hc => ?_⟩
  obtain ⟨a, b⟩ := hxf i (by omega) j (by omega)
  exact h4 r hr i j hi hj (by rw [e0, a]) (by rw [e1, b]) c hc

/-! ## C29: velocity-only updates -/

/-- **C29 fails for every 2-D grid.**  After a successful initialisation, `update(velocities)`
returns without an exception and the next `interpolate` (on any number of 2-D queries) raises
`RuntimeError`, whatever the new velocities are. -/
theorem C29_velocity_only_2d_fails (m : CMachine K) (junk : List ℕ → K)
    {nx ny : ℕ} {x0 dx y0 dy : K} {v p : NDArray K} (g : Grid2 nx ny x0 dx y0 dy v p)
    (s : HighPerf K) (hs : s.gridShape = [nx, ny]) (v' : NDArray K) (N : ℕ)
    (hv' : v'.shape = [2, N]) (q : NDArray K) (n : ℕ) (hq : q.shape = [n, 2]) :
    ∃ s1 s2, s.update v (some p) = (s1, none) ∧ s1.update v' none = (s2, none) ∧
      (s2.interpolate m junk q).2 = .error .runtimeError := by
  obtain ⟨s1, x, y, hu, -, hx, hy, hz, -, -, fx, fy⟩ := highPerf_update_2d g hs
  refine ⟨s1, 
    { s1 with
      velocities := some v'
      ix := some { x with v := v'.row 0 }
      iy := some { y with v := v'.row 1 } }, hu, ?_, ?_⟩
  · unfold HighPerf.update
    simp [hx, hy, hz, rowColon, hv']
  · have hb : ∀ t : HighPerf K, (t.ensureBuffers n 2).uLen = some n ∧
        (t.ensureBuffers n 2).ix = t.ix ∧ (t.ensureBuffers n 2).iy = t.iy := by
      intro t
      unfold HighPerf.ensureBuffers
      split
      · exact ⟨by assumption, rfl, rfl⟩
      · simp
    unfold HighPerf.interpolate
    rw [hq]
    simp only [if_true, (hb _).1, (hb _).2.1, (hb _).2.2]
    unfold Interp.call
    simp only [fx.axes, List.length_cons, List.length_nil]
    rw [if_neg (by omega)]
    simp only [interp2dVec, NDArray.row, hv', List.tail_cons]

/-- **C29 fails for every 3-D grid.** -/
theorem C29_velocity_only_3d_fails (m : CMachine K) (junk : List ℕ → K)
    {nx ny nz : ℕ} {x0 dx y0 dy z0 dz : K} {v p : NDArray K}
    (g : Grid3 nx ny nz x0 dx y0 dy z0 dz v p)
    (s : HighPerf K) (hs : s.gridShape = [nx, ny, nz]) (v' : NDArray K) (N : ℕ)
    (hv' : v'.shape = [3, N]) (q : NDArray K) (n : ℕ) (hq : q.shape = [n, 3]) :
    ∃ s1 s2, s.update v (some p) = (s1, none) ∧ s1.update v' none = (s2, none) ∧
      (s2.interpolate m junk q).2 = .error .runtimeError := by
  obtain ⟨s1, x, y, z, hu, -, hx, hy, hz, -, -, fx, fy, fz⟩ := highPerf_update_3d g hs
  refine ⟨s1, 
    { s1 with
      velocities := some v'
      ix := some { x with v := v'.row 0 }
      iy := some { y with v := v'.row 1 }
      iz := some { z with v := v'.row 2 } }, hu, ?_, ?_⟩
  · unfold HighPerf.update
    simp [hx, hy, hz, rowColon, hv']
  · have hb : ∀ t : HighPerf K, (t.ensureBuffers n 3).uLen = some n ∧
        (t.ensureBuffers n 3).ix = t.ix ∧ (t.ensureBuffers n 3).iy = t.iy ∧
        (t.ensureBuffers n 3).iz = t.iz := by
      intro t
      unfold HighPerf.ensureBuffers
      split
      · exact ⟨by assumption, rfl, rfl, rfl⟩
      · simp
    unfold HighPerf.interpolate
    rw [hq]
    simp only [(by decide : ¬ (3 : ℕ) = 2), if_false, if_true, (hb _).1, (hb _).2.1, (hb _).2.2.1,
      (hb _).2.2.2]
    unfold Interp.call
    simp only [fx.axes, List.length_cons, List.length_nil]
    rw [if_neg (by omega)]
    simp only [interp3dVec, NDArray.row, hv', List.tail_cons]

/-! ## C30: axes of the fast 3-D interpolator -/

/-- Exact behaviour of the fast 3-D interpolator at nodes: a query at node `(i, j, k)` returns
the data at flat index `(j * ny + i) * nz + k` if `i + 1 < ny`, `j + 1 < nx`, `k + 1 < nz` —
the roles of `nx` and `ny` are exchanged in the bounds. -/
theorem C30_node_value {m : CMachine K} (hm : ExactTarget m) (junk : List ℕ → K)
    {nx ny nz : ℕ} {x0 dx y0 dy z0 dz : K} {v p : NDArray K}
    (g : Grid3 nx ny nz x0 dx y0 dy z0 dz v p)
    (s : HighPerf K) (hs : s.gridShape = [nx, ny, nz]) (q : NDArray K) (n : ℕ)
    (hq : q.shape = [n, 3]) (hb : s.BufOk n) (hsafe : SafeQueries3 q n x0 dx y0 dy z0 dz) :
    ∃ s' out, s.update v (some p) = (s', none) ∧ (s'.interpolate m junk q).2 = .ok out ∧
      out.shape = [n, 3] ∧
      ∀ r < n, ∀ i j k : ℕ,
        q.get [r, 0] = x0 + i * dx → q.get [r, 1] = y0 + j * dy → q.get [r, 2] = z0 + k * dz →
        ∀ c < 3, out.get [r, c] =
          if i + 1 < ny ∧ j + 1 < nx ∧ k + 1 < nz then v.get [c, (j * ny + i) * nz + k] else 0 := by
  obtain ⟨s', x, y, z, hu, -, hx, hy, hz, hul, hwl, fx, fy, fz⟩ := highPerf_update_3d g hs
  have hb' : s'.BufOk n := by
    unfold HighPerf.BufOk at hb ⊢; rw [hul, hwl]; exact hb
  obtain ⟨out, ho, hsh, hval⟩ := highPerf_interpolate_3d hm junk
    (f := fun c i j k => v.get [c, (j * ny + i) * nz + k]) hx hy hz fx fy fz g.hdx.ne' g.hdy.ne'
    g.hdz.ne' g.lny g.lnx g.lnz g.lxz hq hb' hsafe
  refine ⟨s', out, hu, ho, hsh, fun r hr i j k e0 e1 e2 c hc => ?_⟩
  rw [hval r hr c hc, e0, e1, e2, node_index g.hdx, node_index g.hdy, node_index g.hdz]
  split
  · rename_i h
    exact cellValue3_node h.1 h.2.1 h.2.2 _
  · rename_i h
    unfold cellValue3
    rw [if_neg]
    rintro ⟨a, b, c⟩
    exact h ⟨inCells_nat.1 a, inCells_nat.1 b, inCells_nat.1 c⟩

/-- **C30 fails whenever `nx ≠ ny`.**  There is an interior node at which the interpolator
returns the zero vector for all velocity data, so no flattening order makes the statement
true. -/
theorem C30_axes_swapped_fails {m : CMachine K} (hm : ExactTarget m) (junk : List ℕ → K)
    {nx ny nz : ℕ} {x0 dx y0 dy z0 dz : K} {v p : NDArray K}
    (g : Grid3 nx ny nz x0 dx y0 dy z0 dz v p) (hne : nx ≠ ny)
    (s : HighPerf K) (hs : s.gridShape = [nx, ny, nz]) (q : NDArray K) (n : ℕ)
    (hq : q.shape = [n, 3]) (hb : s.BufOk n) (hsafe : SafeQueries3 q n x0 dx y0 dy z0 dz) :
    ∃ i j k : ℕ, i + 1 < nx ∧ j + 1 < ny ∧ k + 1 < nz ∧
      ∃ s' out, s.update v (some p) = (s', none) ∧ (s'.interpolate m junk q).2 = .ok out ∧
        ∀ r < n, q.get [r, 0] = x0 + i * dx → q.get [r, 1] = y0 + j * dy →
          q.get [r, 2] = z0 + k * dz → ∀ c < 3, out.get [r, c] = 0 := by
  obtain ⟨s', out, h1, h2, -, h4⟩ := C30_node_value hm junk g s hs q n hq hb hsafe
  have hnx := g.hnx
  have hny := g.hny
  have hnz := g.hnz
  rcases Nat.lt_or_gt_of_ne hne with hlt | hlt
  · refine ⟨0, nx - 1, 0, by omega, by omega, by omega, s', out, h1, h2, ?_⟩
    intro r hr e0 e1 e2 c hc
    rw [h4 r hr 0 (nx - 1) 0 e0 e1 e2 c hc, if_neg (by omega)]
  · refine ⟨ny - 1, 0, 0, by omega, by omega, by omega, s', out, h1, h2, ?_⟩
    intro r hr e0 e1 e2 c hc
    rw [h4 r hr (ny - 1) 0 0 e0 e1 e2 c hc, if_neg (by omega)]

/-- **C30 for `nx = ny`** (`_partial`: only such grids).  With the data listed in the order of
`numpy.meshgrid`'s default indexing flattened in C order — flat index
`(j * nx + i) * nz + k` for node `(i, j, k)` — every interior node returns its own velocity. -/
theorem C30_equal_sides_partial {m : CMachine K} (hm : ExactTarget m) (junk : List ℕ → K)
    {nx nz : ℕ} {x0 dx y0 dy z0 dz : K} {v p : NDArray K}
    (g : Grid3 nx nx nz x0 dx y0 dy z0 dz v p)
    (hord : ∀ i < nx, ∀ j < nx, ∀ k < nz,
      p.get [0, (j * nx + i) * nz + k] = x0 + i * dx ∧
      p.get [1, (j * nx + i) * nz + k] = y0 + j * dy ∧
      p.get [2, (j * nx + i) * nz + k] = z0 + k * dz)
    (s : HighPerf K) (hs : s.gridShape = [nx, nx, nz]) (q : NDArray K) (n : ℕ)
    (hq : q.shape = [n, 3]) (hb : s.BufOk n) (hsafe : SafeQueries3 q n x0 dx y0 dy z0 dz) :
    ∃ s' out, s.update v (some p) = (s', none) ∧ (s'.interpolate m junk q).2 = .ok out ∧
      ∀ r < n, ∀ i j k : ℕ, i + 1 < nx → j + 1 < nx → k + 1 < nz →
        q.get [r, 0] = p.get [0, (j * nx + i) * nz + k] →
        q.get [r, 1] = p.get [1, (j * nx + i) * nz + k] →
        q.get [r, 2] = p.get [2, (j * nx + i) * nz + k] →
        ∀ c < 3, out.get [r, c] = v.get [c, (j * nx + i) * nz + k] := by
  obtain ⟨s', out, h1, h2, -, h4⟩ := C30_node_value hm junk g s hs q n hq hb hsafe
  refine ⟨s', out, h1, h2, fun r hr i j k hi hj hk e0 e1 e2 c hc => ?_⟩
  obtain ⟨a, b, d⟩ := hord i (by omega) j (by omega) k (by omega)
  rw [h4 r hr i j k (by rw [e0, a]) (by rw [e1, b]) (by rw [e2, d]) c hc, if_pos ⟨hi, hj, hk⟩]

end exact

/-! ## C31: layout of the SciPy grid interpolator -/

section grid
variable {K : Type} [Min K] [Max K]

/-- Node values held by component `c` of a structured interpolator. -/
def GridState.nodeValues (s : GridState K) (c : ℕ) : Option (NDArray K) :=
  match c with
  | 0 => s.ix.map Prod.snd
  | 1 => s.iy.map Prod.snd
  | _ => s.iz.map Prod.snd

/-- The interpolator is initialised for a grid of the given dimension (2 or 3). -/
structure GridState.Ready (s : GridState K) (nd : ℕ) : Prop where
  ndim : s.ndim = some nd
  ix : s.ix.isSome
  iy : s.iy.isSome
  iz : nd = 3 → s.iz.isSome

theorem gridObject_ok {sp : SciPy K} {me : GridMethod} {axes : List (K × K × ℕ)} {v : NDArray K}
    {c : ℕ} {sh : List ℕ} {o : List (K × K × ℕ) × NDArray K} {d N : ℕ} (hv : v.shape = [d, N])
    (h : gridObject sp me axes v c sh = .ok o) :
    c < d ∧ N = sh.prod ∧ o.2.shape = sh ∧
      ∀ idx, o.2.get idx = v.get (c :: decC [N] (encC sh idx)) := by
  have hr : rowAt v c = if c < d then .ok (v.row c) else .error .indexError := by
    unfold rowAt; rw [hv]
  unfold gridObject at h
  rw [hr] at h
  by_cases hlt : c < d
  · rw [if_pos hlt] at h
    simp only [NDArray.reshapeC] at h
    split at h
    · cases h
    · rename_i w hw
      split at hw
      · rename_i hprod
        cases hw
        split at h
        · cases h
        · cases h
          simp only [NDArray.row, hv, List.tail_cons, List.prod_cons, List.prod_nil,
            mul_one] at hprod
          refine ⟨hlt, hprod, rfl, fun idx => ?_⟩
          simp only [NDArray.row, hv, List.tail_cons]
      · cases hw
  · rw [if_neg hlt] at h
    cases h

/-- `update(velocities, coordinates)` re-initialises. -/
theorem grid_update_some (sp : SciPy K) (s : GridState K) (v p : NDArray K) :
    s.update sp v (some p) =
      GridState.initialize sp { s with velocities := some v, points := some p } := by
  unfold GridState.update
  cases s.ix <;> rfl

/-- Values after a successful `update(velocities, coordinates)`: C order in 2-D and 3-D. -/
theorem grid_init_values_2d {sp : SciPy K} {s s' : GridState K} {v p : NDArray K} {nx ny N : ℕ}
    (hgs : s.gridShape = [nx, ny]) (hp : p.shape = [2, nx * ny]) (hv : v.shape = [2, N])
    (h : s.update sp v (some p) = (s', none)) :
    N = nx * ny ∧ s'.Ready 2 ∧ s'.gridShape = [nx, ny] ∧ ∀ c < 2, ∃ A, s'.nodeValues c = some A ∧ A.shape = [nx, ny] ∧
      ∀ i < nx, ∀ j < ny, A.get [i, j] = v.get [c, i * ny + j] := by
  rw [grid_update_some] at h
  unfold GridState.initialize at h
  have hpr : [nx, ny].prod = nx * ny := by simp
  simp only [hp, hgs, hpr, ne_eq, not_true_eq_false, if_false, false_and] at h
  split at h
  · simp at h
  · split at h
    · simp at h
    · split at h
      · simp at h
      · rename_i ox hox
        split at h
        · simp at h
        · rename_i oy hoy
          obtain ⟨-, hN, hsx, hgx⟩ := gridObject_ok hv hox
          obtain ⟨-, -, hsy, hgy⟩ := gridObject_ok hv hoy
          simp only [List.prod_cons, List.prod_nil, mul_one] at hN
          simp only [Prod.mk.injEq, and_true] at h
          subst h
          have hdec : ∀ i j, i < nx → j < ny → decC [N] (encC [nx, ny] [i, j]) = [i * ny + j] := by
            intro i j hi hj
            simp [decC, encC]
          refine ⟨hN, ⟨rfl, rfl, rfl, by simp⟩, by simp, fun c hc => ?_⟩
          interval_cases c
          · refine ⟨ox.2, rfl, hsx, fun i hi j hj => ?_⟩
            rw [hgx, hdec i j hi hj]
          · refine ⟨oy.2, rfl, hsy, fun i hi j hj => ?_⟩
            rw [hgy, hdec i j hi hj]

theorem grid_init_values_3d {sp : SciPy K} {s s' : GridState K} {v p : NDArray K} {nx ny nz N : ℕ}
    (hgs : s.gridShape = [nx, ny, nz]) (hp : p.shape = [3, nx * ny * nz]) (hv : v.shape = [3, N])
    (h : s.update sp v (some p) = (s', none)) :
    N = nx * ny * nz ∧ s'.Ready 3 ∧ s'.gridShape = [nx, ny, nz] ∧
      ∀ c < 3, ∃ A, s'.nodeValues c = some A ∧ A.shape = [nx, ny, nz] ∧
      ∀ i < nx, ∀ j < ny, ∀ k < nz, A.get [i, j, k] = v.get [c, (i * ny + j) * nz + k] := by
  rw [grid_update_some] at h
  unfold GridState.initialize at h
  have hpr : [nx, ny, nz].prod = nx * ny * nz := by simp; ring
  simp only [hp, hgs, hpr, ne_eq, not_true_eq_false, if_false, and_false] at h
  split at h
  · simp at h
  · split at h
    · simp at h
    · split at h
      · simp at h
      · split at h
        · simp at h
        · rename_i ox hox
          split at h
          · simp at h
          · rename_i oy hoy
            split at h
            · simp at h
            · rename_i oz hoz
              obtain ⟨-, hN, hsx, hgx⟩ := gridObject_ok hv hox
              obtain ⟨-, -, hsy, hgy⟩ := gridObject_ok hv hoy
              obtain ⟨-, -, hsz, hgz⟩ := gridObject_ok hv hoz
              rw [hpr] at hN
              simp only [Prod.mk.injEq, and_true] at h
              subst h
              have hdec : ∀ i j k, decC [N] (encC [nx, ny, nz] [i, j, k])
                  = [(i * ny + j) * nz + k] := by
                intro i j k
                simp [decC, encC]; ring
              refine ⟨hN, ⟨rfl, rfl, rfl, fun _ => rfl⟩, by simp, fun c hc => ?_⟩
              interval_cases c
              · refine ⟨ox.2, rfl, hsx, fun i _ j _ k _ => ?_⟩
                rw [hgx, hdec]
              · refine ⟨oy.2, rfl, hsy, fun i _ j _ k _ => ?_⟩
                rw [hgy, hdec]
              · refine ⟨oz.2, rfl, hsz, fun i _ j _ k _ => ?_⟩
                rw [hgz, hdec]

/-- Values after `update(velocities)` without coordinates, 2-D: Fortran order. -/
theorem grid_reuse_values_2d {sp : SciPy K} {s : GridState K} {v : NDArray K} {nx ny : ℕ}
    (hgs : s.gridShape = [nx, ny]) (hr : s.Ready 2) (hv : v.shape = [2, nx * ny]) :
    ∃ s', s.update sp v none = (s', none) ∧ ∀ c < 2, ∃ A, s'.nodeValues c = some A ∧
      A.shape = [nx, ny] ∧ ∀ i < nx, ∀ j < ny, A.get [i, j] = v.get [c, i + nx * j] := by
  obtain ⟨ox, hx⟩ := Option.isSome_iff_exists.1 hr.ix
  obtain ⟨oy, hy⟩ := Option.isSome_iff_exists.1 hr.iy
  have hw : v.reshapeF [2, nx, ny] = .ok ⟨[2, nx, ny], fun idx =>
      v.get (decF v.shape (encF [2, nx, ny] idx))⟩ := by
    unfold NDArray.reshapeF
    rw [if_pos (by rw [hv]; simp)]
  unfold GridState.update
  simp only [hx, hy, hr.ndim, hgs, hw, setValues]
  refine ⟨_, rfl, fun c hc => ?_⟩
  interval_cases c
  · exact ⟨_, rfl, rfl, fun i hi j hj => reshapeF_2d hv (by omega) hi hj⟩
  · exact ⟨_, rfl, rfl, fun i hi j hj => reshapeF_2d hv (by omega) hi hj⟩

/-- Values after `update(velocities)` without coordinates, 3-D: C order. -/
theorem grid_reuse_values_3d {sp : SciPy K} {s : GridState K} {v : NDArray K} {nx ny nz : ℕ}
    (hgs : s.gridShape = [nx, ny, nz]) (hr : s.Ready 3) (hv : v.shape = [3, nx * ny * nz]) :
    ∃ s', s.update sp v none = (s', none) ∧ ∀ c < 3, ∃ A, s'.nodeValues c = some A ∧
      A.shape = [nx, ny, nz] ∧
      ∀ i < nx, ∀ j < ny, ∀ k < nz, A.get [i, j, k] = v.get [c, (i * ny + j) * nz + k] := by
  obtain ⟨ox, hx⟩ := Option.isSome_iff_exists.1 hr.ix
  obtain ⟨oy, hy⟩ := Option.isSome_iff_exists.1 hr.iy
  obtain ⟨oz, hz⟩ := Option.isSome_iff_exists.1 (hr.iz rfl)
  have hw : v.reshapeC [3, nx, ny, nz] = .ok ⟨[3, nx, ny, nz], fun idx =>
      v.get (decC v.shape (encC [3, nx, ny, nz] idx))⟩ := by
    unfold NDArray.reshapeC
    rw [if_pos (by rw [hv]; simp; ring)]
  unfold GridState.update
  simp only [hx, hy, hz, hr.ndim, hgs, hw, setValues, rowAt]
  norm_num
  intro c hc
  interval_cases c
  · exact ⟨_, rfl, rfl, fun i hi j hj k hk => reshapeC_3d hv (by omega) hi hj hk⟩
  · exact ⟨_, rfl, rfl, fun i hi j hj k hk => reshapeC_3d hv (by omega) hi hj hk⟩
  · exact ⟨_, rfl, rfl, fun i hi j hj k hk => reshapeC_3d hv (by omega) hi hj hk⟩

/-- **C31, 3-D** (`_partial`: three-dimensional grids only).  From any initialised state, a
velocity-only update always succeeds and, if the update with coordinates succeeds as well, both
leave the same node values. -/
theorem C31_layout_3d_partial {sp : SciPy K} {s s2 : GridState K} {v p : NDArray K} {nx ny nz : ℕ}
    (hgs : s.gridShape = [nx, ny, nz]) (hr : s.Ready 3) (hp : p.shape = [3, nx * ny * nz])
    (hv : v.shape = [3, nx * ny * nz]) (h2 : s.update sp v (some p) = (s2, none)) :
    ∃ s1, s.update sp v none = (s1, none) ∧ ∀ c < 3, ∃ A B, s1.nodeValues c = some A ∧
      s2.nodeValues c = some B ∧
      ∀ i < nx, ∀ j < ny, ∀ k < nz, A.get [i, j, k] = B.get [i, j, k] := by
  obtain ⟨s1, h1, hA⟩ := grid_reuse_values_3d (sp := sp) hgs hr hv
  obtain ⟨-, -, -, hB⟩ := grid_init_values_3d hgs hp hv h2
  refine ⟨s1, h1, fun c hc => ?_⟩
  obtain ⟨A, a1, -, a3⟩ := hA c hc
  obtain ⟨B, b1, -, b3⟩ := hB c hc
  exact ⟨A, B, a1, b1, fun i hi j hj k hk => by rw [a3 i hi j hj k hk, b3 i hi j hj k hk]⟩

/-- **C31 fails in 2-D**, exact form: the update with coordinates uses flat index `i * ny + j`
for node `(i, j)`, the velocity-only update uses `i + nx * j`. -/
theorem C31_layout_2d_fails {sp : SciPy K} {s s2 : GridState K} {v p : NDArray K} {nx ny : ℕ}
    (hgs : s.gridShape = [nx, ny]) (hr : s.Ready 2) (hp : p.shape = [2, nx * ny])
    (hv : v.shape = [2, nx * ny]) (h2 : s.update sp v (some p) = (s2, none)) :
    ∃ s1, s.update sp v none = (s1, none) ∧ ∀ c < 2, ∃ A B, s1.nodeValues c = some A ∧
      s2.nodeValues c = some B ∧
      ∀ i < nx, ∀ j < ny, A.get [i, j] = v.get [c, i + nx * j] ∧
        B.get [i, j] = v.get [c, i * ny + j] := by
  obtain ⟨s1, h1, hA⟩ := grid_reuse_values_2d (sp := sp) hgs hr hv
  obtain ⟨-, -, -, hB⟩ := grid_init_values_2d hgs hp hv h2
  refine ⟨s1, h1, fun c hc => ?_⟩
  obtain ⟨A, a1, -, a3⟩ := hA c hc
  obtain ⟨B, b1, -, b3⟩ := hB c hc
  exact ⟨A, B, a1, b1, fun i hi j hj => ⟨a3 i hi j hj, b3 i hi j hj⟩⟩

/-- **C31 fails for every 2-D grid with `nx, ny ≥ 2`**: with the data `v[c, k] = k` the two
updates leave different values at node `(1, 0)`, namely 1 and `ny`. -/
theorem C31_layout_2d_differs_fails {sp : SciPy ℚ} {s s2 : GridState ℚ} {p : NDArray ℚ} {nx ny : ℕ}
    (hnx : 2 ≤ nx) (hny : 2 ≤ ny)
    (hgs : s.gridShape = [nx, ny]) (hr : s.Ready 2) (hp : p.shape = [2, nx * ny])
    (h2 : s.update sp ⟨[2, nx * ny], fun idx => (idx.getD 1 0 : ℕ)⟩ (some p) = (s2, none)) :
    ∃ s1, s.update sp ⟨[2, nx * ny], fun idx => (idx.getD 1 0 : ℕ)⟩ none = (s1, none) ∧
      ∀ c < 2, ∃ A B, s1.nodeValues c = some A ∧ s2.nodeValues c = some B ∧
        A.get [1, 0] = 1 ∧ B.get [1, 0] = ny ∧ A.get [1, 0] ≠ B.get [1, 0] := by
  obtain ⟨s1, h1, hAB⟩ := C31_layout_2d_fails hgs hr hp rfl h2
  refine ⟨s1, h1, fun c hc => ?_⟩
  obtain ⟨A, B, a, b, hval⟩ := hAB c hc
  obtain ⟨e1, e2⟩ := hval 1 (by omega) 0 (by omega)
  simp only [List.getD_cons_succ, List.getD_cons_zero, mul_zero, add_zero, one_mul] at e1 e2
  refine ⟨A, B, a, b, by simpa using e1, e2, ?_⟩
  rw [e1, e2]
  have : (1 : ℕ) ≠ ny := by omega
  exact_mod_cast this

end grid

/-! ## C32: components filled by the scattered-data interpolators -/

section scatter
variable {K : Type}

/-- The points in force after `update(v, po)`. -/
def pointsAfter (s : ScatterState K) (po : Option (NDArray K)) : Option (NDArray K) :=
  match po with
  | none => s.points
  | some p => some p

theorem rowAt_lt {v : NDArray K} {d N c : ℕ} (hv : v.shape = [d, N]) (hc : c < d) :
    rowAt v c = .ok (v.row c) := by
  unfold rowAt; rw [hv]; exact if_pos hc

theorem scatter_update_eq (sp : SciPy K) (s : ScatterState K) (v : NDArray K)
    (po : Option (NDArray K)) : s.update sp v po =
      ScatterState.initialize sp { s with velocities := some v, points := pointsAfter s po } := by
  cases po <;> rfl

/-- State after a successful update. -/
theorem scatter_update_ok {sp : SciPy K} {s s' : ScatterState K} {v p : NDArray K}
    {po : Option (NDArray K)} {d N M : ℕ} (hd : d = 2 ∨ d = 3)
    (hpo : pointsAfter s po = some p) (hp : p.shape = [d, N]) (hv : v.shape = [d, M])
    (h : s.update sp v po = (s', none)) :
    s'.method = s.method ∧ s'.interp = some (p, v.row 0, v.row 1) ∧
      (d = 3 → s.method ≠ .cubic ∧ s'.interpZ = some (p, v.row 2)) ∧
      (d = 2 → s'.interpZ = s.interpZ) := by
  rw [scatter_update_eq] at h
  unfold ScatterState.initialize at h
  simp only [hpo, hp, List.headD_cons, rowAt_lt hv (show 0 < d by omega),
    rowAt_lt hv (show 1 < d by omega)] at h
  split at h
  · simp at h
  · rename_i hc
    split at h
    · simp at h
    · split at h
      · rename_i h3
        rw [rowAt_lt hv (show 2 < d by omega)] at h
        dsimp only at h
        split at h
        · simp at h
        · simp only [Prod.mk.injEq, and_true] at h
          subst h
          exact ⟨rfl, rfl, fun _ => ⟨h3.1, rfl⟩, fun h2 => by omega⟩
      · rename_i h3
        simp only [Prod.mk.injEq, and_true] at h
        subst h
        refine ⟨rfl, rfl, fun e => ?_, fun _ => rfl⟩
        subst e
        by_cases hm : s.method = .cubic
        · exact absurd ⟨hm, rfl⟩ hc
        · exact absurd ⟨hm, rfl⟩ h3

/-- What a component of the result should be: SciPy's interpolant of the `c`-th velocity
component over the current points, at every query row. -/
def Column (sp : SciPy K) (me : Scatter) (p v q out : NDArray K) (n c : ℕ) : Prop :=
  ∃ f, sp.scatterCall me p (v.row c) q = .ok f ∧ ∀ r < n, out.get [r, c] = f r

/-- **C32, 2-D** (`_partial`: all query counts for the cubic class, all but exactly three query
points for the other two): after any successful update both components are SciPy's interpolants
of the velocity components. -/
theorem C32_two_dim_partial {sp : SciPy K} (junk : List ℕ → K) {s s' : ScatterState K}
    {v p q : NDArray K} {po : Option (NDArray K)} {N M n : ℕ}
    (hpo : pointsAfter s po = some p) (hp : p.shape = [2, N]) (hv : v.shape = [2, M])
    (h : s.update sp v po = (s', none)) (hq : q.shape = [n, 2])
    (hn : s.method = .cubic ∨ n ≠ 3)
    (hcall : ∀ c < 2, ∃ f, sp.scatterCall s.method p (v.row c) q = .ok f) :
    ∃ out, s'.interpolate sp junk q = .ok out ∧ out.shape = [n, 2] ∧
      ∀ c < 2, Column sp s.method p v q out n c := by
  obtain ⟨hm, hi, -, -⟩ := scatter_update_ok (Or.inl rfl) hpo hp hv h
  obtain ⟨f0, h0⟩ := hcall 0 (by omega)
  obtain ⟨f1, h1⟩ := hcall 1 (by omega)
  have hif : ¬ (s.method ≠ .cubic ∧ q.shape.headD 0 = 3) := by
    rintro ⟨a, b⟩
    rw [hq] at b
    rcases hn with hn | hn
    · exact a hn
    · exact hn b
  unfold ScatterState.interpolate
  simp only [hi, hm, h0, h1, assignCol, emptyLike, hq, setCol]
  rw [hq] at hif
  simp only [show (0 : ℕ) < 2 by omega, show (1 : ℕ) < 2 by omega, if_true, hif, if_false]
  refine ⟨_, rfl, rfl, fun c hc => ?_⟩
  interval_cases c
  · exact ⟨f0, h0, fun r _ => by simp⟩
  · exact ⟨f1, h1, fun r _ => by simp⟩

/-- **C32 fails in 2-D with exactly three query points** for the linear and nearest classes:
`interpolate` raises, whatever the data (`AttributeError` if the object has never been updated
with 3-D points). -/
theorem C32_three_points_2d_fails {sp : SciPy K} (junk : List ℕ → K) {s s' : ScatterState K}
    {v p q : NDArray K} {po : Option (NDArray K)} {N M : ℕ}
    (hpo : pointsAfter s po = some p) (hp : p.shape = [2, N]) (hv : v.shape = [2, M])
    (h : s.update sp v po = (s', none)) (hq : q.shape = [3, 2]) (hm' : s.method ≠ .cubic) :
    (∃ e, s'.interpolate sp junk q = .error e) ∧
      (s.interpZ = none → (∀ c < 2, ∃ f, sp.scatterCall s.method p (v.row c) q = .ok f) →
        s'.interpolate sp junk q = .error .attributeError) := by
  obtain ⟨hm, hi, -, hz⟩ := scatter_update_ok (Or.inl rfl) hpo hp hv h
  have hif : s.method ≠ .cubic ∧ q.shape.headD 0 = 3 := ⟨hm', by rw [hq]; rfl⟩
  rw [hq] at hif
  constructor
  · unfold ScatterState.interpolate
    simp only [hi, hm, assignCol, emptyLike, hq, setCol]
    simp only [show (0 : ℕ) < 2 by omega, show (1 : ℕ) < 2 by omega, if_true]
    split
    · exact ⟨_, rfl⟩
    · split
      · exact ⟨_, rfl⟩
      · rw [if_pos hif]
        split
        · exact ⟨_, rfl⟩
        · split
          · exact ⟨_, rfl⟩
          · rw [if_neg (by omega)]
            exact ⟨_, rfl⟩
  · intro hn hcall
    obtain ⟨f0, h0⟩ := hcall 0 (by omega)
    obtain ⟨f1, h1⟩ := hcall 1 (by omega)
    unfold ScatterState.interpolate
    simp only [hi, hm, h0, h1, assignCol, emptyLike, hq, setCol]
    simp only [show (0 : ℕ) < 2 by omega, show (1 : ℕ) < 2 by omega, if_true, hz rfl, hn]
    rw [if_pos hif]

/-- **C32, 3-D, exactly three query points** (`_partial`): all three components are correct. -/
theorem C32_three_points_3d_partial {sp : SciPy K} (junk : List ℕ → K) {s s' : ScatterState K}
    {v p q : NDArray K} {po : Option (NDArray K)} {N M : ℕ}
    (hpo : pointsAfter s po = some p) (hp : p.shape = [3, N]) (hv : v.shape = [3, M])
    (h : s.update sp v po = (s', none)) (hq : q.shape = [3, 3])
    (hcall : ∀ c < 3, ∃ f, sp.scatterCall s.method p (v.row c) q = .ok f) :
    ∃ out, s'.interpolate sp junk q = .ok out ∧ out.shape = [3, 3] ∧
      ∀ c < 3, Column sp s.method p v q out 3 c := by
  obtain ⟨hm, hi, hz, -⟩ := scatter_update_ok (Or.inr rfl) hpo hp hv h
  obtain ⟨hm', hz⟩ := hz rfl
  obtain ⟨f0, h0⟩ := hcall 0 (by omega)
  obtain ⟨f1, h1⟩ := hcall 1 (by omega)
  obtain ⟨f2, h2⟩ := hcall 2 (by omega)
  have hif : s.method ≠ .cubic ∧ q.shape.headD 0 = 3 := ⟨hm', by rw [hq]; rfl⟩
  rw [hq] at hif
  unfold ScatterState.interpolate
  simp only [hi, hm, h0, h1, h2, hz, assignCol, emptyLike, hq, setCol]
  simp only [show (0 : ℕ) < 3 by omega, show (1 : ℕ) < 3 by omega, show (2 : ℕ) < 3 by omega,
    if_true]
  rw [if_pos hif]
  refine ⟨_, rfl, rfl, fun c hc => ?_⟩
  interval_cases c
  · exact ⟨f0, h0, fun r _ => by simp⟩
  · exact ⟨f1, h1, fun r _ => by simp⟩
  · exact ⟨f2, h2, fun r _ => by simp⟩

/-- **C32 fails in 3-D for every number of query points other than three**: the call succeeds,
the first two components are right, and the third column is the uninitialised memory of
`np.empty_like`. -/
theorem C32_third_component_fails {sp : SciPy K} (junk : List ℕ → K) {s s' : ScatterState K}
    {v p q : NDArray K} {po : Option (NDArray K)} {N M n : ℕ}
    (hpo : pointsAfter s po = some p) (hp : p.shape = [3, N]) (hv : v.shape = [3, M])
    (h : s.update sp v po = (s', none)) (hq : q.shape = [n, 3]) (hn : n ≠ 3)
    (hcall : ∀ c < 2, ∃ f, sp.scatterCall s.method p (v.row c) q = .ok f) :
    ∃ out, s'.interpolate sp junk q = .ok out ∧ out.shape = [n, 3] ∧
      (∀ c < 2, Column sp s.method p v q out n c) ∧ ∀ r < n, out.get [r, 2] = junk [r, 2] := by
  obtain ⟨hm, hi, -, -⟩ := scatter_update_ok (Or.inr rfl) hpo hp hv h
  obtain ⟨f0, h0⟩ := hcall 0 (by omega)
  obtain ⟨f1, h1⟩ := hcall 1 (by omega)
  unfold ScatterState.interpolate
  simp only [hi, hm, h0, h1, assignCol, emptyLike, hq, setCol]
  simp only [show (0 : ℕ) < 3 by omega, show (1 : ℕ) < 3 by omega, if_true, List.headD_cons, hn,
    and_false, if_false]
  refine ⟨_, rfl, rfl, fun c hc => ?_, fun r _ => by simp⟩
  interval_cases c
  · exact ⟨f0, h0, fun r _ => by simp⟩
  · exact ⟨f1, h1, fun r _ => by simp⟩

/-- The cubic class rejects 3-D points. -/
theorem C32_cubic_rejects_3d {sp : SciPy K} {s : ScatterState K} {v p : NDArray K}
    {po : Option (NDArray K)} {N : ℕ} (hpo : pointsAfter s po = some p) (hp : p.shape = [3, N])
    (hm : s.method = .cubic) : (s.update sp v po).2 = some .valueError := by
  rw [scatter_update_eq]
  unfold ScatterState.initialize
  simp only [hpo, hp, List.headD_cons, hm]
  simp

end scatter

/-! ## C33: protocol errors -/

section protocol
variable {K : Type} [Zero K] [One K] [Add K] [Sub K] [Mul K] [Div K] [NatCast K] [Min K] [Max K]
  [DecidableEq K]

/-- Calls that can be made before any coordinates are given. -/
inductive EarlyCall (K : Type) where
  /-- `update(velocities)` -/
  | update (v : NDArray K)
  /-- `interpolate(new_points)` -/
  | interpolate (q : NDArray K)

/-- State after a call (exceptions caught by the caller). -/
def EarlyCall.run (sp : SciPy K) (m : CMachine K) (junk : List ℕ → K) (I : AnyInterp K) :
    EarlyCall K → AnyInterp K
  | .update v => (I.update sp v none).1
  | .interpolate q => (I.interpolate sp m junk q).1

/-- Nothing has been built and no points are known. -/
def Unbuilt (I : AnyInterp K) : Prop :=
  match I with
  | .scatter s => s.interp = none ∧ s.points = none
  | .highPerf s => s.ix = none ∧ s.iz = none
  | .grid s => s.ix = none ∧ s.points = none
  | .analytical _ => False

omit [NatCast K] [Min K] [Max K] in
/-- Interpolating on an unbuilt fast interpolator. -/
theorem highPerf_unbuilt (m : CMachine K) (junk : List ℕ → K) (s : HighPerf K) (h1 : s.ix = none)
    (h2 : s.iz = none) (q : NDArray K) :
    (s.interpolate m junk q).1.ix = none ∧ (s.interpolate m junk q).1.iz = none ∧
      ∃ e, (s.interpolate m junk q).2 = .error e := by
  have hb : ∀ n d, (s.ensureBuffers n d).ix = none ∧ (s.ensureBuffers n d).iz = none := by
    intro n d
    unfold HighPerf.ensureBuffers
    split
    · exact ⟨h1, h2⟩
    · split <;> exact ⟨h1, h2⟩
  unfold HighPerf.interpolate
  rcases hq : q.shape with _ | ⟨n, _ | ⟨d, _ | ⟨_, _⟩⟩⟩
  · exact ⟨h1, h2, _, rfl⟩
  · exact ⟨h1, h2, _, rfl⟩
  · simp only [(hb _ _).1]
    split
    · exact ⟨(hb _ _).1, (hb _ _).2, _, rfl⟩
    · split <;> exact ⟨(hb _ _).1, (hb _ _).2, _, rfl⟩
  · exact ⟨h1, h2, _, rfl⟩

theorem unbuilt_run (sp : SciPy K) (m : CMachine K) (junk : List ℕ → K) (I : AnyInterp K)
    (h : Unbuilt I) (c : EarlyCall K) : Unbuilt (c.run sp m junk I) := by
  cases I with
  | scatter s =>
    obtain ⟨h1, h2⟩ := h
    cases c with
    | update v =>
      simp [EarlyCall.run, AnyInterp.update, ScatterState.update, ScatterState.initialize, h1, h2,
        Unbuilt]
    | interpolate q => exact ⟨h1, h2⟩
  | highPerf s =>
    obtain ⟨h1, h2⟩ := h
    cases c with
    | update v => simp [EarlyCall.run, AnyInterp.update, HighPerf.update, h1, h2, Unbuilt]
    | interpolate q =>
      exact ⟨(highPerf_unbuilt m junk s h1 h2 q).1, (highPerf_unbuilt m junk s h1 h2 q).2.1⟩
  | grid s =>
    obtain ⟨h1, h2⟩ := h
    cases c with
    | update v =>
      simp [EarlyCall.run, AnyInterp.update, GridState.update, GridState.initialize, h1, h2,
        Unbuilt]
    | interpolate q => exact ⟨h1, h2⟩
  | analytical s => exact h.elim

/-- **C33, call order.**  For every interpolator produced by the factory other than the
analytical one, after every history of calls in which no coordinates were supplied,
`interpolate` raises. -/
theorem C33_interpolate_before_update (sp : SciPy K) (m : CMachine K) (junk : List ℕ → K)
    (lower : String → String) (name : String) (gs : Option (List ℕ)) (fn : Option (VelocityFn K))
    (I : AnyInterp K) (hI : createInterpolator lower name gs fn = .ok I)
    (hna : lower name ≠ "analytical") (calls : List (EarlyCall K)) (q : NDArray K) :
    ∃ e, ((calls.foldl (fun J c => c.run sp m junk J) I).interpolate sp m junk q).2
      = .error e := by
  have h0 : Unbuilt I := by
    unfold createInterpolator at hI
    simp only at hI
    split at hI
    · cases hI
    · split at hI
      · split at hI
        · split at hI
          · cases hI; exact ⟨rfl, rfl⟩
          · split at hI
            · cases hI; exact ⟨rfl, rfl⟩
            · split at hI
              · cases hI; exact ⟨rfl, rfl⟩
              · cases hI
        · cases hI; exact ⟨rfl, rfl⟩
      · split at hI
        · cases hI; exact ⟨rfl, rfl⟩
        · split at hI
          · cases hI; exact ⟨rfl, rfl⟩
          · split at hI
            · cases hI; exact ⟨rfl, rfl⟩
            · cases hI
  have hinv : ∀ (l : List (EarlyCall K)) (J : AnyInterp K), Unbuilt J →
      Unbuilt (l.foldl (fun J c => c.run sp m junk J) J) := by
    intro l
    induction l with
    | nil => intro J hJ; exact hJ
    | cons c l ih => intro J hJ; exact ih _ (unbuilt_run sp m junk J hJ c)
  have hf := hinv calls I h0
  generalize calls.foldl (fun J c => c.run sp m junk J) I = J at hf
  cases J with
  | scatter s =>
    refine ⟨.typeError, ?_⟩
    simp [AnyInterp.interpolate, ScatterState.interpolate, hf.1]
  | highPerf s =>
    exact (highPerf_unbuilt m junk s hf.1 hf.2 q).2.2
  | grid s =>
    refine ⟨.valueError, ?_⟩
    simp [AnyInterp.interpolate, GridState.interpolate, hf.1]
  | analytical s => exact hf.elim

omit [Zero K] [One K] [Add K] [Sub K] [Mul K] [Div K] [NatCast K] [DecidableEq K] in
/-- **C33, shape validation of `GridInterpolator`**: from every state, coordinates with a number
of points different from the product of the grid shape, with a dimension other than 2 and 3, or
with a dimension different from the length of the grid shape are rejected with `ValueError`, and
no interpolation object is replaced. -/
theorem C33_grid_rejects (sp : SciPy K) (s : GridState K) (v p : NDArray K) (nd npts : ℕ)
    (hp : p.shape = [nd, npts])
    (hbad : npts ≠ s.gridShape.prod ∨ (nd ≠ 2 ∧ nd ≠ 3) ∨ nd ≠ s.gridShape.length) :
    (s.update sp v (some p)).2 = some .valueError ∧
      (s.update sp v (some p)).1.ix = s.ix ∧ (s.update sp v (some p)).1.iy = s.iy ∧
      (s.update sp v (some p)).1.iz = s.iz := by
  rw [grid_update_some]
  unfold GridState.initialize
  simp only [hp]
  by_cases h1 : s.gridShape.prod = npts
  · by_cases h2 : nd ≠ 2 ∧ nd ≠ 3
    · simp [h1, h2]
    · have h3 : nd ≠ s.gridShape.length := by
        rcases hbad with h | h | h
        · exact absurd h1.symm h
        · exact absurd h h2
        · exact h
      rw [if_neg (by simpa using h1), if_neg h2]
      split
      · rename_i h4; rw [h4] at h3; simp at h3
      · rename_i h4; rw [h4] at h3; simp at h3
      · exact ⟨rfl, rfl, rfl, rfl⟩
  · rw [if_pos h1]
    exact ⟨rfl, rfl, rfl, rfl⟩

omit [Zero K] [One K] [Add K] [Mul K] [DecidableEq K] in
/-- **C33, shape validation of `HighPerfInterpolator`** (`_partial`: only the total number of
entries is checked): a grid shape of length other than 2 and 3, or coordinate or velocity data
whose number of entries differs from `len(grid_shape) * prod(grid_shape)`, are rejected with
`ValueError` and nothing is replaced. -/
theorem C33_fast_rejects_partial (s : HighPerf K) (v p : NDArray K)
    (hbad : (s.gridShape.length ≠ 2 ∧ s.gridShape.length ≠ 3) ∨
      p.shape.prod ≠ s.gridShape.length * s.gridShape.prod ∨
      v.shape.prod ≠ s.gridShape.length * s.gridShape.prod) :
    (s.update v (some p)).2 = some .valueError ∧ (s.update v (some p)).1.ix = s.ix ∧
      (s.update v (some p)).1.iy = s.iy ∧ (s.update v (some p)).1.iz = s.iz := by
  have hb : HighPerf.build s.gridShape v p = .error .valueError := by
    unfold HighPerf.build NDArray.reshapeC
    by_cases h1 : p.shape.prod = (s.gridShape.length :: s.gridShape).prod
    · rw [if_pos h1]
      split
      · rename_i h; cases h
      · split
        · rename_i nx ny hgs
          have hv : v.shape.prod ≠ [2, nx, ny].prod := by
            rcases hbad with h | h | h
            · rw [hgs] at h; simp at h
            · rw [hgs] at h h1; simp at h h1; exact absurd h1 h
            · rw [hgs] at h; simpa using h
          unfold NDArray.reshapeF
          rw [if_neg hv]
        · rename_i nx ny nz hgs
          have hv : v.shape.prod ≠ [3, nx, ny, nz].prod := by
            rcases hbad with h | h | h
            · rw [hgs] at h; simp at h
            · rw [hgs] at h h1; simp at h h1; exact absurd h1 h
            · rw [hgs] at h; simpa using h
          rw [if_neg hv]
        · rfl
    · rw [if_neg h1]
  unfold HighPerf.update HighPerf.initialize
  simp [hb]

end protocol

/-- **C33 fails for the fast class**: grid shape (3, 2) accepts four 3-D points. -/
theorem C33_fast_accepts_wrong_points_fails :
    ∃ (s s' : HighPerf ℚ) (v p : NDArray ℚ), s.gridShape = [3, 2] ∧ p.shape = [3, 4] ∧
      v.shape = [3, 4] ∧ s.update v (some p) = (s', none) :=
  ⟨HighPerf.fresh [3, 2], _, ⟨[3, 4], fun _ => 0⟩, ⟨[3, 4], fun _ => 0⟩, rfl, rfl, rfl, rfl⟩

/-! ## C34: factories -/

/-- **C34, integrators.** -/
theorem C34_integrators (lower : String → String) (name : String) :
    (∀ k, createIntegrator lower name = .ok k ↔
      lower name = (match k with | .ab2 => "ab2" | .euler => "euler" | .rk4 => "rk4")) ∧
    (lower name ∉ ["ab2", "euler", "rk4"] ↔ createIntegrator lower name = .error .valueError) := by
  unfold createIntegrator
  by_cases h1 : lower name = "ab2"
  · simp [h1]; intro k; cases k <;> simp
  · by_cases h2 : lower name = "euler"
    · simp [h2]; intro k; cases k <;> simp
    · by_cases h3 : lower name = "rk4"
      · simp [h3]; intro k; cases k <;> simp
      · simp [h1, h2, h3]; intro k; cases k <;> simp [h1, h2, h3]

/-- **C34, writers.** -/
theorem C34_writers (format : String) :
    (createWriter format = .ok .mat ↔ format = "mat") ∧
    (createWriter format = .ok .vtk ↔ format = "vtk") ∧
    (createWriter format = .error .valueError ↔ format ∉ ["mat", "vtk"]) := by
  unfold createWriter
  by_cases h1 : format = "mat"
  · simp [h1]
  · by_cases h2 : format = "vtk"
    · simp [h2]
    · simp [h1, h2]

/-- The class of an interpolator object. -/
inductive InterpClass where
  | scatter (m : Scatter) | structured (m : GridMethod) (gs : List ℕ) | fast (gs : List ℕ)
  | analytical
  deriving DecidableEq

/-- Class of a model object. -/
def AnyInterp.cls {K : Type} : AnyInterp K → InterpClass
  | .scatter s => .scatter s.method
  | .grid s => .structured s.method s.gridShape
  | .highPerf s => .fast s.gridShape
  | .analytical _ => .analytical

/-- The documented decision table of `create_interpolator` (docstring interpolate.py:837-873):
the required class, or `none` where an exception is required.  The documentation does not say
what happens for `grid` without a grid shape. -/
def interpTable (t : String) (gs : Option (List ℕ)) (callable : Bool) : Option InterpClass :=
  if t = "analytical" then (if callable then some .analytical else none)
  else if t = "grid" then gs.map .fast
  else if t = "cubic" then some (match gs with | none => .scatter .cubic | some g => .structured .cubic g)
  else if t = "linear" then
    some (match gs with | none => .scatter .linear | some g => .structured .linear g)
  else if t = "nearest" then
    some (match gs with | none => .scatter .nearest | some g => .structured .nearest g)
  else none

/-- **C34, interpolators**: an object is returned exactly when the table gives a class, and it
has that class; otherwise an exception is raised. -/
theorem C34_interpolators {K : Type} [Zero K] (lower : String → String) (name : String)
    (gs : Option (List ℕ)) (fn : Option (VelocityFn K)) :
    match createInterpolator lower name gs fn with
    | .ok I => interpTable (lower name) gs fn.isSome = some I.cls
    | .error _ => interpTable (lower name) gs fn.isSome = none := by
  unfold createInterpolator interpTable
  generalize lower name = t
  by_cases h1 : t = "analytical"
  · subst h1; cases fn <;> simp [AnyInterp.cls]
  · by_cases h2 : t = "grid"
    · subst h2; cases gs <;> simp [AnyInterp.cls, HighPerf.fresh]
    · by_cases h3 : t = "cubic"
      · subst h3; cases gs <;> simp [AnyInterp.cls, GridState.fresh, ScatterState.fresh]
      · by_cases h4 : t = "linear"
        · subst h4; cases gs <;> simp [AnyInterp.cls, GridState.fresh, ScatterState.fresh]
        · by_cases h5 : t = "nearest"
          · subst h5; cases gs <;> simp [AnyInterp.cls, GridState.fresh, ScatterState.fresh]
          · simp [h1, h2, h3, h4, h5]

/-- A `lower` and a mixed-case name for which the tables select something. -/
example : createIntegrator (fun s => if s = "RK4" then "rk4" else s) "RK4" = .ok .rk4 := by decide

/-! ## Non-vacuity -/

/-- The 3 × 2 grid with origin (0, 0) and unit spacing, points x-fastest, velocity `(k, -k)`. -/
def exPoints2 : NDArray ℚ :=
  ⟨[2, 6], fun idx => match idx with | [0, k] => ((k % 3 : ℕ) : ℚ) | [1, k] => ((k / 3 : ℕ) : ℚ) | _ => 0⟩

/-- Velocities for `exPoints2`. -/
def exVel2 : NDArray ℚ :=
  ⟨[2, 6], fun idx => match idx with | [0, k] => (k : ℚ) | [1, k] => -(k : ℚ) | _ => 0⟩

theorem exGrid2 : Grid2 3 2 (0 : ℚ) 1 0 1 exVel2 exPoints2 where
  hnx := by omega
  hny := by omega
  lnx := by norm_num
  lny := by norm_num
  hdx := by norm_num
  hdy := by norm_num
  hp := rfl
  hv := rfl
  hx := ⟨fun k _ => ⟨k % 3, Nat.mod_lt _ (by omega), by simp [exPoints2]⟩,
    fun i hi => ⟨i, by omega, by simp [exPoints2, Nat.mod_eq_of_lt hi]⟩⟩
  hy := ⟨fun k hk => ⟨k / 3, by omega, by simp [exPoints2]⟩,
    fun j hj => ⟨3 * j, by omega, by simp [exPoints2]⟩⟩

/-- The `nx × ny × 2` grid with unit spacing, node `(i, j, k)` at flat index
`(j * nx + i) * 2 + k`, velocity `(l, l, l)` at flat index `l`. -/
def exPoints3 (nx ny : ℕ) : NDArray ℚ :=
  ⟨[3, nx * ny * 2], fun idx => match idx with
    | [0, l] => ((l / 2 % nx : ℕ) : ℚ) | [1, l] => ((l / 2 / nx : ℕ) : ℚ)
    | [2, l] => ((l % 2 : ℕ) : ℚ) | _ => 0⟩

/-- Velocities for `exPoints3`. -/
def exVel3 (nx ny : ℕ) : NDArray ℚ :=
  ⟨[3, nx * ny * 2], fun idx => match idx with | [_, l] => (l : ℚ) | _ => 0⟩

theorem exGrid3 (nx ny : ℕ) (hnx : 2 ≤ nx) (hny : 2 ≤ ny) (lx : nx < 1000) (ly : ny < 1000) :
    Grid3 nx ny 2 (0 : ℚ) 1 0 1 0 1 (exVel3 nx ny) (exPoints3 nx ny) where
  hnx := hnx
  hny := hny
  hnz := by omega
  lnx := by omega
  lny := by omega
  lnz := by norm_num
  lxz := by push_cast; omega
  hdx := by norm_num
  hdy := by norm_num
  hdz := by norm_num
  hp := rfl
  hv := rfl
  hx := ⟨fun l _ => ⟨l / 2 % nx, Nat.mod_lt _ (by omega), by simp [exPoints3]⟩,
    fun i hi => ⟨2 * i, by nlinarith, by simp [exPoints3, Nat.mod_eq_of_lt hi]⟩⟩
  hy := ⟨fun l hl => ⟨l / 2 / nx, by
      rw [Nat.div_div_eq_div_mul]; apply Nat.div_lt_of_lt_mul; nlinarith, by simp [exPoints3]⟩,
    fun j hj => ⟨2 * (nx * j), by nlinarith, by
      simp only [exPoints3, zero_add, mul_one]
      rw [Nat.mul_div_cancel_left _ (by omega : 0 < 2),
        Nat.mul_div_cancel_left _ (by omega : 0 < nx)]⟩⟩
  hz := ⟨fun l _ => ⟨l % 2, Nat.mod_lt _ (by omega), by simp [exPoints3]⟩,
    fun k hk => ⟨k, by nlinarith, by simp [exPoints3, Nat.mod_eq_of_lt hk]⟩⟩

/-- A SciPy whose objects can always be built; scattered data are "interpolated" by the value of
the first point, grids by the value of the first node. -/
def exSciPy : SciPy ℚ where
  scatterBuild _ _ _ := none
  scatterCall _ _ v _ := .ok fun _ => v.get [0]
  gridBuild _ _ _ := none
  gridCall _ _ v _ := .ok fun _ => v.get (v.shape.map fun _ => 0)

/-- Queries at `(1, 0)` and outside the grid. -/
def exQueries2 : NDArray ℚ :=
  ⟨[2, 2], fun idx => match idx with | [0, 0] => 1 | [1, 0] => -5 | _ => 0⟩

theorem exSafe2 : SafeQueries2 exQueries2 2 0 1 0 1 := by
  intro r hr
  interval_cases r <;> (simp [exQueries2, SafeCoord]; try norm_num)

/-- Hypotheses of C28 hold; the value at node (1, 0) is the velocity at flat index 1. -/
example : ∃ s' out, (HighPerf.fresh [3, 2]).update exVel2 (some exPoints2) = (s', none) ∧
    (s'.interpolate (isoCpp (fun q : ℚ => ⌊q⌋) (fun z => (z : ℚ))) (fun _ => 7) exQueries2).2 = .ok out ∧
    out.get [0, 0] = 1 ∧ out.get [0, 1] = -1 := by
  obtain ⟨s', out, h1, h2, h3⟩ := C28_data_points (Or.inl rfl : ExactTarget _) (fun _ => 7) exGrid2
    (by intro i hi j hj; interval_cases i <;> interval_cases j <;> simp [exPoints2])
    (HighPerf.fresh [3, 2]) rfl exQueries2 2 rfl exSafe2
  refine ⟨s', out, h1, h2, ?_, ?_⟩
  · rw [h3 0 (by omega) 1 0 (by omega) (by omega) (by simp [exQueries2, exPoints2])
      (by simp [exQueries2, exPoints2]) 0 (by omega)]
    simp [exVel2]
  · rw [h3 0 (by omega) 1 0 (by omega) (by omega) (by simp [exQueries2, exPoints2])
      (by simp [exQueries2, exPoints2]) 1 (by omega)]
    simp [exVel2]

/-- C29: new data on the same grid. -/
example : ∃ s1 s2, (HighPerf.fresh [3, 2]).update exVel2 (some exPoints2) = (s1, none) ∧
    s1.update exVel2 none = (s2, none) ∧
    (s2.interpolate (isoCpp (fun q : ℚ => ⌊q⌋) (fun z => (z : ℚ))) (fun _ => 7) exQueries2).2
      = .error .runtimeError :=
  C29_velocity_only_2d_fails _ _ exGrid2 _ rfl exVel2 6 rfl exQueries2 2 rfl

/-- A query at node (1, 0, 0). -/
def exQueries3 : NDArray ℚ := ⟨[1, 3], fun idx => match idx with | [0, 0] => 1 | _ => 0⟩

theorem exSafe3 : SafeQueries3 exQueries3 1 0 1 0 1 0 1 := by
  intro r hr
  interval_cases r
  simp [exQueries3, SafeCoord]

/-- C29 in 3-D. -/
example : ∃ s1 s2, (HighPerf.fresh [3, 2, 2]).update (exVel3 3 2) (some (exPoints3 3 2)) = (s1, none) ∧
    s1.update (exVel3 3 2) none = (s2, none) ∧
    (s2.interpolate (isoCpp (fun q : ℚ => ⌊q⌋) (fun z => (z : ℚ))) (fun _ => 7) exQueries3).2
      = .error .runtimeError :=
  C29_velocity_only_3d_fails _ _ (exGrid3 3 2 (by omega) (by omega) (by omega) (by omega)) _ rfl
    (exVel3 3 2) 12 rfl exQueries3 1 rfl

/-- C30 fails on the 3 × 2 × 2 grid. -/
example := C30_axes_swapped_fails (Or.inl rfl : ExactTarget (isoCpp (fun q : ℚ => ⌊q⌋) (fun z => (z : ℚ))))
  (fun _ => 7) (exGrid3 3 2 (by omega) (by omega) (by omega) (by omega)) (by omega)
  (HighPerf.fresh [3, 2, 2]) rfl exQueries3 1 rfl (fun h => by cases h) exSafe3

/-- C30 holds on the 3 × 3 × 2 grid: the value at node (1, 0, 0) is the one stored for it. -/
example : ∃ s' out, (HighPerf.fresh [3, 3, 2]).update (exVel3 3 3) (some (exPoints3 3 3)) = (s', none) ∧
    (s'.interpolate (isoCpp (fun q : ℚ => ⌊q⌋) (fun z => (z : ℚ))) (fun _ => 7) exQueries3).2 = .ok out ∧
    out.get [0, 0] = 2 := by
  obtain ⟨s', out, h1, h2, h3⟩ := C30_equal_sides_partial (Or.inl rfl : ExactTarget _) (fun _ => 7)
    (exGrid3 3 3 (by omega) (by omega) (by omega) (by omega))
    (by intro i hi j hj k hk; interval_cases i <;> interval_cases j <;> interval_cases k <;>
          simp [exPoints3])
    (HighPerf.fresh [3, 3, 2]) rfl exQueries3 1 rfl (fun h => by cases h) exSafe3
  refine ⟨s', out, h1, h2, ?_⟩
  rw [h3 0 (by omega) 1 0 0 (by omega) (by omega) (by omega) (by simp [exQueries3, exPoints3])
    (by simp [exQueries3, exPoints3]) (by simp [exQueries3, exPoints3]) 0 (by omega)]
  simp [exVel3]

/-- The structured interpolator can be initialised on the 3 × 2 grid … -/
theorem exGridReady2 : ∃ s', (GridState.fresh .linear [3, 2]).update exSciPy exVel2 (some exPoints2)
    = (s', none) ∧ s'.gridShape = [3, 2] ∧ s'.Ready 2 :=
  ⟨_, rfl, rfl, ⟨rfl, rfl, rfl, by simp⟩⟩

/-- … so the hypotheses of the 2-D part of C31 are met: the two updates disagree. -/
example : ∃ s s1 s2 : GridState ℚ, s.gridShape = [3, 2] ∧
    s.update exSciPy ⟨[2, 3 * 2], fun idx => (idx.getD 1 0 : ℕ)⟩ none = (s1, none) ∧
    s.update exSciPy ⟨[2, 3 * 2], fun idx => (idx.getD 1 0 : ℕ)⟩ (some exPoints2) = (s2, none) ∧
    ∃ A B, s1.nodeValues 0 = some A ∧ s2.nodeValues 0 = some B ∧ A.get [1, 0] ≠ B.get [1, 0] := by
  obtain ⟨s, -, hgs, hr⟩ := exGridReady2
  have hu : ∃ s2, s.update exSciPy ⟨[2, 3 * 2], fun idx => (idx.getD 1 0 : ℕ)⟩ (some exPoints2)
      = (s2, none) := by
    rw [grid_update_some]
    unfold GridState.initialize
    rw [hgs]
    exact ⟨_, rfl⟩
  obtain ⟨s2, h2⟩ := hu
  obtain ⟨s1, h1, h3⟩ := C31_layout_2d_differs_fails (by omega) (by omega) hgs hr rfl h2
  obtain ⟨A, B, a, b, -, -, c⟩ := h3 0 (by omega)
  exact ⟨s, s1, s2, hgs, h1, h2, A, B, a, b, c⟩

/-- The hypotheses of the 3-D part of C31 are met. -/
example : ∃ s s2 : GridState ℚ, s.gridShape = [3, 2, 2] ∧ s.Ready 3 ∧
    s.update exSciPy (exVel3 3 2) (some (exPoints3 3 2)) = (s2, none) := by
  have h : ∃ s', (GridState.fresh .linear [3, 2, 2]).update exSciPy (exVel3 3 2) (some (exPoints3 3 2))
      = (s', none) ∧ s'.gridShape = [3, 2, 2] ∧ s'.Ready 3 :=
    ⟨_, rfl, rfl, ⟨rfl, rfl, rfl, fun _ => rfl⟩⟩
  obtain ⟨s, -, hgs, hr⟩ := h
  refine ⟨s, ?_⟩
  rw [grid_update_some]
  unfold GridState.initialize
  simp only [hgs]
  exact ⟨_, trivial, hr, rfl⟩

/-- C32: a 2-D update succeeds and both components are returned for two queries. -/
example : ∃ s' out, (ScatterState.fresh .linear).update exSciPy exVel2 (some exPoints2) = (s', none) ∧
    s'.interpolate exSciPy (fun _ => 7) exQueries2 = .ok out ∧
    ∀ c < 2, Column exSciPy .linear exPoints2 exVel2 exQueries2 out 2 c := by
  obtain ⟨out, h1, -, h3⟩ := C32_two_dim_partial (sp := exSciPy) (fun _ => 7)
    (s := ScatterState.fresh .linear) (v := exVel2) (p := exPoints2) (q := exQueries2)
    (po := some exPoints2) (N := 6) (M := 6) (n := 2) rfl rfl rfl rfl rfl (Or.inr (by omega))
    (fun c _ => ⟨_, rfl⟩)
  exact ⟨_, out, rfl, h1, h3⟩

/-- C32: three 2-D queries raise. -/
example : ∃ s', (ScatterState.fresh .nearest).update exSciPy exVel2 (some exPoints2) = (s', none) ∧
    s'.interpolate exSciPy (fun _ => 7) ⟨[3, 2], fun _ => 0⟩ = .error .attributeError :=
  ⟨_, rfl, (C32_three_points_2d_fails (sp := exSciPy) (fun _ => 7)
    (s := ScatterState.fresh .nearest) (v := exVel2) (p := exPoints2) (q := ⟨[3, 2], fun _ => 0⟩)
    (po := some exPoints2) (N := 6) (M := 6) rfl rfl rfl rfl rfl (by decide)).2 rfl
    (fun c _ => ⟨_, rfl⟩)⟩

/-- C32: one 3-D query gets an uninitialised third component. -/
example : ∃ s' out, (ScatterState.fresh .linear).update exSciPy (exVel3 3 2) (some (exPoints3 3 2))
      = (s', none) ∧ s'.interpolate exSciPy (fun _ => 7) exQueries3 = .ok out ∧ out.get [0, 2] = 7 := by
  obtain ⟨out, h1, -, -, h3⟩ := C32_third_component_fails (sp := exSciPy) (fun _ => 7)
    (s := ScatterState.fresh .linear) (v := exVel3 3 2) (p := exPoints3 3 2) (q := exQueries3)
    (po := some (exPoints3 3 2)) (N := 12) (M := 12) (n := 1) rfl rfl rfl rfl rfl (by omega)
    (fun c _ => ⟨_, rfl⟩)
  exact ⟨_, out, rfl, h1, h3 0 (by omega)⟩

/-- C32: three 3-D queries. -/
example : ∃ s' out, (ScatterState.fresh .linear).update exSciPy (exVel3 3 2) (some (exPoints3 3 2))
      = (s', none) ∧ s'.interpolate exSciPy (fun _ => 7) ⟨[3, 3], fun _ => 0⟩ = .ok out ∧
      out.shape = [3, 3] := by
  obtain ⟨out, h1, h2, -⟩ := C32_three_points_3d_partial (sp := exSciPy) (fun _ => 7)
    (s := ScatterState.fresh .linear) (v := exVel3 3 2) (p := exPoints3 3 2)
    (q := ⟨[3, 3], fun _ => 0⟩)
    (po := some (exPoints3 3 2)) (N := 12) (M := 12) rfl rfl rfl rfl rfl
    (fun c _ => ⟨_, rfl⟩)
  exact ⟨_, out, rfl, h1, h2⟩

/-- C33: a factory result and a history. -/
example := C33_interpolate_before_update exSciPy (isoCpp (fun q : ℚ => ⌊q⌋) (fun z => (z : ℚ)))
  (fun _ => 7) id "grid" (some [3, 2]) none (.highPerf (HighPerf.fresh [3, 2]))
  (by simp [createInterpolator]) (by simp)
  [EarlyCall.update exVel2, EarlyCall.interpolate exQueries2] exQueries2

/-- C33: five points on a 3 × 2 grid. -/
example := C33_grid_rejects exSciPy (GridState.fresh .linear [3, 2]) exVel2 ⟨[2, 5], fun _ => 0⟩ 2 5
  rfl (Or.inl (by decide))

/-- C33: five points on a 3 × 2 grid, fast class. -/
example := C33_fast_rejects_partial (HighPerf.fresh [3, 2]) exVel2 ⟨[2, 5], fun _ => 0⟩
  (Or.inr (Or.inl (by decide)))

end Verif
