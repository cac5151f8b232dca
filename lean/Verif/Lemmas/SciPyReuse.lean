import Verif.Lemmas.SciPyGrid

/-!
# The SciPy grid interpolator after updates without coordinates
-/

namespace Verif

open Matrix

/-- The object holds the values of `w` at the nodes. -/
def Holds2 (s : GridState ℝ) (nx ny : ℕ) (x0 dx y0 dy : ℝ) (w : (Fin 2 → ℝ) → Fin 2 → ℝ) : Prop :=
  s.gridShape = [nx, ny] ∧ s.method = .linear ∧ s.ndim = some 2 ∧ ∃ A B,
    s.ix = some ([axisTriple x0 dx nx, axisTriple y0 dy ny], A) ∧
    s.iy = some ([axisTriple x0 dx nx, axisTriple y0 dy ny], B) ∧
    A.shape = [nx, ny] ∧ B.shape = [nx, ny] ∧
    ∀ a < nx, ∀ b < ny, A.get [a, b] = w ![x0 + a * dx, y0 + b * dy] 0 ∧
      B.get [a, b] = w ![x0 + a * dx, y0 + b * dy] 1

theorem scipy_init_2d {sp : SciPy ℝ} (hsp : sp.LinearGrid2) {nx ny : ℕ} {x0 dx y0 dy : ℝ}
    (hnx : 2 ≤ nx) (hny : 2 ≤ ny) (hdx : 0 < dx) (hdy : 0 < dy) {v p : NDArray ℝ}
    (hv : v.shape = [2, nx * ny]) (hp : p.shape = [2, nx * ny]) (hx : AxisValues p (nx * ny) 0 nx x0 dx)
    (hy : AxisValues p (nx * ny) 1 ny y0 dy) {s : GridState ℝ} (hgs : s.gridShape = [nx, ny])
    (hme : s.method = .linear) {w : (Fin 2 → ℝ) → Fin 2 → ℝ}
    (hw : ∀ a < nx, ∀ b < ny, ∀ c : Fin 2,
      v.get [c, a * ny + b] = w ![x0 + a * dx, y0 + b * dy] c) :
    ∃ s', s.update sp v (some p) = (s', none) ∧ Holds2 s' nx ny x0 dx y0 dy w := by
  obtain ⟨s2, A, B, b1, b2, b3, b4, b5, b6, b7, b8, b9, b10⟩ :=
    scipy_update_2d hsp hnx hny hdx hdy hv hp hx hy hgs hme
  exact ⟨s2, b1, b2, b3, b4, A, B, b5, b6, b7, b8, fun a ha b hb =>
    ⟨(b9 a b).trans (hw a ha b hb 0), (b10 a b).trans (hw a ha b hb 1)⟩⟩

theorem scipy_again_2d {sp : SciPy ℝ} {nx ny : ℕ} {x0 dx y0 dy : ℝ} {v : NDArray ℝ}
    (hv : v.shape = [2, nx * ny]) {s : GridState ℝ} {w w' : (Fin 2 → ℝ) → Fin 2 → ℝ}
    (h : Holds2 s nx ny x0 dx y0 dy w)
    (hw : ∀ a < nx, ∀ b < ny, ∀ c : Fin 2,
      v.get [c, a + nx * b] = w' ![x0 + a * dx, y0 + b * dy] c) :
    ∃ s', s.update sp v none = (s', none) ∧ Holds2 s' nx ny x0 dx y0 dy w' := by
  obtain ⟨h1, h2, h3, A, B, h4, h5, -⟩ := h
  have hr : v.reshapeF [2, nx, ny] = .ok ⟨[2, nx, ny], fun idx =>
      v.get (decF v.shape (encF [2, nx, ny] idx))⟩ := by
    unfold NDArray.reshapeF
    rw [if_pos (by rw [hv]; simp)]
  unfold GridState.update
  simp only [h4, h5, h3, h1, hr, setValues]
  refine ⟨_, rfl, rfl, h2, rfl, _, _, rfl, rfl, rfl, rfl, fun a ha b hb => ⟨?_, ?_⟩⟩
  · exact (reshapeF_2d hv (by omega) ha hb).trans (hw a ha b hb 0)
  · exact (reshapeF_2d hv (by omega) ha hb).trans (hw a ha b hb 1)

theorem holds_pointwise_2d {env : Env ℝ FVal} (hsp : env.sp.LinearGrid2) {nx ny : ℕ}
    {x0 dx y0 dy : ℝ} (hnx : 2 ≤ nx) (hny : 2 ≤ ny) (hdx : 0 < dx) (hdy : 0 < dy) {s2 : GridState ℝ}
    {v : ℝ → (Fin 2 → ℝ) → Fin 2 → ℝ} {t : ℝ} (h : Holds2 s2 nx ny x0 dx y0 dy (v t)) (R : ℕ) :
    PointwiseOn {z | OnAxis nx x0 dx (z 0) ∧ OnAxis ny y0 dy (z 1)} R
      ((AnyInterp.grid s2).velocity env) (bilinear v t nx ny x0 dx y0 dy) := by
  intro pos hp hS
  obtain ⟨b2, b3, b4, A, B, b5, b6, b7, b8, b9⟩ := h
  have px := axisTriple_proper (x0 := x0) hdx hnx
  have py := axisTriple_proper (x0 := y0) hdy hny
  obtain ⟨f, f1, f2⟩ := hsp.call _ _ A pos R px py b7 hp
  obtain ⟨g, g1, g2⟩ := hsp.call _ _ B pos R px py b8 hp
  have o1 : assignCol (emptyLike env.junk pos) 0 f = .ok (setCol (emptyLike env.junk pos) 0 f) := by
    simp [assignCol, emptyLike, hp]
  have o2 : assignCol (setCol (emptyLike env.junk pos) 0 f) 1 g =
      .ok (setCol (setCol (emptyLike env.junk pos) 0 f) 1 g) := by
    simp [assignCol, setCol, emptyLike, hp]
  refine ⟨setCol (setCol (emptyLike env.junk pos) 0 f) 1 g, ?_, hp, fun r hr => ?_⟩
  · simp only [AnyInterp.velocity, AnyInterp.interpolate, GridState.interpolate, b5, b6, gridCol, b3, f1,
      g1, o1, o2, b4]
    rfl
  · have c0 : InCells nx ((pos.get [r, 0] - x0) / dx) := (hS r hr).1.inCells hdx
    have c1 : InCells ny ((pos.get [r, 1] - y0) / dy) := (hS r hr).2.inCells hdy
    have i0 := inCell_of c0
    have i1 := inCell_of c1
    have vf := f2 r hr (cellOf ((pos.get [r, 0] - x0) / dx)) (cellOf ((pos.get [r, 1] - y0) / dy))
      (by rw [axisTriple_coord hdx hnx]; exact i0) (by rw [axisTriple_coord hdy hny]; exact i1)
    have vg := g2 r hr (cellOf ((pos.get [r, 0] - x0) / dx)) (cellOf ((pos.get [r, 1] - y0) / dy))
      (by rw [axisTriple_coord hdx hnx]; exact i0) (by rw [axisTriple_coord hdy hny]; exact i1)
    rw [axisTriple_coord hdx hnx, axisTriple_coord hdy hny] at vf vg
    have l0 := i0.1
    have l1 := i1.1
    have m0 : cellOf ((pos.get [r, 0] - x0) / dx) < nx := by omega
    have m1 : cellOf ((pos.get [r, 1] - y0) / dy) < ny := by omega
    funext c
    unfold bilinear
    show _ = cellValue2 nx ny _ ((pos.get [r, 0] - x0) / dx) ((pos.get [r, 1] - y0) / dy)
    unfold cellValue2
    rw [if_pos ⟨c0, c1⟩]
    simp only
    fin_cases c
    · show f r = _
      rw [vf, (b9 _ m0 _ m1).1, (b9 _ l0 _ m1).1, (b9 _ m0 _ l1).1, (b9 _ l0 _ l1).1]
      rfl
    · show g r = _
      rw [vg, (b9 _ m0 _ m1).2, (b9 _ l0 _ m1).2, (b9 _ m0 _ l1).2, (b9 _ l0 _ l1).2]
      rfl

/-! ## Three dimensions -/

def Holds3 (s : GridState ℝ) (nx ny nz : ℕ) (x0 dx y0 dy z0 dz : ℝ) (w : (Fin 3 → ℝ) → Fin 3 → ℝ) :
    Prop :=
  s.gridShape = [nx, ny, nz] ∧ s.method = .linear ∧ s.ndim = some 3 ∧ ∃ A B C,
    s.ix = some ([axisTriple x0 dx nx, axisTriple y0 dy ny, axisTriple z0 dz nz], A) ∧
    s.iy = some ([axisTriple x0 dx nx, axisTriple y0 dy ny, axisTriple z0 dz nz], B) ∧
    s.iz = some ([axisTriple x0 dx nx, axisTriple y0 dy ny, axisTriple z0 dz nz], C) ∧
    A.shape = [nx, ny, nz] ∧ B.shape = [nx, ny, nz] ∧ C.shape = [nx, ny, nz] ∧
    ∀ a < nx, ∀ b < ny, ∀ e < nz,
      A.get [a, b, e] = w ![x0 + a * dx, y0 + b * dy, z0 + e * dz] 0 ∧
      B.get [a, b, e] = w ![x0 + a * dx, y0 + b * dy, z0 + e * dz] 1 ∧
      C.get [a, b, e] = w ![x0 + a * dx, y0 + b * dy, z0 + e * dz] 2

theorem scipy_init_3d {sp : SciPy ℝ} (hsp : sp.LinearGrid3) {nx ny nz : ℕ} {x0 dx y0 dy z0 dz : ℝ}
    (hnx : 2 ≤ nx) (hny : 2 ≤ ny) (hnz : 2 ≤ nz) (hdx : 0 < dx) (hdy : 0 < dy) (hdz : 0 < dz)
    {v p : NDArray ℝ} (hv : v.shape = [3, nx * ny * nz]) (hp : p.shape = [3, nx * ny * nz])
    (hx : AxisValues p (nx * ny * nz) 0 nx x0 dx) (hy : AxisValues p (nx * ny * nz) 1 ny y0 dy)
    (hz : AxisValues p (nx * ny * nz) 2 nz z0 dz) {s : GridState ℝ} (hgs : s.gridShape = [nx, ny, nz])
    (hme : s.method = .linear) {w : (Fin 3 → ℝ) → Fin 3 → ℝ}
    (hw : ∀ a < nx, ∀ b < ny, ∀ e < nz, ∀ c : Fin 3,
      v.get [c, (a * ny + b) * nz + e] = w ![x0 + a * dx, y0 + b * dy, z0 + e * dz] c) :
    ∃ s', s.update sp v (some p) = (s', none) ∧ Holds3 s' nx ny nz x0 dx y0 dy z0 dz w := by
  obtain ⟨s2, A, B, C, b1, b2, b3, b4, b5, b6, b6', b7, b8, b8', b9, b10, b11⟩ :=
    scipy_update_3d hsp hnx hny hnz hdx hdy hdz hv hp hx hy hz hgs hme
  exact ⟨s2, b1, b2, b3, b4, A, B, C, b5, b6, b6', b7, b8, b8', fun a ha b hb e he =>
    ⟨(b9 a b e).trans (hw a ha b hb e he 0), (b10 a b e).trans (hw a ha b hb e he 1),
      (b11 a b e).trans (hw a ha b hb e he 2)⟩⟩

theorem scipy_again_3d {sp : SciPy ℝ} {nx ny nz : ℕ} {x0 dx y0 dy z0 dz : ℝ} {v : NDArray ℝ}
    (hv : v.shape = [3, nx * ny * nz]) {s : GridState ℝ} {w w' : (Fin 3 → ℝ) → Fin 3 → ℝ}
    (h : Holds3 s nx ny nz x0 dx y0 dy z0 dz w)
    (hw : ∀ a < nx, ∀ b < ny, ∀ e < nz, ∀ c : Fin 3,
      v.get [c, (a * ny + b) * nz + e] = w' ![x0 + a * dx, y0 + b * dy, z0 + e * dz] c) :
    ∃ s', s.update sp v none = (s', none) ∧ Holds3 s' nx ny nz x0 dx y0 dy z0 dz w' := by
  obtain ⟨h1, h2, h3, A, B, C, h4, h5, h6, -⟩ := h
  have hr : v.reshapeC [3, nx, ny, nz] = .ok ⟨[3, nx, ny, nz], fun idx =>
      v.get (decC v.shape (encC [3, nx, ny, nz] idx))⟩ := by
    unfold NDArray.reshapeC
    rw [if_pos (by rw [hv]; simp; ring)]
  unfold GridState.update
  simp only [h4, h5, h6, h3, h1, hr, setValues, rowAt]
  norm_num
  refine ⟨rfl, h2, rfl, _, _, _, rfl, rfl, rfl, rfl, rfl, rfl, fun a ha b hb e he => ⟨?_, ?_, ?_⟩⟩
  · exact (reshapeC_3d hv (by omega) ha hb he).trans (hw a ha b hb e he 0)
  · exact (reshapeC_3d hv (by omega) ha hb he).trans (hw a ha b hb e he 1)
  · exact (reshapeC_3d hv (by omega) ha hb he).trans (hw a ha b hb e he 2)

/-- The samples of `v` at the nodes, interpolated linearly in each cell; `trilinear` for grids with
different numbers of nodes along `x` and `y`. -/
noncomputable def inBox (v : ℝ → (Fin 3 → ℝ) → Fin 3 → ℝ) (t : ℝ) (nx ny nz : ℕ)
    (x0 dx y0 dy z0 dz : ℝ) (z : Fin 3 → ℝ) (c : Fin 3) : ℝ :=
  cellValue3 nx ny nz (fun a b e => v t ![x0 + a * dx, y0 + b * dy, z0 + e * dz] c) ((z 0 - x0) / dx)
    ((z 1 - y0) / dy) ((z 2 - z0) / dz)

theorem holds_pointwise_3d {env : Env ℝ FVal} (hsp : env.sp.LinearGrid3) {nx ny nz : ℕ}
    {x0 dx y0 dy z0 dz : ℝ} (hnx : 2 ≤ nx) (hny : 2 ≤ ny) (hnz : 2 ≤ nz) (hdx : 0 < dx) (hdy : 0 < dy)
    (hdz : 0 < dz) {s2 : GridState ℝ} {v : ℝ → (Fin 3 → ℝ) → Fin 3 → ℝ} {t : ℝ}
    (h : Holds3 s2 nx ny nz x0 dx y0 dy z0 dz (v t)) (R : ℕ) :
    PointwiseOn {z | OnAxis nx x0 dx (z 0) ∧ OnAxis ny y0 dy (z 1) ∧ OnAxis nz z0 dz (z 2)} R
      ((AnyInterp.grid s2).velocity env) (inBox v t nx ny nz x0 dx y0 dy z0 dz) := by
  intro pos hp hS
  obtain ⟨b2, b3, b4, A, B, C, b5, b6, b6', b7, b8, b8', b9⟩ := h
  have px := axisTriple_proper (x0 := x0) hdx hnx
  have py := axisTriple_proper (x0 := y0) hdy hny
  have pz := axisTriple_proper (x0 := z0) hdz hnz
  obtain ⟨f, f1, f2⟩ := hsp.call _ _ _ A pos R px py pz b7 hp
  obtain ⟨g, g1, g2⟩ := hsp.call _ _ _ B pos R px py pz b8 hp
  obtain ⟨h, k1, k2⟩ := hsp.call _ _ _ C pos R px py pz b8' hp
  have o1 : assignCol (emptyLike env.junk pos) 0 f = .ok (setCol (emptyLike env.junk pos) 0 f) := by
    simp [assignCol, emptyLike, hp]
  have o2 : assignCol (setCol (emptyLike env.junk pos) 0 f) 1 g =
      .ok (setCol (setCol (emptyLike env.junk pos) 0 f) 1 g) := by
    simp [assignCol, setCol, emptyLike, hp]
  have o3 : assignCol (setCol (setCol (emptyLike env.junk pos) 0 f) 1 g) 2 h =
      .ok (setCol (setCol (setCol (emptyLike env.junk pos) 0 f) 1 g) 2 h) := by
    simp [assignCol, setCol, emptyLike, hp]
  refine ⟨setCol (setCol (setCol (emptyLike env.junk pos) 0 f) 1 g) 2 h, ?_, hp, fun r hr => ?_⟩
  · simp only [AnyInterp.velocity, AnyInterp.interpolate, GridState.interpolate, b5, b6, b6', gridCol, b3,
      f1, g1, k1, o1, o2, o3, b4]
    rfl
  · have c0 : InCells nx ((pos.get [r, 0] - x0) / dx) := (hS r hr).1.inCells hdx
    have c1 : InCells ny ((pos.get [r, 1] - y0) / dy) := (hS r hr).2.1.inCells hdy
    have c2 : InCells nz ((pos.get [r, 2] - z0) / dz) := (hS r hr).2.2.inCells hdz
    have i0 := inCell_of c0
    have i1 := inCell_of c1
    have i2 := inCell_of c2
    have vf := f2 r hr (cellOf ((pos.get [r, 0] - x0) / dx)) (cellOf ((pos.get [r, 1] - y0) / dy))
      (cellOf ((pos.get [r, 2] - z0) / dz))
      (by rw [axisTriple_coord hdx hnx]; exact i0) (by rw [axisTriple_coord hdy hny]; exact i1)
      (by rw [axisTriple_coord hdz hnz]; exact i2)
    have vg := g2 r hr (cellOf ((pos.get [r, 0] - x0) / dx)) (cellOf ((pos.get [r, 1] - y0) / dy))
      (cellOf ((pos.get [r, 2] - z0) / dz))
      (by rw [axisTriple_coord hdx hnx]; exact i0) (by rw [axisTriple_coord hdy hny]; exact i1)
      (by rw [axisTriple_coord hdz hnz]; exact i2)
    have vh := k2 r hr (cellOf ((pos.get [r, 0] - x0) / dx)) (cellOf ((pos.get [r, 1] - y0) / dy))
      (cellOf ((pos.get [r, 2] - z0) / dz))
      (by rw [axisTriple_coord hdx hnx]; exact i0) (by rw [axisTriple_coord hdy hny]; exact i1)
      (by rw [axisTriple_coord hdz hnz]; exact i2)
    rw [axisTriple_coord hdx hnx, axisTriple_coord hdy hny, axisTriple_coord hdz hnz]
      at vf vg vh
    have l0 := i0.1
    have l1 := i1.1
    have l2 := i2.1
    have m0 : cellOf ((pos.get [r, 0] - x0) / dx) < nx := by omega
    have m1 : cellOf ((pos.get [r, 1] - y0) / dy) < ny := by omega
    have m2 : cellOf ((pos.get [r, 2] - z0) / dz) < nz := by omega
    funext c
    unfold inBox
    show _ = cellValue3 nx ny nz _ ((pos.get [r, 0] - x0) / dx) ((pos.get [r, 1] - y0) / dy)
      ((pos.get [r, 2] - z0) / dz)
    unfold cellValue3
    rw [if_pos ⟨c0, c1, c2⟩]
    simp only
    fin_cases c
    · show f r = _
      rw [vf, (b9 _ m0 _ m1 _ m2).1, (b9 _ l0 _ m1 _ m2).1, (b9 _ m0 _ l1 _ m2).1, (b9 _ l0 _ l1 _ m2).1, (b9 _ m0 _ m1 _ l2).1, (b9 _ l0 _ m1 _ l2).1, (b9 _ m0 _ l1 _ l2).1, (b9 _ l0 _ l1 _ l2).1]
      rfl
    · show g r = _
      rw [vg, (b9 _ m0 _ m1 _ m2).2.1, (b9 _ l0 _ m1 _ m2).2.1, (b9 _ m0 _ l1 _ m2).2.1, (b9 _ l0 _ l1 _ m2).2.1, (b9 _ m0 _ m1 _ l2).2.1, (b9 _ l0 _ m1 _ l2).2.1, (b9 _ m0 _ l1 _ l2).2.1, (b9 _ l0 _ l1 _ l2).2.1]
      rfl
    · show h r = _
      rw [vh, (b9 _ m0 _ m1 _ m2).2.2, (b9 _ l0 _ m1 _ m2).2.2, (b9 _ m0 _ l1 _ m2).2.2, (b9 _ l0 _ l1 _ m2).2.2, (b9 _ m0 _ m1 _ l2).2.2, (b9 _ l0 _ m1 _ l2).2.2, (b9 _ m0 _ l1 _ l2).2.2, (b9 _ l0 _ l1 _ l2).2.2]
      rfl

/-! ## The coordinates read once -/

theorem reused_data {fs : MatFS ℝ} {s : FileSource ℝ} (hr : s.reuseCoordinates = true) {j : ℕ}
    {V P : NDArray ℝ} (h : s.Listed fs j V P) :
    s.dataForStep fs j = .ok (V, if j = 0 then some P else none) := by
  obtain ⟨⟨f, f1, f2⟩, ⟨g, g1, g2⟩⟩ := h
  unfold FileSource.dataForStep
  by_cases hj : j = 0
  · subst hj
    simp [f1, f2, g1, g2]
  · simp [f1, f2, g1, hr, hj]

/-- In two dimensions the first snapshot is read with the last axis first, the others with the first
axis first. -/
theorem scipy_reused_2d {env : Env ℝ FVal} (hsp : env.sp.LinearGrid2) {s : FileSource ℝ}
    (hr : s.reuseCoordinates = true) {nx ny : ℕ} {x0 dx y0 dy : ℝ} (hnx : 2 ≤ nx) (hny : 2 ≤ ny)
    (hdx : 0 < dx) (hdy : 0 < dy) {w : ℕ → ℝ → (Fin 2 → ℝ) → Fin 2 → ℝ} {t : ℕ → ℝ}
    (hd : ∀ j < s.snapshotFiles.length, ∃ V P, s.Listed env.fs j V P ∧
      V.shape = [2, nx * ny] ∧ P.shape = [2, nx * ny] ∧ AxisValues P (nx * ny) 0 nx x0 dx ∧
      AxisValues P (nx * ny) 1 ny y0 dy ∧ ∀ a < nx, ∀ b < ny, ∀ c : Fin 2,
        V.get [c, if j = 0 then a * ny + b else a + nx * b] = w j (t j) ![x0 + a * dx, y0 + b * dy] c)
    (j : ℕ) (hj : j < s.snapshotFiles.length) (R : ℕ) :
    ((Source.file s).updated env (.grid (GridState.fresh .linear [nx, ny])) (j + 1)).2 = none ∧
    PointwiseOn {z | OnAxis nx x0 dx (z 0) ∧ OnAxis ny y0 dy (z 1)} R
      (((Source.file s).updated env (.grid (GridState.fresh .linear [nx, ny])) (j + 1)).1.velocity env)
      (bilinear (w j) (t j) nx ny x0 dx y0 dy) := by
  have all : ∀ i < s.snapshotFiles.length, ∃ s',
      (Source.file s).updated env (.grid (GridState.fresh .linear [nx, ny])) (i + 1) = (.grid s', none) ∧
      Holds2 s' nx ny x0 dx y0 dy (w i (t i)) := by
    intro i
    induction i with
    | zero =>
      intro hi
      obtain ⟨V, P, a1, a2, a3, a4, a5, a6⟩ := hd 0 hi
      simp only [if_true] at a6
      obtain ⟨s', b1, b2⟩ := scipy_init_2d hsp hnx hny hdx hdy a2 a3 a4 a5
        (s := GridState.fresh .linear [nx, ny]) rfl rfl a6
      refine ⟨s', ?_, b2⟩
      simp only [Source.updated, Source.updateInterp, reused_data hr a1, if_true, AnyInterp.update, b1]
    | succ i ih =>
      intro hi
      obtain ⟨s1, h1, h2⟩ := ih (by omega)
      obtain ⟨V, P, a1, a2, -, -, -, a6⟩ := hd (i + 1) hi
      simp only [Nat.succ_ne_zero, if_false] at a6
      obtain ⟨s', b1, b2⟩ := scipy_again_2d (sp := env.sp) a2 h2 a6
      refine ⟨s', ?_, b2⟩
      rw [Source.updated, h1]
      simp only [Source.updateInterp, reused_data hr a1, Nat.succ_ne_zero, if_false, AnyInterp.update, b1]
  obtain ⟨s', h1, h2⟩ := all j hj
  rw [h1]
  exact ⟨rfl, holds_pointwise_2d hsp hnx hny hdx hdy h2 R⟩

/-- In three dimensions all snapshots are read alike. -/
theorem scipy_reused_3d {env : Env ℝ FVal} (hsp : env.sp.LinearGrid3) {s : FileSource ℝ}
    (hr : s.reuseCoordinates = true) {nx ny nz : ℕ} {x0 dx y0 dy z0 dz : ℝ}
    (hnx : 2 ≤ nx) (hny : 2 ≤ ny) (hnz : 2 ≤ nz) (hdx : 0 < dx) (hdy : 0 < dy) (hdz : 0 < dz)
    {v : ℝ → (Fin 3 → ℝ) → Fin 3 → ℝ} {t : ℕ → ℝ}
    (hd : ∀ j < s.snapshotFiles.length, ∃ V P, s.Listed env.fs j V P ∧
      V.shape = [3, nx * ny * nz] ∧ P.shape = [3, nx * ny * nz] ∧ AxisValues P (nx * ny * nz) 0 nx x0 dx ∧
      AxisValues P (nx * ny * nz) 1 ny y0 dy ∧ AxisValues P (nx * ny * nz) 2 nz z0 dz ∧
      ∀ a < nx, ∀ b < ny, ∀ e < nz, ∀ c : Fin 3, V.get [c, (a * ny + b) * nz + e] =
        v (t j) ![x0 + a * dx, y0 + b * dy, z0 + e * dz] c)
    (j : ℕ) (hj : j < s.snapshotFiles.length) (R : ℕ) :
    ((Source.file s).updated env (.grid (GridState.fresh .linear [nx, ny, nz])) (j + 1)).2 = none ∧
    PointwiseOn {z | OnAxis nx x0 dx (z 0) ∧ OnAxis ny y0 dy (z 1) ∧ OnAxis nz z0 dz (z 2)} R
      (((Source.file s).updated env (.grid (GridState.fresh .linear [nx, ny, nz])) (j + 1)).1.velocity env)
      (inBox v (t j) nx ny nz x0 dx y0 dy z0 dz) := by
  have all : ∀ i < s.snapshotFiles.length, ∃ s',
      (Source.file s).updated env (.grid (GridState.fresh .linear [nx, ny, nz])) (i + 1) =
        (.grid s', none) ∧ Holds3 s' nx ny nz x0 dx y0 dy z0 dz (v (t i)) := by
    intro i
    induction i with
    | zero =>
      intro hi
      obtain ⟨V, P, a1, a2, a3, a4, a5, a6, a7⟩ := hd 0 hi
      obtain ⟨s', b1, b2⟩ := scipy_init_3d hsp hnx hny hnz hdx hdy hdz a2 a3 a4 a5 a6
        (s := GridState.fresh .linear [nx, ny, nz]) rfl rfl a7
      refine ⟨s', ?_, b2⟩
      simp only [Source.updated, Source.updateInterp, reused_data hr a1, if_true, AnyInterp.update, b1]
    | succ i ih =>
      intro hi
      obtain ⟨s1, h1, h2⟩ := ih (by omega)
      obtain ⟨V, P, a1, a2, -, -, -, -, a7⟩ := hd (i + 1) hi
      obtain ⟨s', b1, b2⟩ := scipy_again_3d (sp := env.sp) a2 h2 a7
      refine ⟨s', ?_, b2⟩
      rw [Source.updated, h1]
      simp only [Source.updateInterp, reused_data hr a1, Nat.succ_ne_zero, if_false, AnyInterp.update, b1]
  obtain ⟨s', h1, h2⟩ := all j hj
  rw [h1]
  exact ⟨rfl, holds_pointwise_3d hsp hnx hny hnz hdx hdy hdz h2 R⟩

/-- The same with coordinates for every snapshot. -/
theorem scipy_fresh_3d {env : Env ℝ FVal} (hsp : env.sp.LinearGrid3) {s : FileSource ℝ}
    (hr : s.reuseCoordinates = false) {nx ny nz : ℕ} {x0 dx y0 dy z0 dz : ℝ}
    (hnx : 2 ≤ nx) (hny : 2 ≤ ny) (hnz : 2 ≤ nz) (hdx : 0 < dx) (hdy : 0 < dy) (hdz : 0 < dz)
    {v : ℝ → (Fin 3 → ℝ) → Fin 3 → ℝ} {t : ℕ → ℝ}
    (hd : ∀ j < s.snapshotFiles.length, ∃ V P, s.Listed env.fs j V P ∧
      V.shape = [3, nx * ny * nz] ∧ P.shape = [3, nx * ny * nz] ∧ AxisValues P (nx * ny * nz) 0 nx x0 dx ∧
      AxisValues P (nx * ny * nz) 1 ny y0 dy ∧ AxisValues P (nx * ny * nz) 2 nz z0 dz ∧
      ∀ a < nx, ∀ b < ny, ∀ e < nz, ∀ c : Fin 3, V.get [c, (a * ny + b) * nz + e] =
        v (t j) ![x0 + a * dx, y0 + b * dy, z0 + e * dz] c)
    (j : ℕ) (hj : j < s.snapshotFiles.length) (R : ℕ) :
    ((Source.file s).updated env (.grid (GridState.fresh .linear [nx, ny, nz])) (j + 1)).2 = none ∧
    PointwiseOn {z | OnAxis nx x0 dx (z 0) ∧ OnAxis ny y0 dy (z 1) ∧ OnAxis nz z0 dz (z 2)} R
      (((Source.file s).updated env (.grid (GridState.fresh .linear [nx, ny, nz])) (j + 1)).1.velocity env)
      (inBox v (t j) nx ny nz x0 dx y0 dy z0 dz) := by
  have all : ∀ i < s.snapshotFiles.length, ∃ s',
      (Source.file s).updated env (.grid (GridState.fresh .linear [nx, ny, nz])) (i + 1) =
        (.grid s', none) ∧ Holds3 s' nx ny nz x0 dx y0 dy z0 dz (v (t i)) := by
    intro i
    induction i with
    | zero =>
      intro hi
      obtain ⟨V, P, a1, a2, a3, a4, a5, a6, a7⟩ := hd 0 hi
      obtain ⟨s', b1, b2⟩ := scipy_init_3d hsp hnx hny hnz hdx hdy hdz a2 a3 a4 a5 a6
        (s := GridState.fresh .linear [nx, ny, nz]) rfl rfl a7
      refine ⟨s', ?_, b2⟩
      simp only [Source.updated, Source.updateInterp, listed_data hr a1, AnyInterp.update, b1]
    | succ i ih =>
      intro hi
      obtain ⟨s1, h1, h2⟩ := ih (by omega)
      obtain ⟨V, P, a1, a2, a3, a4, a5, a6, a7⟩ := hd (i + 1) hi
      obtain ⟨s', b1, b2⟩ := scipy_init_3d hsp hnx hny hnz hdx hdy hdz a2 a3 a4 a5 a6 h2.1 h2.2.1 a7
      refine ⟨s', ?_, b2⟩
      rw [Source.updated, h1]
      simp only [Source.updateInterp, listed_data hr a1, AnyInterp.update, b1]
  obtain ⟨s', h1, h2⟩ := all j hj
  rw [h1]
  exact ⟨rfl, holds_pointwise_3d hsp hnx hny hnz hdx hdy hdz h2 R⟩

end Verif
