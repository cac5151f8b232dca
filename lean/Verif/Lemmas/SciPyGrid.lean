import Verif.Lemmas.Extent
import Verif.Props.GridError

/-!
# The SciPy grid interpolator with the linear method

What SciPy is assumed to do (`SciPy.LinearGrid2`, `SciPy.LinearGrid3`), and the velocity that
`GridInterpolator` then hands out after an update with coordinates.
-/

namespace Verif

open Matrix

/-- The axis `linspace(lo, hi, n)` has at least one cell. -/
structure ProperAxis (a : ℝ × ℝ × ℕ) : Prop where
  lt : a.1 < a.2.1
  two : 2 ≤ a.2.2

/-- Where `x` is on the axis `linspace(lo, hi, n)`, counted in cells. -/
noncomputable def gridCoord (a : ℝ × ℝ × ℕ) (x : ℝ) : ℝ :=
  (x - a.1) * ((a.2.2 : ℝ) - 1) / (a.2.1 - a.1)

/-- `q` is in the closed cell `i` of an axis with `n` points. -/
def InCell (n i : ℕ) (q : ℝ) : Prop := i + 1 < n ∧ (i : ℝ) ≤ q ∧ q ≤ i + 1

/-- `RegularGridInterpolator(axes, values, method="linear")` in two dimensions: accepts every grid with
at least one cell along each axis, and interpolates linearly in `x`, then in `y`, in every closed
cell. -/
structure SciPy.LinearGrid2 (sp : SciPy ℝ) : Prop where
  build : ∀ a b A, ProperAxis a → ProperAxis b → A.shape = [a.2.2, b.2.2] →
    sp.gridBuild .linear [a, b] A = none
  call : ∀ a b A q R, ProperAxis a → ProperAxis b → A.shape = [a.2.2, b.2.2] → q.shape = [R, 2] →
    ∃ f, sp.gridCall .linear [a, b] A q = .ok f ∧ ∀ r < R, ∀ i j,
      InCell a.2.2 i (gridCoord a (q.get [r, 0])) → InCell b.2.2 j (gridCoord b (q.get [r, 1])) →
      f r = lerp (lerp (A.get [i, j]) (A.get [i + 1, j]) (gridCoord a (q.get [r, 0]) - i))
        (lerp (A.get [i, j + 1]) (A.get [i + 1, j + 1]) (gridCoord a (q.get [r, 0]) - i))
        (gridCoord b (q.get [r, 1]) - j)

/-- The same in three dimensions. -/
structure SciPy.LinearGrid3 (sp : SciPy ℝ) : Prop where
  build : ∀ a b e A, ProperAxis a → ProperAxis b → ProperAxis e → A.shape = [a.2.2, b.2.2, e.2.2] →
    sp.gridBuild .linear [a, b, e] A = none
  call : ∀ a b e A q R, ProperAxis a → ProperAxis b → ProperAxis e →
    A.shape = [a.2.2, b.2.2, e.2.2] → q.shape = [R, 3] →
    ∃ f, sp.gridCall .linear [a, b, e] A q = .ok f ∧ ∀ r < R, ∀ i j k,
      InCell a.2.2 i (gridCoord a (q.get [r, 0])) → InCell b.2.2 j (gridCoord b (q.get [r, 1])) →
      InCell e.2.2 k (gridCoord e (q.get [r, 2])) →
      f r = lerp
        (lerp (lerp (A.get [i, j, k]) (A.get [i + 1, j, k]) (gridCoord a (q.get [r, 0]) - i))
          (lerp (A.get [i, j + 1, k]) (A.get [i + 1, j + 1, k]) (gridCoord a (q.get [r, 0]) - i))
          (gridCoord b (q.get [r, 1]) - j))
        (lerp (lerp (A.get [i, j, k + 1]) (A.get [i + 1, j, k + 1]) (gridCoord a (q.get [r, 0]) - i))
          (lerp (A.get [i, j + 1, k + 1]) (A.get [i + 1, j + 1, k + 1]) (gridCoord a (q.get [r, 0]) - i))
          (gridCoord b (q.get [r, 1]) - j))
        (gridCoord e (q.get [r, 2]) - k)

/-- The axis of `n` points from `x0` with spacing `dx`. -/
noncomputable def axisTriple (x0 dx : ℝ) (n : ℕ) : ℝ × ℝ × ℕ := (x0, x0 + ((n : ℝ) - 1) * dx, n)

theorem axisTriple_proper {x0 dx : ℝ} {n : ℕ} (hdx : 0 < dx) (hn : 2 ≤ n) :
    ProperAxis (axisTriple x0 dx n) := by
  have : (2 : ℝ) ≤ n := by exact_mod_cast hn
  refine ⟨?_, hn⟩
  show x0 < x0 + ((n : ℝ) - 1) * dx
  nlinarith

theorem axisTriple_coord {x0 dx : ℝ} {n : ℕ} (hdx : 0 < dx) (hn : 2 ≤ n) (x : ℝ) :
    gridCoord (axisTriple x0 dx n) x = (x - x0) / dx := by
  have h2 : (2 : ℝ) ≤ n := by exact_mod_cast hn
  have : (n : ℝ) - 1 ≠ 0 := by linarith
  unfold gridCoord axisTriple
  simp only
  rw [add_sub_cancel_left]
  field_simp

theorem gridAxis_uniform {p : NDArray ℝ} {d N c n : ℕ} {x0 dx : ℝ} (hp : p.shape = [d, N]) (hn : 2 ≤ n)
    (hdx : 0 < dx) (h : AxisValues p N c n x0 dx) : gridAxis p c n = .ok (axisTriple x0 dx n) := by
  have hl := row_toList hp c
  have hcast : ∀ i : ℕ, i < n → (i : ℝ) ≤ (n : ℝ) - 1 := by
    intro i hi
    have : ((i + 1 : ℕ) : ℝ) ≤ n := by exact_mod_cast hi
    push_cast at this
    linarith
  have hmin : npMin (p.row c) = .ok x0 := by
    apply npMin_eq
    · intro y hy
      rw [hl] at hy
      simp only [List.mem_map, List.mem_range] at hy
      obtain ⟨k, hk, rfl⟩ := hy
      obtain ⟨i, hi, e⟩ := h.1 k hk
      rw [e]
      have : (0 : ℝ) ≤ i * dx := mul_nonneg (Nat.cast_nonneg i) hdx.le
      linarith
    · rw [hl]
      obtain ⟨k, hk, e⟩ := h.2 0 (by omega)
      simp only [List.mem_map, List.mem_range]
      exact ⟨k, hk, by rw [e]; simp⟩
  have hmax : npMax (p.row c) = .ok (x0 + ((n : ℝ) - 1) * dx) := by
    apply npMax_eq
    · intro y hy
      rw [hl] at hy
      simp only [List.mem_map, List.mem_range] at hy
      obtain ⟨k, hk, rfl⟩ := hy
      obtain ⟨i, hi, e⟩ := h.1 k hk
      rw [e]
      have := mul_le_mul_of_nonneg_right (hcast i hi) hdx.le
      linarith
    · rw [hl]
      obtain ⟨k, hk, e⟩ := h.2 (n - 1) (by omega)
      simp only [List.mem_map, List.mem_range]
      refine ⟨k, hk, e.trans ?_⟩
      rw [Nat.cast_sub (by omega), Nat.cast_one]
  simp only [gridAxis, hmin, hmax, axisTriple]

theorem gridObject_some {sp : SciPy ℝ} {me : GridMethod} {axes : List (ℝ × ℝ × ℕ)} {v : NDArray ℝ}
    {c d N : ℕ} {sh : List ℕ} (hv : v.shape = [d, N]) (hc : c < d) (hN : N = sh.prod)
    (hb : ∀ A : NDArray ℝ, A.shape = sh → sp.gridBuild me axes A = none) :
    ∃ A, gridObject sp me axes v c sh = .ok (axes, A) ∧ A.shape = sh ∧
      ∀ idx, A.get idx = v.get (c :: decC [N] (encC sh idx)) := by
  obtain ⟨A, hA⟩ : ∃ A, (v.row c).reshapeC sh = .ok A := by
    unfold NDArray.reshapeC
    rw [if_pos (by simp [NDArray.row, hv, hN])]
    exact ⟨_, rfl⟩
  have hs : A.shape = sh := by
    unfold NDArray.reshapeC at hA
    split at hA
    · cases hA; rfl
    · cases hA
  have e : gridObject sp me axes v c sh = .ok (axes, A) := by
    simp only [gridObject, rowAt_lt hv hc, hA, hb A hs]
  exact ⟨A, e, hs, (gridObject_ok hv e).2.2.2⟩

/-! ## Two dimensions -/

theorem scipy_update_2d {sp : SciPy ℝ} (hsp : sp.LinearGrid2) {nx ny : ℕ} {x0 dx y0 dy : ℝ}
    (hnx : 2 ≤ nx) (hny : 2 ≤ ny) (hdx : 0 < dx) (hdy : 0 < dy) {v p : NDArray ℝ}
    (hv : v.shape = [2, nx * ny]) (hp : p.shape = [2, nx * ny]) (hx : AxisValues p (nx * ny) 0 nx x0 dx)
    (hy : AxisValues p (nx * ny) 1 ny y0 dy) {s : GridState ℝ} (hgs : s.gridShape = [nx, ny])
    (hme : s.method = .linear) :
    ∃ s' A B, s.update sp v (some p) = (s', none) ∧ s'.gridShape = [nx, ny] ∧ s'.method = .linear ∧
      s'.ndim = some 2 ∧ s'.ix = some ([axisTriple x0 dx nx, axisTriple y0 dy ny], A) ∧
      s'.iy = some ([axisTriple x0 dx nx, axisTriple y0 dy ny], B) ∧
      A.shape = [nx, ny] ∧ B.shape = [nx, ny] ∧
      (∀ i j, A.get [i, j] = v.get [0, i * ny + j]) ∧ ∀ i j, B.get [i, j] = v.get [1, i * ny + j] := by
  have hpr : [nx, ny].prod = nx * ny := by simp
  have hdec : ∀ i j, decC [nx * ny] (encC [nx, ny] [i, j]) = [i * ny + j] := by
    intro i j
    simp [decC, encC]
  obtain ⟨A, a1, a2, a3⟩ := gridObject_some (sp := sp) (me := .linear)
    (axes := [axisTriple x0 dx nx, axisTriple y0 dy ny]) (c := 0) (sh := [nx, ny]) hv (by norm_num)
    hpr.symm fun A hA => hsp.build _ _ _ (axisTriple_proper hdx hnx) (axisTriple_proper hdy hny) hA
  obtain ⟨B, b1, b2, b3⟩ := gridObject_some (sp := sp) (me := .linear)
    (axes := [axisTriple x0 dx nx, axisTriple y0 dy ny]) (c := 1) (sh := [nx, ny]) hv (by norm_num)
    hpr.symm fun A hA => hsp.build _ _ _ (axisTriple_proper hdx hnx) (axisTriple_proper hdy hny) hA
  rw [grid_update_some]
  unfold GridState.initialize
  simp only [hp, hgs, hpr, ne_eq, not_true_eq_false, if_false, false_and, hme,
    gridAxis_uniform hp hnx hdx hx, gridAxis_uniform hp hny hdy hy, a1, b1]
  exact ⟨_, A, B, rfl, rfl, rfl, rfl, rfl, rfl, a2, b2, fun i j => by rw [a3, hdec],
    fun i j => by rw [b3, hdec]⟩

/-- The velocities and points listed for step `j`, in the order of `GridInterpolator`: the last axis
first. -/
structure NodeValues2 (fs : MatFS ℝ) (s : FileSource ℝ) (v : ℝ → (Fin 2 → ℝ) → Fin 2 → ℝ) (t0 : ℝ)
    (nx ny : ℕ) (x0 dx y0 dy : ℝ) : Prop where
  fresh : s.reuseCoordinates = false
  hnx : 2 ≤ nx
  hny : 2 ≤ ny
  hdx : 0 < dx
  hdy : 0 < dy
  data : ∀ j < s.snapshotFiles.length, ∃ V P, s.Listed fs j V P ∧
    V.shape = [2, nx * ny] ∧ P.shape = [2, nx * ny] ∧ AxisValues P (nx * ny) 0 nx x0 dx ∧
    AxisValues P (nx * ny) 1 ny y0 dy ∧ ∀ a < nx, ∀ b < ny, ∀ c : Fin 2,
      V.get [c, a * ny + b] = v (t0 + j * s.timestep) ![x0 + a * dx, y0 + b * dy] c

theorem inCell_of {n : ℕ} {q : ℝ} (h : InCells n q) : InCell n (cellOf q) q := by
  obtain ⟨h1, h2, h3⟩ := cell_frac h
  exact ⟨h1, by linarith, by linarith⟩

theorem scipy_updated_2d {env : Env ℝ FVal} (hsp : env.sp.LinearGrid2) {s : FileSource ℝ}
    {v : ℝ → (Fin 2 → ℝ) → Fin 2 → ℝ} {t0 : ℝ} {nx ny : ℕ} {x0 dx y0 dy : ℝ}
    (hd : NodeValues2 env.fs s v t0 nx ny x0 dx y0 dy) (j : ℕ) (hj : j < s.snapshotFiles.length)
    (R : ℕ) :
    ((Source.file s).updated env (.grid (GridState.fresh .linear [nx, ny])) (j + 1)).2 = none ∧
    PointwiseOn {z | OnAxis nx x0 dx (z 0) ∧ OnAxis ny y0 dy (z 1)} R
      (((Source.file s).updated env (.grid (GridState.fresh .linear [nx, ny])) (j + 1)).1.velocity env)
      (bilinear v (t0 + j * s.timestep) nx ny x0 dx y0 dy) := by
  have shape : ∀ i ≤ s.snapshotFiles.length, ∃ s' : GridState ℝ, s'.gridShape = [nx, ny] ∧
      s'.method = .linear ∧
      (Source.file s).updated env (.grid (GridState.fresh .linear [nx, ny])) i = (.grid s', none) := by
    intro i
    induction i with
    | zero => exact fun _ => ⟨_, rfl, rfl, rfl⟩
    | succ i ih =>
      intro hi
      obtain ⟨s', h1, h1', h2⟩ := ih (by omega)
      obtain ⟨V, P, a1, a2, a3, a4, a5, -⟩ := hd.data i (by omega)
      obtain ⟨s2, A, B, b1, b2, b3, -⟩ := scipy_update_2d hsp hd.hnx hd.hny hd.hdx hd.hdy a2 a3 a4 a5 h1 h1'
      refine ⟨s2, b2, b3, ?_⟩
      simp only [Source.updated, h2, Source.updateInterp, listed_data hd.fresh a1,
        AnyInterp.update, b1]
  obtain ⟨s', h1, h1', h2⟩ := shape j hj.le
  obtain ⟨V, P, a1, a2, a3, a4, a5, a6⟩ := hd.data j hj
  obtain ⟨s2, A, B, b1, b2, b3, b4, b5, b6, b7, b8, b9, b10⟩ :=
    scipy_update_2d hsp hd.hnx hd.hny hd.hdx hd.hdy a2 a3 a4 a5 h1 h1'
  have hu : (Source.file s).updated env (.grid (GridState.fresh .linear [nx, ny])) (j + 1) =
      (.grid s2, none) := by
    simp only [Source.updated, h2, Source.updateInterp, listed_data hd.fresh a1,
      AnyInterp.update, b1]
  rw [hu]
  refine ⟨rfl, fun pos hp hS => ?_⟩
  have px := axisTriple_proper (x0 := x0) hd.hdx hd.hnx
  have py := axisTriple_proper (x0 := y0) hd.hdy hd.hny
  obtain ⟨f, f1, f2⟩ := hsp.call _ _ A pos R px py b7 hp
  obtain ⟨g, g1, g2⟩ := hsp.call _ _ B pos R px py b8 hp
  have o1 : assignCol (emptyLike env.junk pos) 0 f = .ok (setCol (emptyLike env.junk pos) 0 f) := by
    simp [assignCol, emptyLike, hp]
  have o2 : assignCol (setCol (emptyLike env.junk pos) 0 f) 1 g =
      .ok (setCol (setCol (emptyLike env.junk pos) 0 f) 1 g) := by
    simp [assignCol, setCol, emptyLike, hp]
  refine ⟨setCol (setCol (emptyLike env.junk pos) 0 f) 1 g, ?_, hp, fun r hr => ?_⟩
  · simp only [AnyInterp.velocity, AnyInterp.interpolate, GridState.interpolate, b5, b6, gridCol, b3, f1,
      g1, o1, o2, b4]
    rfl
  · have c0 : InCells nx ((pos.get [r, 0] - x0) / dx) := (hS r hr).1.inCells hd.hdx
    have c1 : InCells ny ((pos.get [r, 1] - y0) / dy) := (hS r hr).2.inCells hd.hdy
    have i0 := inCell_of c0
    have i1 := inCell_of c1
    have vf := f2 r hr (cellOf ((pos.get [r, 0] - x0) / dx)) (cellOf ((pos.get [r, 1] - y0) / dy))
      (by rw [axisTriple_coord hd.hdx hd.hnx]; exact i0) (by rw [axisTriple_coord hd.hdy hd.hny]; exact i1)
    have vg := g2 r hr (cellOf ((pos.get [r, 0] - x0) / dx)) (cellOf ((pos.get [r, 1] - y0) / dy))
      (by rw [axisTriple_coord hd.hdx hd.hnx]; exact i0) (by rw [axisTriple_coord hd.hdy hd.hny]; exact i1)
    rw [axisTriple_coord hd.hdx hd.hnx, axisTriple_coord hd.hdy hd.hny] at vf vg
    have l0 := i0.1
    have l1 := i1.1
    have m0 : cellOf ((pos.get [r, 0] - x0) / dx) < nx := by omega
    have m1 : cellOf ((pos.get [r, 1] - y0) / dy) < ny := by omega
    funext c
    unfold bilinear
    show _ = cellValue2 nx ny _ ((pos.get [r, 0] - x0) / dx) ((pos.get [r, 1] - y0) / dy)
    unfold cellValue2
    rw [if_pos ⟨c0, c1⟩]
    simp only
    rw [← a6 _ m0 _ m1, ← a6 _ l0 _ m1, ← a6 _ m0 _ l1, ← a6 _ l0 _ l1]
    fin_cases c
    · show f r = _
      rw [vf, b9, b9, b9, b9]
    · show g r = _
      rw [vg, b10, b10, b10, b10]

/-! ## Three dimensions -/

theorem scipy_update_3d {sp : SciPy ℝ} (hsp : sp.LinearGrid3) {nx ny nz : ℕ} {x0 dx y0 dy z0 dz : ℝ}
    (hnx : 2 ≤ nx) (hny : 2 ≤ ny) (hnz : 2 ≤ nz) (hdx : 0 < dx) (hdy : 0 < dy) (hdz : 0 < dz)
    {v p : NDArray ℝ} (hv : v.shape = [3, nx * ny * nz]) (hp : p.shape = [3, nx * ny * nz])
    (hx : AxisValues p (nx * ny * nz) 0 nx x0 dx) (hy : AxisValues p (nx * ny * nz) 1 ny y0 dy)
    (hz : AxisValues p (nx * ny * nz) 2 nz z0 dz) {s : GridState ℝ} (hgs : s.gridShape = [nx, ny, nz])
    (hme : s.method = .linear) :
    ∃ s' A B C, s.update sp v (some p) = (s', none) ∧ s'.gridShape = [nx, ny, nz] ∧
      s'.method = .linear ∧ s'.ndim = some 3 ∧
      s'.ix = some ([axisTriple x0 dx nx, axisTriple y0 dy ny, axisTriple z0 dz nz], A) ∧
      s'.iy = some ([axisTriple x0 dx nx, axisTriple y0 dy ny, axisTriple z0 dz nz], B) ∧
      s'.iz = some ([axisTriple x0 dx nx, axisTriple y0 dy ny, axisTriple z0 dz nz], C) ∧
      A.shape = [nx, ny, nz] ∧ B.shape = [nx, ny, nz] ∧ C.shape = [nx, ny, nz] ∧
      (∀ i j k, A.get [i, j, k] = v.get [0, (i * ny + j) * nz + k]) ∧
      (∀ i j k, B.get [i, j, k] = v.get [1, (i * ny + j) * nz + k]) ∧
      ∀ i j k, C.get [i, j, k] = v.get [2, (i * ny + j) * nz + k] := by
  have hpr : [nx, ny, nz].prod = nx * ny * nz := by simp; ring
  have hdec : ∀ i j k, decC [nx * ny * nz] (encC [nx, ny, nz] [i, j, k]) = [(i * ny + j) * nz + k] := by
    intro i j k
    simp [decC, encC]; ring
  have px := axisTriple_proper (x0 := x0) hdx hnx
  have py := axisTriple_proper (x0 := y0) hdy hny
  have pz := axisTriple_proper (x0 := z0) hdz hnz
  obtain ⟨A, a1, a2, a3⟩ := gridObject_some (sp := sp) (me := .linear)
    (axes := [axisTriple x0 dx nx, axisTriple y0 dy ny, axisTriple z0 dz nz]) (c := 0)
    (sh := [nx, ny, nz]) hv (by norm_num) hpr.symm fun A hA => hsp.build _ _ _ _ px py pz hA
  obtain ⟨B, b1, b2, b3⟩ := gridObject_some (sp := sp) (me := .linear)
    (axes := [axisTriple x0 dx nx, axisTriple y0 dy ny, axisTriple z0 dz nz]) (c := 1)
    (sh := [nx, ny, nz]) hv (by norm_num) hpr.symm fun A hA => hsp.build _ _ _ _ px py pz hA
  obtain ⟨C, c1, c2, c3⟩ := gridObject_some (sp := sp) (me := .linear)
    (axes := [axisTriple x0 dx nx, axisTriple y0 dy ny, axisTriple z0 dz nz]) (c := 2)
    (sh := [nx, ny, nz]) hv (by norm_num) hpr.symm fun A hA => hsp.build _ _ _ _ px py pz hA
  rw [grid_update_some]
  unfold GridState.initialize
  simp only [hp, hgs, hpr, ne_eq, not_true_eq_false, if_false, and_false, hme,
    gridAxis_uniform hp hnx hdx hx, gridAxis_uniform hp hny hdy hy, gridAxis_uniform hp hnz hdz hz,
    a1, b1, c1]
  exact ⟨_, A, B, C, rfl, rfl, rfl, rfl, rfl, rfl, rfl, a2, b2, c2, fun i j k => by rw [a3, hdec],
    fun i j k => by rw [b3, hdec], fun i j k => by rw [c3, hdec]⟩

/-- The velocities and points listed for step `j`, in the order of `GridInterpolator`. -/
structure NodeValues3 (fs : MatFS ℝ) (s : FileSource ℝ) (v : ℝ → (Fin 3 → ℝ) → Fin 3 → ℝ) (t0 : ℝ)
    (nx ny nz : ℕ) (x0 dx y0 dy z0 dz : ℝ) : Prop where
  fresh : s.reuseCoordinates = false
  hnx : 2 ≤ nx
  hny : 2 ≤ ny
  hnz : 2 ≤ nz
  hdx : 0 < dx
  hdy : 0 < dy
  hdz : 0 < dz
  data : ∀ j < s.snapshotFiles.length, ∃ V P, s.Listed fs j V P ∧
    V.shape = [3, nx * ny * nz] ∧ P.shape = [3, nx * ny * nz] ∧ AxisValues P (nx * ny * nz) 0 nx x0 dx ∧
    AxisValues P (nx * ny * nz) 1 ny y0 dy ∧ AxisValues P (nx * ny * nz) 2 nz z0 dz ∧
    ∀ a < nx, ∀ b < ny, ∀ e < nz, ∀ c : Fin 3, V.get [c, (a * ny + b) * nz + e] =
      v (t0 + j * s.timestep) ![x0 + a * dx, y0 + b * dy, z0 + e * dz] c

theorem scipy_updated_3d {env : Env ℝ FVal} (hsp : env.sp.LinearGrid3) {s : FileSource ℝ}
    {v : ℝ → (Fin 3 → ℝ) → Fin 3 → ℝ} {t0 : ℝ} {m nz : ℕ} {x0 dx y0 dy z0 dz : ℝ}
    (hd : NodeValues3 env.fs s v t0 m m nz x0 dx y0 dy z0 dz) (j : ℕ)
    (hj : j < s.snapshotFiles.length) (R : ℕ) :
    ((Source.file s).updated env (.grid (GridState.fresh .linear [m, m, nz])) (j + 1)).2 = none ∧
    PointwiseOn {z | OnAxis m x0 dx (z 0) ∧ OnAxis m y0 dy (z 1) ∧ OnAxis nz z0 dz (z 2)} R
      (((Source.file s).updated env (.grid (GridState.fresh .linear [m, m, nz])) (j + 1)).1.velocity env)
      (trilinear v (t0 + j * s.timestep) m nz x0 dx y0 dy z0 dz) := by
  have shape : ∀ i ≤ s.snapshotFiles.length, ∃ s' : GridState ℝ, s'.gridShape = [m, m, nz] ∧
      s'.method = .linear ∧
      (Source.file s).updated env (.grid (GridState.fresh .linear [m, m, nz])) i = (.grid s', none) := by
    intro i
    induction i with
    | zero => exact fun _ => ⟨_, rfl, rfl, rfl⟩
    | succ i ih =>
      intro hi
      obtain ⟨s', h1, h1', h2⟩ := ih (by omega)
      obtain ⟨V, P, a1, a2, a3, a4, a5, a6, -⟩ := hd.data i (by omega)
      obtain ⟨s2, A, B, C, b1, b2, b3, -⟩ := scipy_update_3d hsp hd.hnx hd.hny hd.hnz hd.hdx hd.hdy hd.hdz
        a2 a3 a4 a5 a6 h1 h1'
      refine ⟨s2, b2, b3, ?_⟩
      simp only [Source.updated, h2, Source.updateInterp, listed_data hd.fresh a1,
        AnyInterp.update, b1]
  obtain ⟨s', h1, h1', h2⟩ := shape j hj.le
  obtain ⟨V, P, a1, a2, a3, a4, a5, a6, a7⟩ := hd.data j hj
  obtain ⟨s2, A, B, C, b1, b2, b3, b4, b5, b6, b6', b7, b8, b8', b9, b10, b11⟩ :=
    scipy_update_3d hsp hd.hnx hd.hny hd.hnz hd.hdx hd.hdy hd.hdz a2 a3 a4 a5 a6 h1 h1'
  have hu : (Source.file s).updated env (.grid (GridState.fresh .linear [m, m, nz])) (j + 1) =
      (.grid s2, none) := by
    simp only [Source.updated, h2, Source.updateInterp, listed_data hd.fresh a1,
      AnyInterp.update, b1]
  rw [hu]
  refine ⟨rfl, fun pos hp hS => ?_⟩
  have px := axisTriple_proper (x0 := x0) hd.hdx hd.hnx
  have py := axisTriple_proper (x0 := y0) hd.hdy hd.hny
  have pz := axisTriple_proper (x0 := z0) hd.hdz hd.hnz
  obtain ⟨f, f1, f2⟩ := hsp.call _ _ _ A pos R px py pz b7 hp
  obtain ⟨g, g1, g2⟩ := hsp.call _ _ _ B pos R px py pz b8 hp
  obtain ⟨h, k1, k2⟩ := hsp.call _ _ _ C pos R px py pz b8' hp
  have o1 : assignCol (emptyLike env.junk pos) 0 f = .ok (setCol (emptyLike env.junk pos) 0 f) := by
    simp [assignCol, emptyLike, hp]
  have o2 : assignCol (setCol (emptyLike env.junk pos) 0 f) 1 g =
      .ok (setCol (setCol (emptyLike env.junk pos) 0 f) 1 g) := by
    simp [assignCol, setCol, emptyLike, hp]
  have o3 : assignCol (setCol (setCol (emptyLike env.junk pos) 0 f) 1 g) 2 h =
      .ok (setCol (setCol (setCol (emptyLike env.junk pos) 0 f) 1 g) 2 h) := by
    simp [assignCol, setCol, emptyLike, hp]
  refine ⟨setCol (setCol (setCol (emptyLike env.junk pos) 0 f) 1 g) 2 h, ?_, hp, fun r hr => ?_⟩
  · simp only [AnyInterp.velocity, AnyInterp.interpolate, GridState.interpolate, b5, b6, b6', gridCol, b3,
      f1, g1, k1, o1, o2, o3, b4]
    rfl
  · have c0 : InCells m ((pos.get [r, 0] - x0) / dx) := (hS r hr).1.inCells hd.hdx
    have c1 : InCells m ((pos.get [r, 1] - y0) / dy) := (hS r hr).2.1.inCells hd.hdy
    have c2 : InCells nz ((pos.get [r, 2] - z0) / dz) := (hS r hr).2.2.inCells hd.hdz
    have i0 := inCell_of c0
    have i1 := inCell_of c1
    have i2 := inCell_of c2
    have vf := f2 r hr (cellOf ((pos.get [r, 0] - x0) / dx)) (cellOf ((pos.get [r, 1] - y0) / dy))
      (cellOf ((pos.get [r, 2] - z0) / dz))
      (by rw [axisTriple_coord hd.hdx hd.hnx]; exact i0) (by rw [axisTriple_coord hd.hdy hd.hny]; exact i1)
      (by rw [axisTriple_coord hd.hdz hd.hnz]; exact i2)
    have vg := g2 r hr (cellOf ((pos.get [r, 0] - x0) / dx)) (cellOf ((pos.get [r, 1] - y0) / dy))
      (cellOf ((pos.get [r, 2] - z0) / dz))
      (by rw [axisTriple_coord hd.hdx hd.hnx]; exact i0) (by rw [axisTriple_coord hd.hdy hd.hny]; exact i1)
      (by rw [axisTriple_coord hd.hdz hd.hnz]; exact i2)
    have vh := k2 r hr (cellOf ((pos.get [r, 0] - x0) / dx)) (cellOf ((pos.get [r, 1] - y0) / dy))
      (cellOf ((pos.get [r, 2] - z0) / dz))
      (by rw [axisTriple_coord hd.hdx hd.hnx]; exact i0) (by rw [axisTriple_coord hd.hdy hd.hny]; exact i1)
      (by rw [axisTriple_coord hd.hdz hd.hnz]; exact i2)
    rw [axisTriple_coord hd.hdx hd.hnx, axisTriple_coord hd.hdy hd.hny, axisTriple_coord hd.hdz hd.hnz]
      at vf vg vh
    have l0 := i0.1
    have l1 := i1.1
    have l2 := i2.1
    have m0 : cellOf ((pos.get [r, 0] - x0) / dx) < m := by omega
    have m1 : cellOf ((pos.get [r, 1] - y0) / dy) < m := by omega
    have m2 : cellOf ((pos.get [r, 2] - z0) / dz) < nz := by omega
    funext c
    unfold trilinear
    show _ = cellValue3 m m nz _ ((pos.get [r, 0] - x0) / dx) ((pos.get [r, 1] - y0) / dy)
      ((pos.get [r, 2] - z0) / dz)
    unfold cellValue3
    rw [if_pos ⟨c0, c1, c2⟩]
    simp only
    rw [← a7 _ m0 _ m1 _ m2, ← a7 _ l0 _ m1 _ m2, ← a7 _ m0 _ l1 _ m2, ← a7 _ l0 _ l1 _ m2,
      ← a7 _ m0 _ m1 _ l2, ← a7 _ l0 _ m1 _ l2, ← a7 _ m0 _ l1 _ l2, ← a7 _ l0 _ l1 _ l2]
    fin_cases c
    · show f r = _
      simp only [vf, b9]
    · show g r = _
      simp only [vg, b10]
    · show h r = _
      simp only [vh, b11]

end Verif
