import Verif.Model.Interpolate
import Verif.Lemmas.GridInterp
import Verif.Lemmas.Jacobian
import Mathlib.Tactic.FieldSimp
import Mathlib.Tactic.IntervalCases

/-!
# Evaluation lemmas for the interpolator classes
-/

set_option linter.unusedSectionVars false

namespace Verif

section exact
variable {K : Type} [Field K] [LinearOrder K] [IsStrictOrderedRing K] [FloorRing K]

/-- The floor of `q` and its successor fit into 32 bits. -/
def SafeCoord (q : K) : Prop := -intLim ≤ ⌊q⌋ ∧ ⌊q⌋ < intLim - 1

theorem safe_conv {m : CMachine K} (hm : ExactTarget m) {q : K} (h : SafeCoord q) :
    Conv m (fun q : K => ⌊q⌋) (some q) ⌊q⌋ := by
  rcases hm with rfl | rfl
  · exact conv_iso (floor := fun q : K => ⌊q⌋) (ofInt := fun z : ℤ => (z : K)) h.1 h.2
  · have := conv_x86 (floor := fun q : K => ⌊q⌋) (ofInt := fun z : ℤ => (z : K)) (p := some q)
      (by intro q' hq; cases hq; have := h.2; change ⌊q⌋ ≠ _; omega)
    have hr : InInt32 ⌊q⌋ := ⟨h.1, by have := h.2; omega⟩
    simpa only [x86Floor, if_pos hr] using this

theorem inCells_iff {n : ℕ} {q : K} : InCells n q ↔ 0 ≤ ⌊q⌋ ∧ ⌊q⌋ + 1 < n := by
  constructor
  · intro h
    obtain ⟨i, hi, h1, -, -⟩ := inCells_floor h
    rw [hi]; omega
  · rintro ⟨h0, h1⟩
    refine ⟨Int.floor_nonneg.1 h0, ?_⟩
    have h2 : ⌊q⌋ < (n : ℤ) - 1 := by omega
    have h3 : q < (((n : ℤ) - 1 : ℤ) : K) := Int.floor_lt.1 h2
    push_cast at h3
    linarith

theorem inCells_cell {n : ℕ} {q : K} (h : InCells n q) : ⌊q⌋ = (cellOf q : ℤ) ∧ cellOf q + 1 < n := by
  obtain ⟨i, hi, h1, -, -⟩ := inCells_floor h
  unfold cellOf
  rw [hi]; exact ⟨rfl, h1⟩

/-- The 2-D kernel computes the specified value at every safe query. -/
theorem interp2dAt_value {m : CMachine K} (hm : ExactTarget m) {v : NDArray K} {nx ny : ℕ}
    (hs : v.shape = [nx, ny]) (hnx : (nx : ℤ) < intLim) (hny : (ny : ℤ) < intLim) {X Y : K}
    (hX : SafeCoord X) (hY : SafeCoord Y) :
    interp2dAt m v nx ny (some X) (some Y)
      = .ok (cellValue2 nx ny (fun i j => v.get [i, j]) X Y) := by
  by_cases h : InCells nx X ∧ InCells ny Y
  · obtain ⟨hi, hi1⟩ := inCells_cell h.1
    obtain ⟨hj, hj1⟩ := inCells_cell h.2
    rw [interp2dAt_in hs hnx hny (exact_conv hm hnx hi hi1) (exact_conv hm hny hj hj1) hi1 hj1,
      exact_ofInt hm, exact_ofInt hm]
    unfold cellValue2
    rw [if_pos h]
    congr 1
    unfold bilin lerp
    push_cast
    ring
  · unfold cellValue2
    rw [if_neg h]
    refine interp2dAt_out hnx hny (safe_conv hm hX) (safe_conv hm hY) fun c => h ?_
    exact ⟨inCells_iff.2 ⟨c.1, c.2.1⟩, inCells_iff.2 c.2.2⟩

/-- The 3-D kernel computes the specified value at every safe query. -/
theorem interp3dAt_value {m : CMachine K} (hm : ExactTarget m) {v : NDArray K} {nx ny nz : ℕ}
    (hs : v.shape = [nx, ny, nz]) (hnx : (nx : ℤ) < intLim) (hny : (ny : ℤ) < intLim)
    (hnz : (nz : ℤ) < intLim) (hyz : (ny : ℤ) * nz < intLim) {X Y Z : K}
    (hX : SafeCoord X) (hY : SafeCoord Y) (hZ : SafeCoord Z) :
    interp3dAt m v nx ny nz (some X) (some Y) (some Z)
      = .ok (cellValue3 nx ny nz (fun i j k => v.get [i, j, k]) X Y Z) := by
  by_cases h : InCells nx X ∧ InCells ny Y ∧ InCells nz Z
  · obtain ⟨hi, hi1⟩ := inCells_cell h.1
    obtain ⟨hj, hj1⟩ := inCells_cell h.2.1
    obtain ⟨hk, hk1⟩ := inCells_cell h.2.2
    rw [interp3dAt_in hs hnx hny hnz (exact_mul hm hyz) (exact_conv hm hnx hi hi1)
      (exact_conv hm hny hj hj1) (exact_conv hm hnz hk hk1) hi1 hj1 hk1,
      exact_ofInt hm, exact_ofInt hm, exact_ofInt hm]
    unfold cellValue3
    rw [if_pos h]
    congr 1
    unfold trilin lerp
    simp only [Nat.add_zero]
    push_cast
    ring
  · unfold cellValue3
    rw [if_neg h]
    refine interp3dAt_out hnx hny hnz (exact_mul hm hyz) (safe_conv hm hX) (safe_conv hm hY)
      (safe_conv hm hZ) fun c => h ?_
    exact ⟨inCells_iff.2 ⟨c.1, c.2.1⟩, inCells_iff.2 ⟨c.2.2.1, c.2.2.2.1⟩,
      inCells_iff.2 c.2.2.2.2⟩

/-! ### min, max and axes -/

theorem foldl_min_eq {m : K} : ∀ (l : List K) (x : K), (∀ y ∈ x :: l, m ≤ y) → m ∈ x :: l →
    l.foldl min x = m := by
  intro l
  induction l with
  | nil => intro x h hm; simp at hm; simp [hm]
  | cons a l ih =>
    intro x h hm
    simp only [List.foldl_cons]
    apply ih
    · intro y hy
      rcases List.mem_cons.1 hy with rfl | hy
      · exact le_min (h x (by simp)) (h a (by simp))
      · exact h y (by simp [hy])
    · rcases List.mem_cons.1 hm with rfl | hm
      · rw [min_eq_left (h a (by simp))]; simp
      · rcases List.mem_cons.1 hm with rfl | hm
        · rw [min_eq_right (h x (by simp))]; simp
        · simp [hm]

theorem foldl_max_eq {m : K} : ∀ (l : List K) (x : K), (∀ y ∈ x :: l, y ≤ m) → m ∈ x :: l →
    l.foldl max x = m := by
  intro l
  induction l with
  | nil => intro x h hm; simp at hm; simp [hm]
  | cons a l ih =>
    intro x h hm
    simp only [List.foldl_cons]
    apply ih
    · intro y hy
      rcases List.mem_cons.1 hy with rfl | hy
      · exact max_le (h x (by simp)) (h a (by simp))
      · exact h y (by simp [hy])
    · rcases List.mem_cons.1 hm with rfl | hm
      · rw [max_eq_left (h a (by simp))]; simp
      · rcases List.mem_cons.1 hm with rfl | hm
        · rw [max_eq_right (h x (by simp))]; simp
        · simp [hm]

theorem npMin_eq {a : NDArray K} {m : K} (h : ∀ y ∈ a.toList, m ≤ y) (hm : m ∈ a.toList) :
    npMin a = .ok m := by
  unfold npMin
  cases hl : a.toList with
  | nil => rw [hl] at hm; simp at hm
  | cons x l => rw [hl] at h hm; simp only [foldl_min_eq l x h hm]

theorem npMax_eq {a : NDArray K} {m : K} (h : ∀ y ∈ a.toList, y ≤ m) (hm : m ∈ a.toList) :
    npMax a = .ok m := by
  unfold npMax
  cases hl : a.toList with
  | nil => rw [hl] at hm; simp at hm
  | cons x l => rw [hl] at h hm; simp only [foldl_max_eq l x h hm]

/-- Axis of a row whose elements are the values of a uniform axis. -/
theorem axisOf_uniform {a p : NDArray K} {N c n : ℕ} {x0 dx : K} (hn : 2 ≤ n) (hdx : 0 < dx)
    (hl : a.toList = (List.range N).map fun k => p.get [c, k])
    (h : AxisValues p N c n x0 dx) : axisOf a n = .ok ⟨x0, some dx⟩ := by
  have hcast : ∀ i : ℕ, i < n → (i : K) ≤ ((n - 1 : ℕ) : K) := by
    intro i hi; exact_mod_cast (by omega : i ≤ n - 1)
  have hmin : npMin a = .ok x0 := by
    apply npMin_eq
    · intro y hy
      rw [hl] at hy
      simp only [List.mem_map, List.mem_range] at hy
      obtain ⟨k, hk, rfl⟩ := hy
      obtain ⟨i, hi, e⟩ := h.1 k hk
      rw [e]
      have : (0 : K) ≤ i * dx := mul_nonneg (Nat.cast_nonneg i) hdx.le
      linarith
    · rw [hl]
      obtain ⟨k, hk, e⟩ := h.2 0 (by omega)
      simp only [List.mem_map, List.mem_range]
      exact ⟨k, hk, by rw [e]; simp⟩
  have hmax : npMax a = .ok (x0 + ((n - 1 : ℕ) : K) * dx) := by
    apply npMax_eq
    · intro y hy
      rw [hl] at hy
      simp only [List.mem_map, List.mem_range] at hy
      obtain ⟨k, hk, rfl⟩ := hy
      obtain ⟨i, hi, e⟩ := h.1 k hk
      rw [e]
      have := mul_le_mul_of_nonneg_right (hcast i hi) hdx.le
      linarith
    · rw [hl]
      obtain ⟨k, hk, e⟩ := h.2 (n - 1) (by omega)
      simp only [List.mem_map, List.mem_range]
      exact ⟨k, hk, e⟩
  unfold axisOf
  rw [hmin, hmax]
  simp only
  unfold Axis.linspace
  rw [if_neg (by omega)]
  have hne : ((n - 1 : ℕ) : K) ≠ 0 := by
    have : n - 1 ≠ 0 := by omega
    exact_mod_cast this
  congr 3
  field_simp
  ring

theorem axis_index {x0 dx x : K} (hdx : dx ≠ 0) :
    Axis.index ⟨x0, some dx⟩ x = some ((x - x0) / dx) := by
  simp [Axis.index, hdx]

end exact

/-! ### Layouts -/

section layout
variable {K : Type}

/-- The rows of the reshaped coordinate array list the same numbers as the rows of the
coordinate file. -/
theorem coords_row_toList {p coords : NDArray K} {gs : List ℕ} {d c : ℕ}
    (hp : p.shape = [d, gs.prod]) (hr : p.reshapeC (d :: gs) = .ok coords) (hc : c < d) :
    (coords.row c).toList = (List.range gs.prod).map fun k => p.get [c, k] := by
  unfold NDArray.reshapeC at hr
  split at hr
  · cases hr
    simp only [NDArray.toList, NDArray.row, NDArray.size, List.tail_cons]
    apply List.map_congr_left
    intro k hk
    rw [List.mem_range] at hk
    have e1 : encC (d :: gs) (c :: decC gs k) = c * gs.prod + k := by
      simp only [encC, encC_decC hk]
    have hv : ValidIdx [d, gs.prod] [c, k] := by simp [hc, hk]
    have e2 : c * gs.prod + k = encC [d, gs.prod] [c, k] := by simp [encC]
    rw [e1, hp, e2, decC_encC hv]
  · cases hr

/-- Fortran-order reshape of a `(2, nx*ny)` array. -/
theorem reshapeF_2d {v : NDArray K} {nx ny c i j : ℕ} (hv : v.shape = [2, nx * ny]) (hc : c < 2)
    (hi : i < nx) (hj : j < ny) :
    v.get (decF v.shape (encF [2, nx, ny] [c, i, j])) = v.get [c, i + nx * j] := by
  have hlt : i + nx * j < nx * ny := by
    have hvi : ValidIdx [nx, ny] [i, j] := by simp [hi, hj]
    have := encF_lt hvi
    simpa [encF] using this
  have hvi : ValidIdx [2, nx * ny] [c, i + nx * j] := by simp [hc, hlt]
  have e : encF [2, nx, ny] [c, i, j] = encF [2, nx * ny] [c, i + nx * j] := by simp [encF]
  rw [e, hv, decF_encF hvi]

/-- C-order reshape of a `(3, nx*ny*nz)` array. -/
theorem reshapeC_3d {v : NDArray K} {nx ny nz c i j k : ℕ} (hv : v.shape = [3, nx * ny * nz])
    (hc : c < 3) (hi : i < nx) (hj : j < ny) (hk : k < nz) :
    v.get (decC v.shape (encC [3, nx, ny, nz] [c, i, j, k])) = v.get [c, (i * ny + j) * nz + k] := by
  have hlt : (i * ny + j) * nz + k < nx * ny * nz := by
    have hvi : ValidIdx [nx, ny, nz] [i, j, k] := by simp [hi, hj, hk]
    have := encC_lt hvi
    simp only [encC, List.prod_cons, List.prod_nil, mul_one, Nat.add_zero] at this
    calc (i * ny + j) * nz + k = i * (ny * nz) + (j * nz + k) := by ring
      _ < nx * (ny * nz) := this
      _ = nx * ny * nz := by ring
  have hvi : ValidIdx [3, nx * ny * nz] [c, (i * ny + j) * nz + k] := by simp [hc, hlt]
  have e : encC [3, nx, ny, nz] [c, i, j, k] = encC [3, nx * ny * nz] [c, (i * ny + j) * nz + k] := by
    simp [encC]; ring
  rw [e, hv, decC_encC hvi]

end layout

section objects
variable {K : Type} [Field K] [LinearOrder K] [IsStrictOrderedRing K] [FloorRing K]

theorem cellValue2_congr {nx ny : ℕ} {f g : ℕ → ℕ → K}
    (h : ∀ i j, i < nx → j < ny → f i j = g i j) (X Y : K) :
    cellValue2 nx ny f X Y = cellValue2 nx ny g X Y := by
  unfold cellValue2
  split
  · rename_i hc
    obtain ⟨-, hi⟩ := inCells_cell hc.1
    obtain ⟨-, hj⟩ := inCells_cell hc.2
    simp only
    rw [h _ _ (by omega) (by omega), h _ _ hi (by omega), h _ _ (by omega) hj, h _ _ hi hj]
  · rfl

theorem cellValue3_congr {nx ny nz : ℕ} {f g : ℕ → ℕ → ℕ → K}
    (h : ∀ i j k, i < nx → j < ny → k < nz → f i j k = g i j k) (X Y Z : K) :
    cellValue3 nx ny nz f X Y Z = cellValue3 nx ny nz g X Y Z := by
  unfold cellValue3
  split
  · rename_i hc
    obtain ⟨-, hi⟩ := inCells_cell hc.1
    obtain ⟨-, hj⟩ := inCells_cell hc.2.1
    obtain ⟨-, hk⟩ := inCells_cell hc.2.2
    simp only
    rw [h _ _ _ (by omega) (by omega) (by omega), h _ _ _ hi (by omega) (by omega),
      h _ _ _ (by omega) hj (by omega), h _ _ _ hi hj (by omega),
      h _ _ _ (by omega) (by omega) hk, h _ _ _ hi (by omega) hk,
      h _ _ _ (by omega) hj hk, h _ _ _ hi hj hk]
  · rfl

/-- An `Interp2D` object over a uniform grid holding the nodal values `f`. -/
structure Field2 (it : Interp K) (nx ny : ℕ) (x0 dx y0 dy : K) (f : ℕ → ℕ → K) : Prop where
  shape : it.v.shape = [nx, ny]
  axes : it.axes = [⟨x0, some dx⟩, ⟨y0, some dy⟩]
  vals : ∀ i j, i < nx → j < ny → it.v.get [i, j] = f i j

/-- An `Interp3D` object: values of shape `(X, Y, Z)`. -/
structure Field3 (it : Interp K) (X Y Z : ℕ) (x0 dx y0 dy z0 dz : K) (f : ℕ → ℕ → ℕ → K) :
    Prop where
  shape : it.v.shape = [X, Y, Z]
  axes : it.axes = [⟨x0, some dx⟩, ⟨y0, some dy⟩, ⟨z0, some dz⟩]
  vals : ∀ i j k, i < X → j < Y → k < Z → it.v.get [i, j, k] = f i j k

theorem field2_call {m : CMachine K} (hm : ExactTarget m) {it : Interp K} {nx ny : ℕ}
    {x0 dx y0 dy : K} {f : ℕ → ℕ → K} (h : Field2 it nx ny x0 dx y0 dy f) (hdx : dx ≠ 0)
    (hdy : dy ≠ 0) (hnx : (nx : ℤ) < intLim) (hny : (ny : ℤ) < intLim) {n : ℕ}
    {t : ℕ → ℕ → K}
    (hsafe : ∀ r < n, SafeCoord ((t r 0 - x0) / dx) ∧ SafeCoord ((t r 1 - y0) / dy)) :
    it.call m n 2 t (some n) = .ok ((List.range n).map fun r =>
      cellValue2 nx ny f ((t r 0 - x0) / dx) ((t r 1 - y0) / dy)) := by
  unfold Interp.call
  rw [h.axes]
  simp only [List.length_cons, List.length_nil, List.zipIdx_cons, List.zipIdx_nil,
    List.map_cons, List.map_nil, axis_index hdx, axis_index hdy]
  rw [if_neg (by omega)]
  unfold interp2dVec
  rw [h.shape]
  simp only [ne_eq, not_true_eq_false, List.length_map, List.length_range, if_false]
  rw [pyMap_ok (g := fun p => match p with
    | [some X, some Y] => cellValue2 nx ny f X Y
    | _ => 0)]
  · simp only [List.map_map, Function.comp_def, Nat.zero_add]
  · intro p hp
    simp only [List.mem_map, List.mem_range] at hp
    obtain ⟨r, hr, rfl⟩ := hp
    simp only [Nat.zero_add]
    rw [interp2dAt_value hm h.shape hnx hny (hsafe r hr).1 (hsafe r hr).2,
      cellValue2_congr h.vals]

theorem field3_call {m : CMachine K} (hm : ExactTarget m) {it : Interp K} {X Y Z : ℕ}
    {x0 dx y0 dy z0 dz : K} {f : ℕ → ℕ → ℕ → K} (h : Field3 it X Y Z x0 dx y0 dy z0 dz f)
    (hdx : dx ≠ 0) (hdy : dy ≠ 0) (hdz : dz ≠ 0) (hX : (X : ℤ) < intLim)
    (hY : (Y : ℤ) < intLim) (hZ : (Z : ℤ) < intLim) (hYZ : (Y : ℤ) * Z < intLim) {n : ℕ}
    {t : ℕ → ℕ → K}
    (hsafe : ∀ r < n, SafeCoord ((t r 0 - x0) / dx) ∧ SafeCoord ((t r 1 - y0) / dy) ∧
      SafeCoord ((t r 2 - z0) / dz)) :
    it.call m n 3 t (some n) = .ok ((List.range n).map fun r =>
      cellValue3 X Y Z f ((t r 0 - x0) / dx) ((t r 1 - y0) / dy) ((t r 2 - z0) / dz)) := by
  unfold Interp.call
  rw [h.axes]
  simp only [List.length_cons, List.length_nil, List.zipIdx_cons, List.zipIdx_nil,
    List.map_cons, List.map_nil, axis_index hdx, axis_index hdy, axis_index hdz]
  rw [if_neg (by omega)]
  unfold interp3dVec
  rw [h.shape]
  simp only [ne_eq, not_true_eq_false, List.length_map, List.length_range, if_false]
  rw [pyMap_ok (g := fun p => match p with
    | [some a, some b, some c] => cellValue3 X Y Z f a b c
    | _ => 0)]
  · simp only [List.map_map, Function.comp_def, Nat.zero_add]
  · intro p hp
    simp only [List.mem_map, List.mem_range] at hp
    obtain ⟨r, hr, rfl⟩ := hp
    simp only [Nat.zero_add]
    rw [interp3dAt_value hm h.shape hX hY hZ hYZ (hsafe r hr).1 (hsafe r hr).2.1
      (hsafe r hr).2.2, cellValue3_congr h.vals]

/-- What `_initialize_interpolator` builds for a uniform 2-D grid: the nodal value at `(i, j)`
is read from flat index `i + nx * j`. -/
theorem build_2d {nx ny : ℕ} {v p : NDArray K} {x0 dx y0 dy : K} (hnx : 2 ≤ nx) (hny : 2 ≤ ny)
    (hdx : 0 < dx) (hdy : 0 < dy) (hp : p.shape = [2, nx * ny]) (hv : v.shape = [2, nx * ny])
    (hx : AxisValues p (nx * ny) 0 nx x0 dx) (hy : AxisValues p (nx * ny) 1 ny y0 dy) :
    ∃ x y, HighPerf.build [nx, ny] v p = .ok (x, y, none) ∧
      Field2 x nx ny x0 dx y0 dy (fun i j => v.get [0, i + nx * j]) ∧
      Field2 y nx ny x0 dx y0 dy (fun i j => v.get [1, i + nx * j]) := by
  have hprod : [nx, ny].prod = nx * ny := by simp
  have hr : ∃ co, p.reshapeC [2, nx, ny] = .ok co := by
    unfold NDArray.reshapeC
    rw [if_pos (by rw [hp]; simp)]
    exact ⟨_, rfl⟩
  obtain ⟨co, hco⟩ := hr
  have hw : ∃ w, v.reshapeF [2, nx, ny] = .ok w ∧ w.shape = [2, nx, ny] ∧
      ∀ idx, w.get idx = v.get (decF v.shape (encF [2, nx, ny] idx)) := by
    unfold NDArray.reshapeF
    rw [if_pos (by rw [hv]; simp)]
    exact ⟨_, rfl, rfl, fun _ => rfl⟩
  obtain ⟨w, hw, hws, hwg⟩ := hw
  have l0 := coords_row_toList (gs := [nx, ny]) (d := 2) (c := 0) (by rw [hp, hprod]) hco (by omega)
  have l1 := coords_row_toList (gs := [nx, ny]) (d := 2) (c := 1) (by rw [hp, hprod]) hco (by omega)
  rw [hprod] at l0 l1
  have ax := axisOf_uniform hnx hdx l0 hx
  have ay := axisOf_uniform hny hdy l1 hy
  refine ⟨⟨w.row 0, [⟨x0, some dx⟩, ⟨y0, some dy⟩]⟩, ⟨w.row 1, [⟨x0, some dx⟩, ⟨y0, some dy⟩]⟩,
    ?_, ⟨?_, rfl, ?_⟩, ⟨?_, rfl, ?_⟩⟩
  · unfold HighPerf.build
    simp only [List.length_cons, List.length_nil]
    rw [show (0 + 1 + 1 : ℕ) = 2 from rfl, hco]
    simp only [hw, ax, ay]
  · simp [NDArray.row, hws]
  · intro i j hi hj
    simp only [NDArray.row, hwg]
    exact reshapeF_2d hv (by omega) hi hj
  · simp [NDArray.row, hws]
  · intro i j hi hj
    simp only [NDArray.row, hwg]
    exact reshapeF_2d hv (by omega) hi hj

/-- What `_initialize_interpolator` builds for a uniform 3-D grid: the array of values has
shape `(ny, nx, nz)` and its entry `(i, j, k)` is read from flat index
`(j * ny + i) * nz + k`, while the axes are those of `x`, `y`, `z`. -/
theorem build_3d {nx ny nz : ℕ} {v p : NDArray K} {x0 dx y0 dy z0 dz : K} (hnx : 2 ≤ nx)
    (hny : 2 ≤ ny) (hnz : 2 ≤ nz) (hdx : 0 < dx) (hdy : 0 < dy) (hdz : 0 < dz)
    (hp : p.shape = [3, nx * ny * nz]) (hv : v.shape = [3, nx * ny * nz])
    (hx : AxisValues p (nx * ny * nz) 0 nx x0 dx) (hy : AxisValues p (nx * ny * nz) 1 ny y0 dy)
    (hz : AxisValues p (nx * ny * nz) 2 nz z0 dz) :
    ∃ x y z, HighPerf.build [nx, ny, nz] v p = .ok (x, y, some z) ∧
      Field3 x ny nx nz x0 dx y0 dy z0 dz (fun i j k => v.get [0, (j * ny + i) * nz + k]) ∧
      Field3 y ny nx nz x0 dx y0 dy z0 dz (fun i j k => v.get [1, (j * ny + i) * nz + k]) ∧
      Field3 z ny nx nz x0 dx y0 dy z0 dz (fun i j k => v.get [2, (j * ny + i) * nz + k]) := by
  have hprod : [nx, ny, nz].prod = nx * ny * nz := by simp; ring
  have hr : ∃ co, p.reshapeC [3, nx, ny, nz] = .ok co := by
    unfold NDArray.reshapeC
    rw [if_pos (by rw [hp]; simp; ring)]
    exact ⟨_, rfl⟩
  obtain ⟨co, hco⟩ := hr
  have hw : ∃ w, v.reshapeC [3, nx, ny, nz] = .ok w ∧ w.shape = [3, nx, ny, nz] ∧
      ∀ idx, w.get idx = v.get (decC v.shape (encC [3, nx, ny, nz] idx)) := by
    unfold NDArray.reshapeC
    rw [if_pos (by rw [hv]; simp; ring)]
    exact ⟨_, rfl, rfl, fun _ => rfl⟩
  obtain ⟨w, hw, hws, hwg⟩ := hw
  have l0 := coords_row_toList (gs := [nx, ny, nz]) (d := 3) (c := 0) (by rw [hp, hprod]) hco
    (by omega)
  have l1 := coords_row_toList (gs := [nx, ny, nz]) (d := 3) (c := 1) (by rw [hp, hprod]) hco
    (by omega)
  have l2 := coords_row_toList (gs := [nx, ny, nz]) (d := 3) (c := 2) (by rw [hp, hprod]) hco
    (by omega)
  rw [hprod] at l0 l1 l2
  have ax := axisOf_uniform hnx hdx l0 hx
  have ay := axisOf_uniform hny hdy l1 hy
  have az := axisOf_uniform hnz hdz l2 hz
  have hsh : ∀ c, ((w.transpose [0, 2, 1, 3]).row c).shape = [ny, nx, nz] := by
    intro c; simp [NDArray.row, NDArray.transpose, hws]
  have hget : ∀ c i j k, ((w.transpose [0, 2, 1, 3]).row c).get [i, j, k] = w.get [c, j, i, k] := by
    intro c i j k
    simp only [NDArray.row, NDArray.transpose, hws]
    rfl
  refine ⟨⟨(w.transpose [0, 2, 1, 3]).row 0, [⟨x0, some dx⟩, ⟨y0, some dy⟩, ⟨z0, some dz⟩]⟩,
    ⟨(w.transpose [0, 2, 1, 3]).row 1, [⟨x0, some dx⟩, ⟨y0, some dy⟩, ⟨z0, some dz⟩]⟩,
    ⟨(w.transpose [0, 2, 1, 3]).row 2, [⟨x0, some dx⟩, ⟨y0, some dy⟩, ⟨z0, some dz⟩]⟩,
    ?_, ⟨hsh 0, rfl, ?_⟩, ⟨hsh 1, rfl, ?_⟩, ⟨hsh 2, rfl, ?_⟩⟩
  · unfold HighPerf.build
    simp only [List.length_cons, List.length_nil]
    rw [show (0 + 1 + 1 + 1 : ℕ) = 3 from rfl, hco]
    simp only [hw, ax, ay, az]
  all_goals
    intro i j k hi hj hk
    rw [hget, hwg]
    exact reshapeC_3d hv (by omega) hj hi hk

theorem listCol_map {n r : ℕ} (g : ℕ → K) (junk : K) (hr : r < n) :
    listCol ((List.range n).map g) junk r = g r := by
  simp [listCol, hr]

theorem setCol_get (out : NDArray K) (c c' r : ℕ) (f : ℕ → K) :
    (setCol out c f).get [r, c'] = if c' = c then f r else out.get [r, c'] := rfl

theorem setCol_shape (out : NDArray K) (c : ℕ) (f : ℕ → K) : (setCol out c f).shape = out.shape :=
  rfl

/-- `interpolate` on a 2-D `HighPerfInterpolator` whose two objects hold the nodal values
`f 0`, `f 1`. -/
theorem highPerf_interpolate_2d {m : CMachine K} (hm : ExactTarget m) (junk : List ℕ → K)
    {s : HighPerf K} {x y : Interp K} {nx ny : ℕ} {x0 dx y0 dy : K} {f : ℕ → ℕ → ℕ → K}
    (hix : s.ix = some x) (hiy : s.iy = some y) (fx : Field2 x nx ny x0 dx y0 dy (f 0))
    (fy : Field2 y nx ny x0 dx y0 dy (f 1)) (hdx : dx ≠ 0) (hdy : dy ≠ 0)
    (hnx : (nx : ℤ) < intLim) (hny : (ny : ℤ) < intLim) {q : NDArray K} {n : ℕ}
    (hq : q.shape = [n, 2])
    (hsafe : ∀ r < n, SafeCoord ((q.get [r, 0] - x0) / dx) ∧ SafeCoord ((q.get [r, 1] - y0) / dy)) :
    ∃ out, (s.interpolate m junk q).2 = .ok out ∧ out.shape = [n, 2] ∧
      ∀ r < n, ∀ c < 2, out.get [r, c] =
        cellValue2 nx ny (f c) ((q.get [r, 0] - x0) / dx) ((q.get [r, 1] - y0) / dy) := by
  have hu : (s.ensureBuffers n 2).uLen = some n := by
    unfold HighPerf.ensureBuffers; split
    · assumption
    · simp
  have hx' : (s.ensureBuffers n 2).ix = some x := by
    unfold HighPerf.ensureBuffers; split <;> simp [hix]
  have hy' : (s.ensureBuffers n 2).iy = some y := by
    unfold HighPerf.ensureBuffers; split <;> simp [hiy]
  unfold HighPerf.interpolate
  rw [hq]
  simp only [if_true, hu, hx', hy']
  have cx := field2_call hm fx hdx hdy hnx hny (t := fun r c => q.get [r, c]) hsafe
  have cy := field2_call hm fy hdx hdy hnx hny (t := fun r c => q.get [r, c]) hsafe
  rw [cx]
  simp only
  rw [cy]
  refine ⟨_, rfl, hq, fun r hr c hc => ?_⟩
  simp only [setCol_get]
  interval_cases c
  · simp only [if_true, (by decide : ¬ (0 : ℕ) = 1), if_false]
    exact listCol_map _ _ hr
  · simp only [if_true]
    exact listCol_map _ _ hr

/-- The third buffer is available: it has the length of the other two, or will be
reallocated together with them. -/
def HighPerf.BufOk (s : HighPerf K) (n : ℕ) : Prop := s.uLen = some n → s.wLen = some n

/-- `interpolate` on a 3-D `HighPerfInterpolator`; the arrays of values have shape
`(X, Y, Z)`. -/
theorem highPerf_interpolate_3d {m : CMachine K} (hm : ExactTarget m) (junk : List ℕ → K)
    {s : HighPerf K} {x y z : Interp K} {X Y Z : ℕ} {x0 dx y0 dy z0 dz : K}
    {f : ℕ → ℕ → ℕ → ℕ → K}
    (hix : s.ix = some x) (hiy : s.iy = some y) (hiz : s.iz = some z)
    (fx : Field3 x X Y Z x0 dx y0 dy z0 dz (f 0)) (fy : Field3 y X Y Z x0 dx y0 dy z0 dz (f 1))
    (fz : Field3 z X Y Z x0 dx y0 dy z0 dz (f 2)) (hdx : dx ≠ 0) (hdy : dy ≠ 0) (hdz : dz ≠ 0)
    (hX : (X : ℤ) < intLim) (hY : (Y : ℤ) < intLim) (hZ : (Z : ℤ) < intLim)
    (hYZ : (Y : ℤ) * Z < intLim) {q : NDArray K} {n : ℕ} (hq : q.shape = [n, 3])
    (hb : s.BufOk n)
    (hsafe : ∀ r < n, SafeCoord ((q.get [r, 0] - x0) / dx) ∧ SafeCoord ((q.get [r, 1] - y0) / dy) ∧
      SafeCoord ((q.get [r, 2] - z0) / dz)) :
    ∃ out, (s.interpolate m junk q).2 = .ok out ∧ out.shape = [n, 3] ∧
      ∀ r < n, ∀ c < 3, out.get [r, c] =
        cellValue3 X Y Z (f c) ((q.get [r, 0] - x0) / dx) ((q.get [r, 1] - y0) / dy)
          ((q.get [r, 2] - z0) / dz) := by
  have hu : (s.ensureBuffers n 3).uLen = some n := by
    unfold HighPerf.ensureBuffers; split
    · assumption
    · simp
  have hw : (s.ensureBuffers n 3).wLen = some n := by
    unfold HighPerf.ensureBuffers; split
    · rename_i h; exact hb h
    · simp
  have hx' : (s.ensureBuffers n 3).ix = some x := by
    unfold HighPerf.ensureBuffers; split <;> simp [hix]
  have hy' : (s.ensureBuffers n 3).iy = some y := by
    unfold HighPerf.ensureBuffers; split <;> simp [hiy]
  have hz' : (s.ensureBuffers n 3).iz = some z := by
    unfold HighPerf.ensureBuffers; split <;> simp [hiz]
  unfold HighPerf.interpolate
  rw [hq]
  simp only [if_true, (by decide : ¬ (3 : ℕ) = 2), if_false, hu, hw, hx', hy', hz']
  have cx := field3_call hm fx hdx hdy hdz hX hY hZ hYZ (t := fun r c => q.get [r, c]) hsafe
  have cy := field3_call hm fy hdx hdy hdz hX hY hZ hYZ (t := fun r c => q.get [r, c]) hsafe
  have cz := field3_call hm fz hdx hdy hdz hX hY hZ hYZ (t := fun r c => q.get [r, c]) hsafe
  rw [cx]
  simp only
  rw [cy]
  simp only
  rw [cz]
  refine ⟨_, rfl, hq, fun r hr c hc => ?_⟩
  simp only [setCol_get]
  interval_cases c
  · simp only [if_true, (by decide : ¬ (0 : ℕ) = 1), (by decide : ¬ (0 : ℕ) = 2),
      if_false]
    exact listCol_map _ _ hr
  · simp only [if_true, (by decide : ¬ (1 : ℕ) = 2), if_false]
    exact listCol_map _ _ hr
  · simp only [if_true]
    exact listCol_map _ _ hr

end objects

end Verif
