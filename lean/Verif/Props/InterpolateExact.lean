import Verif.Props.Interpolate

/-!
# C33: exactly what the fast grid interpolator accepts
-/

namespace Verif

variable {K : Type} [Sub K] [Div K] [NatCast K] [Min K] [Max K]

omit [Sub K] [Div K] [NatCast K] [Max K] in
theorem npMin_iff (a : NDArray K) :
    (0 < a.size → ∃ x, npMin a = .ok x) ∧ (a.size = 0 → npMin a = .error .valueError) := by
  constructor
  · intro h
    obtain ⟨k, hk⟩ := Nat.exists_eq_succ_of_ne_zero h.ne'
    simp [npMin, NDArray.toList, hk, List.range_succ_eq_map]
  · intro h
    simp [npMin, NDArray.toList, h]

omit [Sub K] [Div K] [NatCast K] [Min K] in
theorem npMax_ok (a : NDArray K) (h : 0 < a.size) : ∃ x, npMax a = .ok x := by
  obtain ⟨k, hk⟩ := Nat.exists_eq_succ_of_ne_zero h.ne'
  simp [npMax, NDArray.toList, hk, List.range_succ_eq_map]

theorem axisOf_iff (a : NDArray K) (n : ℕ) :
    (0 < a.size → ∃ x, axisOf a n = .ok x) ∧ (a.size = 0 → axisOf a n = .error .valueError) := by
  constructor
  · intro h
    obtain ⟨lo, h1⟩ := (npMin_iff a).1 h
    obtain ⟨hi, h2⟩ := npMax_ok a h
    exact ⟨Axis.linspace lo hi n, by simp only [axisOf, h1, h2]⟩
  · intro h
    simp only [axisOf, (npMin_iff a).2 h]

theorem build_iff (gs : List ℕ) (v p : NDArray K) :
    ((∃ o, HighPerf.build gs v p = .ok o) ↔
      (gs.length = 2 ∨ gs.length = 3) ∧ p.shape.prod = gs.length * gs.prod ∧
        v.shape.prod = gs.length * gs.prod ∧ 0 < gs.prod) ∧
    ((¬ ∃ o, HighPerf.build gs v p = .ok o) → HighPerf.build gs v p = .error .valueError) := by
  unfold HighPerf.build
  by_cases h1 : p.shape.prod = (gs.length :: gs).prod
  swap
  · have : p.reshapeC (gs.length :: gs) = .error .valueError := by
      simp only [NDArray.reshapeC, if_neg h1]
    rw [this]
    rw [List.prod_cons] at h1
    simp [h1]
  have hr : p.reshapeC (gs.length :: gs) = .ok ⟨gs.length :: gs, fun idx =>
      p.get (decC p.shape (encC (gs.length :: gs) idx))⟩ := by
    simp only [NDArray.reshapeC, if_pos h1]
  rw [List.prod_cons] at h1
  simp only [hr]
  match gs, h1 with
  | [], _ => simp
  | [_], _ => simp
  | _ :: _ :: _ :: _ :: _, _ => simp
  | [nx, ny], h1 =>
    by_cases h2 : v.shape.prod = [2, nx, ny].prod
    swap
    · have : v.reshapeF [2, nx, ny] = .error .valueError := by
        simp only [NDArray.reshapeF, if_neg h2]
      simp only [this]
      have h3 : ¬ v.shape.prod = 2 * (nx * ny) := by simpa using h2
      simp [h3]
    simp only [NDArray.reshapeF, if_pos h2]
    have h3 : v.shape.prod = 2 * (nx * ny) := by simpa using h2
    have h4 : p.shape.prod = 2 * (nx * ny) := by simpa using h1
    have hs : ∀ (w : NDArray K) c, w.shape = [2, nx, ny] → (w.row c).size = nx * ny := by
      intro w c hw
      simp [NDArray.size, NDArray.row, hw]
    rcases Nat.eq_zero_or_pos (nx * ny) with h0 | h0
    · have he := (axisOf_iff _ nx).2 ((hs ⟨[2, nx, ny], fun idx =>
        p.get (decC p.shape (encC [2, nx, ny] idx))⟩ 0 rfl).trans h0)
      simp only [List.length_cons, List.length_nil, Nat.reduceAdd, he]
      have : nx = 0 ∨ ny = 0 := Nat.mul_eq_zero.1 h0
      rcases this with rfl | rfl <;> simp
    · obtain ⟨ax, hx⟩ := (axisOf_iff _ nx).1 (lt_of_lt_of_eq h0 (hs ⟨[2, nx, ny], fun idx =>
        p.get (decC p.shape (encC [2, nx, ny] idx))⟩ 0 rfl).symm)
      obtain ⟨ay, hy⟩ := (axisOf_iff _ ny).1 (lt_of_lt_of_eq h0 (hs ⟨[2, nx, ny], fun idx =>
        p.get (decC p.shape (encC [2, nx, ny] idx))⟩ 1 rfl).symm)
      simp only [List.length_cons, List.length_nil, Nat.reduceAdd, hx, hy]
      simp [h3, h4, Nat.pos_of_mul_pos_right h0, Nat.pos_of_mul_pos_left h0]
  | [nx, ny, nz], h1 =>
    by_cases h2 : v.shape.prod = [3, nx, ny, nz].prod
    swap
    · have : v.reshapeC [3, nx, ny, nz] = .error .valueError := by
        simp only [NDArray.reshapeC, if_neg h2]
      simp only [this]
      have h3 : ¬ v.shape.prod = 3 * (nx * (ny * nz)) := by simpa using h2
      simp [h3]
    simp only [NDArray.reshapeC, if_pos h2]
    have h3 : v.shape.prod = 3 * (nx * (ny * nz)) := by simpa using h2
    have h4 : p.shape.prod = 3 * (nx * (ny * nz)) := by simpa using h1
    have hs : ∀ (w : NDArray K) c, w.shape = [3, nx, ny, nz] →
        (w.row c).size = nx * (ny * nz) := by
      intro w c hw
      simp [NDArray.size, NDArray.row, hw]
    rcases Nat.eq_zero_or_pos (nx * (ny * nz)) with h0 | h0
    · have he := (axisOf_iff _ nx).2 ((hs ⟨[3, nx, ny, nz], fun idx =>
        p.get (decC p.shape (encC [3, nx, ny, nz] idx))⟩ 0 rfl).trans h0)
      simp only [List.length_cons, List.length_nil, Nat.reduceAdd, he]
      simp only [List.prod_cons, List.prod_nil, Nat.mul_one, h0]
      simp
    · obtain ⟨ax, hx⟩ := (axisOf_iff _ nx).1 (lt_of_lt_of_eq h0 (hs ⟨[3, nx, ny, nz], fun idx =>
        p.get (decC p.shape (encC [3, nx, ny, nz] idx))⟩ 0 rfl).symm)
      obtain ⟨ay, hy⟩ := (axisOf_iff _ ny).1 (lt_of_lt_of_eq h0 (hs ⟨[3, nx, ny, nz], fun idx =>
        p.get (decC p.shape (encC [3, nx, ny, nz] idx))⟩ 1 rfl).symm)
      obtain ⟨az, hz⟩ := (axisOf_iff _ nz).1 (lt_of_lt_of_eq h0 (hs ⟨[3, nx, ny, nz], fun idx =>
        p.get (decC p.shape (encC [3, nx, ny, nz] idx))⟩ 2 rfl).symm)
      simp only [List.length_cons, List.length_nil, Nat.reduceAdd, hx, hy, hz]
      simp only [List.prod_cons, List.prod_nil, Nat.mul_one, h3, h4, h0]
      simp

/-- **C33, shape validation of `HighPerfInterpolator`, exactly.**  From every state, an update with
coordinates is accepted if and only if the grid shape has length two or three and no zero entry, and
the coordinates and the velocities have `len(grid_shape) * prod(grid_shape)` entries each, in whatever
shape; everything else is rejected with `ValueError`. -/
theorem C33_fast_accepts_iff (s : HighPerf K) (v p : NDArray K) :
    ((s.update v (some p)).2 = none ↔
      (s.gridShape.length = 2 ∨ s.gridShape.length = 3) ∧
        p.shape.prod = s.gridShape.length * s.gridShape.prod ∧
        v.shape.prod = s.gridShape.length * s.gridShape.prod ∧ 0 < s.gridShape.prod) ∧
    ((s.update v (some p)).2 ≠ none → (s.update v (some p)).2 = some .valueError) := by
  have hb := build_iff s.gridShape v p
  rw [← hb.1]
  unfold HighPerf.update HighPerf.initialize
  simp only
  cases h : HighPerf.build s.gridShape v p with
  | ok o => simp
  | error e =>
    have := hb.2 (by simp [h])
    rw [h] at this
    simp [Except.error.inj this]

/-- Grid shape (3, 2) accepts four points in space and refuses seven in the plane. -/
example : ((HighPerf.fresh [3, 2] : HighPerf ℚ).update ⟨[3, 4], fun _ => 0⟩
      (some ⟨[3, 4], fun _ => 0⟩)).2 = none ∧
    ((HighPerf.fresh [3, 2] : HighPerf ℚ).update ⟨[2, 7], fun _ => 0⟩
      (some ⟨[2, 7], fun _ => 0⟩)).2 = some .valueError :=
  ⟨(C33_fast_accepts_iff _ _ _).1.2 (by simp [HighPerf.fresh]),
    (C33_fast_accepts_iff _ _ _).2 (by rw [Ne, (C33_fast_accepts_iff _ _ _).1]; simp [HighPerf.fresh])⟩

end Verif
