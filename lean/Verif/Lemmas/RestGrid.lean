import Verif.Lemmas.Rest
import Verif.Props.Grid64x3

/-!
# Helper lemmas: the fast interpolator outside its grid, in binary64
-/

set_option linter.unusedSectionVars false

namespace Verif

open Set

/-! ## One row of a query -/

section
variable {K : Type} [Zero K] [One K] [Add K] [Sub K] [Mul K] [Div K] [NatCast K] [IntCast K] [Min K] [Max K]
  [NumLits K] [DecidableEq K]

theorem call_row_2d {m : CMachine K} {it : Interp K} {ax ay : Axis K} {nx ny n : ℕ}
    (ha : it.axes = [ax, ay]) (hs : it.v.shape = [nx, ny]) {t : ℕ → ℕ → K} {o : Option ℕ} {l : List K}
    (h : it.call m n 2 t o = .ok l) {r : ℕ} (hr : r < n) {u : K}
    (hu : interp2dAt m it.v nx ny (ax.index (t r 0)) (ay.index (t r 1)) = .ok u) : l[r]? = some u := by
  unfold Interp.call at h
  rw [ha] at h
  simp only [List.length_cons, List.length_nil, List.zipIdx_cons, List.zipIdx_nil,
    List.map_cons, List.map_nil] at h
  rw [if_neg (by omega)] at h
  unfold interp2dVec at h
  cases o with
  | none => cases h
  | some k =>
    simp only [hs] at h
    rw [if_neg (by omega)] at h
    split at h
    · cases h
    · obtain ⟨b, h1, h2⟩ := pyMap_ok_get h r (by simpa using hr)
      simp only [List.getElem_map, List.getElem_range] at h2
      rw [hu] at h2
      cases h2
      exact h1

theorem call_row_3d {m : CMachine K} {it : Interp K} {ax ay az : Axis K} {nx ny nz n : ℕ}
    (ha : it.axes = [ax, ay, az]) (hs : it.v.shape = [nx, ny, nz]) {t : ℕ → ℕ → K} {o : Option ℕ}
    {l : List K} (h : it.call m n 3 t o = .ok l) {r : ℕ} (hr : r < n) {u : K}
    (hu : interp3dAt m it.v nx ny nz (ax.index (t r 0)) (ay.index (t r 1)) (az.index (t r 2)) =
      .ok u) : l[r]? = some u := by
  unfold Interp.call at h
  rw [ha] at h
  simp only [List.length_cons, List.length_nil, List.zipIdx_cons, List.zipIdx_nil,
    List.map_cons, List.map_nil] at h
  rw [if_neg (by omega)] at h
  unfold interp3dVec at h
  cases o with
  | none => cases h
  | some k =>
    simp only [hs] at h
    rw [if_neg (by omega)] at h
    split at h
    · cases h
    · obtain ⟨b, h1, h2⟩ := pyMap_ok_get h r (by simpa using hr)
      simp only [List.getElem_map, List.getElem_range] at h2
      rw [hu] at h2
      cases h2
      exact h1

theorem highPerf_quiet_2d {m : CMachine K} {junk : List ℕ → K} {s : HighPerf K} {x y : Interp K}
    (hx : s.ix = some x) (hy : s.iy = some y) {ax ay : Axis K} {nx ny : ℕ}
    (x1 : x.axes = [ax, ay]) (x2 : x.v.shape = [nx, ny]) (y1 : y.axes = [ax, ay])
    (y2 : y.v.shape = [nx, ny]) {R : ℕ} {S : Set ℕ} (hS : ∀ r ∈ S, r < R) {z : ℕ → Fin 2 → K}
    (h0 : ∀ r ∈ S, ∀ v : NDArray K, v.shape = [nx, ny] →
      interp2dAt m v nx ny (ax.index (z r 0)) (ay.index (z r 1)) = .ok 0) :
    Quiet R 2 S z fun q => (s.interpolate m junk q).2 := by
  intro q A hq hr hA
  obtain ⟨-, -, e1, e2, -, -⟩ := ensureBuffers_fields s R 2
  unfold HighPerf.interpolate at hA
  simp only [hq, e1, e2, hx, hy, if_true] at hA
  cases hu : x.call m R 2 (fun r c => q.get [r, c]) (s.ensureBuffers R 2).uLen with
  | error e => rw [hu] at hA; cases hA
  | ok u =>
    rw [hu] at hA
    simp only at hA
    cases hv : y.call m R 2 (fun r c => q.get [r, c]) (s.ensureBuffers R 2).uLen with
    | error e => rw [hv] at hA; cases hA
    | ok v =>
      rw [hv] at hA
      simp only [Except.ok.injEq] at hA
      subst hA
      refine ⟨hq, fun r h => ?_⟩
      have g0 : q.get [r, 0] = z r 0 := congrFun (hr r h) 0
      have g1 : q.get [r, 1] = z r 1 := congrFun (hr r h) 1
      have c1 := call_row_2d x1 x2 hu (hS r h) (u := 0) (by rw [g0, g1]; exact h0 r h _ x2)
      have c2 := call_row_2d y1 y2 hv (hS r h) (u := 0) (by rw [g0, g1]; exact h0 r h _ y2)
      funext c
      fin_cases c
      · simp [rowOf, setCol, listCol, c1]
      · simp [rowOf, setCol, listCol, c2]

theorem highPerf_quiet_3d {m : CMachine K} {junk : List ℕ → K} {s : HighPerf K} {x y w : Interp K}
    (hx : s.ix = some x) (hy : s.iy = some y) (hw : s.iz = some w) {ax ay az : Axis K} {nx ny nz : ℕ}
    (x1 : x.axes = [ax, ay, az]) (x2 : x.v.shape = [nx, ny, nz]) (y1 : y.axes = [ax, ay, az])
    (y2 : y.v.shape = [nx, ny, nz]) (w1 : w.axes = [ax, ay, az]) (w2 : w.v.shape = [nx, ny, nz])
    {R : ℕ} {S : Set ℕ} (hS : ∀ r ∈ S, r < R) {z : ℕ → Fin 3 → K}
    (h0 : ∀ r ∈ S, ∀ v : NDArray K, v.shape = [nx, ny, nz] →
      interp3dAt m v nx ny nz (ax.index (z r 0)) (ay.index (z r 1)) (az.index (z r 2)) = .ok 0) :
    Quiet R 3 S z fun q => (s.interpolate m junk q).2 := by
  intro q A hq hr hA
  obtain ⟨-, -, e1, e2, e3, -⟩ := ensureBuffers_fields s R 3
  unfold HighPerf.interpolate at hA
  simp only [hq, e1, e2, e3, hx, hy, hw, if_true] at hA
  rw [if_neg (by omega)] at hA
  cases hu : x.call m R 3 (fun r c => q.get [r, c]) (s.ensureBuffers R 3).uLen with
  | error e => rw [hu] at hA; cases hA
  | ok u =>
    rw [hu] at hA
    simp only at hA
    cases hv : y.call m R 3 (fun r c => q.get [r, c]) (s.ensureBuffers R 3).uLen with
    | error e => rw [hv] at hA; cases hA
    | ok v =>
      rw [hv] at hA
      simp only at hA
      cases hw' : w.call m R 3 (fun r c => q.get [r, c]) (s.ensureBuffers R 3).wLen with
      | error e => rw [hw'] at hA; cases hA
      | ok t =>
        rw [hw'] at hA
        simp only [Except.ok.injEq] at hA
        subst hA
        refine ⟨hq, fun r h => ?_⟩
        have g0 : q.get [r, 0] = z r 0 := congrFun (hr r h) 0
        have g1 : q.get [r, 1] = z r 1 := congrFun (hr r h) 1
        have g2 : q.get [r, 2] = z r 2 := congrFun (hr r h) 2
        have c1 := call_row_3d x1 x2 hu (hS r h) (u := 0) (by rw [g0, g1, g2]; exact h0 r h _ x2)
        have c2 := call_row_3d y1 y2 hv (hS r h) (u := 0) (by rw [g0, g1, g2]; exact h0 r h _ y2)
        have c3 := call_row_3d w1 w2 hw' (hS r h) (u := 0) (by rw [g0, g1, g2]; exact h0 r h _ w2)
        funext c
        fin_cases c
        · simp [rowOf, setCol, listCol, c1]
        · simp [rowOf, setCol, listCol, c2]
        · simp [rowOf, setCol, listCol, c3]

end

/-! ## Index coordinates on both sides of the first node -/

/-- The index coordinate of any point. -/
theorem Nodes64.index {n : ℕ} {xs : ℕ → Fl} {dx ζ : ℝ} (h : Nodes64 n xs dx ζ) (x : Fl) :
    step64 n xs ≠ 0 ∧ |(coord64 n xs x).re - (x.re - (xs 0).re) / dx| ≤
      5 * (uR * (|x.re - (xs 0).re| / dx)) + 1 / 10 * uR := by
  rcases le_total (xs 0).re x.re with hx | hx
  · obtain ⟨h1, -, h3⟩ := index64_rel h.two h.lim h.spacing h.normal hx
    rw [abs_of_nonneg (sub_nonneg.2 hx)]
    exact ⟨h1, h3⟩
  · set x' : Fl := ⟨2 * (xs 0).val - x.val⟩ with hx'
    have e : x'.re - (xs 0).re = (xs 0).re - x.re := by
      simp only [hx', Fl.re]
      push_cast
      ring
    obtain ⟨h1, -, h3⟩ := index64_rel (x := x') h.two h.lim h.spacing h.normal (by linarith)
    have o1 : (x' - xs 0).val = -(x - xs 0).val := by
      show rne (x'.val - (xs 0).val) = -rne (x.val - (xs 0).val)
      rw [← rne_neg]
      congr 1
      simp only [hx']
      ring
    have o2 : (coord64 n xs x').val = -(coord64 n xs x).val := by
      show rne ((x' - xs 0).val / (step64 n xs).val) = -rne ((x - xs 0).val / (step64 n xs).val)
      rw [← rne_neg, o1, neg_div]
    have o3 : (coord64 n xs x').re = -(coord64 n xs x).re := by
      simp only [Fl.re, o2]
      push_cast
      ring
    refine ⟨h1, ?_⟩
    rw [show (x' - xs 0) / ((xs (n - 1) - xs 0) / ((n - 1 : ℕ) : Fl)) = coord64 n xs x' from rfl,
      o3, e] at h3
    rw [abs_of_nonpos (a := x.re - (xs 0).re) (by linarith)]
    rw [show -(x.re - (xs 0).re) = (xs 0).re - x.re by ring,
      show (coord64 n xs x).re - (x.re - (xs 0).re) / dx =
        -(-(coord64 n xs x).re - ((xs 0).re - x.re) / dx) by ring, abs_neg]
    exact h3

/-- A point that is not absurdly far away from the axis. -/
def InReach64 (xs : ℕ → Fl) (dx x : ℝ) : Prop := |x - (xs 0).re| ≤ 2 ^ 30 * dx

/-- A point outside the axis, by more than `2^-50 n` spacings. -/
def OffAxis64 (n : ℕ) (xs : ℕ → Fl) (dx x : ℝ) : Prop :=
  x + 2 ^ (-50 : ℤ) * n * dx ≤ (xs 0).re ∨ (xs (n - 1)).re + 2 ^ (-50 : ℤ) * n * dx ≤ x

theorem Nodes64.conv {m : CMachine Fl} (hm : Target64 m) {n : ℕ} {xs : ℕ → Fl} {dx ζ : ℝ}
    (h : Nodes64 n xs dx ζ) {x : Fl} (hx : InReach64 xs dx x.re) :
    Conv m (fun q : Fl => ⌊q.val⌋) ((⟨xs 0, some (step64 n xs)⟩ : Axis Fl).index x)
      ⌊(coord64 n xs x).val⌋ := by
  obtain ⟨h1, h2⟩ := h.index x
  have hd : 0 < dx := lt_of_lt_of_le (by positivity) h.normal
  have hu : uR = 2 ^ (-53 : ℤ) := rfl
  have ha : |x.re - (xs 0).re| / dx ≤ 2 ^ 30 := by
    rw [div_le_iff₀ hd]; exact hx
  have hc : |(coord64 n xs x).re| ≤ 2 ^ 30 + 1 := by
    have e : |(x.re - (xs 0).re) / dx| = |x.re - (xs 0).re| / dx := by
      rw [abs_div, abs_of_pos hd]
    have := abs_sub_abs_le_abs_sub (coord64 n xs x).re ((x.re - (xs 0).re) / dx)
    rw [e] at this
    have hb : 5 * (uR * (|x.re - (xs 0).re| / dx)) ≤ 5 * (uR * 2 ^ 30) := by
      have := mul_le_mul_of_nonneg_left ha uR_pos.le
      linarith
    rw [hu] at hb h2
    norm_num at hb h2 ⊢
    linarith
  obtain ⟨c1, c2⟩ := abs_le.1 hc
  have d1 : -(2 ^ 30 + 1 : ℚ) ≤ (coord64 n xs x).val := by
    have : ((-(2 ^ 30 + 1 : ℚ) : ℚ) : ℝ) ≤ ((coord64 n xs x).val : ℝ) := by push_cast; exact c1
    exact_mod_cast this
  have d2 : (coord64 n xs x).val ≤ (2 ^ 30 + 1 : ℚ) := by
    have : ((coord64 n xs x).val : ℝ) ≤ (((2 ^ 30 + 1 : ℚ) : ℚ) : ℝ) := by push_cast; exact c2
    exact_mod_cast this
  have f1 : (-(2 ^ 30 + 1) : ℤ) ≤ ⌊(coord64 n xs x).val⌋ := Int.le_floor.2 (by push_cast; linarith)
  have f2 : ⌊(coord64 n xs x).val⌋ ≤ (2 ^ 30 + 1 : ℤ) := by
    have := (Int.floor_le (coord64 n xs x).val).trans d2
    exact_mod_cast this
  simp only [Axis.index, if_neg h1]
  change Conv m (fun q : Fl => ⌊q.val⌋) (some (coord64 n xs x)) ⌊(coord64 n xs x).val⌋
  rcases hm with rfl | rfl
  · exact conv_iso (floor := fun q : Fl => ⌊q.val⌋) (ofInt := fun z : ℤ => (z : Fl))
      (by omega) (by omega)
  · have hc := conv_x86 (floor := fun q : Fl => ⌊q.val⌋) (ofInt := fun z : ℤ => (z : Fl))
      (p := some (coord64 n xs x)) (by intro q hq; cases hq; omega)
    have hr : InInt32 ⌊(coord64 n xs x).val⌋ := ⟨by omega, by omega⟩
    simpa only [x86Floor, hr, if_true] using hc

theorem Nodes64.off {n : ℕ} {xs : ℕ → Fl} {dx ζ : ℝ} (h : Nodes64 n xs dx ζ) {x : Fl}
    (hx : OffAxis64 n xs dx x.re) :
    ¬ (0 ≤ ⌊(coord64 n xs x).val⌋ ∧ ⌊(coord64 n xs x).val⌋ + 1 < (n : ℤ)) := by
  obtain ⟨-, h2⟩ := h.index x
  have hd : 0 < dx := lt_of_lt_of_le (by positivity) h.normal
  have hu : uR = 2 ^ (-53 : ℤ) := rfl
  have hn : (2 : ℝ) ≤ n := by exact_mod_cast h.two
  rintro ⟨g1, g2⟩
  have k1 : (0 : ℝ) ≤ (coord64 n xs x).re := Fl.re_nonneg.2 (Int.floor_nonneg.1 g1)
  have k2 : (coord64 n xs x).re < (n : ℝ) - 1 := by
    have e : ⌊(coord64 n xs x).val⌋ < ((n : ℤ) - 1) := by omega
    have := Int.floor_lt.1 e
    have : ((coord64 n xs x).val : ℝ) < (((((n : ℤ) - 1 : ℤ) : ℚ)) : ℝ) := by exact_mod_cast this
    push_cast at this
    exact this
  rcases hx with hx | hx
  · have ht : 2 ^ (-50 : ℤ) * (n : ℝ) ≤ ((xs 0).re - x.re) / dx := by
      rw [le_div_iff₀ hd]; linarith
    have hneg : x.re - (xs 0).re ≤ 0 := by
      have : 0 ≤ (2 : ℝ) ^ (-50 : ℤ) * n * dx := by positivity
      linarith
    rw [abs_of_nonpos hneg] at h2
    rw [show -(x.re - (xs 0).re) / dx = ((xs 0).re - x.re) / dx by ring,
      show (x.re - (xs 0).re) / dx = -(((xs 0).re - x.re) / dx) by ring] at h2
    have := (abs_le.1 h2).2
    rw [hu] at this
    generalize ((xs 0).re - x.re) / dx = t at *
    norm_num at this ht
    linarith
  · have ht : (n : ℝ) - 1 + 2 ^ (-50 : ℤ) * (n : ℝ) ≤ (x.re - (xs 0).re) / dx := by
      rw [le_div_iff₀ hd]; linarith [h.spacing]
    have hpos : 0 ≤ x.re - (xs 0).re := by
      have e1 : 0 ≤ (2 : ℝ) ^ (-50 : ℤ) * n * dx := by positivity
      have e2 : 0 ≤ ((n : ℝ) - 1) * dx := mul_nonneg (by linarith) hd.le
      linarith [h.spacing]
    rw [abs_of_nonneg hpos] at h2
    have := (abs_le.1 h2).1
    rw [hu] at this
    generalize (x.re - (xs 0).re) / dx = t at *
    norm_num at this ht
    linarith

/-- The 2-D kernel outside the grid. -/
theorem off_grid_2d {m : CMachine Fl} (hm : Target64 m) {nx ny : ℕ} {xs ys : ℕ → Fl} {dx dy ζ : ℝ}
    (hx : Nodes64 nx xs dx ζ) (hy : Nodes64 ny ys dy ζ) {z : Fin 2 → Fl}
    (rx : InReach64 xs dx (z 0).re) (ry : InReach64 ys dy (z 1).re)
    (ho : OffAxis64 nx xs dx (z 0).re ∨ OffAxis64 ny ys dy (z 1).re) (v : NDArray Fl) :
    interp2dAt m v nx ny ((⟨xs 0, some (step64 nx xs)⟩ : Axis Fl).index (z 0))
      ((⟨ys 0, some (step64 ny ys)⟩ : Axis Fl).index (z 1)) = .ok 0 := by
  refine interp2dAt_out hx.lim hy.lim (hx.conv hm rx) (hy.conv hm ry) ?_
  rintro ⟨a, b, c, d⟩
  rcases ho with ho | ho
  · exact hx.off ho ⟨a, b⟩
  · exact hy.off ho ⟨c, d⟩

/-- The 3-D kernel outside the grid. -/
theorem off_grid_3d {m : CMachine Fl} (hm : Target64 m) {nx ny nz : ℕ} {xs ys zs : ℕ → Fl}
    {dx dy dz ζ : ℝ} (hx : Nodes64 nx xs dx ζ) (hy : Nodes64 ny ys dy ζ) (hz : Nodes64 nz zs dz ζ)
    (hyz : (ny : ℤ) * nz < intLim) {z : Fin 3 → Fl}
    (rx : InReach64 xs dx (z 0).re) (ry : InReach64 ys dy (z 1).re) (rz : InReach64 zs dz (z 2).re)
    (ho : OffAxis64 nx xs dx (z 0).re ∨ OffAxis64 ny ys dy (z 1).re ∨ OffAxis64 nz zs dz (z 2).re)
    (v : NDArray Fl) :
    interp3dAt m v nx ny nz ((⟨xs 0, some (step64 nx xs)⟩ : Axis Fl).index (z 0))
      ((⟨ys 0, some (step64 ny ys)⟩ : Axis Fl).index (z 1))
      ((⟨zs 0, some (step64 nz zs)⟩ : Axis Fl).index (z 2)) = .ok 0 := by
  refine interp3dAt_out hx.lim hy.lim hz.lim (mul64 hm hyz) (hx.conv hm rx) (hy.conv hm ry)
    (hz.conv hm rz) ?_
  rintro ⟨a, b, c, d, e, f⟩
  rcases ho with ho | ho | ho
  · exact hx.off ho ⟨a, b⟩
  · exact hy.off ho ⟨c, d⟩
  · exact hz.off ho ⟨e, f⟩

/-! ## Files with samples on a grid -/

/-- Every snapshot of the source lists velocities at the nodes of one grid, `x` varying fastest (the
velocities are any numbers); the coordinates are handed out in every step. -/
structure GridFiles64 (fs : MatFS Fl) (s : FileSource Fl) (nx ny : ℕ) (xs ys : ℕ → Fl)
    (dx dy ζ : ℝ) : Prop where
  fresh : s.reuseCoordinates = false
  x : Nodes64 nx xs dx ζ
  y : Nodes64 ny ys dy ζ
  data : ∀ j < s.snapshotFiles.length, ∃ V P, s.Listed fs j V P ∧
    V.shape = [2, nx * ny] ∧ P.shape = [2, nx * ny] ∧
    ∀ a < nx, ∀ b < ny, P.get [0, a + nx * b] = xs a ∧ P.get [1, a + nx * b] = ys b

/-- The same in 3-D, listed as in C89. -/
structure GridFiles64x3 (fs : MatFS Fl) (s : FileSource Fl) (m nz : ℕ) (xs ys zs : ℕ → Fl)
    (dx dy dz ζ : ℝ) : Prop where
  fresh : s.reuseCoordinates = false
  x : Nodes64 m xs dx ζ
  y : Nodes64 m ys dy ζ
  z : Nodes64 nz zs dz ζ
  lim : (m : ℤ) * nz < intLim
  data : ∀ j < s.snapshotFiles.length, ∃ V P, s.Listed fs j V P ∧
    V.shape = [3, m * m * nz] ∧ P.shape = [3, m * m * nz] ∧
    ∀ a < m, ∀ b < m, ∀ e < nz, P.get [0, (b * m + a) * nz + e] = xs a ∧
      P.get [1, (b * m + a) * nz + e] = ys b ∧ P.get [2, (b * m + a) * nz + e] = zs e

/-- A point outside the rectangle of the grid. -/
def OffGrid64 (nx ny : ℕ) (xs ys : ℕ → Fl) (dx dy : ℝ) (z : Fin 2 → Fl) : Prop :=
  InReach64 xs dx (z 0).re ∧ InReach64 ys dy (z 1).re ∧
    (OffAxis64 nx xs dx (z 0).re ∨ OffAxis64 ny ys dy (z 1).re)

/-- A point outside the box of the grid. -/
def OffGrid64x3 (m nz : ℕ) (xs ys zs : ℕ → Fl) (dx dy dz : ℝ) (z : Fin 3 → Fl) : Prop :=
  InReach64 xs dx (z 0).re ∧ InReach64 ys dy (z 1).re ∧ InReach64 zs dz (z 2).re ∧
    (OffAxis64 m xs dx (z 0).re ∨ OffAxis64 m ys dy (z 1).re ∨ OffAxis64 nz zs dz (z 2).re)

/-- The interpolator after the update of step `j`. -/
theorem GridFiles64.quiet {F : Type} {env : Env Fl F} (hm : Target64 env.m) {s : FileSource Fl}
    {nx ny : ℕ} {xs ys : ℕ → Fl} {dx dy ζ : ℝ} (hd : GridFiles64 env.fs s nx ny xs ys dx dy ζ)
    {R : ℕ} {S : Set ℕ} (hS : ∀ r ∈ S, r < R) {z : ℕ → Fin 2 → Fl}
    (hz : ∀ r ∈ S, OffGrid64 nx ny xs ys dx dy (z r)) :
    ∀ j < s.snapshotFiles.length,
      ((Source.file s).updated env (.highPerf (HighPerf.fresh [nx, ny])) (j + 1)).2 = none ∧
      Quiet R 2 S z (((Source.file s).updated env (.highPerf (HighPerf.fresh [nx, ny]))
        (j + 1)).1.velocity env) ∧
      PointwiseOn {w | OffGrid64 nx ny xs ys dx dy w} R (((Source.file s).updated env
        (.highPerf (HighPerf.fresh [nx, ny])) (j + 1)).1.velocity env) fun _ _ => 0 := by
  have hnx := hd.x.two
  have hny := hd.y.two
  have upd : ∀ (s' : HighPerf Fl) (V P : NDArray Fl), s'.gridShape = [nx, ny] →
      V.shape = [2, nx * ny] → P.shape = [2, nx * ny] →
      (∀ a < nx, ∀ b < ny, P.get [0, a + nx * b] = xs a ∧ P.get [1, a + nx * b] = ys b) →
      ∃ s2 x y, s'.update V (some P) = (s2, none) ∧ s2.gridShape = [nx, ny] ∧ s2.ix = some x ∧
        s2.iy = some y ∧
        (x.axes = [⟨xs 0, some (step64 nx xs)⟩, ⟨ys 0, some (step64 ny ys)⟩] ∧
          x.v.shape = [nx, ny]) ∧
        y.axes = [⟨xs 0, some (step64 nx xs)⟩, ⟨ys 0, some (step64 ny ys)⟩] ∧
          y.v.shape = [nx, ny] := by
    intro s' V P hg hV hP hlist
    have lt : ∀ a < nx, ∀ b < ny, a + nx * b < nx * ny := by
      intro a ha b hb
      nlinarith
    have split : ∀ q < nx * ny, q % nx < nx ∧ q / nx < ny ∧ q % nx + nx * (q / nx) = q := fun q hq =>
      ⟨Nat.mod_lt _ (by omega), Nat.div_lt_of_lt_mul hq, Nat.mod_add_div q nx⟩
    obtain ⟨x, y, b1, b2, b3⟩ := build_axes_2d hP hV
      (hd.x.axis (fun q hq => by
          obtain ⟨h1, h2, h3⟩ := split q hq
          exact ⟨_, h1, by rw [← (hlist _ h1 _ h2).1, h3]⟩)
        fun a ha => ⟨_, lt a ha 0 (by omega), (hlist a ha 0 (by omega)).1⟩)
      (hd.y.axis (fun q hq => by
          obtain ⟨h1, h2, h3⟩ := split q hq
          exact ⟨_, h2, by rw [← (hlist _ h1 _ h2).2, h3]⟩)
        fun b hb => ⟨_, lt 0 (by omega) b hb, (hlist 0 (by omega) b hb).2⟩)
    unfold HighPerf.update HighPerf.initialize
    simp only [hg, b1]
    exact ⟨_, x, y, rfl, rfl, rfl, rfl, ⟨b2.1, b2.2.1⟩, b3.1, b3.2.1⟩
  have dataOf : ∀ i V P, s.Listed env.fs i V P → s.dataForStep env.fs i = .ok (V, some P) := by
    rintro i V P ⟨⟨f, f1, f2⟩, ⟨g, g1, g2⟩⟩
    unfold FileSource.dataForStep
    simp [f1, f2, g1, g2, hd.fresh]
  have shape : ∀ i ≤ s.snapshotFiles.length, ∃ s' : HighPerf Fl, s'.gridShape = [nx, ny] ∧
      (Source.file s).updated env (.highPerf (HighPerf.fresh [nx, ny])) i = (.highPerf s', none) := by
    intro i
    induction i with
    | zero => exact fun _ => ⟨_, rfl, rfl⟩
    | succ i ih =>
      intro hi
      obtain ⟨s', h1, h2⟩ := ih (by omega)
      obtain ⟨V, P, a1, a2, a3, a4⟩ := hd.data i (by omega)
      obtain ⟨s2, x, y, b1, b2, -⟩ := upd s' V P h1 a2 a3 a4
      refine ⟨s2, b2, ?_⟩
      simp only [Source.updated, h2, Source.updateInterp, dataOf i V P a1, AnyInterp.update, b1]
  intro j hj
  obtain ⟨V, P, a1, a2, a3, a4⟩ := hd.data j hj
  obtain ⟨s', h1, h2⟩ := shape j hj.le
  obtain ⟨s2, x, y, b1, -, b3, b4, ⟨x1, x2⟩, y1, y2⟩ := upd s' V P h1 a2 a3 a4
  have hu : (Source.file s).updated env (.highPerf (HighPerf.fresh [nx, ny])) (j + 1) =
      (.highPerf s2, none) := by
    simp only [Source.updated, h2, Source.updateInterp, dataOf j _ _ a1, AnyInterp.update, b1]
  rw [hu]
  refine ⟨rfl, highPerf_quiet_2d b3 b4 x1 x2 y1 y2 hS fun r hr v _ =>
    off_grid_2d hm hd.x hd.y (hz r hr).1 (hz r hr).2.1 (hz r hr).2.2 v, fun pos hp ho => ?_⟩
  have call : ∀ it : Interp Fl,
      it.axes = [⟨xs 0, some (step64 nx xs)⟩, ⟨ys 0, some (step64 ny ys)⟩] →
      it.v.shape = [nx, ny] →
      it.call env.m R 2 (fun r c => pos.get [r, c]) (some R) =
        .ok ((List.range R).map fun _ => 0) := by
    intro it i1 i2
    refine interp_call_2d i1 i2 fun r hr => ?_
    exact off_grid_2d hm hd.x hd.y (z := rowOf pos 2 r) (ho r hr).1 (ho r hr).2.1 (ho r hr).2.2 it.v
  obtain ⟨out, o1, o2, o3⟩ := highPerf_calls_2d env.junk b3 b4 hp (call x x1 x2) (call y y1 y2)
  refine ⟨out, o1, o2, fun r hr => ?_⟩
  funext c
  fin_cases c
  · exact (o3 r hr).1
  · exact (o3 r hr).2

/-- The same in 3-D. -/
theorem GridFiles64x3.quiet {F : Type} {env : Env Fl F} (hm : Target64 env.m) {s : FileSource Fl}
    {m nz : ℕ} {xs ys zs : ℕ → Fl} {dx dy dz ζ : ℝ}
    (hd : GridFiles64x3 env.fs s m nz xs ys zs dx dy dz ζ)
    {R : ℕ} {S : Set ℕ} (hS : ∀ r ∈ S, r < R) {z : ℕ → Fin 3 → Fl}
    (hz : ∀ r ∈ S, OffGrid64x3 m nz xs ys zs dx dy dz (z r)) :
    ∀ j < s.snapshotFiles.length,
      ((Source.file s).updated env (.highPerf (HighPerf.fresh [m, m, nz])) (j + 1)).2 = none ∧
      Quiet R 3 S z (((Source.file s).updated env (.highPerf (HighPerf.fresh [m, m, nz]))
        (j + 1)).1.velocity env) ∧
      PointwiseOn {w | OffGrid64x3 m nz xs ys zs dx dy dz w} R (((Source.file s).updated env
        (.highPerf (HighPerf.fresh [m, m, nz])) (j + 1)).1.velocity env) fun _ _ => 0 := by
  have hm2 := hd.x.two
  have hz2 := hd.z.two
  have upd : ∀ (s' : HighPerf Fl) (V P : NDArray Fl), s'.gridShape = [m, m, nz] →
      V.shape = [3, m * m * nz] → P.shape = [3, m * m * nz] →
      (∀ a < m, ∀ b < m, ∀ e < nz, P.get [0, (b * m + a) * nz + e] = xs a ∧
        P.get [1, (b * m + a) * nz + e] = ys b ∧ P.get [2, (b * m + a) * nz + e] = zs e) →
      ∃ (s2 : HighPerf Fl) (it : Fin 3 → Interp Fl), s'.update V (some P) = (s2, none) ∧
        s2.gridShape = [m, m, nz] ∧ s2.ix = some (it 0) ∧ s2.iy = some (it 1) ∧
        s2.iz = some (it 2) ∧ s2.uLen = s'.uLen ∧
        ∀ c : Fin 3, (it c).axes = [⟨xs 0, some (step64 m xs)⟩, ⟨ys 0, some (step64 m ys)⟩,
            ⟨zs 0, some (step64 nz zs)⟩] ∧ (it c).v.shape = [m, m, nz] := by
    intro s' V P hg hV hP hlist
    have split : ∀ q < m * m * nz, ∃ a < m, ∃ b < m, ∃ c < nz, (b * m + a) * nz + c = q := by
      intro q hq
      have hz : 0 < nz := by omega
      have h1 : q / nz < m * m := (Nat.div_lt_iff_lt_mul hz).2 hq
      refine ⟨q / nz % m, Nat.mod_lt _ (by omega), q / nz / m, Nat.div_lt_of_lt_mul h1, q % nz,
        Nat.mod_lt _ hz, ?_⟩
      rw [Nat.div_add_mod', Nat.div_add_mod']
    obtain ⟨it, b1, b2⟩ := build_axes_3d hP hV
      (hd.x.axis (fun q hq => by
          obtain ⟨a, ha, b, hb, e, he, rfl⟩ := split q hq
          exact ⟨a, ha, (hlist a ha b hb e he).1⟩)
        fun a ha => ⟨_, flat_lt3 ha (b := 0) (by omega) (c := 0) (by omega),
          (hlist a ha 0 (by omega) 0 (by omega)).1⟩)
      (hd.y.axis (fun q hq => by
          obtain ⟨a, ha, b, hb, e, he, rfl⟩ := split q hq
          exact ⟨b, hb, (hlist a ha b hb e he).2.1⟩)
        fun b hb => ⟨_, flat_lt3 (a := 0) (by omega) hb (c := 0) (by omega),
          (hlist 0 (by omega) b hb 0 (by omega)).2.1⟩)
      (hd.z.axis (fun q hq => by
          obtain ⟨a, ha, b, hb, e, he, rfl⟩ := split q hq
          exact ⟨e, he, (hlist a ha b hb e he).2.2⟩)
        fun e he => ⟨_, flat_lt3 (a := 0) (by omega) (b := 0) (by omega) he,
          (hlist 0 (by omega) 0 (by omega) e he).2.2⟩)
    unfold HighPerf.update HighPerf.initialize
    simp only [hg, b1]
    exact ⟨_, it, rfl, rfl, rfl, rfl, rfl, rfl, fun c => ⟨(b2 c).1, (b2 c).2.1⟩⟩
  have dataOf : ∀ i V P, s.Listed env.fs i V P → s.dataForStep env.fs i = .ok (V, some P) := by
    rintro i V P ⟨⟨f, f1, f2⟩, ⟨g, g1, g2⟩⟩
    unfold FileSource.dataForStep
    simp [f1, f2, g1, g2, hd.fresh]
  have shape : ∀ i ≤ s.snapshotFiles.length, ∃ s' : HighPerf Fl, s'.gridShape = [m, m, nz] ∧
      s'.uLen = none ∧ (Source.file s).updated env (.highPerf (HighPerf.fresh [m, m, nz])) i =
        (.highPerf s', none) := by
    intro i
    induction i with
    | zero => exact fun _ => ⟨_, rfl, rfl, rfl⟩
    | succ i ih =>
      intro hi
      obtain ⟨s', h1, h3, h2⟩ := ih (by omega)
      obtain ⟨V, P, a1, a2, a3, a4⟩ := hd.data i (by omega)
      obtain ⟨s2, it, b1, b2, -, -, -, b3, -⟩ := upd s' V P h1 a2 a3 a4
      refine ⟨s2, b2, b3.trans h3, ?_⟩
      simp only [Source.updated, h2, Source.updateInterp, dataOf i V P a1, AnyInterp.update, b1]
  intro j hj
  obtain ⟨V, P, a1, a2, a3, a4⟩ := hd.data j hj
  obtain ⟨s', h1, h3, h2⟩ := shape j hj.le
  obtain ⟨s2, it, b1, -, b3, b4, b5, b7, b6⟩ := upd s' V P h1 a2 a3 a4
  have hu : (Source.file s).updated env (.highPerf (HighPerf.fresh [m, m, nz])) (j + 1) =
      (.highPerf s2, none) := by
    simp only [Source.updated, h2, Source.updateInterp, dataOf j _ _ a1, AnyInterp.update, b1]
  rw [hu]
  refine ⟨rfl, highPerf_quiet_3d b3 b4 b5 (b6 0).1 (b6 0).2 (b6 1).1 (b6 1).2 (b6 2).1 (b6 2).2 hS
    fun r hr v _ => off_grid_3d hm hd.x hd.y hd.z hd.lim (hz r hr).1 (hz r hr).2.1 (hz r hr).2.2.1
      (hz r hr).2.2.2 v, fun pos hp ho => ?_⟩
  obtain ⟨out, o1, o2, o3⟩ := highPerf_calls_3d (m := env.m) env.junk b3 b4 b5 hp
    (by intro h; rw [b7, h3] at h; cases h) (u := fun _ _ => 0)
    (fun c => interp_call_3d (b6 c).1 (b6 c).2 fun r hr =>
      off_grid_3d hm hd.x hd.y hd.z hd.lim (z := rowOf pos 3 r) (ho r hr).1 (ho r hr).2.1
        (ho r hr).2.2.1 (ho r hr).2.2.2 (it c).v)
  exact ⟨out, o1, o2, fun r hr => funext fun c => o3 r hr c⟩

end Verif
