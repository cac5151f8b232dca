import Verif.Props.Grid64
import Verif.Props.GridInterp
import Verif.Lemmas.Monotone64

/-!
# C94: which points the fast interpolator covers in binary64

In exact arithmetic an axis with nodes `lo, …, hi` covers `lo ≤ x < hi` (C25, C27).  In binary64 the
left end is sharp and cells are found in order, but the right end depends on the rounding of the
spacing: points strictly inside can get the velocity 0, and the last node can be inside.
-/

namespace Verif

open Set

/-! ## Specification -/

/-- An axis from `lo` to `hi` with `n` nodes at distance `dx`; the ends are binary64 numbers. -/
structure Axis64 (n : ℕ) (lo hi : Fl) (dx : ℝ) : Prop where
  two : 2 ≤ n
  lim : (n : ℤ) < intLim
  lo_grid : OnGrid lo.val
  hi_grid : OnGrid hi.val
  spacing : hi.re - lo.re = ((n : ℝ) - 1) * dx
  normal : 2 ^ (-500 : ℤ) ≤ dx

/-- `std::floor` on binary64 numbers. -/
abbrev floor64 (q : Fl) : ℤ := ⌊q.val⌋

/-- The index coordinate the interpolator computes for `x`. -/
abbrev index (n : ℕ) (lo hi x : Fl) : Option Fl := (Axis.linspace lo hi n).index x

/-! ## Proofs -/

theorem Axis64.pos {n : ℕ} {lo hi : Fl} {dx : ℝ} (h : Axis64 n lo hi dx) : 0 < dx :=
  lt_of_lt_of_le (by positivity) h.normal

theorem Axis64.index_eq {n : ℕ} {lo hi : Fl} {dx : ℝ} (h : Axis64 n lo hi dx) (x : Fl) :
    index n lo hi x = some ((x - lo) / ((hi - lo) / ((n - 1 : ℕ) : Fl))) ∧
      0 < ((hi - lo) / ((n - 1 : ℕ) : Fl)).val := by
  have hn := h.two
  have hd := h.pos
  have hδ := delta64 h.two h.lim h.spacing h.normal
  have hu : uR * dx ≤ 1 / 10 ^ 15 * dx := mul_le_mul_of_nonneg_right uR_le hd.le
  have hp : 0 < ((hi - lo) / ((n - 1 : ℕ) : Fl)).re := by linarith [(abs_le.1 hδ).1]
  have hp' : 0 < ((hi - lo) / ((n - 1 : ℕ) : Fl)).val := by
    unfold Fl.re at hp
    exact_mod_cast hp
  refine ⟨?_, hp'⟩
  simp only [index, Axis.linspace, Axis.index, if_neg (by omega : ¬ n = 1)]
  rw [if_neg]
  intro h0
  rw [h0] at hp'
  exact lt_irrefl _ hp'

/-- **C94, order.** Cells are found in order: of two points the one further right never gets an
index coordinate further left; the first node has the coordinate 0. -/
theorem C94_monotone {n : ℕ} {lo hi : Fl} {dx : ℝ} (h : Axis64 n lo hi dx) :
    (∃ q, index n lo hi lo = some q ∧ floor64 q = 0) ∧
    ∀ x y : Fl, x.val ≤ y.val → ∃ p q, index n lo hi x = some p ∧ index n lo hi y = some q ∧
      p.val ≤ q.val ∧ floor64 p ≤ floor64 q := by
  constructor
  · refine ⟨_, (h.index_eq lo).1, ?_⟩
    show ⌊rne (rne (lo.val - lo.val) / _)⌋ = 0
    rw [sub_self, rne_zero, zero_div, rne_zero, Int.floor_zero]
  · intro x y hxy
    obtain ⟨h1, hp⟩ := h.index_eq x
    have key : ((x - lo) / ((hi - lo) / ((n - 1 : ℕ) : Fl))).val ≤
        ((y - lo) / ((hi - lo) / ((n - 1 : ℕ) : Fl))).val :=
      rne_mono (div_le_div_of_nonneg_right (rne_mono (by linarith)) hp.le)
    exact ⟨_, _, h1, (h.index_eq y).1, key, Int.floor_le_floor key⟩

/-- **C94, outside.** A point left of the first node (by more than the underflow of the quotient), or
right of the last one by more than `2^-50` of the length of the axis, is in no cell. -/
theorem C94_outside {n : ℕ} {lo hi : Fl} {dx : ℝ} (h : Axis64 n lo hi dx) {x : Fl}
    (hx : OnGrid x.val) (ho : x.re + 2 ^ (-1072 : ℤ) * dx ≤ lo.re ∨
      hi.re + 2 ^ (-50 : ℤ) * (hi.re - lo.re) < x.re) :
    ¬ FloorIn floor64 n (index n lo hi x) := by
  obtain ⟨h1, hp⟩ := h.index_eq x
  have hd := h.pos
  have hn : (2 : ℝ) ≤ n := by exact_mod_cast h.two
  have hu0 : (0 : ℝ) < uR := by unfold uR; positivity
  rw [h1]
  rintro ⟨q, hq, h0, h2⟩
  cases hq
  rcases ho with ho | ho
  · have hδ := delta64 h.two h.lim h.spacing h.normal
    have hu : uR * dx ≤ 1 / 10 ^ 15 * dx := mul_le_mul_of_nonneg_right uR_le hd.le
    set δ := (hi - lo) / ((n - 1 : ℕ) : Fl)
    have hδ2 : δ.re ≤ 2 * dx := by linarith [(abs_le.1 hδ).2]
    have hlt : x.val < lo.val := by
      have : x.re < lo.re := by
        have : 0 < (2 : ℝ) ^ (-1072 : ℤ) * dx := by positivity
        linarith
      unfold Fl.re at this
      exact_mod_cast this
    have h3 := rne_sub_half hx h.lo_grid hlt
    have h4 : (2 : ℚ) ^ (-1074 : ℤ) ≤ rne (lo.val - x.val) / δ.val := by
      rw [le_div_iff₀ hp]
      refine le_trans ?_ h3
      have : (2 : ℝ) ^ (-1074 : ℤ) * δ.re ≤ (lo.re - x.re) / 2 := by
        have e : (2 : ℝ) ^ (-1072 : ℤ) = 4 * 2 ^ (-1074 : ℤ) := by
          rw [show (-1072 : ℤ) = 2 + (-1074) by norm_num, zpow_add₀ (by norm_num)]
          norm_num
        rw [e] at ho
        have hk : (0 : ℝ) < 2 ^ (-1074 : ℤ) := by positivity
        nlinarith
      unfold Fl.re at this
      refine (Rat.cast_le (K := ℝ)).1 ?_
      push_cast
      exact this
    have h5 := le_rne (onGrid_two_zpow le_rfl) h4
    have h6 : ((x - lo) / δ).val = - rne (rne (lo.val - x.val) / δ.val) := by
      show rne (rne (x.val - lo.val) / δ.val) = _
      rw [← rne_neg, ← neg_div, ← rne_neg, neg_sub]
    have h7 : ((x - lo) / δ).val < 0 := by
      rw [h6]
      have : (0 : ℚ) < 2 ^ (-1074 : ℤ) := by positivity
      linarith
    exact absurd h0 (not_le.2 (Int.floor_lt.2 (by exact_mod_cast h7)))
  · have hL : 0 ≤ hi.re - lo.re := by
      rw [h.spacing]
      exact mul_nonneg (by linarith) hd.le
    have hL' : 0 ≤ (2 : ℝ) ^ (-50 : ℤ) * (hi.re - lo.re) := by positivity
    obtain ⟨-, -, a3⟩ := index64_rel (x := x) h.two h.lim h.spacing h.normal (by linarith)
    set δ := (hi - lo) / ((n - 1 : ℕ) : Fl)
    set c := (x.re - lo.re) / dx with hc
    have hcn : ((n : ℝ) - 1) * (1 + 8 * uR) < c := by
      rw [hc, lt_div_iff₀ hd]
      have e : (2 : ℝ) ^ (-50 : ℤ) = 8 * uR := by unfold uR; norm_num
      rw [e, h.spacing] at ho
      have := h.spacing
      nlinarith
    have hge : (n : ℝ) - 1 ≤ ((x - lo) / δ).re := by
      have h3 := (abs_le.1 a3).1
      have h4 := uR_le
      have h5 : ((n : ℝ) - 1) * (1 + 8 * uR) * (1 - 5 * uR) ≤ c * (1 - 5 * uR) :=
        mul_le_mul_of_nonneg_right hcn.le (by linarith)
      have h6 : ((n : ℝ) - 1) * (1 + 2 * uR) ≤ ((n : ℝ) - 1) * (1 + 8 * uR) * (1 - 5 * uR) := by
        rw [mul_assoc]
        exact mul_le_mul_of_nonneg_left (by nlinarith) (by linarith)
      nlinarith
    have hge' : ((n : ℤ) - 1 : ℤ) ≤ ⌊((x - lo) / δ).val⌋ := by
      rw [Int.le_floor]
      unfold Fl.re at hge
      push_cast
      exact_mod_cast hge
    have : ⌊((x - lo) / δ).val⌋ + 1 < (n : ℤ) := h2
    omega

/-- **C94, inside.** A point from the first node up to the last one less `2^-50 n` spacings is in a
cell, the cell contains it up to `2^-50 n` spacings, and its weight is between 0 and 1 and off by at
most `2^-49 n`. -/
theorem C94_inside {n : ℕ} {lo hi : Fl} {dx : ℝ} (h : Axis64 n lo hi dx) {x : Fl}
    (hl : lo.re ≤ x.re) (hr : x.re + 2 ^ (-50 : ℤ) * n * dx < hi.re) :
    ∃ (q : Fl) (i : ℕ), index n lo hi x = some q ∧ floor64 q = i ∧ i + 1 < n ∧
      lo.re + i * dx - 2 ^ (-50 : ℤ) * n * dx ≤ x.re ∧
      x.re < lo.re + (i + 1) * dx + 2 ^ (-50 : ℤ) * n * dx ∧
      0 ≤ (q - ((i : ℤ) : Fl)).re ∧ (q - ((i : ℤ) : Fl)).re ≤ 1 ∧
      |(q - ((i : ℤ) : Fl)).re - ((x.re - lo.re) / dx - i)| ≤ 2 ^ (-49 : ℤ) * n := by
  have hd := h.pos
  have hpos : 0 ≤ (2 : ℝ) ^ (-50 : ℤ) * n * dx := by positivity
  obtain ⟨h1, hp⟩ := h.index_eq x
  obtain ⟨-, b2, b3⟩ := index64 (x := x) h.two h.lim h.spacing h.normal hl (by linarith)
  set q := (x - lo) / ((hi - lo) / ((n - 1 : ℕ) : Fl))
  have hq : (x.re - lo.re) / dx + 2 ^ (-50 : ℤ) * n < (n : ℝ) - 1 := by
    have : (x.re - lo.re) / dx + 2 ^ (-50 : ℤ) * n =
        (x.re - lo.re + 2 ^ (-50 : ℤ) * n * dx) / dx := by field_simp
    rw [this, div_lt_iff₀ hd]
    linarith [h.spacing]
  obtain ⟨i, c1, c2, c3, c4⟩ := cell64 (q := q) (n := n) b2 (by linarith [(abs_le.1 b3).2])
  have ei : (((i : ℤ) : Fl)).val = i := by
    show rne ((i : ℤ) : ℚ) = i
    have hl := h.lim
    have := rne_onGrid (x := (i : ℚ)) ⟨i, 0, by rw [abs_of_nonneg (by omega)]; omega, by norm_num,
      by push_cast; ring⟩
    exact_mod_cast this
  have f0 : 0 ≤ q.val - i := by
    unfold Fl.re at c3
    have : (i : ℚ) ≤ q.val := by exact_mod_cast c3
    linarith
  have f1 : q.val - i ≤ 1 := by
    unfold Fl.re at c4
    have : q.val < (i : ℚ) + 1 := by exact_mod_cast c4
    linarith
  have hv : (q - ((i : ℤ) : Fl)).val = rne (q.val - i) := by
    show rne (q.val - ((i : ℤ) : Fl).val) = _
    rw [ei]
  refine ⟨q, i, h1, c1, c2, ?_, ?_, ?_, ?_, ?_⟩
  rotate_left 2
  · have := le_rne (g := 0) ⟨0, 0, by norm_num, by norm_num, by norm_num⟩ f0
    rw [← hv] at this
    unfold Fl.re
    exact_mod_cast this
  · have := rne_le (g := 1) ⟨1, 0, by norm_num, by norm_num, by norm_num⟩ f1
    rw [← hv] at this
    unfold Fl.re
    exact_mod_cast this
  · have h3 := frac64 (q := q) h.lim c2 c3 c4
    have hn : (2 : ℝ) ≤ n := by exact_mod_cast h.two
    have e : (2 : ℝ) ^ (-49 : ℤ) = 16 * uR := by unfold uR; norm_num
    have e' : (2 : ℝ) ^ (-50 : ℤ) = 8 * uR := by unfold uR; norm_num
    have hu0 : (0 : ℝ) < uR := by unfold uR; positivity
    have h4 := eta_le_u
    rw [e]
    rw [e'] at b3
    have h5 := abs_sub_le (q - ((i : ℤ) : Fl)).re (q.re - i) ((x.re - lo.re) / dx - i)
    rw [show q.re - i - ((x.re - lo.re) / dx - i) = q.re - (x.re - lo.re) / dx by ring] at h5
    nlinarith
  · have : (i : ℝ) - 2 ^ (-50 : ℤ) * n ≤ (x.re - lo.re) / dx := by linarith [(abs_le.1 b3).2]
    rw [le_div_iff₀ hd] at this
    linarith
  · have : (x.re - lo.re) / dx < (i : ℝ) + 1 + 2 ^ (-50 : ℤ) * n := by linarith [(abs_le.1 b3).1]
    rw [div_lt_iff₀ hd] at this
    linarith

/-- Outside the axis: left of the first node, or right of the last one, by more than rounding. -/
def Outside64 (lo hi : Fl) (dx : ℝ) (x : Fl) : Prop :=
  x.re + 2 ^ (-1072 : ℤ) * dx ≤ lo.re ∨ hi.re + 2 ^ (-50 : ℤ) * (hi.re - lo.re) < x.re

/-- **C94 (2-D, outside).** The velocity handed out is 0. -/
theorem C94_zero_outside_2d {m : CMachine Fl} {nx ny : ℕ} {xlo xhi ylo yhi : Fl} {dx dy : ℝ}
    (hx : Axis64 nx xlo xhi dx) (hy : Axis64 ny ylo yhi dy) (v : NDArray Fl) (x y : Fl)
    (gx : OnGrid x.val) (gy : OnGrid y.val)
    (cx : Convertible floor64 (fun z : ℤ => (z : Fl)) m (index nx xlo xhi x))
    (cy : Convertible floor64 (fun z : ℤ => (z : Fl)) m (index ny ylo yhi y))
    (ho : Outside64 xlo xhi dx x ∨ Outside64 ylo yhi dy y) :
    interp2dAt m v nx ny (index nx xlo xhi x) (index ny ylo yhi y) = .ok 0 := by
  refine C25_zero_outside_2d_partial nx ny hx.lim hy.lim v _ _ cx cy ?_
  rintro ⟨h1, h2⟩
  rcases ho with ho | ho
  · exact C94_outside hx gx ho h1
  · exact C94_outside hy gy ho h2

/-- **C94 (2-D, inside; partial).** The velocity handed out is the bilinear combination of the four
samples at the corners of a cell which contains the point up to `2^-50 n` spacings, with weights
between 0 and 1 which are those of the point up to `2^-49 n`.  Missing: the points closer to the last node than that, see `C94_inside_fails`. -/
theorem C94_inside_2d_partial {m : CMachine Fl} (hm : Target64 m) {nx ny : ℕ}
    {xlo xhi ylo yhi : Fl} {dx dy : ℝ} (hx : Axis64 nx xlo xhi dx) (hy : Axis64 ny ylo yhi dy)
    {v : NDArray Fl} (hv : v.shape = [nx, ny]) {x y : Fl}
    (xl : xlo.re ≤ x.re) (xr : x.re + 2 ^ (-50 : ℤ) * nx * dx < xhi.re)
    (yl : ylo.re ≤ y.re) (yr : y.re + 2 ^ (-50 : ℤ) * ny * dy < yhi.re) :
    ∃ (i j : ℕ) (xd yd : Fl), i + 1 < nx ∧ j + 1 < ny ∧
      0 ≤ xd.re ∧ xd.re ≤ 1 ∧ |xd.re - ((x.re - xlo.re) / dx - i)| ≤ 2 ^ (-49 : ℤ) * nx ∧
      0 ≤ yd.re ∧ yd.re ≤ 1 ∧ |yd.re - ((y.re - ylo.re) / dy - j)| ≤ 2 ^ (-49 : ℤ) * ny ∧
      xlo.re + i * dx - 2 ^ (-50 : ℤ) * nx * dx ≤ x.re ∧
      x.re < xlo.re + (i + 1) * dx + 2 ^ (-50 : ℤ) * nx * dx ∧
      ylo.re + j * dy - 2 ^ (-50 : ℤ) * ny * dy ≤ y.re ∧
      y.re < ylo.re + (j + 1) * dy + 2 ^ (-50 : ℤ) * ny * dy ∧
      interp2dAt m v nx ny (index nx xlo xhi x) (index ny ylo yhi y) =
        .ok (v.get [i, j] * (1 - xd) * (1 - yd) + v.get [i + 1, j] * xd * (1 - yd) +
          v.get [i, j + 1] * (1 - xd) * yd + v.get [i + 1, j + 1] * xd * yd) := by
  obtain ⟨p, i, p1, p2, p3, p4, p5, p6, p7, p8⟩ := C94_inside hx xl xr
  obtain ⟨q, j, q1, q2, q3, q4, q5, q6, q7, q8⟩ := C94_inside hy yl yr
  refine ⟨i, j, p - ((i : ℤ) : Fl), q - ((j : ℤ) : Fl), p3, q3, p6, p7, p8, q6, q7, q8, p4, p5, q4, q5,
    ?_⟩
  rw [p1, q1, interp2dAt_in hv hx.lim hy.lim (conv64 hm hx.lim p2 p3) (conv64 hm hy.lim q2 q3) p3 q3,
    ofInt64 hm, ofInt64 hm]
  rfl

/-- **C94 (3-D, outside).** -/
theorem C94_zero_outside_3d {m : CMachine Fl} (hm : Target64 m) {nx ny nz : ℕ}
    {xlo xhi ylo yhi zlo zhi : Fl} {dx dy dz : ℝ} (hx : Axis64 nx xlo xhi dx)
    (hy : Axis64 ny ylo yhi dy) (hz : Axis64 nz zlo zhi dz) (hyz : (ny : ℤ) * nz < intLim)
    (v : NDArray Fl) (x y z : Fl) (gx : OnGrid x.val) (gy : OnGrid y.val) (gz : OnGrid z.val)
    (cx : Convertible floor64 (fun z : ℤ => (z : Fl)) m (index nx xlo xhi x))
    (cy : Convertible floor64 (fun z : ℤ => (z : Fl)) m (index ny ylo yhi y))
    (cz : Convertible floor64 (fun z : ℤ => (z : Fl)) m (index nz zlo zhi z))
    (ho : Outside64 xlo xhi dx x ∨ Outside64 ylo yhi dy y ∨ Outside64 zlo zhi dz z) :
    interp3dAt m v nx ny nz (index nx xlo xhi x) (index ny ylo yhi y) (index nz zlo zhi z) =
      .ok 0 := by
  refine C25_zero_outside_3d_partial hm nx ny nz hx.lim hy.lim hz.lim hyz v _ _ _ cx cy cz ?_
  rintro ⟨h1, h2, h3⟩
  rcases ho with ho | ho | ho
  · exact C94_outside hx gx ho h1
  · exact C94_outside hy gy ho h2
  · exact C94_outside hz gz ho h3

/-- **C94 (3-D, inside; partial).** The velocity handed out is the trilinear combination of the
eight samples at the corners of a cell which contains the point up to `2^-50 n` spacings, along `x`,
then `y`, then `z`, with weights between 0 and 1 which are those of the point up to `2^-49 n`.
Missing: the points closer to the last node than that, see `C94_inside_fails`. -/
theorem C94_inside_3d_partial {m : CMachine Fl} (hm : Target64 m) {nx ny nz : ℕ}
    {lo hi : Fin 3 → Fl} {d : Fin 3 → ℝ} (hx : Axis64 nx (lo 0) (hi 0) (d 0))
    (hy : Axis64 ny (lo 1) (hi 1) (d 1)) (hz : Axis64 nz (lo 2) (hi 2) (d 2))
    (hyz : (ny : ℤ) * nz < intLim) {v : NDArray Fl} (hv : v.shape = [nx, ny, nz]) {p : Fin 3 → Fl}
    (hl : ∀ c, (lo c).re ≤ (p c).re)
    (hr : ∀ c, (p c).re + 2 ^ (-50 : ℤ) * ![nx, ny, nz] c * d c < (hi c).re) :
    ∃ (i : Fin 3 → ℕ) (w : Fin 3 → Fl), (∀ c, i c + 1 < ![nx, ny, nz] c ∧
        0 ≤ (w c).re ∧ (w c).re ≤ 1 ∧
        |(w c).re - (((p c).re - (lo c).re) / d c - i c)| ≤ 2 ^ (-49 : ℤ) * ![nx, ny, nz] c ∧
        (lo c).re + i c * d c - 2 ^ (-50 : ℤ) * ![nx, ny, nz] c * d c ≤ (p c).re ∧
        (p c).re < (lo c).re + (i c + 1) * d c + 2 ^ (-50 : ℤ) * ![nx, ny, nz] c * d c) ∧
      interp3dAt m v nx ny nz (index nx (lo 0) (hi 0) (p 0)) (index ny (lo 1) (hi 1) (p 1))
          (index nz (lo 2) (hi 2) (p 2)) =
        .ok (let mix : Fl → Fl → Fl → Fl := fun t a b => a * (1 - t) + b * t
          let f : ℕ → ℕ → ℕ → Fl := fun a b e => v.get [i 0 + a, i 1 + b, i 2 + e]
          mix (w 2) (mix (w 1) (mix (w 0) (f 0 0 0) (f 1 0 0)) (mix (w 0) (f 0 1 0) (f 1 1 0)))
            (mix (w 1) (mix (w 0) (f 0 0 1) (f 1 0 1)) (mix (w 0) (f 0 1 1) (f 1 1 1)))) := by
  obtain ⟨p, i, p1, p2, p3, p4, p5, p6, p7, p8⟩ := C94_inside hx (hl 0) (hr 0)
  obtain ⟨q, j, q1, q2, q3, q4, q5, q6, q7, q8⟩ := C94_inside hy (hl 1) (hr 1)
  obtain ⟨r, k, r1, r2, r3, r4, r5, r6, r7, r8⟩ := C94_inside hz (hl 2) (hr 2)
  have hmul : m.mul ny nz = .ok ((ny : ℤ) * nz) := by
    rcases hm with rfl | rfl
    · exact mul_iso hyz
    · exact mul_x86 hyz
  refine ⟨![i, j, k], ![p - ((i : ℤ) : Fl), q - ((j : ℤ) : Fl), r - ((k : ℤ) : Fl)], fun c => ?_, ?_⟩
  · fin_cases c
    · exact ⟨p3, p6, p7, p8, p4, p5⟩
    · exact ⟨q3, q6, q7, q8, q4, q5⟩
    · exact ⟨r3, r6, r7, r8, r4, r5⟩
  · rw [p1, q1, r1, interp3dAt_in hv hx.lim hy.lim hz.lim hmul (conv64 hm hx.lim p2 p3)
      (conv64 hm hy.lim q2 q3) (conv64 hm hz.lim r2 r3) p3 q3 r3, ofInt64 hm, ofInt64 hm, ofInt64 hm]
    rfl

/-- The largest binary64 number below 1. -/
def below1 : Fl := ⟨1 - 1 / 2 ^ 53⟩

/-- **C94 fails inside.** On the axis `0, 1/3, 2/3, 1` the largest number below 1 has the index
coordinate 3: a point strictly between the last two nodes gets the velocity 0. -/
theorem C94_inside_fails {m : CMachine Fl} (hm : Target64 m) :
    index 4 0 1 below1 = some ⟨3⟩ ∧ (0 : Fl).re < below1.re ∧ below1.re < (1 : Fl).re ∧
    ∀ v : NDArray Fl, interp2dAt m v 4 2 (index 4 0 1 below1) (index 2 0 1 ⟨1 / 2⟩) = .ok 0 := by
  have e : index 4 0 1 below1 = some ⟨3⟩ := by decide +kernel
  have e' : index 2 0 1 ⟨1 / 2⟩ = some ⟨1 / 2⟩ := by decide +kernel
  refine ⟨e, ?_, ?_, fun v => ?_⟩
  · show ((0 : ℚ) : ℝ) < ((1 - 1 / 2 ^ 53 : ℚ) : ℝ)
    norm_num
  · show ((1 - 1 / 2 ^ 53 : ℚ) : ℝ) < ((1 : ℚ) : ℝ)
    norm_num
  · have f1 : floor64 (⟨3⟩ : Fl) = 3 := by decide +kernel
    have f2 : floor64 (⟨1 / 2⟩ : Fl) = 0 := by decide +kernel
    rw [e, e']
    have cv : ∀ q : Fl, 0 ≤ floor64 q → floor64 q < intLim - 1 →
        Convertible floor64 (fun z : ℤ => (z : Fl)) m (some q) := by
      intro q h0 h1
      rcases hm with rfl | rfl
      · exact Or.inr ⟨rfl, q, rfl, by omega, h1⟩
      · exact Or.inl ⟨rfl, by intro q' hq; cases hq; omega⟩
    refine C25_zero_outside_2d_partial (floor := floor64) (ofInt := fun z : ℤ => (z : Fl)) 4 2
      (by norm_num) (by norm_num) v _ _ (cv _ (by omega) (by omega)) (cv _ (by omega) (by omega)) ?_
    rintro ⟨⟨q, hq, -, h2⟩, -⟩
    cases hq
    omega

/-- **C94 fails at the last node.** On the axis from 0 to 1 with 94 nodes the last node has an index
coordinate below 93: it is in the last cell and gets an interpolated value.  (In exact arithmetic it
gets the velocity 0, C27.) -/
theorem C94_last_node_fails : FloorIn floor64 94 (index 94 0 1 1) := by
  have e : ∃ q, index 94 0 1 1 = some q ∧ ⌊q.val⌋ = 92 := by
    refine ⟨(1 - 0) / ((1 - 0) / ((94 - 1 : ℕ) : Fl)), ?_, ?_⟩ <;> decide +kernel
  obtain ⟨q, h1, h2⟩ := e
  exact ⟨q, h1, by simp only [floor64, h2]; norm_num, by simp only [floor64, h2]; norm_num⟩

/-- **C94 fails left of the first node.** On the axis `0, 4` the quotient of the smallest negative
number underflows to `-0`: the point is in the first cell. -/
theorem C94_underflow_fails : index 2 0 ⟨4⟩ ⟨-1 / 2 ^ 1074⟩ = some 0 ∧
    FloorIn floor64 2 (index 2 0 ⟨4⟩ ⟨-1 / 2 ^ 1074⟩) := by
  have e : index 2 0 ⟨4⟩ ⟨-1 / 2 ^ 1074⟩ = some 0 := by decide +kernel
  refine ⟨e, 0, e, ?_, ?_⟩ <;> decide +kernel

/-- The hypotheses hold of the axis `0, 1/3, 2/3, 1` (in binary64 its inner nodes are not exact, but
the interpolator never reads them). -/
theorem thirds : Axis64 4 0 1 (1 / 3) where
  two := by norm_num
  lim := by norm_num
  lo_grid := ⟨0, 0, by norm_num, by norm_num, by norm_num; rfl⟩
  hi_grid := ⟨1, 0, by norm_num, by norm_num, by norm_num; rfl⟩
  spacing := by
    show ((1 : ℚ) : ℝ) - ((0 : ℚ) : ℝ) = _
    norm_num
  normal := by
    have : (2 : ℝ) ^ (-500 : ℤ) ≤ 2 ^ (-2 : ℤ) := zpow_le_zpow_right₀ (by norm_num) (by norm_num)
    refine this.trans ?_
    norm_num

/-- The point `(1/2, 1/2, 1/2)` of a cube with 4 nodes per axis, for every array of samples. -/
example {m : CMachine Fl} (hm : Target64 m) {v : NDArray Fl} (hv : v.shape = [4, 4, 4]) :
    ∃ r, interp3dAt m v 4 4 4 (index 4 0 1 ⟨1 / 2⟩) (index 4 0 1 ⟨1 / 2⟩) (index 4 0 1 ⟨1 / 2⟩) =
      .ok r := by
  obtain ⟨_, _, -, h⟩ := C94_inside_3d_partial hm (lo := fun _ => 0) (hi := fun _ => 1)
    (d := fun _ => 1 / 3) thirds thirds thirds (by norm_num) hv (p := fun _ => ⟨1 / 2⟩) (fun _ => by
      show ((0 : ℚ) : ℝ) ≤ ((1 / 2 : ℚ) : ℝ)
      norm_num) (fun c => by
      show ((1 / 2 : ℚ) : ℝ) + _ < ((1 : ℚ) : ℝ)
      fin_cases c <;> norm_num)
  exact ⟨_, h⟩

end Verif
