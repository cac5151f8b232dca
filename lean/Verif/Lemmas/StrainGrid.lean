import Verif.Lemmas.Strain
import Verif.Lemmas.GridLipschitz
import Verif.Props.GridError

/-!
# The strain of interpolated samples
-/

namespace Verif

open Matrix

theorem node_lt {n i : ℕ} {q : ℝ} (hq : InCells n q) (h : |q - i| ≤ 1) : i < n := by
  have := hq.2
  have := (abs_le.1 h).1
  have : (i : ℝ) < n := by linarith
  exact_mod_cast this

theorem cell_lt {n i : ℕ} {p q : ℝ} (hp : InCells n p) (hq : InCells n q) (h : (i : ℝ) ≤ max p q) :
    i + 1 < n := by
  have h1 := hp.2
  have h2 := hq.2
  have : max p q < (n : ℝ) - 1 := max_lt (by linarith) (by linarith)
  have : ((i + 1 : ℕ) : ℝ) < n := by push_cast; linarith
  exact_mod_cast this

theorem axis_close {n : ℕ} {q b : ℝ} (hq : InCells n q) {f g : ℕ → ℝ}
    (h : ∀ i < n, |f i - g i| ≤ b) : |axisValue f q - axisValue g q| ≤ b := by
  rw [axisValue_sub]
  have := axisValue_near (w := 0) (b := b) hq (f := fun i => f i - g i)
    fun i hi => by rw [sub_zero]; exact h i (node_lt hq hi)
  rwa [sub_zero] at this

theorem cellValue2_slopes {nx ny : ℕ} {f : ℕ → ℕ → ℝ} {p p' q q' a b : ℝ} (hp : InCells nx p)
    (hp' : InCells nx p') (hq : InCells ny q) (hq' : InCells ny q')
    (hx : ∀ i j, i + 1 < nx → j < ny → |f (i + 1) j - f i j| ≤ a)
    (hy : ∀ i j, i < nx → j + 1 < ny → |f i (j + 1) - f i j| ≤ b) :
    |cellValue2 nx ny f p q - cellValue2 nx ny f p' q'| ≤ a * |p - p'| + b * |q - q'| := by
  rw [cellValue2_lines hp hq, cellValue2_lines hp' hq']
  have h1 : |axisValue (fun j => axisValue (fun i => f i j) p) q -
      axisValue (fun j => axisValue (fun i => f i j) p') q| ≤ a * |p - p'| :=
    axis_close hq fun j hj => line_lipschitz hp hp' fun i _ hi => hx i j (cell_lt hp hp' hi) hj
  have h2 : |axisValue (fun j => axisValue (fun i => f i j) p') q -
      axisValue (fun j => axisValue (fun i => f i j) p') q'| ≤ b * |q - q'| :=
    line_lipschitz hq hq' fun j _ hj => axis_close hp' fun i hi => hy i j hi (cell_lt hq hq' hj)
  exact (abs_sub_le _ _ _).trans (add_le_add h1 h2)

theorem cellValue3_slopes {nx ny nz : ℕ} {f : ℕ → ℕ → ℕ → ℝ} {p p' q q' r r' a b c : ℝ}
    (hp : InCells nx p) (hp' : InCells nx p') (hq : InCells ny q) (hq' : InCells ny q')
    (hr : InCells nz r) (hr' : InCells nz r')
    (hx : ∀ i j k, i + 1 < nx → j < ny → k < nz → |f (i + 1) j k - f i j k| ≤ a)
    (hy : ∀ i j k, i < nx → j + 1 < ny → k < nz → |f i (j + 1) k - f i j k| ≤ b)
    (hz : ∀ i j k, i < nx → j < ny → k + 1 < nz → |f i j (k + 1) - f i j k| ≤ c) :
    |cellValue3 nx ny nz f p q r - cellValue3 nx ny nz f p' q' r'| ≤
      a * |p - p'| + b * |q - q'| + c * |r - r'| := by
  rw [cellValue3_lines hp hq hr, cellValue3_lines hp' hq' hr']
  have h1 : |axisValue (fun k => axisValue (fun j => axisValue (fun i => f i j k) p) q) r -
      axisValue (fun k => axisValue (fun j => axisValue (fun i => f i j k) p') q) r| ≤ a * |p - p'| :=
    axis_close hr fun k hk => axis_close hq fun j hj =>
      line_lipschitz hp hp' fun i _ hi => hx i j k (cell_lt hp hp' hi) hj hk
  have h2 : |axisValue (fun k => axisValue (fun j => axisValue (fun i => f i j k) p') q) r -
      axisValue (fun k => axisValue (fun j => axisValue (fun i => f i j k) p') q') r| ≤ b * |q - q'| :=
    axis_close hr fun k hk => line_lipschitz hq hq' fun j _ hj =>
      axis_close hp' fun i hi => hy i j k hi (cell_lt hq hq' hj) hk
  have h3 : |axisValue (fun k => axisValue (fun j => axisValue (fun i => f i j k) p') q') r -
      axisValue (fun k => axisValue (fun j => axisValue (fun i => f i j k) p') q') r'| ≤ c * |r - r'| :=
    line_lipschitz hr hr' fun k _ hk => axis_close hq' fun j hj =>
      axis_close hp' fun i hi => hz i j k hi hj (cell_lt hr hr' hk)
  exact (abs_sub_le _ _ _).trans (add_le_add ((abs_sub_le _ _ _).trans (add_le_add h1 h2)) h3)

theorem unscale {x y x0 dx s : ℝ} (hdx : 0 < dx) :
    s * dx * |(x - x0) / dx - (y - x0) / dx| = s * |x - y| := by
  rw [← sub_div, abs_div, abs_of_pos hdx, sub_sub_sub_cancel_right]
  field_simp

/-- The strain of the bilinear interpolation. -/
theorem bilinear_strained {v : ℝ → (Fin 2 → ℝ) → Fin 2 → ℝ} {t : ℝ} {nx ny : ℕ} {x0 dx y0 dy s : ℝ}
    (hdx : 0 < dx) (hdy : 0 < dy) (hs : 0 ≤ s) (h : Slopes2 (v t) nx ny x0 dx y0 dy s) :
    Strained {z | OnAxis nx x0 dx (z 0) ∧ OnAxis ny y0 dy (z 1)} (bilinear v t nx ny x0 dx y0 dy)
      (2 * s) := by
  intro z hz z' hz'
  rw [pi_norm_le_iff_of_nonneg (by positivity)]
  intro c
  rw [Pi.sub_apply, Real.norm_eq_abs]
  have n0 : |z 0 - z' 0| ≤ ‖z - z'‖ := norm_le_pi_norm (z - z') 0
  have n1 : |z 1 - z' 1| ≤ ‖z - z'‖ := norm_le_pi_norm (z - z') 1
  refine (cellValue2_slopes (a := s * dx) (b := s * dy) (hz.1.inCells hdx) (hz'.1.inCells hdx)
    (hz.2.inCells hdy) (hz'.2.inCells hdy) (fun i j hi hj => ?_) (fun i j hi hj => ?_)).trans ?_
  · simpa using (h i (by omega) j hj c).1 hi
  · simpa using (h i hi j (by omega) c).2 hj
  · rw [unscale hdx, unscale hdy]
    have := mul_le_mul_of_nonneg_left n0 hs
    have := mul_le_mul_of_nonneg_left n1 hs
    linarith

/-- The strain of the trilinear interpolation. -/
theorem trilinear_strained {v : ℝ → (Fin 3 → ℝ) → Fin 3 → ℝ} {t : ℝ} {m nz : ℕ}
    {x0 dx y0 dy z0 dz s : ℝ} (hdx : 0 < dx) (hdy : 0 < dy) (hdz : 0 < dz) (hs : 0 ≤ s)
    (h : Slopes3 (v t) m nz x0 dx y0 dy z0 dz s) :
    Strained {z | OnAxis m x0 dx (z 0) ∧ OnAxis m y0 dy (z 1) ∧ OnAxis nz z0 dz (z 2)}
      (trilinear v t m nz x0 dx y0 dy z0 dz) (3 * s) := by
  intro z hz z' hz'
  rw [pi_norm_le_iff_of_nonneg (by positivity)]
  intro c
  rw [Pi.sub_apply, Real.norm_eq_abs]
  have n0 : |z 0 - z' 0| ≤ ‖z - z'‖ := norm_le_pi_norm (z - z') 0
  have n1 : |z 1 - z' 1| ≤ ‖z - z'‖ := norm_le_pi_norm (z - z') 1
  have n2 : |z 2 - z' 2| ≤ ‖z - z'‖ := norm_le_pi_norm (z - z') 2
  refine (cellValue3_slopes (a := s * dx) (b := s * dy) (c := s * dz) (hz.1.inCells hdx)
    (hz'.1.inCells hdx) (hz.2.1.inCells hdy) (hz'.2.1.inCells hdy) (hz.2.2.inCells hdz)
    (hz'.2.2.inCells hdz) (fun i j k hi hj hk => ?_) (fun i j k hi hj hk => ?_)
    (fun i j k hi hj hk => ?_)).trans ?_
  · simpa using (h i (by omega) j hj k hk c).1 hi
  · simpa using (h i hi j (by omega) k hk c).2.1 hj
  · simpa using (h i hi j hj k (by omega) c).2.2 hk
  · rw [unscale hdx, unscale hdy, unscale hdz]
    have := mul_le_mul_of_nonneg_left n0 hs
    have := mul_le_mul_of_nonneg_left n1 hs
    have := mul_le_mul_of_nonneg_left n2 hs
    linarith

end Verif
