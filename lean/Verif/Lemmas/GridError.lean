import Verif.Lemmas.FlowOn
import Verif.Lemmas.StretchLimit
import Verif.Lemmas.Interpolate
import Verif.Spec.Trajectory
import Verif.Spec.Interp

/-!
# Error of gridded velocities, of trajectories and of the exponent
-/

namespace Verif

open Matrix Set

/-! ## Bilinear and trilinear interpolation -/

theorem lerp_error {a b t w δ : ℝ} (ha : |a - w| ≤ δ) (hb : |b - w| ≤ δ) (h0 : 0 ≤ t) (h1 : t ≤ 1) :
    |lerp a b t - w| ≤ δ := by
  rw [abs_le] at *
  unfold lerp
  constructor <;> nlinarith

theorem cell_frac {n : ℕ} {q : ℝ} (h : InCells n q) :
    cellOf q + 1 < n ∧ 0 ≤ q - cellOf q ∧ q - cellOf q ≤ 1 := by
  obtain ⟨h1, h2⟩ := inCells_cell h
  have h3 := Int.floor_le q
  have h4 := Int.lt_floor_add_one q
  rw [h1] at h3 h4
  push_cast at h3 h4
  exact ⟨h2, by linarith, by linarith⟩

theorem cellValue2_error {nx ny : ℕ} {f : ℕ → ℕ → ℝ} {X Y w δ : ℝ} (hX : InCells nx X)
    (hY : InCells ny Y) (h : ∀ i j, i < nx → j < ny → |X - i| ≤ 1 → |Y - j| ≤ 1 → |f i j - w| ≤ δ) :
    |cellValue2 nx ny f X Y - w| ≤ δ := by
  obtain ⟨a1, a2, a3⟩ := cell_frac hX
  obtain ⟨b1, b2, b3⟩ := cell_frac hY
  have x0 : |X - (cellOf X : ℕ)| ≤ 1 := by rw [abs_le]; constructor <;> linarith
  have x1 : |X - ((cellOf X + 1 : ℕ) : ℝ)| ≤ 1 := by
    push_cast; rw [abs_le]; constructor <;> linarith
  have y0 : |Y - (cellOf Y : ℕ)| ≤ 1 := by rw [abs_le]; constructor <;> linarith
  have y1 : |Y - ((cellOf Y + 1 : ℕ) : ℝ)| ≤ 1 := by
    push_cast; rw [abs_le]; constructor <;> linarith
  unfold cellValue2
  rw [if_pos ⟨hX, hY⟩]
  exact lerp_error
    (lerp_error (h _ _ (by omega) (by omega) x0 y0) (h _ _ (by omega) (by omega) x1 y0) a2 a3)
    (lerp_error (h _ _ (by omega) (by omega) x0 y1) (h _ _ (by omega) (by omega) x1 y1) a2 a3) b2 b3

theorem cellValue3_error {nx ny nz : ℕ} {f : ℕ → ℕ → ℕ → ℝ} {X Y Z w δ : ℝ} (hX : InCells nx X)
    (hY : InCells ny Y) (hZ : InCells nz Z) (h : ∀ i j k, i < nx → j < ny → k < nz → |X - i| ≤ 1 →
      |Y - j| ≤ 1 → |Z - k| ≤ 1 → |f i j k - w| ≤ δ) :
    |cellValue3 nx ny nz f X Y Z - w| ≤ δ := by
  obtain ⟨a1, a2, a3⟩ := cell_frac hX
  obtain ⟨b1, b2, b3⟩ := cell_frac hY
  obtain ⟨c1, c2, c3⟩ := cell_frac hZ
  have x0 : |X - (cellOf X : ℕ)| ≤ 1 := by rw [abs_le]; constructor <;> linarith
  have x1 : |X - ((cellOf X + 1 : ℕ) : ℝ)| ≤ 1 := by
    push_cast; rw [abs_le]; constructor <;> linarith
  have y0 : |Y - (cellOf Y : ℕ)| ≤ 1 := by rw [abs_le]; constructor <;> linarith
  have y1 : |Y - ((cellOf Y + 1 : ℕ) : ℝ)| ≤ 1 := by
    push_cast; rw [abs_le]; constructor <;> linarith
  have z0 : |Z - (cellOf Z : ℕ)| ≤ 1 := by rw [abs_le]; constructor <;> linarith
  have z1 : |Z - ((cellOf Z + 1 : ℕ) : ℝ)| ≤ 1 := by
    push_cast; rw [abs_le]; constructor <;> linarith
  unfold cellValue3
  rw [if_pos ⟨hX, hY, hZ⟩]
  refine lerp_error (lerp_error (lerp_error ?_ ?_ a2 a3) (lerp_error ?_ ?_ a2 a3) b2 b3)
    (lerp_error (lerp_error ?_ ?_ a2 a3) (lerp_error ?_ ?_ a2 a3) b2 b3) c2 c3
  all_goals exact h _ _ _ (by omega) (by omega) (by omega) (by assumption) (by assumption) (by assumption)

/-- Coordinate `x` lies in the cells of the axis `x0, x0 + dx, ..., x0 + (n - 1) dx`. -/
def OnAxis (n : ℕ) (x0 dx x : ℝ) : Prop := x0 ≤ x ∧ x < x0 + ((n : ℝ) - 1) * dx

theorem OnAxis.inCells {n : ℕ} {x0 dx x : ℝ} (hdx : 0 < dx) (h : OnAxis n x0 dx x) :
    InCells n ((x - x0) / dx) := by
  obtain ⟨h1, h2⟩ := h
  refine ⟨div_nonneg (by linarith) hdx.le, ?_⟩
  have : (x - x0) / dx < (n : ℝ) - 1 := by rw [div_lt_iff₀ hdx]; linarith
  linarith

theorem inCells_safe {n : ℕ} {q : ℝ} (hn : (n : ℤ) < intLim) (h : InCells n q) : SafeCoord q := by
  obtain ⟨h1, h2⟩ := inCells_iff.1 h
  exact ⟨by omega, by omega⟩

theorem node_near {x0 dx x : ℝ} (hdx : 0 < dx) {i : ℕ} (h : |(x - x0) / dx - i| ≤ 1) :
    |x0 + i * dx - x| ≤ dx := by
  have e : x0 + i * dx - x = -((x - x0) / dx - i) * dx := by field_simp; ring
  rw [e, abs_mul, abs_neg, abs_of_pos hdx]
  nlinarith

/-! ## Trajectories -/

variable {d : ℕ}

/-- One Euler step along a trajectory whose velocity changes by at most `M` per unit of time. -/
theorem trajectory_step {v : ℝ → (Fin d → ℝ) → Fin d → ℝ} {X : ℝ → Fin d → ℝ} {U : Set ℝ}
    (hUv : Convex ℝ U) (hX : IsTrajectory v U X) {M : ℝ} (hM0 : 0 ≤ M)
    (hM : ∀ s ∈ U, ∀ t ∈ U, ‖v s (X s) - v t (X t)‖ ≤ M * |s - t|) {t h : ℝ} (ht : t ∈ U)
    (hth : t + h ∈ U) : ‖X (t + h) - X t - h • v t (X t)‖ ≤ M * |h| * |h| := by
  have hseg : uIcc t (t + h) ⊆ U := by
    rw [← segment_eq_uIcc]
    exact hUv.segment_subset ht hth
  have hd : ∀ s ∈ uIcc t (t + h), HasDerivWithinAt (fun s => X s - s • v t (X t))
      (v s (X s) - (1 : ℝ) • v t (X t)) (uIcc t (t + h)) s := by
    intro s hs
    exact ((hX s (hseg hs)).mono hseg).sub ((hasDerivWithinAt_id s _).smul_const _)
  have hb : ∀ s ∈ uIcc t (t + h), ‖v s (X s) - (1 : ℝ) • v t (X t)‖ ≤ M * |h| := by
    intro s hs
    rw [one_smul]
    refine (hM s (hseg hs) t ht).trans (mul_le_mul_of_nonneg_left ?_ hM0)
    have := abs_sub_left_of_mem_uIcc hs
    simpa using this
  have := (convex_uIcc t (t + h)).norm_image_sub_le_of_norm_hasDerivWithin_le hd hb
    left_mem_uIcc right_mem_uIcc
  have e : X (t + h) - (t + h) • v t (X t) - (X t - t • v t (X t)) =
      X (t + h) - X t - h • v t (X t) := by
    rw [add_smul]
    abel
  rw [e] at this
  simpa using this

theorem mem_times {t0 h : ℝ} {n i : ℕ} (hi : i ≤ n) : t0 + i * h ∈ uIcc t0 (t0 + n * h) := by
  have : (i : ℝ) ≤ n := by exact_mod_cast hi
  have h0 : (0 : ℝ) ≤ i := by positivity
  rw [mem_uIcc]
  rcases le_total 0 h with hh | hh
  · left; constructor <;> nlinarith
  · right; constructor <;> nlinarith

/-- The positions computed in `n` steps, and all points at which velocities are evaluated on the
way, are near the exact trajectory. -/
theorem flow_near (k : Kind) {v : ℝ → (Fin d → ℝ) → Fin d → ℝ} {X : ℝ → Fin d → ℝ}
    {g : ℕ → (Fin d → ℝ) → Fin d → ℝ} {t0 h ε L B M r : ℝ} {n : ℕ}
    (hX : IsTrajectory v (uIcc t0 (t0 + n * h)) X) (hL : 0 ≤ L) (hε : 0 ≤ ε) (hM : 0 ≤ M)
    (hB0 : 0 ≤ B)
    (hg : ∀ i < n, ∀ z, ‖z - X (t0 + i * h)‖ ≤ r →
      ‖g i z - v (t0 + i * h) (X (t0 + i * h))‖ ≤ ε + L * ‖z - X (t0 + i * h)‖)
    (hB : ∀ t ∈ uIcc t0 (t0 + n * h), ‖v t (X t)‖ ≤ B)
    (hw : ∀ s ∈ uIcc t0 (t0 + n * h), ∀ t ∈ uIcc t0 (t0 + n * h),
      ‖v s (X s) - v t (X t)‖ ≤ M * |s - t|)
    (hh : L * |h| ≤ 1) (he : errBound L (2 * ε + (2 * M + L * B) * |h|) h n ≤ r / 2)
    (hr : |h| * (2 * B + 2 * ε + 2 * L * r) ≤ r / 2) :
    ‖flowMap k g h n (X t0) - X (t0 + n * h)‖ ≤ errBound L (2 * ε + (2 * M + L * B) * |h|) h n ∧
    ∀ i < n, ∀ z ∈ stages k (g i) h (flowMap k g h i (X t0)), ‖z - X (t0 + i * h)‖ ≤ r := by
  have hc : 0 ≤ 2 * ε + (2 * M + L * B) * |h| := by positivity
  have hstep : ∀ i : ℕ, t0 + ((i + 1 : ℕ) : ℝ) * h = t0 + i * h + h := by
    intro i; push_cast; ring
  have main := flowMap_error k (y := fun i => X (t0 + i * h))
    (w := fun i => v (t0 + i * h) (X (t0 + i * h))) hL hε hM hg
    (fun i hi => hB _ (mem_times hi.le))
    (fun i hi => by
      refine (hw _ (mem_times (by omega)) _ (mem_times (by omega))).trans_eq ?_
      rw [hstep]
      congr 1
      rw [show t0 + i * h - (t0 + i * h + h) = -h by ring, abs_neg])
    (fun i hi => by
      simp only [hstep]
      exact trajectory_step (convex_uIcc _ _) hX hM hw (mem_times hi.le)
        (by rw [← hstep]; exact mem_times hi)) hh he hr hB0
  have e0 : X (t0 + ((0 : ℕ) : ℝ) * h) = X t0 := by simp
  simp only [e0] at main
  refine ⟨main n le_rfl, fun i hi => ?_⟩
  exact stages_near k hL hε (hg i hi) (hB _ (mem_times hi.le))
    ((main i hi.le).trans ((errBound_mono hL hc hi.le).trans he)) hr

/-! ## The exponent -/

theorem log_error {s σ b : ℝ} (h : |s - σ| ≤ b) (hb : b < σ) :
    0 < s ∧ |Real.log s - Real.log σ| ≤ b / (σ - b) := by
  rw [abs_le] at h
  have hb0 : 0 ≤ b := by linarith
  have hs : 0 < s := by linarith
  have hσ : 0 < σ := by linarith
  refine ⟨hs, abs_le.2 ⟨?_, ?_⟩⟩
  · have h1 := Real.log_le_sub_one_of_pos (div_pos hσ hs)
    rw [Real.log_div hσ.ne' hs.ne'] at h1
    have h2 : σ / s - 1 ≤ b / (σ - b) := by
      have : σ / s - 1 = (σ - s) / s := by field_simp
      rw [this, div_le_div_iff₀ hs (by linarith)]
      nlinarith
    linarith
  · have h1 := Real.log_le_sub_one_of_pos (div_pos hs hσ)
    rw [Real.log_div hs.ne' hσ.ne'] at h1
    have h2 : s / σ - 1 ≤ b / (σ - b) := by
      have : s / σ - 1 = (s - σ) / σ := by field_simp
      rw [this, div_le_div_iff₀ hσ (by linarith)]
      nlinarith
    linarith

/-- The field of Jacobians near known ones. -/
theorem field_error {f : List (Matrix (Fin d) (Fin d) ℝ) → ℝ → Py (List FVal)}
    (hf : ComputesFtle f) {N : ℕ} {T : ℝ} (hT : 0 < T) (J D : ℕ → Matrix (Fin d) (Fin d) ℝ)
    (σ b : ℕ → ℝ) (hb : ∀ i < N, ∑ r, ∑ c, |J i r c - D i r c| ≤ b i)
    (hσ : ∀ i < N, IsMaxStretch (D i) (σ i) ∧ b i < σ i) :
    ∃ L : ℕ → ℝ, f ((List.range N).map J) T = .ok ((List.range N).map fun i => .fin (L i)) ∧
      ∀ i < N, |L i - 1 / T * Real.log (σ i)| ≤ 1 / T * (b i / (σ i - b i)) := by
  choose S hS using hf.exists_stretch
  have near : ∀ i < N, |S (J i) - σ i| ≤ b i := by
    intro i hi
    have h1 := maxStretch_le_add (hS (J i)) (hσ i hi).1
    have h2 := maxStretch_le_add (hσ i hi).1 (hS (J i))
    simp only [abs_sub_comm (D i _ _)] at h2
    have := hb i hi
    rw [abs_le]
    constructor <;> linarith
  have hlog := fun i hi => log_error (near i hi) (hσ i hi).2
  refine ⟨fun i => 1 / T * Real.log (S (J i)), ?_, fun i hi => ?_⟩
  · obtain ⟨vs, h1, h2⟩ := hf.value ((List.range N).map J) T hT.ne'
    rw [h1]
    congr 1
    have h3 : List.Forall₂ (fun F v => v = ftleVal (S F) T) ((List.range N).map J) vs := by
      refine h2.imp fun F v h => ?_
      obtain ⟨s, hs, rfl⟩ := h
      rw [maxStretch_unique hs (hS F)]
    have hl := h3.length_eq
    apply List.ext_getElem
    · rw [← hl]; simp
    · intro i hi hi'
      have hiN : i < N := by simpa using hi'
      have h4 := h3.get (i := i) (by simpa using hiN) hi
      simp only [List.get_eq_getElem, List.getElem_map, List.getElem_range] at h4 ⊢
      rw [h4, ftleVal_pos (hlog i hiN).1]
  · rw [← mul_sub, abs_mul, abs_of_pos (by positivity : 0 < 1 / T)]
    exact mul_le_mul_of_nonneg_left (hlog i hi).2 (by positivity)

end Verif
