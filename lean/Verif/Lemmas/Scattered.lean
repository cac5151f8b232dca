import Verif.Spec.Scattered

/-!
# Runs with an interpolator of scattered data
-/

namespace Verif

open Matrix Set

/-- The snapshots of the source sample `v` at the times `t0, t0 + h, ...` at the points `p j`.  When
the coordinates are read once, the points are the same for all snapshots. -/
structure ScatterSamples (fs : MatFS ℝ) (s : FileSource ℝ) (v : ℝ → (Fin 2 → ℝ) → Fin 2 → ℝ) (t0 : ℝ)
    (p : ℕ → NDArray ℝ) (n : ℕ → ℕ) : Prop where
  same : s.reuseCoordinates = true → ∀ j < s.snapshotFiles.length, p j = p 0
  data : ∀ j < s.snapshotFiles.length, ∃ V, s.Listed fs j V (p j) ∧
    V.shape = [2, n j] ∧ (p j).shape = [2, n j] ∧
    ∀ k < n j, ∀ c : Fin 2, V.get [c, k] = v (t0 + j * s.timestep) (samplePoint (p j) k) c

/-- The interpolator after an update. -/
theorem scatter_updated {sp : SciPy ℝ} {t : ScatterState ℝ} {V p : NDArray ℝ} {n : ℕ}
    (hb : ∀ w : NDArray ℝ, w.shape = [n] → sp.scatterBuild t.method p w = none)
    (hV : V.shape = [2, n]) (hp : p.shape = [2, n]) {po : Option (NDArray ℝ)}
    (hpo : po = some p ∨ po = none ∧ t.points = some p) :
    t.update sp V po = (⟨t.method, some V, some p, some (p, V.row 0, V.row 1), t.interpZ⟩, none) := by
  have r0 : rowAt V 0 = .ok (V.row 0) := by simp [rowAt, hV]
  have r1 : rowAt V 1 = .ok (V.row 1) := by simp [rowAt, hV]
  have hb0 := hb (V.row 0) (by simp [NDArray.row, hV])
  have n3 : ∀ P : Prop, (P ∧ (2 : ℕ) = 3) = False := fun P => by simp
  rcases hpo with rfl | ⟨rfl, h⟩
  · simp only [ScatterState.update, ScatterState.initialize, hp, r0, r1, hb0, List.headD_cons, n3,
      if_false]
  · simp only [ScatterState.update, ScatterState.initialize, h, hp, r0, r1, hb0, List.headD_cons, n3,
      if_false]

/-- The velocities it hands out. -/
theorem scatter_velocity {sp : SciPy ℝ} {junk : List ℕ → ℝ} {t : ScatterState ℝ} {V p : NDArray ℝ}
    {n : ℕ} {R : Set (Fin 2 → ℝ)} {W : (Fin 2 → ℝ) → ℕ → ℝ}
    (hW : ∀ (w q : NDArray ℝ) (rows : ℕ), w.shape = [n] → q.shape = [rows, 2] →
      ∃ f, sp.scatterCall t.method p w q = .ok f ∧ ∀ r < rows, rowOf q 2 r ∈ R →
        f r = ∑ k ∈ Finset.range n, W (rowOf q 2 r) k * w.get [k])
    (hV : V.shape = [2, n]) (ht : t.interp = some (p, V.row 0, V.row 1)) {rows : ℕ}
    (h3 : rows ≠ 3) :
    PointwiseOn R rows (fun q => t.interpolate sp junk q)
      (fun z c => ∑ k ∈ Finset.range n, W z k * V.get [c, k]) := by
  intro q hq hR
  obtain ⟨f, f1, f2⟩ := hW (V.row 0) q rows (by simp [NDArray.row, hV]) hq
  obtain ⟨g, g1, g2⟩ := hW (V.row 1) q rows (by simp [NDArray.row, hV]) hq
  refine ⟨setCol (setCol (emptyLike junk q) 0 f) 1 g, ?_, ?_, fun r hr => ?_⟩
  · unfold ScatterState.interpolate
    simp only [ht, f1, g1, assignCol, emptyLike, setCol, hq, List.headD_cons]
    simp [h3]
  · simp [setCol, emptyLike, hq]
  · funext c
    fin_cases c
    · show f r = _
      exact f2 r hr (hR r hr)
    · show g r = _
      exact g2 r hr (hR r hr)

/-- A blend of values of a Lipschitz function. -/
theorem blend_error {n : ℕ} {W : ℕ → ℝ} (h0 : ∀ k < n, 0 ≤ W k)
    (h1 : ∑ k ∈ Finset.range n, W k = 1) {u : ℕ → Fin 2 → ℝ} {y : Fin 2 → ℝ} {e : ℝ}
    (he : ∀ k < n, W k ≠ 0 → ‖u k - y‖ ≤ e) (hpos : 0 ≤ e) :
    ‖(fun c => ∑ k ∈ Finset.range n, W k * u k c) - y‖ ≤ e := by
  rw [pi_norm_le_iff_of_nonneg hpos]
  intro c
  have : (∑ k ∈ Finset.range n, W k * u k c) - y c = ∑ k ∈ Finset.range n, W k * (u k c - y c) := by
    simp only [mul_sub, Finset.sum_sub_distrib, ← Finset.sum_mul, h1, one_mul]
  rw [Pi.sub_apply, this, Real.norm_eq_abs]
  calc |∑ k ∈ Finset.range n, W k * (u k c - y c)|
      ≤ ∑ k ∈ Finset.range n, |W k * (u k c - y c)| := Finset.abs_sum_le_sum_abs _ _
    _ ≤ ∑ k ∈ Finset.range n, W k * e := by
        refine Finset.sum_le_sum fun k hk => ?_
        have hk := Finset.mem_range.1 hk
        rw [abs_mul, abs_of_nonneg (h0 k hk)]
        by_cases hw : W k = 0
        · simp [hw]
        · exact mul_le_mul_of_nonneg_left ((norm_le_pi_norm (u k - y) c).trans (he k hk hw)) (h0 k hk)
    _ = e := by rw [← Finset.sum_mul, h1, one_mul]

/-- The interpolator after `i` updates: it holds the points and the velocities of snapshot `i - 1`. -/
theorem scatter_state {env : Env ℝ FVal} {me : Scatter} {s : FileSource ℝ}
    {v : ℝ → (Fin 2 → ℝ) → Fin 2 → ℝ} {t0 : ℝ} {p : ℕ → NDArray ℝ} {n : ℕ → ℕ}
    (hd : ScatterSamples env.fs s v t0 p n)
    (hb : ∀ j < s.snapshotFiles.length, ∀ w : NDArray ℝ, w.shape = [n j] →
      env.sp.scatterBuild me (p j) w = none) :
    ∀ i ≤ s.snapshotFiles.length, ∃ t : ScatterState ℝ, t.method = me ∧
      (0 < i → ∃ V, s.Listed env.fs (i - 1) V (p (i - 1)) ∧ V.shape = [2, n (i - 1)] ∧
        (∀ k < n (i - 1), ∀ c : Fin 2,
          V.get [c, k] = v (t0 + (i - 1 : ℕ) * s.timestep) (samplePoint (p (i - 1)) k) c) ∧
        t.points = some (p (i - 1)) ∧ t.interp = some (p (i - 1), V.row 0, V.row 1)) ∧
      (Source.file s).updated env (.scatter (.fresh me)) i = (.scatter t, none) := by
  intro i
  induction i with
  | zero => exact fun _ => ⟨_, rfl, fun h => absurd h (lt_irrefl 0), rfl⟩
  | succ i ih =>
    intro hi
    obtain ⟨t, h1, h2, h3⟩ := ih (by omega)
    obtain ⟨V, a1, a2, a3, a4⟩ := hd.data i (by omega)
    have hdata : ∃ po, s.dataForStep env.fs i = .ok (V, po) ∧
        (po = some (p i) ∨ po = none ∧ t.points = some (p i)) := by
      obtain ⟨⟨f, f1, f2⟩, ⟨g, g1, g2⟩⟩ := a1
      unfold FileSource.dataForStep
      simp only [f1, f2, g1, g2]
      by_cases hc : i = 0 ∨ ¬ s.reuseCoordinates
      · exact ⟨some (p i), by simp only [if_pos hc], .inl rfl⟩
      · refine ⟨none, by simp only [if_neg hc], .inr ⟨rfl, ?_⟩⟩
        rw [not_or, not_not] at hc
        obtain ⟨V', -, -, -, b1, -⟩ := h2 (by omega)
        rw [b1, hd.same hc.2 (i - 1) (by omega), hd.same hc.2 i (by omega)]
    obtain ⟨po, d1, d2⟩ := hdata
    have hu := scatter_updated (sp := env.sp) (t := t) (by rw [h1]; exact hb i (by omega)) a2 a3 d2
    refine ⟨⟨t.method, some V, some (p i), some (p i, V.row 0, V.row 1), t.interpZ⟩, h1,
      fun _ => ⟨V, a1, a2, a4, rfl, rfl⟩, ?_⟩
    · simp only [Source.updated, h3, Source.updateInterp, d1, AnyInterp.update, hu]

/-- The velocities of step `j`, for an interpolator with known weights. -/
theorem scatter_weights {env : Env ℝ FVal} {me : Scatter} {s : FileSource ℝ}
    {v : ℝ → (Fin 2 → ℝ) → Fin 2 → ℝ} {t0 : ℝ} {p : ℕ → NDArray ℝ} {n : ℕ → ℕ}
    (hd : ScatterSamples env.fs s v t0 p n)
    (hb : ∀ j < s.snapshotFiles.length, ∀ w : NDArray ℝ, w.shape = [n j] →
      env.sp.scatterBuild me (p j) w = none) (j : ℕ) (hj : j < s.snapshotFiles.length)
    {R : Set (Fin 2 → ℝ)} {W : (Fin 2 → ℝ) → ℕ → ℝ}
    (hW : ∀ (w q : NDArray ℝ) (rows : ℕ), w.shape = [n j] → q.shape = [rows, 2] →
      ∃ f, env.sp.scatterCall me (p j) w q = .ok f ∧ ∀ r < rows, rowOf q 2 r ∈ R →
        f r = ∑ k ∈ Finset.range (n j), W (rowOf q 2 r) k * w.get [k])
    {rows : ℕ} (h3 : rows ≠ 3) :
    ((Source.file s).updated env (.scatter (.fresh me)) (j + 1)).2 = none ∧
    PointwiseOn R rows
      (((Source.file s).updated env (.scatter (.fresh me)) (j + 1)).1.velocity env)
      (fun z c => ∑ k ∈ Finset.range (n j),
        W z k * v (t0 + j * s.timestep) (samplePoint (p j) k) c) := by
  obtain ⟨t, h1, h2, h4⟩ := scatter_state hd hb (j + 1) hj
  obtain ⟨V, -, a2, a4, -, a5⟩ := h2 (by omega)
  rw [h4]
  rw [Nat.add_sub_cancel] at a2 a4 a5
  refine ⟨rfl, ?_⟩
  have := scatter_velocity (junk := env.junk) (by rw [h1]; exact hW) a2 a5 h3
  intro q hq hR
  obtain ⟨A, e1, e2, e3⟩ := this q hq hR
  refine ⟨A, e1, e2, fun r hr => ?_⟩
  rw [e3 r hr]
  funext c
  exact Finset.sum_congr rfl fun k hk => by rw [a4 k (Finset.mem_range.1 hk) c]

/-- The interpolator after the update of step `j`. -/
theorem scatter_samples {env : Env ℝ FVal} {me : Scatter} {s : FileSource ℝ}
    {v : ℝ → (Fin 2 → ℝ) → Fin 2 → ℝ} {t0 : ℝ} {p : ℕ → NDArray ℝ} {n : ℕ → ℕ}
    (hd : ScatterSamples env.fs s v t0 p n) {R : ℕ → Set (Fin 2 → ℝ)} {Δ : ℝ}
    (hb : ∀ j < s.snapshotFiles.length, env.sp.Blends me (p j) (n j) (R j) Δ) (j : ℕ)
    (hj : j < s.snapshotFiles.length) {rows : ℕ} (h3 : rows ≠ 3) :
    ((Source.file s).updated env (.scatter (.fresh me)) (j + 1)).2 = none ∧
    ∃ W : (Fin 2 → ℝ) → ℕ → ℝ,
      (∀ z ∈ R j, (∀ k < n j, 0 ≤ W z k) ∧ ∑ k ∈ Finset.range (n j), W z k = 1 ∧
        ∀ k < n j, W z k ≠ 0 → ‖samplePoint (p j) k - z‖ ≤ Δ) ∧
      PointwiseOn (R j) rows
        (((Source.file s).updated env (.scatter (.fresh me)) (j + 1)).1.velocity env)
        (fun z c => ∑ k ∈ Finset.range (n j),
          W z k * v (t0 + j * s.timestep) (samplePoint (p j) k) c) := by
  obtain ⟨W, w1, w2⟩ := (hb j hj).call
  obtain ⟨h1, h2⟩ := scatter_weights hd (fun i hi => (hb i hi).build) j hj w2 h3
  exact ⟨h1, W, w1, h2⟩

end Verif
