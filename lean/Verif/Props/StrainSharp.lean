import Verif.Props.Strain
import Verif.Lemmas.Pieces

/-!
# C138: where the bounds end

At the edge of the grid the interpolated velocity drops to zero: samples that are all equal give
arbitrarily great exponents.  If the time step is not small compared with the strain, there is no lower
bound.
-/

namespace Verif

open Matrix

/-- Distance from the start in a uniform flow. -/
def ahead {d : ℕ} (x u : Fin d → ℝ) (τ : ℝ) : Fin d → ℝ := fun c => x c + τ * u c

theorem ahead_add {d : ℕ} (x u : Fin d → ℝ) (τ θ : ℝ) :
    (fun c => ahead x u τ c + θ * u c) = ahead x u (τ + θ) := by
  funext c
  simp only [ahead]
  ring

theorem stages_ahead {d : ℕ} (k : Kind) {g : (Fin d → ℝ) → Fin d → ℝ} {x u : Fin d → ℝ} {h τ : ℝ}
    (hg : ∀ θ ∈ Set.Icc (0 : ℝ) 1, g (ahead x u (τ + θ * h)) = u) :
    ∀ z ∈ stages k g h (ahead x u τ), ∃ θ ∈ Set.Icc (0 : ℝ) 1, z = ahead x u (τ + θ * h) := by
  have z0 : ahead x u τ = ahead x u (τ + 0 * h) := by rw [zero_mul, add_zero]
  have g0 : g (ahead x u τ) = u := by rw [z0]; exact hg 0 (by norm_num)
  have g1 : g (ahead x u (τ + 1 / 2 * h)) = u := hg (1 / 2) (by norm_num)
  intro z hz
  cases k with
  | euler => exact ⟨0, by norm_num, by simpa [stages] using hz⟩
  | ab2 => exact ⟨0, by norm_num, by simpa [stages] using hz⟩
  | rk4 =>
    simp only [stages, NumLits.half, g0, ahead_add, g1, List.mem_cons, List.not_mem_nil,
      or_false] at hz
    rcases hz with rfl | rfl | rfl | rfl
    · exact ⟨0, by norm_num, z0⟩
    · exact ⟨1 / 2, by norm_num, rfl⟩
    · exact ⟨1 / 2, by norm_num, rfl⟩
    · exact ⟨1, by norm_num, by rw [one_mul]⟩

/-- A particle that finds the same velocity all the way. -/
theorem flow_ahead {d : ℕ} (k : Kind) {g : ℕ → (Fin d → ℝ) → Fin d → ℝ} {x u : Fin d → ℝ} {h : ℝ}
    {n : ℕ} (hg : ∀ j < n, ∀ θ ∈ Set.Icc (0 : ℝ) 1, g j (ahead x u (j * h + θ * h)) = u) :
    ∀ j ≤ n, flowMap k g h j x = ahead x u (j * h) := by
  suffices H : ∀ j ≤ n, flowMap k g h j x = ahead x u (j * h) ∧
      flowMap k (fun _ _ => u) h j x = ahead x u (j * h) from fun j hj => (H j hj).1
  have conv : ∀ j, flowMap k (fun _ _ => u) h j x = ahead x u (j * h) := fun j => by
    unfold flowMap
    rw [List.map_const', List.length_range, rowRun_uniform k u h j none (by simp)]
    rfl
  intro j
  induction j using Nat.strong_induction_on with
  | _ j ih =>
    intro hj
    refine ⟨?_, conv j⟩
    rw [← conv j]
    refine (flowMap_congr fun i hi z hz => ?_).1
    rw [(ih i hi (by omega)).1] at hz
    obtain ⟨θ, h1, rfl⟩ := stages_ahead k (hg i (by omega)) z hz
    exact hg i (by omega) θ h1

/-- The interpolator after the update of step `j`, inside and outside the grid. -/
theorem samples_everywhere_2d {env : Env ℝ FVal} (hm : ExactTarget env.m) {s : FileSource ℝ}
    {v : ℝ → (Fin 2 → ℝ) → Fin 2 → ℝ} {t0 : ℝ} {nx ny : ℕ} {x0 dx y0 dy : ℝ}
    (hd : Samples2 env.fs s v t0 nx ny x0 dx y0 dy) (j : ℕ) (hj : j < s.snapshotFiles.length)
    (R : ℕ) :
    PointwiseOn {z | SafeCoord ((z 0 - x0) / dx) ∧ SafeCoord ((z 1 - y0) / dy)} R
      (((Source.file s).updated env (.highPerf (HighPerf.fresh [nx, ny])) (j + 1)).1.velocity env)
      (bilinear v (t0 + j * s.timestep) nx ny x0 dx y0 dy) := by
  have shape : ∀ i ≤ s.snapshotFiles.length, ∃ s' : HighPerf ℝ, s'.gridShape = [nx, ny] ∧
      (Source.file s).updated env (.highPerf (HighPerf.fresh [nx, ny])) i = (.highPerf s', none) := by
    intro i
    induction i with
    | zero => exact fun _ => ⟨_, rfl, rfl⟩
    | succ i ih =>
      intro hi
      obtain ⟨s', h1, h2⟩ := ih (by omega)
      obtain ⟨V, P, a1, a2, a3, a4, -⟩ := hd.data i (by omega)
      obtain ⟨s2, x, y, b1, b2, -⟩ := highPerf_update_2d
        (listed_grid2 hd.hnx hd.hny hd.lnx hd.lny hd.hdx hd.hdy a2 a3 a4) h1
      refine ⟨s2, b2, ?_⟩
      simp only [Source.updated, h2, Source.updateInterp, listed_data hd.fresh a1,
        AnyInterp.update, b1]
  obtain ⟨s', h1, h2⟩ := shape j hj.le
  obtain ⟨V, P, a1, a2, a3, a4, a5⟩ := hd.data j hj
  obtain ⟨s2, x, y, b1, b2, b3, b4, -, -, -, fx, fy⟩ := highPerf_update_2d
    (listed_grid2 hd.hnx hd.hny hd.lnx hd.lny hd.hdx hd.hdy a2 a3 a4) h1
  have hu : (Source.file s).updated env (.highPerf (HighPerf.fresh [nx, ny])) (j + 1) =
      (.highPerf s2, none) := by
    simp only [Source.updated, h2, Source.updateInterp, listed_data hd.fresh a1,
      AnyInterp.update, b1]
  rw [hu]
  intro pos hp hS
  obtain ⟨out, o1, o2, o3⟩ := highPerf_interpolate_2d hm env.junk
    (f := fun c i j => V.get [c, i + nx * j]) b3 b4 fx fy
    hd.hdx.ne' hd.hdy.ne' hd.lnx hd.lny hp (fun r hr => hS r hr)
  refine ⟨out, o1, o2, fun r hr => ?_⟩
  funext c
  show out.get [r, c.1] = _
  rw [o3 r hr c.1 c.2]
  unfold bilinear
  refine cellValue2_congr (fun a b ha hb => ?_) _ _
  have hq : a + nx * b < nx * ny := by nlinarith
  have := a5 _ hq c
  rw [(a4 a ha b hb).1, (a4 a ha b hb).2] at this
  exact this

theorem bilinear_beyond {v : ℝ → (Fin 2 → ℝ) → Fin 2 → ℝ} {t : ℝ} {nx ny : ℕ} {x0 dx y0 dy : ℝ}
    (hdx : 0 < dx) {z : Fin 2 → ℝ} (hz : x0 + ((nx : ℝ) - 1) * dx ≤ z 0) :
    bilinear v t nx ny x0 dx y0 dy z = 0 := by
  funext c
  unfold bilinear cellValue2
  rw [if_neg]
  · rfl
  · rintro ⟨⟨-, h⟩, -⟩
    have : ((nx : ℝ) - 1) ≤ (z 0 - x0) / dx := by rw [le_div_iff₀ hdx]; linarith
    linarith

/-- **The strain of the data bounds the exponent: false of the code at the edge of the grid.**  All
samples are equal, `(-w, 0)`.  Of the group of four seeds at distance `δ` from `c`, the right one is at
the end of the grid or beyond, where the interpolator answers zero.  For each of the methods the exponent
is `ln (1 + n h w / 2δ) / T`, without bound as `δ` decreases. -/
theorem C138_edge_fails {env : Env ℝ FVal} (he : RealEnv env) (hm : ExactTarget env.m) (queue : Bool)
    (k : Kind) {w t0 : ℝ} (hw : 0 < w) {s : FileSource ℝ} {nx ny : ℕ} {x0 dx y0 dy : ℝ}
    (hd : Samples2 env.fs s (fun _ _ => ![-w, 0]) t0 nx ny x0 dx y0 dy) {seed : NDArray ℝ}
    {P : Particles ℝ} (hs : seed.shape = [4 * 1, 2]) (hp : mkParticles seed = .ok P)
    (hP : readSeedParticles env.fs s.particleFile = .ok P) {c : Fin 2 → ℝ} {δ : ℝ} (hδ : 0 < δ)
    (hc : ∀ b, groupOf seed 4 1 2 0 b = cross2 c δ b)
    (hn : 2 ≤ s.snapshotFiles.length) (hh : 0 < s.timestep)
    (hleft : x0 ≤ c 0 - δ - s.snapshotFiles.length * s.timestep * w)
    (hin : c 0 < x0 + ((nx : ℝ) - 1) * dx) (hout : x0 + ((nx : ℝ) - 1) * dx ≤ c 0 + δ)
    (hsafe : SafeCoord ((c 0 + δ - x0) / dx))
    (hy : y0 ≤ c 1 - δ ∧ c 1 + δ < y0 + ((ny : ℝ) - 1) * dy) :
    ((⟨.file s, .highPerf (HighPerf.fresh [nx, ny]), .fresh k⟩ : Solver ℝ).run env queue none).result =
      .ok (some [.fin (1 / (((s.snapshotFiles.length : ℝ) - 1) * s.timestep) *
        Real.log (1 + s.snapshotFiles.length * s.timestep * w / (2 * δ)))]) := by
  set n := s.snapshotFiles.length with hnd
  set h := s.timestep with hhd
  set g : ℕ → (Fin 2 → ℝ) → Fin 2 → ℝ :=
    fun j => bilinear (fun _ _ => ![-w, 0]) (t0 + j * h) nx ny x0 dx y0 dy with hg
  have aff : IsAffine (fun (_ : ℝ) (_ : Fin 2 → ℝ) => (![-w, 0] : Fin 2 → ℝ)) (fun _ => 0)
      (fun _ => ![-w, 0]) := fun t x => by simp
  have hn0 : (2 : ℝ) ≤ n := by exact_mod_cast hn
  -- the three seeds inside
  have inside : ∀ b : Fin 4, b ≠ 1 → ∀ j < n, ∀ θ ∈ Set.Icc (0 : ℝ) 1,
      OnAxis nx x0 dx (ahead (cross2 c δ b) ![-w, 0] (j * h + θ * h) 0) ∧
      OnAxis ny y0 dy (ahead (cross2 c δ b) ![-w, 0] (j * h + θ * h) 1) := by
    intro b hb j hj θ hθ
    have hj' : (j : ℝ) + 1 ≤ n := by exact_mod_cast hj
    have t1 : (j * h + θ * h) * w ≤ n * h * w := by
      have : (j : ℝ) * h + θ * h ≤ n * h := by nlinarith [hθ.2]
      exact mul_le_mul_of_nonneg_right this hw.le
    have t0 : 0 ≤ (j * h + θ * h) * w :=
      mul_nonneg (add_nonneg (by positivity) (mul_nonneg hθ.1 hh.le)) hw.le
    obtain ⟨y1, y2⟩ := hy
    fin_cases b
    · simp only [ahead, cross2, OnAxis]
      refine ⟨⟨?_, ?_⟩, ?_, ?_⟩ <;> simp <;> linarith
    · exact absurd rfl hb
    · simp only [ahead, cross2, OnAxis]
      refine ⟨⟨?_, ?_⟩, ?_, ?_⟩ <;> simp <;> linarith
    · simp only [ahead, cross2, OnAxis]
      refine ⟨⟨?_, ?_⟩, ?_, ?_⟩ <;> simp <;> linarith
  have gin : ∀ b : Fin 4, b ≠ 1 → ∀ j < n, ∀ θ ∈ Set.Icc (0 : ℝ) 1,
      g j (ahead (cross2 c δ b) ![-w, 0] (j * h + θ * h)) = ![-w, 0] := fun b hb j hj θ hθ =>
    bilinear_affine aff _ hd.hdx hd.hdy (inside b hb j hj θ hθ)
  -- the seed outside
  have still : ∀ τ, ahead (cross2 c δ 1) 0 τ = cross2 c δ 1 := fun τ => by
    funext i
    simp [ahead]
  have gout : ∀ j < n, ∀ θ ∈ Set.Icc (0 : ℝ) 1, g j (ahead (cross2 c δ 1) 0 (j * h + θ * h)) = 0 :=
    fun j hj θ hθ => by
      rw [still]
      exact bilinear_beyond hd.hdx hout
  have hin0 : ∀ b : Fin 4, b ≠ 1 → ∀ j < n, ∀ z ∈ stages k (g j) h (flowMap k g h j (cross2 c δ b)),
      OnAxis nx x0 dx (z 0) ∧ OnAxis ny y0 dy (z 1) := by
    intro b hb j hj z hz
    rw [flow_ahead k (gin b hb) j hj.le] at hz
    obtain ⟨θ, h1, rfl⟩ := stages_ahead k (gin b hb j hj) z hz
    exact inside b hb j hj θ h1
  obtain ⟨V, h1, h2⟩ := strain_run_2d (src := .file s) (N := 1) (k := k) he queue
    (by exact (rfl : (HighPerf.fresh (K := ℝ) [nx, ny]).uLen = none))
    (fun i hi => (samples_updated_2d hm hd i hi 0).1)
    (S := fun _ => {z | SafeCoord ((z 0 - x0) / dx) ∧ SafeCoord ((z 1 - y0) / dy)})
    (fun i hi => samples_everywhere_2d hm hd i hi (4 * 1)) rfl hs hp hP
    (fun i hi => by
      obtain rfl : i = 0 := by omega
      have e : ∀ b : Fin 4, ∀ l : Fin 2, pt seed 1 b 0 l = cross2 c δ b l := fun b l => congrFun (hc b) l
      have q1 := e 1 0; have q2 := e 0 0; have q3 := e 1 1; have q4 := e 0 1
      have q5 := e 2 1; have q6 := e 3 1; have q7 := e 2 0; have q8 := e 3 0
      simp [cross2] at q1 q2 q3 q4 q5 q6 q7 q8
      refine ⟨?_, ?_, ?_, ?_⟩
      · simp only [q1, q2]; intro hx; linarith
      · simp only [q3, q4]
      · simp only [q5, q6]; intro hx; linarith
      · simp only [q7, q8])
    (fun i hi q j hj z hz => by
      obtain rfl : i = 0 := by omega
      rw [hc] at hz
      by_cases hq : q = 1
      · subst hq
        have f := flow_ahead k gout j (le_of_lt hj)
        change z ∈ stages k (g j) h (flowMap k g h j (cross2 c δ 1)) at hz
        rw [f] at hz
        obtain ⟨θ, -, rfl⟩ := stages_ahead k (gout j hj) z hz
        rw [still]
        refine ⟨hsafe, inCells_safe hd.lny (OnAxis.inCells hd.hdy ?_)⟩
        obtain ⟨y1, y2⟩ := hy
        exact ⟨by simp [cross2]; linarith, by simp [cross2]; linarith⟩
      · obtain ⟨z1, z2⟩ := hin0 q hq j hj z hz
        exact ⟨inCells_safe hd.lnx (z1.inCells hd.hdx), inCells_safe hd.lny (z2.inCells hd.hdy)⟩)
    hn (ne_of_gt hh)
  rw [h2]
  have e : diffs2 (fun b => flowMap k g h n (groupOf seed 4 1 2 0 b)) (groupOf seed 4 1 2 0) =
      !![1 + n * h * w / (2 * δ), 0; 0, 1] := by
    have f0 := flow_ahead k (gin 0 (by decide)) n le_rfl
    have f2 := flow_ahead k (gin 2 (by decide)) n le_rfl
    have f3 := flow_ahead k (gin 3 (by decide)) n le_rfl
    have f1 := flow_ahead k gout n le_rfl
    rw [still] at f1
    ext i j
    fin_cases i <;> fin_cases j <;> simp only [diffs2, hc, f0, f1, f2, f3] <;>
      simp [ahead, cross2]
    · rw [← two_mul, div_eq_iff (by positivity), add_mul, div_mul_cancel₀ _ (by positivity)]
      ring
    · exact hδ.ne'
  have hx : 0 < n * h * w / (2 * δ) := by positivity
  have hV : V 0 = 1 + n * h * w / (2 * δ) := by
    have := h1 0
    change IsMaxStretch (diffs2 (fun b => flowMap k g h n (groupOf seed 4 1 2 0 b))
      (groupOf seed 4 1 2 0)) (V 0) at this
    rw [e] at this
    rw [this.unique (maxStretch_diag (by rw [abs_one, abs_of_pos (by linarith)]; linarith)),
      abs_of_pos (by linarith)]
  change Except.ok (some [ftleVal (V 0) (((n : ℝ) - 1) * |h|)]) = _
  rw [hV, ftleVal_pos (by linarith), abs_of_pos hh]

/-- **Without a small time step there is no lower bound.**  The flow `-x` with one step of Euler's method
of length 1 ends at the origin: every value is `-∞`. -/
theorem C138_collapse {env : Env ℝ FVal} (he : RealEnv env) (queue : Bool) {fn : VelocityFn ℝ}
    {s : AnalyticalSource ℝ} {seed : NDArray ℝ} {N : ℕ} (hs : seed.shape = [4 * N, 2])
    (hp : mkParticles seed = .ok s.particles) (hal : ∀ i < N, AxisAligned2 seed N i)
    (hv : Pointwise (4 * N) 2 (fn 0) (fun x => -x)) (hn : 2 ≤ s.times.length) (ht : s.timestep = 1) :
    ((⟨.analytical s, .analytical (.fresh (some fn)), .fresh .euler⟩ :
        Solver ℝ).run env queue none).result = .ok (some (List.replicate N .negInf)) := by
  have hM := runMatrix_ok .euler (fun _ : ℕ => (-1 : Matrix (Fin 2) (Fin 2) ℝ)) s.timestep
  obtain ⟨σ, -, -, a3⟩ := C125_function_2d he queue .euler s fn hs hp hal (A := -1) (b := 0)
    (by simpa [neg_mulVec] using hv) hn (by rw [ht]; exact one_ne_zero) hM
  refine a3 ?_
  obtain ⟨m, hm⟩ : ∃ m, s.times.length = m + 1 := ⟨s.times.length - 1, by omega⟩
  rw [hm, hM.euler rfl, ht]
  simp

end Verif
