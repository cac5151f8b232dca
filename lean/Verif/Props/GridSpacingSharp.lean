import Verif.Props.GridSpacing
import Verif.Props.SpacingSharp

/-!
# C132: groups smaller than the cells see the slope of the cell

The term `min(Δ, Δ² / δ)` of C132 cannot be replaced by `Δ²`: for groups inside one cell the error is
of first order in the spacing of the grid, however close the seeds are.
-/

namespace Verif

open Matrix Set

/-- Interpolation of a parallel flow gives a parallel flow, with the broken line for profile. -/
theorem bilinear_parallel {f : ℝ → ℝ} {t : ℝ} {nx ny : ℕ} {x0 dx y0 dy : ℝ} (hdx : 0 < dx)
    (hdy : 0 < dy) {z : Fin 2 → ℝ} (hz : OnAxis nx x0 dx (z 0) ∧ OnAxis ny y0 dy (z 1)) :
    bilinear (fun _ => parallel f) t nx ny x0 dx y0 dy z =
      parallel (fun x => axisValue (fun a => f (x0 + a * dx)) ((x - x0) / dx)) z := by
  funext c
  unfold bilinear
  rw [cellValue2_lines (hz.1.inCells hdx) (hz.2.inCells hdy)]
  fin_cases c
  · simp [parallel, axisValue, lerp]
  · simp [parallel, axisValue, lerp]
    ring

/-- The interpolated profile inside cell `a`. -/
theorem line_in_cell {g : ℕ → ℝ} {a : ℕ} {q : ℝ} (h0 : a ≤ q) (h1 : q < a + 1) :
    axisValue g q = g a + (q - a) * (g (a + 1) - g a) := by
  have hc : cellOf q = a := by
    unfold cellOf
    have : ⌊q⌋ = (a : ℤ) := by
      rw [Int.floor_eq_iff]
      push_cast
      exact ⟨h0, h1⟩
    rw [this]
    simp
  unfold axisValue lerp
  rw [hc]
  ring

/-- **C132 (groups inside a cell).**  Files that sample the parallel flow with profile `x²` on a grid,
the centre `c` at a quarter of cell number `a`, an arm `δ ≤ dx / 4`.  The value is
`(1/T) arsinh (n|h| |2 c + dx/2| / 2)`, for all integrators and all `δ`; the exponent of the
deformation along the trajectory of the centre is `(1/T) arsinh (n|h| |2 c| / 2)`. -/
theorem C132_inside_cell {env : Env ℝ FVal} (he : RealEnv env) (hex : ExactTarget env.m)
    (queue : Bool) (k : Kind) {s : FileSource ℝ} {nx ny : ℕ} {x0 dx y0 dy t0 : ℝ}
    (hd : Samples2 env.fs s (fun _ => parallel fun x => x ^ 2) t0 nx ny x0 dx y0 dy) {a : ℕ}
    (ha : a + 1 < nx) {c y δ : ℝ} (hc : c = x0 + (a + 1 / 4) * dx) (hδ0 : 0 < δ) (hδ : δ ≤ dx / 4)
    {seed : NDArray ℝ} {P : Particles ℝ} (hs : seed.shape = [4, 2]) (hp : mkParticles seed = .ok P)
    (hP : readSeedParticles env.fs s.particleFile = .ok P)
    (hg : groupOf seed 4 1 2 0 = cross2 ![c, y] δ) (hn : 2 ≤ s.snapshotFiles.length)
    (hh : s.timestep ≠ 0)
    (hy : ∀ w, |w - y| ≤ δ + s.snapshotFiles.length * |s.timestep| *
      max (|x0 + a * dx| ^ 2) (|x0 + (a + 1) * dx| ^ 2) → OnAxis ny y0 dy w) :
    ((⟨.file s, .highPerf (HighPerf.fresh [nx, ny]), .fresh k⟩ : Solver ℝ).run env
      queue none).result = .ok (some [.fin (1 / (((s.snapshotFiles.length : ℝ) - 1) * |s.timestep|) *
        Real.arsinh (s.snapshotFiles.length * |s.timestep| * |2 * c + dx / 2| / 2))]) ∧
    ∃ (X : ℝ → Fin 2 → ℝ) (M : ℝ → Matrix (Fin 2) (Fin 2) ℝ) (σ : ℝ),
      IsTrajectory (fun _ => parallel fun x => x ^ 2) univ X ∧ X 0 = ![c, y] ∧
      IsDeformation (fun _ => parallel fun x => x ^ 2) univ 0 X M ∧
      IsMaxStretch (M (s.snapshotFiles.length * s.timestep)) σ ∧
      Real.log σ = Real.arsinh (s.snapshotFiles.length * |s.timestep| * |2 * c| / 2) := by
  have hdx := hd.hdx
  have hdy := hd.hdy
  set n := s.snapshotFiles.length with hnd
  constructor
  · set ψ : ℝ → ℝ := fun x => axisValue (fun b => (x0 + b * dx) ^ 2) ((x - x0) / dx) with hψ
    -- the profile in the cell
    have prof : ∀ e, |e| ≤ dx / 4 → ψ (c + e) = (x0 + a * dx) ^ 2 + (dx / 4 + e) *
        (2 * x0 + (2 * a + 1) * dx) ∧ OnAxis nx x0 dx (c + e) ∧
        |ψ (c + e)| ≤ max (|x0 + a * dx| ^ 2) (|x0 + (a + 1) * dx| ^ 2) := by
      intro e he'
      rw [abs_le] at he'
      have q1 : (c + e - x0) / dx = a + (1 / 4 + e / dx) := by
        rw [hc]; field_simp; ring
      have q2 : 0 ≤ 1 / 4 + e / dx := by
        have : -(1 / 4) ≤ e / dx := by rw [le_div_iff₀ hdx]; linarith
        linarith
      have q3 : 1 / 4 + e / dx ≤ 1 / 2 := by
        have : e / dx ≤ 1 / 4 := by rw [div_le_iff₀ hdx]; linarith
        linarith
      have val : ψ (c + e) = (x0 + a * dx) ^ 2 + (1 / 4 + e / dx) *
          ((x0 + (a + 1) * dx) ^ 2 - (x0 + a * dx) ^ 2) := by
        rw [hψ]
        simp only
        rw [q1, line_in_cell (a := a) (by linarith) (by linarith)]
        push_cast
        ring
      refine ⟨?_, ?_, ?_⟩
      · rw [val]
        field_simp
        ring
      · have a1 : (a : ℝ) + 1 + 1 ≤ nx := by exact_mod_cast ha
        have a0 : (0 : ℝ) ≤ a := by positivity
        constructor
        · rw [hc]; nlinarith
        · rw [hc]; nlinarith
      · rw [sq_abs, sq_abs]
        have m1 := le_max_left ((x0 + a * dx) ^ 2) ((x0 + (a + 1) * dx) ^ 2)
        have m2 := le_max_right ((x0 + a * dx) ^ 2) ((x0 + (a + 1) * dx) ^ 2)
        generalize max ((x0 + a * dx) ^ 2) ((x0 + (a + 1) * dx) ^ 2) = m at m1 m2 ⊢
        have p1 := sq_nonneg (x0 + a * dx)
        have p2 := sq_nonneg (x0 + (a + 1) * dx)
        rw [val]
        generalize (x0 + a * dx) ^ 2 = u at *
        generalize (x0 + (a + 1) * dx) ^ 2 = w at *
        generalize 1 / 4 + e / dx = θ at *
        rw [abs_le]
        constructor <;> nlinarith
    have hsz : groupOf seed 4 1 2 0 = ![![c - δ, y], ![c + δ, y], ![c, y + δ], ![c, y - δ]] := by
      rw [hg]
      simp [cross2]
    have key := parallel_on he queue k (src := .file s) (I0 := .highPerf (HighPerf.fresh [nx, ny]))
      rfl (fun i hi => (samples_updated_2d hex hd i hi 0).1) (N := 1) (f := ψ)
      (S := {z | OnAxis nx x0 dx (z 0) ∧ OnAxis ny y0 dy (z 1)})
      (fun i hi pos hpos hin => by
        obtain ⟨A, b1, b2, b3⟩ := (samples_updated_2d hex hd i hi (4 * 1)).2 pos hpos hin
        exact ⟨A, b1, b2, fun r hr => (b3 r hr).trans (bilinear_parallel hdx hdy (hin r hr))⟩)
      rfl hs hp hP (x := fun _ => c) (y := fun _ => y) (a := fun _ => δ) (b := fun _ => δ)
      (c := fun _ => δ) (fun i hi => by
        obtain rfl : i = 0 := by omega
        exact hsz) (fun _ _ => ⟨by linarith, hδ0⟩) hn hh (fun i hi b w hw => by
        obtain rfl : i = 0 := by omega
        have cross : ∃ e e', |e| ≤ δ ∧ |e'| ≤ δ ∧ groupOf seed 4 1 2 0 b 0 = c + e ∧
            groupOf seed 4 1 2 0 b 1 = y + e' := by
          rw [hsz]
          fin_cases b
          · exact ⟨-δ, 0, by rw [abs_neg, abs_of_pos hδ0], by simpa using hδ0.le, rfl, by simp⟩
          · exact ⟨δ, 0, by rw [abs_of_pos hδ0], by simpa using hδ0.le, rfl, by simp⟩
          · exact ⟨0, δ, by simpa using hδ0.le, by rw [abs_of_pos hδ0], by simp, by simp⟩
          · exact ⟨0, -δ, by simpa using hδ0.le, by rw [abs_neg, abs_of_pos hδ0], by simp, rfl⟩
        obtain ⟨e, e', c1, c2, c3, c4⟩ := cross
        obtain ⟨-, r1, r2⟩ := prof e (c1.trans hδ)
        rw [c3, c4] at hw
        rw [c3]
        refine ⟨r1, hy w ?_⟩
        have h1 : |w - y| ≤ |w - (y + e')| + |e'| := by
          have := abs_add_le (w - (y + e')) e'
          have e5 : w - (y + e') + e' = w - y := by ring
          rwa [e5] at this
        have h2 := mul_le_mul_of_nonneg_left r2 (by positivity : 0 ≤ (n : ℝ) * |s.timestep|)
        have h3 : |w - (y + e')| ≤ n * |s.timestep| * |ψ (c + e)| := hw
        linarith)
    rw [key]
    have d1 := (prof δ (by rwa [abs_of_pos hδ0])).1
    have d2 := (prof (-δ) (by rwa [abs_neg, abs_of_pos hδ0])).1
    have e1 : (ψ (c + δ) - ψ (c - δ)) / (δ + δ) = 2 * c + dx / 2 := by
      rw [sub_eq_add_neg c δ, d1, d2, hc]
      field_simp
      ring
    have e2 : |(n : ℝ) * s.timestep * (2 * c + dx / 2)| = n * |s.timestep| * |2 * c + dx / 2| := by
      rw [abs_mul, abs_mul, Nat.abs_cast]
    show Except.ok (some [FVal.fin (1 / (((n : ℝ) - 1) * |s.timestep|) *
      Real.arsinh (|(n : ℝ) * s.timestep * ((ψ (c + δ) - ψ (c - δ)) / (δ + δ))| / 2))]) = _
    rw [e1, e2]
  · have square : HasDerivAt (fun x : ℝ => x ^ 2) (2 * c) ((![c, y] : Fin 2 → ℝ) 0) := by
      have := hasDerivAt_pow 2 c
      simpa using this
    refine ⟨_, _, _, parallel_trajectory _ ![c, y] univ, ?_, parallel_deformation square univ,
      maxStretch_shear _, ?_⟩
    · funext i
      fin_cases i <;> simp [parallelPath]
    · rw [Real.log_exp, abs_mul, abs_mul, Nat.abs_cast]

/-- `arsinh` grows at least with its slope at the end. -/
theorem arsinh_growth {a b : ℝ} (ha : 0 ≤ a) (hab : a ≤ b) :
    (b - a) / √(1 + b ^ 2) ≤ Real.arsinh b - Real.arsinh a := by
  have h0 : 0 < √(1 + b ^ 2) := Real.sqrt_pos.2 (by positivity)
  have := (convex_Icc a b).mul_sub_le_image_sub_of_le_deriv (f := Real.arsinh)
    (C := (√(1 + b ^ 2))⁻¹) Real.continuous_arsinh.continuousOn
    Real.differentiable_arsinh.differentiableOn (fun x hx => by
      rw [interior_Icc] at hx
      rw [(Real.hasDerivAt_arsinh x).deriv]
      have hx0 : 0 ≤ x := by linarith [hx.1]
      refine inv_anti₀ (Real.sqrt_pos.2 (by positivity)) (Real.sqrt_le_sqrt ?_)
      have := pow_le_pow_left₀ hx0 hx.2.le 2
      linarith) a ⟨le_rfl, hab⟩ b ⟨hab, le_rfl⟩ hab
  rwa [inv_mul_eq_div] at this

theorem inside_gap {n : ℕ} {h c dx T : ℝ} (hT : 0 < T) (hc : 0 ≤ c) (hdx : 0 < dx) :
    1 / T * (n * |h| * dx / 4 / √(1 + (n * |h| * (2 * c + dx / 2) / 2) ^ 2)) ≤
      1 / T * Real.arsinh (n * |h| * |2 * c + dx / 2| / 2) -
      1 / T * Real.arsinh (n * |h| * |2 * c| / 2) := by
  rw [← mul_sub, abs_of_nonneg (by positivity : 0 ≤ 2 * c + dx / 2),
    abs_of_nonneg (by positivity : 0 ≤ 2 * c)]
  refine mul_le_mul_of_nonneg_left ?_ (by positivity)
  have := arsinh_growth (a := n * |h| * (2 * c) / 2) (b := n * |h| * (2 * c + dx / 2) / 2)
    (by positivity) (by gcongr; linarith)
  refine (le_of_eq ?_).trans this
  congr 1
  ring

/-- **C132 with `Δ²` in place of `min(Δ, Δ² / δ)` fails.**  In the situation of `C132_inside_cell`
with `c ≥ 0`, the value exceeds the exponent by at least a constant times `dx`, where `δ` does not
appear. -/
theorem C132_second_order_fails {env : Env ℝ FVal} (he : RealEnv env) (hex : ExactTarget env.m)
    (queue : Bool) (k : Kind) {s : FileSource ℝ} {nx ny : ℕ} {x0 dx y0 dy t0 : ℝ}
    (hd : Samples2 env.fs s (fun _ => parallel fun x => x ^ 2) t0 nx ny x0 dx y0 dy) {a : ℕ}
    (ha : a + 1 < nx) {c y δ : ℝ} (hc : c = x0 + (a + 1 / 4) * dx) (hδ0 : 0 < δ) (hδ : δ ≤ dx / 4)
    {seed : NDArray ℝ} {P : Particles ℝ} (hs : seed.shape = [4, 2]) (hp : mkParticles seed = .ok P)
    (hP : readSeedParticles env.fs s.particleFile = .ok P)
    (hg : groupOf seed 4 1 2 0 = cross2 ![c, y] δ) (hn : 2 ≤ s.snapshotFiles.length)
    (hh : s.timestep ≠ 0)
    (hy : ∀ w, |w - y| ≤ δ + s.snapshotFiles.length * |s.timestep| *
      max (|x0 + a * dx| ^ 2) (|x0 + (a + 1) * dx| ^ 2) → OnAxis ny y0 dy w)
    (hc0 : 0 ≤ c) :
    ∃ (X : ℝ → Fin 2 → ℝ) (M : ℝ → Matrix (Fin 2) (Fin 2) ℝ) (σ Λ : ℝ),
      IsTrajectory (fun _ => parallel fun x => x ^ 2) univ X ∧ X 0 = ![c, y] ∧
      IsDeformation (fun _ => parallel fun x => x ^ 2) univ 0 X M ∧
      IsMaxStretch (M (s.snapshotFiles.length * s.timestep)) σ ∧
      ((⟨.file s, .highPerf (HighPerf.fresh [nx, ny]), .fresh k⟩ : Solver ℝ).run env
        queue none).result = .ok (some [.fin Λ]) ∧
      1 / (((s.snapshotFiles.length : ℝ) - 1) * |s.timestep|) *
        (s.snapshotFiles.length * |s.timestep| * dx / 4 /
          √(1 + (s.snapshotFiles.length * |s.timestep| * (2 * c + dx / 2) / 2) ^ 2)) ≤
        Λ - 1 / (((s.snapshotFiles.length : ℝ) - 1) * |s.timestep|) * Real.log σ := by
  obtain ⟨h1, X, M, σ, h2, h3, h4, h5, h6⟩ := C132_inside_cell he hex queue k hd ha hc hδ0 hδ hs hp hP
    hg hn hh hy
  refine ⟨X, M, σ, _, h2, h3, h4, h5, h1, ?_⟩
  rw [h6]
  have hn' : (2 : ℝ) ≤ s.snapshotFiles.length := by exact_mod_cast hn
  exact inside_gap (mul_pos (by linarith) (abs_pos.2 hh)) hc0 hd.hdx

end Verif
