import Verif.Props.GridSpacingExample

/-!
# C130, C132: in unsteady flows RK4 is of first order only

Files that sample the flow with velocity `(0, t x)` on a grid.  The interpolation is exact, the value
does not depend on the distance of the seeds, and what remains is the error of the method in time:
`Attains` gives order one for RK4, and no more is attained.
-/

namespace Verif

open Matrix Set

/-- The flow with velocity `(0, t x)`. -/
def gust (t : ℝ) : (Fin 2 → ℝ) → Fin 2 → ℝ := parallel fun x => t * x

/-- Sum of the times at which the snapshots are taken, as the methods weigh them, over the time
step. -/
noncomputable def gustWeight : Kind → ℕ → ℝ
  | .ab2, 0 => 0
  | .ab2, n + 1 => (((n + 1 : ℕ) : ℝ) ^ 2 - 1) / 2
  | _, n => n * (n - 1) / 2

theorem flowMap_gust (k : Kind) (h : ℝ) (n : ℕ) (x : Fin 2 → ℝ) :
    flowMap k (fun i => gust (0 + i * h)) h n x = ![x 0, x 1 + h ^ 2 * gustWeight k n * x 0] ∧
    flowPrev k (fun i => gust (0 + i * h)) h x n =
      match k, n with
      | .ab2, n + 1 => some ![0, n * h * x 0]
      | _, _ => none := by
  have e1 : (NumLits.six : ℝ) = 6 := rfl
  have e2 : (NumLits.two : ℝ) = 2 := rfl
  have e3 : (NumLits.onePointFive : ℝ) = 3 / 2 := rfl
  have e4 : (NumLits.half : ℝ) = 1 / 2 := rfl
  induction n with
  | zero =>
    constructor
    · funext i
      cases k <;> fin_cases i <;> simp [flowMap, rowRun, gustWeight]
    · cases k <;> rfl
  | succ n ih =>
    rw [flowMap_succ, flowPrev, ih.1, ih.2]
    cases k with
    | euler =>
      refine ⟨?_, rfl⟩
      funext i
      fin_cases i <;> simp [rowStep, gust, parallel, gustWeight]
      ring
    | rk4 =>
      refine ⟨?_, rfl⟩
      funext i
      fin_cases i <;> simp [rowStep, gust, parallel, gustWeight, e1, e2]
      ring
    | ab2 =>
      refine ⟨?_, by simp [nextPrev, gust, parallel]⟩
      cases n with
      | zero =>
        funext i
        fin_cases i <;> simp [rowStep, gust, parallel, gustWeight]
      | succ n =>
        funext i
        fin_cases i <;> simp [rowStep, gust, parallel, gustWeight, e3, e4]
        ring

theorem gustWeight_bounds (k : Kind) {j n : ℕ} (hj : j < n) :
    0 ≤ gustWeight k j ∧ gustWeight k j + j ≤ (n : ℝ) ^ 2 := by
  have hjn : (j : ℝ) + 1 ≤ n := by exact_mod_cast hj
  have hj0 : (0 : ℝ) ≤ j := by positivity
  have hp : ((j : ℝ) + 1) ^ 2 ≤ (n : ℝ) ^ 2 := pow_le_pow_left₀ (by positivity) hjn 2
  have h1 : (0 : ℝ) ≤ j * (j - 1) / 2 := by
    cases j with
    | zero => simp
    | succ j => push_cast; rw [add_sub_cancel_right]; positivity
  cases k with
  | euler => exact ⟨h1, by simp only [gustWeight]; nlinarith⟩
  | rk4 => exact ⟨h1, by simp only [gustWeight]; nlinarith⟩
  | ab2 =>
    cases j with
    | zero => exact ⟨le_rfl, by simp only [gustWeight]; push_cast; nlinarith⟩
    | succ j =>
      simp only [gustWeight]
      push_cast at *
      have : (0 : ℝ) ≤ j := by positivity
      exact ⟨by nlinarith, by nlinarith⟩

/-- Linear interpolation of a linear function. -/
theorem line_linear (m x0 : ℝ) {dx : ℝ} (hdx : 0 < dx) (x : ℝ) :
    axisValue (fun a => m * (x0 + a * dx)) ((x - x0) / dx) = m * x := by
  unfold axisValue lerp
  push_cast
  field_simp
  ring

theorem bilinear_gust {t : ℝ} {nx ny : ℕ} {x0 dx y0 dy : ℝ} (hdx : 0 < dx) (hdy : 0 < dy)
    {z : Fin 2 → ℝ} (hz : OnAxis nx x0 dx (z 0) ∧ OnAxis ny y0 dy (z 1)) :
    bilinear gust t nx ny x0 dx y0 dy z = gust t z := by
  have := bilinear_parallel (f := fun x => t * x) (t := t) hdx hdy hz
  simp only [line_linear t x0 hdx] at this
  exact this

theorem gust_smooth (m : WithTop ℕ∞) : ContDiff ℝ m fun p : ℝ × (Fin 2 → ℝ) => gust p.1 p.2 := by
  rw [contDiff_pi]
  intro i
  fin_cases i
  · exact contDiff_const
  · exact contDiff_fst.mul ((contDiff_apply ℝ ℝ (0 : Fin 2)).comp contDiff_snd)

theorem gust_trajectory (x y : ℝ) (U : Set ℝ) :
    IsTrajectory gust U fun t => ![x, y + t ^ 2 / 2 * x] := by
  intro t _
  rw [hasDerivWithinAt_pi]
  intro i
  fin_cases i
  · exact hasDerivWithinAt_const t U x
  · have := (((((hasDerivAt_id t).pow 2).div_const 2).mul_const x).const_add y).hasDerivWithinAt
      (s := U)
    refine this.congr_deriv ?_
    simp [gust, parallel]

theorem gust_deformation (x y : ℝ) (U : Set ℝ) :
    IsDeformation gust U 0 (fun t => ![x, y + t ^ 2 / 2 * x]) fun t => !![1, 0; t ^ 2 / 2, 1] := by
  constructor
  · ext i j
    fin_cases i <;> fin_cases j <;> simp
  · intro u t _
    have hf : HasDerivAt (fun x => t * x) t ((![x, y + t ^ 2 / 2 * x] : Fin 2 → ℝ) 0) := by
      simpa using (hasDerivAt_id x).const_mul t
    rw [show gust t = parallel fun x => t * x from rfl, parallel_fderiv hf, hasDerivWithinAt_pi]
    intro i
    fin_cases i
    · simpa [Matrix.mulVec, dotProduct, Fin.sum_univ_two] using hasDerivWithinAt_const t U (u 0)
    · have := (((((hasDerivAt_id t).pow 2).div_const 2).mul_const (u 0)).add_const
        (u 1)).hasDerivWithinAt (s := U)
      simpa [Matrix.mulVec, dotProduct, Fin.sum_univ_two] using this

/-- **C132 (an unsteady flow).**  Files that sample the flow `(0, t x)` on a grid, a cross of any arm
around any centre.  The value is `(1/T) arsinh (h² w / 2)` with `w = (n² - 1)/2` for Adams-Bashforth
and `w = n (n - 1)/2` for Euler's method and for RK4; the exponent of the deformation along the
trajectory of the centre is `(1/T) arsinh ((n h)² / 4)`. -/
theorem C132_unsteady {env : Env ℝ FVal} (he : RealEnv env) (hex : ExactTarget env.m)
    (queue : Bool) (k : Kind) {s : FileSource ℝ} {nx ny : ℕ} {x0 dx y0 dy : ℝ}
    (hd : Samples2 env.fs s (fun t x => ![0, t * x 0]) 0 nx ny x0 dx y0 dy) {c y δ : ℝ} (hδ0 : 0 < δ)
    {seed : NDArray ℝ} {P : Particles ℝ} (hs : seed.shape = [4, 2]) (hp : mkParticles seed = .ok P)
    (hP : readSeedParticles env.fs s.particleFile = .ok P)
    (hg : groupOf seed 4 1 2 0 = cross2 ![c, y] δ) (hn : 2 ≤ s.snapshotFiles.length)
    (hh : s.timestep ≠ 0)
    (hx : ∀ w, |w - c| ≤ δ → OnAxis nx x0 dx w)
    (hy : ∀ w, |w - y| ≤ δ + (s.snapshotFiles.length * s.timestep) ^ 2 * (|c| + δ) →
      OnAxis ny y0 dy w) :
    ((⟨.file s, .highPerf (HighPerf.fresh [nx, ny]), .fresh k⟩ : Solver ℝ).run env
      queue none).result = .ok (some [.fin (1 / (((s.snapshotFiles.length : ℝ) - 1) * |s.timestep|) *
        Real.arsinh (s.timestep ^ 2 * (match k with
          | .ab2 => ((s.snapshotFiles.length : ℝ) ^ 2 - 1) / 2
          | _ => (s.snapshotFiles.length : ℝ) * (s.snapshotFiles.length - 1) / 2) / 2))]) ∧
    ∃ (X : ℝ → Fin 2 → ℝ) (M : ℝ → Matrix (Fin 2) (Fin 2) ℝ) (σ : ℝ),
      IsTrajectory (fun t x => ![0, t * x 0]) univ X ∧ X 0 = ![c, y] ∧
      IsDeformation (fun t x => ![0, t * x 0]) univ 0 X M ∧
      IsMaxStretch (M (s.snapshotFiles.length * s.timestep)) σ ∧
      Real.log σ = Real.arsinh ((s.snapshotFiles.length * s.timestep) ^ 2 / 4) := by
  have hdx := hd.hdx
  have hdy := hd.hdy
  change Samples2 env.fs s gust 0 nx ny x0 dx y0 dy at hd
  set n := s.snapshotFiles.length with hnd
  set h := s.timestep with hhd
  constructor
  · have hT := period_pos hn hh
    have e : runPeriod env (.file s) = ((n : ℝ) - 1) * |h| := by
      unfold runPeriod
      rw [he.abs]
      push_cast
      rfl
    have hw : gustWeight k n = match (generalizing := false) k with
          | .ab2 => ((n : ℝ) ^ 2 - 1) / 2
          | _ => (n : ℝ) * (n - 1) / 2 := by
      obtain ⟨m, hm⟩ : ∃ m, n = m + 1 := ⟨n - 1, by omega⟩
      rw [hm]
      cases k <;> rfl
    have w0 : 0 ≤ h ^ 2 * gustWeight k n := mul_nonneg (sq_nonneg _)
      (gustWeight_bounds k (Nat.lt_succ_self n)).1
    set D : Matrix (Fin 2) (Fin 2) ℝ := !![1, 0; h ^ 2 * gustWeight k n, 1] with hD
    have hsz : groupOf seed 4 1 2 0 = ![![c - δ, y], ![c + δ, y], ![c, y + δ], ![c, y - δ]] := by
      rw [hg]
      simp [cross2]
    rw [run_flow_on_2d env (.file s) (I0 := .highPerf (HighPerf.fresh [nx, ny])) rfl k
      (fun i => gust (0 + i * h)) (fun _ => {z | OnAxis nx x0 dx (z 0) ∧ OnAxis ny y0 dy (z 1)})
      (fun i hi => (samples_updated_2d hex hd i hi 0).1) 1
      (fun i hi pos hpos hin => by
        obtain ⟨A, b1, b2, b3⟩ := (samples_updated_2d hex hd i hi (4 * 1)).2 pos hpos hin
        exact ⟨A, b1, b2, fun r hr => (b3 r hr).trans (bilinear_gust hdx hdy (hin r hr))⟩)
      rfl seed P queue hs hp hP (fun i hi b j hj z hz => by
        obtain rfl : i = 0 := by omega
        change z ∈ stages k (gust (0 + j * h)) h
          (flowMap k (fun i => gust (0 + i * h)) h j (groupOf seed 4 1 2 0 b)) at hz
        rw [(flowMap_gust k h j _).1] at hz
        obtain ⟨z0, z1⟩ := stages_parallel k (fun x => (0 + j * h) * x) h (n := 1) (j := 0) one_pos
          ![groupOf seed 4 1 2 0 b 0,
            groupOf seed 4 1 2 0 b 1 + h ^ 2 * gustWeight k j * groupOf seed 4 1 2 0 b 0]
          (z := z) hz
        have cross : ∃ e e', |e| ≤ δ ∧ |e'| ≤ δ ∧ groupOf seed 4 1 2 0 b 0 = c + e ∧
            groupOf seed 4 1 2 0 b 1 = y + e' := by
          rw [hsz]
          fin_cases b
          · exact ⟨-δ, 0, by rw [abs_neg, abs_of_pos hδ0], by simpa using hδ0.le, rfl, by simp⟩
          · exact ⟨δ, 0, by rw [abs_of_pos hδ0], by simpa using hδ0.le, rfl, by simp⟩
          · exact ⟨0, δ, by simpa using hδ0.le, by rw [abs_of_pos hδ0], by simp, by simp⟩
          · exact ⟨0, -δ, by simpa using hδ0.le, by rw [abs_neg, abs_of_pos hδ0], by simp, rfl⟩
        obtain ⟨a, a', c1, c2, c3, c4⟩ := cross
        rw [c3, c4] at z0 z1
        change z 0 = c + a at z0
        change |z 1 - (y + a' + h ^ 2 * gustWeight k j * (c + a))| ≤
          ((1 : ℕ) : ℝ) * |h| * |(0 + j * h) * (c + a)| at z1
        refine ⟨hx _ (by rw [z0, add_sub_cancel_left]; exact c1), hy _ ?_⟩
        obtain ⟨g0, g1⟩ := gustWeight_bounds k (show j < n from hj)
        have q1 : ((1 : ℕ) : ℝ) * |h| * |(0 + j * h) * (c + a)| = h ^ 2 * j * |c + a| := by
          rw [zero_add, abs_mul, abs_mul, Nat.abs_cast, ← sq_abs h]
          push_cast
          ring
        have q2 : |c + a| ≤ |c| + δ := (abs_add_le _ _).trans (by linarith)
        have q3 : z 1 - y = (z 1 - (y + a' + h ^ 2 * gustWeight k j * (c + a))) +
            (a' + h ^ 2 * gustWeight k j * (c + a)) := by ring
        have q4 : |a' + h ^ 2 * gustWeight k j * (c + a)| ≤
            δ + h ^ 2 * gustWeight k j * |c + a| := by
          refine (abs_add_le _ _).trans (add_le_add c2 (le_of_eq ?_))
          rw [abs_mul, abs_of_nonneg (mul_nonneg (sq_nonneg h) g0)]
        rw [q1] at z1
        have q5 : h ^ 2 * (gustWeight k j + j) * |c + a| ≤ h ^ 2 * (n : ℝ) ^ 2 * (|c| + δ) := by
          gcongr
        rw [q3]
        refine (abs_add_le _ _).trans ?_
        have q6 : ((n : ℝ) * h) ^ 2 * (|c| + δ) = h ^ 2 * (n : ℝ) ^ 2 * (|c| + δ) := by ring
        rw [q6]
        linarith),
      pyMap_ok_map (g := fun _ => D)]
    · obtain ⟨vs, v1, v2, v3⟩ := field_values ftle2_computes (N := 1) hT.ne' (D := fun _ => D)
      simp only [e, he.f2, v1]
      show Except.ok (some vs) = _
      obtain ⟨σ, s1, s2⟩ := v3 0 one_pos
      rw [maxStretch_unique s1 (maxStretch_shear _), ftleVal_pos (Real.exp_pos _), Real.log_exp,
        abs_of_nonneg w0, hw] at s2
      obtain ⟨v, rfl⟩ := List.length_eq_one_iff.1 v2
      simp only [List.getElem?_cons_zero, Option.some.injEq] at s2
      rw [s2]
    · intro i hi
      obtain rfl : i = 0 := by have := List.mem_range.1 hi; omega
      change centralDiff2 (fun b => flowMap k (fun i => gust (0 + i * h)) h n
        (groupOf seed 4 1 2 0 b)) (groupOf seed 4 1 2 0) = _
      simp only [(flowMap_gust k h n _).1, hsz]
      rw [centralDiff2_ok]
      refine ⟨⟨?_, ?_⟩, ?_⟩
      · simp; linarith
      · simp; linarith
      · have e1 : c + δ - (c - δ) = 2 * δ := by ring
        have e2 : y + δ - (y - δ) = 2 * δ := by ring
        have e3 : (2 : ℝ) * δ ≠ 0 := by positivity
        ext r u
        fin_cases r <;> fin_cases u <;> simp [diffs2, hD, e1, e2, hδ0.ne']
        field_simp
        ring
  · refine ⟨_, _, _, gust_trajectory c y univ, ?_, gust_deformation c y univ, maxStretch_shear _, ?_⟩
    · funext i
      fin_cases i <;> simp
    · rw [Real.log_exp, abs_of_nonneg (by positivity), div_div]
      norm_num

/-- **C130 and C132 with order two or more for RK4 in unsteady flows fail.**  In the flow `(0, t x)`
from gridded files, with any grid and any arm: what is reported with RK4 is below the exponent by at
least a constant times the time step, where neither the arm nor the spacing appears. -/
theorem C132_unsteady_rk4_fails {env : Env ℝ FVal} (he : RealEnv env) (hex : ExactTarget env.m)
    (queue : Bool) {s : FileSource ℝ} {nx ny : ℕ} {x0 dx y0 dy : ℝ}
    (hd : Samples2 env.fs s (fun t x => ![0, t * x 0]) 0 nx ny x0 dx y0 dy) {c y δ : ℝ} (hδ0 : 0 < δ)
    {seed : NDArray ℝ} {P : Particles ℝ} (hs : seed.shape = [4, 2]) (hp : mkParticles seed = .ok P)
    (hP : readSeedParticles env.fs s.particleFile = .ok P)
    (hg : groupOf seed 4 1 2 0 = cross2 ![c, y] δ) (hn : 2 ≤ s.snapshotFiles.length)
    (hh : s.timestep ≠ 0)
    (hx : ∀ w, |w - c| ≤ δ → OnAxis nx x0 dx w)
    (hy : ∀ w, |w - y| ≤ δ + (s.snapshotFiles.length * s.timestep) ^ 2 * (|c| + δ) →
      OnAxis ny y0 dy w) :
    ∃ (X : ℝ → Fin 2 → ℝ) (M : ℝ → Matrix (Fin 2) (Fin 2) ℝ) (σ Λ : ℝ),
      ContDiff ℝ 5 (fun p : ℝ × (Fin 2 → ℝ) => (![0, p.1 * p.2 0] : Fin 2 → ℝ)) ∧
      IsTrajectory (fun t x => ![0, t * x 0]) univ X ∧ X 0 = ![c, y] ∧
      IsDeformation (fun t x => ![0, t * x 0]) univ 0 X M ∧
      IsMaxStretch (M (s.snapshotFiles.length * s.timestep)) σ ∧
      ((⟨.file s, .highPerf (HighPerf.fresh [nx, ny]), .fresh .rk4⟩ : Solver ℝ).run env
        queue none).result = .ok (some [.fin Λ]) ∧
      1 / (((s.snapshotFiles.length : ℝ) - 1) * |s.timestep|) *
        (s.snapshotFiles.length * |s.timestep| / 4 /
          √(1 + ((s.snapshotFiles.length * s.timestep) ^ 2 / 4) ^ 2)) * |s.timestep| ≤
        1 / (((s.snapshotFiles.length : ℝ) - 1) * |s.timestep|) * Real.log σ - Λ := by
  obtain ⟨h1, X, M, σ, h2, h3, h4, h5, h6⟩ := C132_unsteady he hex queue .rk4 hd hδ0 hs hp hP hg hn hh
    hx hy
  refine ⟨X, M, σ, _, gust_smooth 5, h2, h3, h4, h5, h1, ?_⟩
  have hT := period_pos hn hh
  rw [h6, ← mul_sub, mul_assoc]
  refine mul_le_mul_of_nonneg_left ?_ (by positivity)
  have hn' : (2 : ℝ) ≤ s.snapshotFiles.length := by exact_mod_cast hn
  have hsq : s.timestep ^ 2 = |s.timestep| * |s.timestep| := by rw [← sq, sq_abs]
  have := arsinh_growth (a := s.timestep ^ 2 * ((s.snapshotFiles.length : ℝ) *
      (s.snapshotFiles.length - 1) / 2) / 2) (b := (s.snapshotFiles.length * s.timestep) ^ 2 / 4)
    (by
      have : 0 ≤ (s.snapshotFiles.length : ℝ) - 1 := by linarith
      positivity)
    (by nlinarith [sq_nonneg s.timestep])
  refine (le_of_eq ?_).trans this
  rw [div_mul_eq_mul_div]
  congr 1
  rw [mul_pow, hsq]
  ring

/-! ## A run -/

/-- Snapshot number `j` has the name `v…v` with `j` letters. -/
noncomputable def gustFiles (q : ℕ) (c δ : ℝ) : MatFS ℝ := fun path =>
  if path = "c" ∨ path = "p" then cellFiles id q c δ path
  else some fun key =>
    if key = "velocity_x" then some (listing ((8 * q + 1) * (8 * q + 1)) fun _ => 0)
    else if key = "velocity_y" then
      some (listing ((8 * q + 1) * (8 * q + 1)) fun i =>
        path.length * (1 / (q : ℝ)) * (-4 + (i % (8 * q + 1) : ℕ) * (1 / (q : ℝ))))
    else none

noncomputable def gustSource (q n : ℕ) : FileSource ℝ :=
  ⟨(List.range n).map fun j => String.ofList (List.replicate j 'v'), List.replicate n "c", "p",
    1 / (q : ℝ), "v", false⟩

theorem gust_samples (c δ : ℝ) {q : ℕ} (n : ℕ) (hq : 0 < q)
    (hl : ((8 * q + 1 : ℕ) : ℤ) < intLim) :
    Samples2 (gustFiles q c δ) (gustSource q n) (fun t x => ![0, t * x 0]) 0 (8 * q + 1) (8 * q + 1)
      (-4) (1 / q) (-4) (1 / q) where
  fresh := rfl
  hnx := by omega
  hny := by omega
  lnx := hl
  lny := hl
  hdx := by positivity
  hdy := by positivity
  data := by
    intro j hj
    have hj : j < n := by simpa [gustSource] using hj
    obtain ⟨V, h1, a2, a3, a4⟩ := stack_two ((8 * q + 1) * (8 * q + 1)) (fun _ => (0 : ℝ))
      (fun i => j * (1 / (q : ℝ)) * (-4 + (i % (8 * q + 1) : ℕ) * (1 / (q : ℝ))))
    have name : ∀ ch : Char, ch ≠ 'v' →
        String.ofList (List.replicate j 'v') ≠ String.ofList [ch] := by
      intro ch hch he
      have := congrArg String.toList he
      simp only [String.toList_ofList] at this
      exact hch (List.eq_of_mem_replicate (this ▸ List.mem_singleton_self ch))
    have n1 : String.ofList (List.replicate j 'v') ≠ "c" := name 'c' (by decide)
    have n2 : String.ofList (List.replicate j 'v') ≠ "p" := name 'p' (by decide)
    have a1 : readVelocity (gustFiles q c δ) (String.ofList (List.replicate j 'v')) = .ok V := by
      rw [← h1]
      simp [readVelocity, loadmat, gustFiles, readComponents, n1, n2]
    obtain ⟨P, h2, b2, b3, b4⟩ := stack_two ((8 * q + 1) * (8 * q + 1))
      (fun i => (-4 : ℝ) + (i % (8 * q + 1) : ℕ) * (1 / (q : ℝ)))
      (fun i => -4 + (i / (8 * q + 1) : ℕ) * (1 / (q : ℝ)))
    have b1 : readCoordinate (gustFiles q c δ) "c" = .ok P := by
      rw [← h2]
      simp [readCoordinate, loadmat, gustFiles, cellFiles, readComponents]
    refine ⟨V, P, ⟨⟨_, by simp [gustSource, hj], a1⟩,
      ⟨"c", by simp [gustSource, hj], b1⟩⟩, a2, b2, ?_, ?_⟩
    · intro a ha b hb
      rw [b3, b4, Nat.add_mul_mod_self_left, Nat.mod_eq_of_lt ha,
        Nat.add_mul_div_left _ _ (by omega), Nat.div_eq_of_lt ha, Nat.zero_add]
      exact ⟨rfl, rfl⟩
    · intro i hi e
      fin_cases e
      · exact a3 i
      · show V.get [1, i] = (0 + j * (1 / (q : ℝ))) * P.get [0, i]
        rw [a4, b3, zero_add]

theorem gust_seeds (q : ℕ) (c δ : ℝ) : ∃ seed P, seed.shape = [4 * 1, 2] ∧
    mkParticles seed = .ok P ∧ readSeedParticles (gustFiles q c δ) "p" = .ok P ∧
    groupOf seed 4 1 2 0 = cross2 ![c, 0] δ := by
  obtain ⟨seed, P, s1, s2, s3, s4⟩ := cell_seeds id q c δ
  exact ⟨seed, P, s1, s2, s3, s4⟩

/-- The hypotheses of `C132_unsteady` and `C132_unsteady_rk4_fails` hold for a cross of arm `1/2` around
`(1/2, 0)` and every spacing `1/q` in space and time: `arsinh ((1 + 1/q) / 4)` is reported with RK4 where
the exponent is `arsinh ((1 + 1/q)² / 4)`. -/
example (q : ℕ) (hq : 2 ≤ q) (hl : ((8 * q + 1 : ℕ) : ℤ) < intLim) :
    ((⟨.file (gustSource q (q + 1)), .highPerf (HighPerf.fresh [8 * q + 1, 8 * q + 1]),
      .fresh .rk4⟩ : Solver ℝ).run { realEnv with fs := gustFiles q (1 / 2) (1 / 2) } false
        none).result = .ok (some [.fin (Real.arsinh ((1 + 1 / (q : ℝ)) / 4))]) := by
  obtain ⟨seed, P, s1, s2, s3, s4⟩ := gust_seeds q (1 / 2) (1 / 2)
  have hq' : (2 : ℝ) ≤ q := by exact_mod_cast hq
  have hq0 : (q : ℝ) ≠ 0 := by positivity
  have hqp : 0 < 1 / (q : ℝ) := by positivity
  have hq1 : 1 / (q : ℝ) ≤ 1 / 2 := one_div_le_one_div_of_le (by norm_num) hq'
  have hlen : (gustSource q (q + 1)).snapshotFiles.length = q + 1 := by simp [gustSource]
  have hst : (gustSource q (q + 1)).timestep = 1 / (q : ℝ) := rfl
  have hnh : ((q + 1 : ℕ) : ℝ) * (1 / (q : ℝ)) = 1 + 1 / q := by
    push_cast
    field_simp
  have key := (C132_unsteady (env := { realEnv with fs := gustFiles q (1 / 2) (1 / 2) })
    ⟨rfl, rfl, rfl⟩ (.inl rfl) false .rk4 (gust_samples (1 / 2) (1 / 2) (q + 1) (by omega) hl)
    (by norm_num : (0 : ℝ) < 1 / 2) s1 s2 s3 s4 (by rw [hlen]; omega) hqp.ne'
    (fun w hw => by
      have hw := abs_le.1 hw
      exact cell_axis (by omega) (by linarith [hw.1]) (by linarith [hw.2]))
    (fun w hw => by
      rw [hlen, hst, hnh, sub_zero] at hw
      have m1 : (1 + 1 / (q : ℝ)) ^ 2 ≤ (3 / 2) ^ 2 := pow_le_pow_left₀ (by linarith) (by linarith) 2
      have m2 : |(1 / 2 : ℝ)| = 1 / 2 := abs_of_pos (by norm_num)
      rw [m2] at hw
      have hw := abs_le.1 hw
      exact cell_axis (by omega) (by linarith [hw.1]) (by linarith [hw.2]))).1
  rw [key, hlen, hst, abs_of_pos hqp]
  have hT : 1 / ((((q + 1 : ℕ) : ℝ) - 1) * (1 / (q : ℝ))) = 1 := by
    push_cast
    rw [add_sub_cancel_right, mul_one_div_cancel hq0, div_one]
  have e : (1 / (q : ℝ)) ^ 2 * ((((q + 1 : ℕ) : ℝ)) * (((q + 1 : ℕ) : ℝ) - 1) / 2) / 2 =
      (1 + 1 / (q : ℝ)) / 4 := by
    push_cast
    field_simp
    ring
  simp only [hT, one_mul, e]

end Verif
