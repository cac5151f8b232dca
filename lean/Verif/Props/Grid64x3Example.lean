import Verif.Props.Grid64x3
import Verif.Props.Grid64Example

/-!
# C113: a gridded 3-D case in binary64

The shear flow `(0, x, 0)` sampled on the cube `[-4, 4]³` with spacing `2^-10`, two snapshots `2^-10`
apart, six seeds at distance 1 from the origin.  All numbers in the files are binary64 numbers.
-/

namespace Verif

open Matrix Set

def seedBlock64x3 (c : ℕ) (x : ℚ) : NDArray Fl :=
  ⟨[1, 3], fun i => if i.getD 1 0 = c then ⟨x⟩ else ⟨0⟩⟩

def linFiles3 : MatFS Fl := fun path =>
  if path = "c0" ∨ path = "c1" then some fun key =>
    if key = "coordinate_x" then some (listing (8193 * 8193 * 8193) fun q => node64 (q / 8193 % 8193))
    else if key = "coordinate_y" then
      some (listing (8193 * 8193 * 8193) fun q => node64 (q / 8193 / 8193))
    else if key = "coordinate_z" then some (listing (8193 * 8193 * 8193) fun q => node64 (q % 8193))
    else none
  else if path = "v0" ∨ path = "v1" then some fun key =>
    if key = "velocity_x" then some (listing (8193 * 8193 * 8193) fun _ => ⟨0⟩)
    else if key = "velocity_y" then
      some (listing (8193 * 8193 * 8193) fun q => node64 (q / 8193 % 8193))
    else if key = "velocity_z" then some (listing (8193 * 8193 * 8193) fun _ => ⟨0⟩)
    else none
  else if path = "p" then some fun key =>
    if key = "left" then some (seedBlock64x3 0 (-1))
    else if key = "right" then some (seedBlock64x3 0 1)
    else if key = "top" then some (seedBlock64x3 1 1)
    else if key = "bottom" then some (seedBlock64x3 1 (-1))
    else if key = "front" then some (seedBlock64x3 2 1)
    else if key = "back" then some (seedBlock64x3 2 (-1))
    else none
  else none

noncomputable def linEnv3 (m : Libm) (la : Linalg) : Env Fl Val64 :=
  { flEnv3 m la with fs := linFiles3 }

theorem lin3_velocity {f : String} (hf : f = "v0" ∨ f = "v1") :
    ∃ V, readVelocity linFiles3 f = .ok V ∧ V.shape = [3, 8193 * 8193 * 8193] ∧
      (∀ q, V.get [0, q] = ⟨0⟩) ∧ (∀ q : ℕ, V.get [1, q] = node64 (q / 8193 % 8193)) ∧
      ∀ q, V.get [2, q] = ⟨0⟩ := by
  obtain ⟨V, h1, h2, h3, h4, h5⟩ := stack_three (8193 * 8193 * 8193) (fun _ => (⟨0⟩ : Fl))
    (fun q => node64 (q / 8193 % 8193)) (fun _ => ⟨0⟩)
  refine ⟨V, ?_, h2, h3, h4, h5⟩
  rw [← h1]
  rcases hf with rfl | rfl <;>
    simp [readVelocity, loadmat, linFiles3, readComponents]

theorem lin3_coordinate {f : String} (hf : f = "c0" ∨ f = "c1") :
    ∃ V, readCoordinate linFiles3 f = .ok V ∧ V.shape = [3, 8193 * 8193 * 8193] ∧
      (∀ q : ℕ, V.get [0, q] = node64 (q / 8193 % 8193)) ∧
      (∀ q : ℕ, V.get [1, q] = node64 (q / 8193 / 8193)) ∧
      ∀ q : ℕ, V.get [2, q] = node64 (q % 8193) := by
  obtain ⟨V, h1, h2, h3, h4, h5⟩ := stack_three (8193 * 8193 * 8193)
    (fun q => node64 (q / 8193 % 8193)) (fun q => node64 (q / 8193 / 8193))
    (fun q => node64 (q % 8193))
  refine ⟨V, ?_, h2, h3, h4, h5⟩
  rw [← h1]
  rcases hf with rfl | rfl <;>
    simp [readCoordinate, loadmat, linFiles3, readComponents]

theorem lin3_samples : Samples64x3 linFiles3 linSource (fun _ => linShear3) 0 8193 8193 node64 node64
    node64 (1 / 1024) (1 / 1024) (1 / 1024) 0 0 where
  fresh := rfl
  x := lin_nodes
  y := lin_nodes
  z := lin_nodes
  lim := by norm_num
  data := by
    intro j hj
    have hj : j < 2 := hj
    obtain ⟨fv, v1, v2⟩ : ∃ f, linSource.snapshotFiles[j]? = some f ∧ (f = "v0" ∨ f = "v1") := by
      interval_cases j
      · exact ⟨"v0", rfl, .inl rfl⟩
      · exact ⟨"v1", rfl, .inr rfl⟩
    obtain ⟨fc, c1, c2⟩ : ∃ f, linSource.coordinateFiles[j]? = some f ∧ (f = "c0" ∨ f = "c1") := by
      interval_cases j
      · exact ⟨"c0", rfl, .inl rfl⟩
      · exact ⟨"c1", rfl, .inr rfl⟩
    obtain ⟨V, a1, a2, a3, a4, a5⟩ := lin3_velocity v2
    obtain ⟨P, b1, b2, b3, b4, b5⟩ := lin3_coordinate c2
    refine ⟨V, P, ⟨⟨fv, v1, a1⟩, ⟨fc, c1, b1⟩⟩, a2, b2, ?_, ?_⟩
    · intro a ha b hb e he
      rw [b3, b4, b5, fold_div _ he, fold_mod _ ha, fold_div _ ha, fold_mod _ he]
      exact ⟨rfl, rfl, rfl⟩
    · intro a ha b hb e he c
      refine le_of_eq (abs_eq_zero.2 ?_)
      fin_cases c
      · show (V.get [0, (b * 8193 + a) * 8193 + e]).re - 0 = 0
        rw [a3]
        simp [Fl.re]
      · show (V.get [1, (b * 8193 + a) * 8193 + e]).re - (node64 a).re = 0
        rw [a4, fold_div _ he, fold_mod _ ha, sub_self]
      · show (V.get [2, (b * 8193 + a) * 8193 + e]).re - 0 = 0
        rw [a5]
        simp [Fl.re]

theorem lin3_seeds : ∃ seed P, seed.shape = [6 * 1, 3] ∧ mkParticles seed = .ok P ∧
    readSeedParticles linFiles3 "p" = .ok P ∧
    ∀ b, reVec (groupOf seed 6 1 3 0 b) = cross3 0 1 b := by
  obtain ⟨A, a1, a2, a3⟩ := concat0_eq (m := 1) (rest := [3])
    [seedBlock64x3 0 (-1), seedBlock64x3 0 1, seedBlock64x3 1 1, seedBlock64x3 1 (-1),
      seedBlock64x3 2 1, seedBlock64x3 2 (-1)] (by simp) (by simp [seedBlock64x3])
  obtain ⟨P, p1, -⟩ := mkParticles_3d (show A.shape = [6 * 1, 3] from a2)
  refine ⟨A, P, a2, p1, ?_, fun b => ?_⟩
  · simp [readSeedParticles, loadmat, linFiles3, a1, p1]
  · have g0 := a3 0 (by simp) 0
    have g1 := a3 1 (by simp) 0
    have g2 := a3 2 (by simp) 0
    have g3 := a3 3 (by simp) 0
    have g4 := a3 4 (by simp) 0
    have g5 := a3 5 (by simp) 0
    funext c
    fin_cases b <;> fin_cases c <;>
      simp [groupOf, rowOf, cross3, seedBlock64x3, reVec, Fl.re] at g0 g1 g2 g3 g4 g5 ⊢ <;>
      simp [g0, g1, g2, g3, g4, g5]

/-- The hypotheses of C113 hold.  The value is a number within six per cent of the exponent
`1024 ln σ`, which is about 1. -/
example (k : Kind) : ∃ (m : Libm) (la : Linalg) (σ : ℝ) (x : Fl), m.Accurate (2 ^ (-52 : ℤ)) ∧
    la.Accurate (2 ^ (-40 : ℤ)) ∧ IsMaxStretch !![1, 0, 0; 1 / 512, 1, 0; 0, 0, 1] σ ∧
    ((⟨.file linSource, .highPerf (HighPerf.fresh [8193, 8193, 8193]), .fresh k⟩ : Solver Fl).run
      (linEnv3 m la) false none).result = .ok (some [.fin x]) ∧
    |x.re - 1024 * Real.log σ| ≤ 6 / 100 := by
  obtain ⟨m, hm⟩ := exists_libm (κ := 2 ^ (-52 : ℤ)) (by positivity)
  obtain ⟨la, ha⟩ := exists_linalg (μ := 2 ^ (-40 : ℤ)) (by positivity)
  obtain ⟨seed, P, s1, s2, s3, s4⟩ := lin3_seeds
  obtain ⟨σ, hσ⟩ := ftle3_computes.exists_stretch !![(1 : ℝ), 0, 0; 1 / 512, 1, 0; 0, 0, 1]
  have hσ0 : 1 ≤ σ := by
    have := entry_le_stretch hσ 0 0
    simpa using this
  have hσ2 : σ ≤ 1 + 1 / 512 := by
    have := maxStretch_le_add hσ (maxStretch_one (d := 3))
    simp [Fin.sum_univ_three] at this
    norm_num [Matrix.one_apply, Fin.ext_iff] at this
    linarith
  obtain ⟨small, pe⟩ := linGridSmall
  have hre : (⟨1 / 1024⟩ : Fl).re = 1 / 1024 := by norm_num [Fl.re]
  set pE := posError (effError linEps linL (stepRounding 3 (1 + linEps + linL * 1) (1 / 1024))
    (1 / 1024)) linL 1 0 (1 / 1024) 2 with hpE
  have pe0 : 0 ≤ pE := by
    have := small.eps
    have := small.lip
    rw [hpE]
    unfold posError
    positivity
  set b := 62 / 10 * pE * (1 / |(2 : ℝ)| + 1 / |(2 : ℝ)| + 1 / |(2 : ℝ)|) +
    2 ^ (-53 : ℤ) * (1 + 36 * σ) with hb
  have hb1 : 0 ≤ b ∧ b ≤ 54 / 10 ^ 6 := by
    rw [hb, abs_of_pos (by norm_num)]
    constructor
    · positivity
    · have : (2 : ℝ) ^ (-53 : ℤ) * (1 + 36 * σ) ≤ 2 ^ (-53 : ℤ) * 40 :=
        mul_le_mul_of_nonneg_left (by linarith) (by positivity)
      norm_num at this pe ⊢
      linarith
  have hx0 : ∀ b : Fin 6, ∀ c, |cross3 (0 : Fin 3 → ℝ) 1 b c| ≤ 1 := by
    intro b c
    fin_cases b <;> fin_cases c <;> simp [cross3]
  have hpath : ∀ b : Fin 6, ∀ t : ℝ, 0 ≤ t → t ≤ 1 / 512 → ‖linPath3 (cross3 0 1 b) t‖ ≤ 3 / 2 := by
    intro b t t0 t1
    have h0 := hx0 b
    have : |t * cross3 (0 : Fin 3 → ℝ) 1 b 0| ≤ 1 / 512 * 1 := by
      rw [abs_mul, abs_of_nonneg t0]
      exact mul_le_mul t1 (h0 0) (abs_nonneg _) (by norm_num)
    rw [pi_norm_le_iff_of_nonneg (by norm_num)]
    intro c
    fin_cases c
    · exact (h0 0).trans (by norm_num)
    · exact (abs_add_le _ _).trans (by linarith [h0 1])
    · exact (h0 2).trans (by norm_num)
  obtain ⟨Λ, r1, r2⟩ := C113_gridded_3d (env := linEnv3 m la) (la := la) ⟨rfl, rfl⟩ (.inl rfl) hm
    (by positivity) (by norm_num) ha (by positivity) (by norm_num) false k
    (v := fun _ => linShear3) (t0 := 0) (L := 1) (L' := linL) (ε := linEps)
    (B := 1) (M := 0) (r := 1) (W := 3) (s := linSource) lin3_samples (n := 2) rfl le_rfl
    (h := ⟨1 / 1024⟩) rfl (by
      rw [hre, abs_of_pos (by norm_num)]
      exact (zpow_le_zpow_right₀ (by norm_num) (by norm_num : (-500 : ℤ) ≤ -10)).trans (by norm_num))
    (by
      rw [hre, abs_of_pos (by norm_num)]
      exact le_trans (by norm_num) (one_le_pow₀ (by norm_num : (1 : ℝ) ≤ 2)))
    zero_le_one zero_le_one rfl (by unfold linEps; rw [max_self, max_self]) rfl
    (by rw [hre, abs_of_pos (by norm_num)]; exact small) (N := 1)
    s1 s2 s3 (fun _ b => linPath3 (cross3 0 1 b))
    (fun i hi b => by
      obtain rfl : i = 0 := by omega
      refine ⟨linShear3_along (hx0 b 0) _ _, ?_, ?_⟩
      · rw [s4]; funext c; fin_cases c <;> simp [linPath3]
      · intro t ht
        rw [hre, uIcc_of_le (by norm_num)] at ht
        have := hpath b t ht.1 (ht.2.trans (by norm_num))
        linarith)
    (fun j hj w _ w' _ => by
      rw [one_mul, pi_norm_le_iff_of_nonneg (norm_nonneg _)]
      intro c
      fin_cases c
      · simp [linShear3]
      · exact norm_le_pi_norm (w - w') 0
      · simp [linShear3])
    (fun i hi b j hj z hz => by
      rw [hre] at hz
      have hj' : (j : ℝ) ≤ 1 := by exact_mod_cast (by omega : j ≤ 1)
      have hj0 : (0 : ℝ) ≤ j := by positivity
      have hp := hpath b (0 + j * (1 / 1024)) (by positivity) (by linarith)
      have hz2 : ‖z‖ ≤ 5 / 2 := by
        have := norm_add_le (z - linPath3 (cross3 0 1 b) (0 + j * (1 / 1024)))
          (linPath3 (cross3 0 1 b) (0 + j * (1 / 1024)))
        rw [sub_add_cancel] at this
        linarith
      have key : ∀ c : Fin 3, OnAxis64 8193 node64 (1 / 1024) (z c) := by
        intro c
        have h0 := abs_le.1 ((norm_le_pi_norm z c).trans hz2)
        unfold OnAxis64
        rw [node64_re, node64_re]
        norm_num
        constructor <;> linarith [h0.1, h0.2]
      exact ⟨key 0, key 1, key 2⟩)
    (fun _ => 2) (fun _ => 2) (fun _ => 2) (fun i hi => by
      obtain rfl : i = 0 := by omega
      have h2 : (2 : ℝ) ^ (-500 : ℤ) ≤ |2| :=
        (zpow_le_one_of_nonpos₀ (by norm_num) (by norm_num)).trans (by norm_num)
      have g : ∀ b c, (groupOf seed 6 1 3 0 b c).re = cross3 0 1 b c := fun b c =>
        congrFun (s4 b) c
      refine ⟨?_, ?_, ?_, h2, h2, h2⟩ <;> rw [g, g] <;> simp [cross3] <;> norm_num)
    (fun _ => !![1, 0, 0; 1 / 512, 1, 0; 0, 0, 1]) (fun i hi => by
      obtain rfl : i = 0 := by omega
      simp only [s4, hre]
      rw [centralDiff3_ok]
      refine ⟨⟨?_, ?_, ?_⟩, ?_⟩
      · simp [cross3]
      · simp [cross3]
      · simp [cross3]
      · ext i j
        fin_cases i <;> fin_cases j <;> simp [diffs3, cross3, linPath3] <;> norm_num)
    (fun _ => σ) (fun _ => b) (fun _ => by rw [hre, abs_of_pos (by norm_num : (0 : ℝ) < 1 / 1024)])
    (fun i hi => ⟨hσ, by
      have : (2 : ℝ) ^ (-200 : ℤ) ≤ 2 ^ (-1 : ℤ) := zpow_le_zpow_right₀ (by norm_num) (by norm_num)
      norm_num at this hb1 ⊢
      linarith [hb1.2]⟩)
  obtain ⟨x, hx, hxb⟩ := r2 0 one_pos
  refine ⟨m, la, σ, x, hm, ha, hσ, ?_, ?_⟩
  · rw [r1, ← hx]; rfl
  · have hl0 : 0 ≤ Real.log σ := Real.log_nonneg hσ0
    have hl1 : Real.log σ ≤ 1 / 512 := (Real.log_le_sub_one_of_pos (by linarith)).trans (by linarith)
    have hd : b / (σ - b) ≤ 541 / 10 ^ 7 := by
      rw [div_le_iff₀ (by linarith [hb1.2])]
      norm_num at hb1 ⊢
      linarith [hb1.2]
    rw [hre, abs_of_pos (by norm_num : (0 : ℝ) < 1 / 1024), abs_of_nonneg hl0] at hxb
    norm_num at hxb hd ⊢
    refine hxb.trans ?_
    linarith

end Verif
