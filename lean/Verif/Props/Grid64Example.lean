import Verif.Props.Grid64
import Verif.Props.GridErrorExample

/-!
# C87: a gridded case in binary64

The shear flow `(0, x)` sampled on the square `[-4, 4]²` with spacing `2^-10`, two snapshots `2^-10`
apart, four seeds at distance 1 from the origin.  All numbers in the files are binary64 numbers.
-/

namespace Verif

open Matrix Set

/-- The nodes of both axes. -/
def node64 (a : ℕ) : Fl := ⟨-4 + a / 1024⟩

theorem node64_re (a : ℕ) : (node64 a).re = -4 + a / 1024 := by
  simp [node64, Fl.re]

def seedBlock64 (c : ℕ) (x : ℚ) : NDArray Fl :=
  ⟨[1, 2], fun i => if i.getD 1 0 = c then ⟨x⟩ else ⟨0⟩⟩

def linFiles : MatFS Fl := fun path =>
  if path = "c0" ∨ path = "c1" then some fun key =>
    if key = "coordinate_x" then some (listing (8193 * 8193) fun q => node64 (q % 8193))
    else if key = "coordinate_y" then some (listing (8193 * 8193) fun q => node64 (q / 8193))
    else none
  else if path = "v0" ∨ path = "v1" then some fun key =>
    if key = "velocity_x" then some (listing (8193 * 8193) fun _ => ⟨0⟩)
    else if key = "velocity_y" then some (listing (8193 * 8193) fun q => node64 (q % 8193))
    else none
  else if path = "p" then some fun key =>
    if key = "left" then some (seedBlock64 0 (-1))
    else if key = "right" then some (seedBlock64 0 1)
    else if key = "top" then some (seedBlock64 1 1)
    else if key = "bottom" then some (seedBlock64 1 (-1))
    else none
  else none

noncomputable def linEnv (m : Libm) : Env Fl Val64 := { flEnv m with fs := linFiles }

def linSource : FileSource Fl := ⟨["v0", "v1"], ["c0", "c1"], "p", ⟨1 / 1024⟩, "v0", false⟩

theorem lin_velocity {f : String} (hf : f = "v0" ∨ f = "v1") :
    ∃ V, readVelocity linFiles f = .ok V ∧ V.shape = [2, 8193 * 8193] ∧
      (∀ q, V.get [0, q] = ⟨0⟩) ∧ ∀ q : ℕ, V.get [1, q] = node64 (q % 8193) := by
  obtain ⟨V, h1, h2, h3, h4⟩ := stack_two (8193 * 8193) (fun _ => (⟨0⟩ : Fl))
    (fun q => node64 (q % 8193))
  refine ⟨V, ?_, h2, h3, h4⟩
  rw [← h1]
  rcases hf with rfl | rfl <;>
    simp [readVelocity, loadmat, linFiles, readComponents]

theorem lin_coordinate {f : String} (hf : f = "c0" ∨ f = "c1") :
    ∃ V, readCoordinate linFiles f = .ok V ∧ V.shape = [2, 8193 * 8193] ∧
      (∀ q : ℕ, V.get [0, q] = node64 (q % 8193)) ∧ ∀ q : ℕ, V.get [1, q] = node64 (q / 8193) := by
  obtain ⟨V, h1, h2, h3, h4⟩ := stack_two (8193 * 8193) (fun q => node64 (q % 8193))
    (fun q => node64 (q / 8193))
  refine ⟨V, ?_, h2, h3, h4⟩
  rw [← h1]
  rcases hf with rfl | rfl <;>
    simp [readCoordinate, loadmat, linFiles, readComponents]

theorem lin_nodes : Nodes64 8193 node64 (1 / 1024) 0 where
  two := by norm_num
  lim := by norm_num
  spacing := by rw [node64_re, node64_re]; norm_num
  normal := (zpow_le_zpow_right₀ (by norm_num) (by norm_num : (-500 : ℤ) ≤ -10)).trans (by norm_num)
  uniform := by
    intro a _
    rw [node64_re, node64_re]
    refine le_of_eq (abs_eq_zero.2 ?_)
    push_cast
    ring
  between := by
    intro a ha
    have : (a : ℝ) ≤ 8192 := by exact_mod_cast (by omega : a ≤ 8192)
    have h0 : (0 : ℝ) ≤ a := by positivity
    rw [node64_re, node64_re, node64_re]
    push_cast
    constructor <;> linarith

theorem lin_samples : Samples64 linFiles linSource (fun _ => linShear) 0 8193 8193 node64 node64
    (1 / 1024) (1 / 1024) 0 0 where
  fresh := rfl
  x := lin_nodes
  y := lin_nodes
  data := by
    intro j hj
    have hj : j < 2 := hj
    obtain ⟨fv, v1, v2⟩ : ∃ f, linSource.snapshotFiles[j]? = some f ∧ (f = "v0" ∨ f = "v1") := by
      interval_cases j
      · exact ⟨"v0", rfl, .inl rfl⟩
      · exact ⟨"v1", rfl, .inr rfl⟩
    obtain ⟨fc, c1, c2⟩ : ∃ f, linSource.coordinateFiles[j]? = some f ∧ (f = "c0" ∨ f = "c1") := by
      interval_cases j
      · exact ⟨"c0", rfl, .inl rfl⟩
      · exact ⟨"c1", rfl, .inr rfl⟩
    obtain ⟨V, a1, a2, a3, a4⟩ := lin_velocity v2
    obtain ⟨P, b1, b2, b3, b4⟩ := lin_coordinate c2
    refine ⟨V, P, ⟨⟨fv, v1, a1⟩, ⟨fc, c1, b1⟩⟩, a2, b2, ?_, ?_⟩
    · intro a ha b hb
      rw [b3, b4, Nat.add_mul_mod_self_left, Nat.mod_eq_of_lt ha,
        Nat.add_mul_div_left _ _ (by norm_num), Nat.div_eq_of_lt ha, Nat.zero_add]
      exact ⟨rfl, rfl⟩
    · intro a ha b hb c
      refine le_of_eq (abs_eq_zero.2 ?_)
      fin_cases c
      · show (V.get [0, a + 8193 * b]).re - 0 = 0
        rw [a3]
        simp [Fl.re]
      · show (V.get [1, a + 8193 * b]).re - (node64 a).re = 0
        rw [a4, Nat.add_mul_mod_self_left, Nat.mod_eq_of_lt ha, sub_self]

theorem lin_seeds : ∃ seed P, seed.shape = [4 * 1, 2] ∧ mkParticles seed = .ok P ∧
    readSeedParticles linFiles "p" = .ok P ∧
    ∀ b, reVec (groupOf seed 4 1 2 0 b) = cross2 0 1 b := by
  obtain ⟨A, a1, a2, a3⟩ := concat0_eq (m := 1) (rest := [2])
    [seedBlock64 0 (-1), seedBlock64 0 1, seedBlock64 1 1, seedBlock64 1 (-1)] (by simp)
    (by simp [seedBlock64])
  obtain ⟨P, p1, -⟩ := mkParticles_2d (show A.shape = [4 * 1, 2] from a2)
  refine ⟨A, P, a2, p1, ?_, fun b => ?_⟩
  · simp [readSeedParticles, loadmat, linFiles, a1, p1]
  · have g0 := a3 0 (by simp) 0
    have g1 := a3 1 (by simp) 0
    have g2 := a3 2 (by simp) 0
    have g3 := a3 3 (by simp) 0
    funext c
    fin_cases b <;> fin_cases c <;>
      simp [groupOf, rowOf, cross2, seedBlock64, reVec, Fl.re] at g0 g1 g2 g3 ⊢ <;>
      simp [g0, g1, g2, g3]

/-- The Lipschitz constant and the error of the velocities in C87. -/
noncomputable def linL : ℝ := (1 + 2 ^ (-47 : ℤ)) * 1

noncomputable def linEps : ℝ := (1 + 2 ^ (-47 : ℤ)) *
  (0 + 1 * ((1 + 2 ^ (-19 : ℤ)) * max (1 / 1024) (1 / 1024) + 0)) + 2 ^ (-47 : ℤ) * 1 +
    2 ^ (-1069 : ℤ)

theorem linEps_bounds : 0 ≤ linEps ∧ linEps ≤ 977 / 10 ^ 6 := by
  unfold linEps
  rw [max_self]
  refine ⟨by positivity, ?_⟩
  have : (2 : ℝ) ^ (-1069 : ℤ) ≤ 2 ^ (-47 : ℤ) := zpow_le_zpow_right₀ (by norm_num) (by norm_num)
  norm_num at this ⊢
  linarith

theorem linL_bounds : 1 ≤ linL ∧ linL ≤ 1 + 1 / 10 ^ 13 := by
  unfold linL
  norm_num

theorem linGridRounding : 0 ≤ stepRounding 3 (1 + linEps + linL * 1) (1 / 1024) ∧
    stepRounding 3 (1 + linEps + linL * 1) (1 / 1024) ≤ 1 / 10 ^ 13 := by
  obtain ⟨e0, e1⟩ := linEps_bounds
  obtain ⟨l0, l1⟩ := linL_bounds
  refine ⟨stepRounding_nonneg (by norm_num) (by linarith) (by norm_num), ?_⟩
  have hV : 1 + linEps + linL * 1 ≤ 3 := by norm_num at *; linarith
  have hu := uR_pos
  have hη := ηR_pos
  have p1 := mul_le_mul_of_nonneg_left hV hu.le
  have p2 := mul_le_mul_of_nonneg_left hV hη.le
  unfold stepRounding
  linarith [uR_le, ηR_le]

theorem linGridSmall :
    SmallSteps (effError linEps linL (stepRounding 3 (1 + linEps + linL * 1) (1 / 1024)) (1 / 1024))
      linL 1 0 (1 / 1024) 2 1 ∧
    posError (effError linEps linL (stepRounding 3 (1 + linEps + linL * 1) (1 / 1024)) (1 / 1024))
      linL 1 0 (1 / 1024) 2 ≤ 58 / 10 ^ 7 := by
  obtain ⟨h1, h2⟩ := linGridRounding
  obtain ⟨a0, a1⟩ := linEps_bounds
  obtain ⟨l0, l1⟩ := linL_bounds
  set ρ := stepRounding 3 (1 + linEps + linL * 1) (1 / 1024)
  have e0 : 0 ≤ effError linEps linL ρ (1 / 1024) := by
    unfold effError
    have : 0 ≤ linL := by linarith
    positivity
  have e1 : effError linEps linL ρ (1 / 1024) ≤ 978 / 10 ^ 6 := by
    unfold effError
    rw [abs_of_pos (by norm_num)]
    have := mul_le_mul l1 h2 h1 (by norm_num)
    norm_num at this a1 h2 ⊢
    linarith
  have e2 : posError (effError linEps linL ρ (1 / 1024)) linL 1 0 (1 / 1024) 2 ≤ 58 / 10 ^ 7 := by
    unfold posError
    rw [abs_of_pos (by norm_num)]
    have q1 : 1 + 2 * linL * (1 / 1024) ≤ 1 + 2 / 1000 := by norm_num at l1 ⊢; linarith
    have q2 := pow_le_pow_left₀ (by linarith) q1 2
    have q3 : ((2 : ℕ) : ℝ) * (1 / 1024) * (2 * effError linEps linL ρ (1 / 1024) +
        (2 * 0 + linL * 1) * (1 / 1024)) ≤ 5733 / 10 ^ 9 := by
      norm_num at e1 l1 ⊢
      linarith
    refine (mul_le_mul q3 q2 (by positivity) (by norm_num)).trans ?_
    norm_num
  refine ⟨⟨e0, by linarith, by norm_num, by norm_num, ?_, ?_, ?_⟩, e2⟩
  · rw [abs_of_pos (by norm_num)]; norm_num at l1 ⊢; linarith
  · norm_num at e2 ⊢; linarith
  · rw [abs_of_pos (by norm_num)]; norm_num at e1 l1 ⊢; linarith

/-- The hypotheses of C87 hold.  The value is a number within three per cent of the exponent
`1024 ln σ`, which is about 1. -/
example (k : Kind) : ∃ (m : Libm) (σ : ℝ) (x : Fl), m.Accurate (2 ^ (-52 : ℤ)) ∧
    IsMaxStretch !![1, 0; 1 / 512, 1] σ ∧
    ((⟨.file linSource, .highPerf (HighPerf.fresh [8193, 8193]), .fresh k⟩ : Solver Fl).run
      (linEnv m) false none).result = .ok (some [.fin x]) ∧
    |x.re - 1024 * Real.log σ| ≤ 3 / 100 := by
  obtain ⟨m, hm⟩ := exists_libm (κ := 2 ^ (-52 : ℤ)) (by positivity)
  obtain ⟨seed, P, s1, s2, s3, s4⟩ := lin_seeds
  obtain ⟨σ, hσ⟩ := ftle2_computes.exists_stretch !![(1 : ℝ), 0; 1 / 512, 1]
  have hσ0 : 1 ≤ σ := by
    have := entry_le_stretch hσ 0 0
    simpa using this
  have hσ1 : 1 + 1 / 512 ≤ σ ^ 2 := by
    have h1 := maxStretch_bound hσ ![1, 1]
    have h2 := pow_le_pow_left₀ (len_nonneg _) h1 2
    rw [mul_pow, len_sq, len_sq] at h2
    simp [Matrix.mulVec, dotProduct, Fin.sum_univ_two] at h2
    linarith
  have hσ2 : σ ≤ 1 + 1 / 512 := by
    have := maxStretch_le_add hσ (maxStretch_one (d := 2))
    simpa [Fin.sum_univ_two] using this
  obtain ⟨small, pe⟩ := linGridSmall
  have hre : (⟨1 / 1024⟩ : Fl).re = 1 / 1024 := by norm_num [Fl.re]
  set pE := posError (effError linEps linL (stepRounding 3 (1 + linEps + linL * 1) (1 / 1024))
    (1 / 1024)) linL 1 0 (1 / 1024) 2 with hpE
  have pe0 : 0 ≤ pE := by
    have := small.eps
    have := small.lip
    rw [hpE]
    unfold posError
    positivity
  set b := 41 / 10 * pE * (1 / |(2 : ℝ)| + 1 / |(2 : ℝ)|) + 2 ^ (-53 : ℤ) * (1 + 16 * σ) with hb
  have hb1 : 0 ≤ b ∧ b ≤ 24 / 10 ^ 6 := by
    rw [hb, abs_of_pos (by norm_num)]
    constructor
    · positivity
    · have : (2 : ℝ) ^ (-53 : ℤ) * (1 + 16 * σ) ≤ 2 ^ (-53 : ℤ) * 20 :=
        mul_le_mul_of_nonneg_left (by linarith) (by positivity)
      norm_num at this pe ⊢
      linarith
  have hx0 : ∀ b : Fin 4, |cross2 (0 : Fin 2 → ℝ) 1 b 0| ≤ 1 ∧ |cross2 (0 : Fin 2 → ℝ) 1 b 1| ≤ 1 := by
    intro b
    fin_cases b <;> simp [cross2]
  have hpath : ∀ b : Fin 4, ∀ t : ℝ, 0 ≤ t → t ≤ 1 / 512 → ‖linPath (cross2 0 1 b) t‖ ≤ 3 / 2 := by
    intro b t t0 t1
    have h0 := hx0 b
    have : |t * cross2 (0 : Fin 2 → ℝ) 1 b 0| ≤ 1 / 512 * 1 := by
      rw [abs_mul, abs_of_nonneg t0]
      exact mul_le_mul t1 h0.1 (abs_nonneg _) (by norm_num)
    rw [pi_norm_le_iff_of_nonneg (by norm_num)]
    intro c
    fin_cases c
    · exact h0.1.trans (by norm_num)
    · exact (abs_add_le _ _).trans (by linarith [h0.2])
  obtain ⟨Λ, r1, r2⟩ := C87_gridded_2d (env := linEnv m) ⟨rfl, rfl⟩ (.inl rfl) hm (by positivity)
    (by norm_num) false k (v := fun _ => linShear) (t0 := 0) (L := 1) (L' := linL) (ε := linEps)
    (B := 1) (M := 0) (r := 1) (W := 3) (s := linSource) lin_samples (n := 2) rfl le_rfl
    (h := ⟨1 / 1024⟩) rfl (by
      rw [hre, abs_of_pos (by norm_num)]
      exact (zpow_le_zpow_right₀ (by norm_num) (by norm_num : (-500 : ℤ) ≤ -10)).trans (by norm_num))
    (by
      rw [hre, abs_of_pos (by norm_num)]
      exact le_trans (by norm_num) (one_le_pow₀ (by norm_num : (1 : ℝ) ≤ 2)))
    zero_le_one zero_le_one rfl rfl rfl (by rw [hre, abs_of_pos (by norm_num)]; exact small) (N := 1)
    s1 s2 s3 (fun _ b => linPath (cross2 0 1 b))
    (fun i hi b => by
      obtain rfl : i = 0 := by omega
      refine ⟨linShear_along (hx0 b).1 _ _, ?_, ?_⟩
      · rw [s4]; funext c; fin_cases c <;> simp [linPath]
      · intro t ht
        rw [hre, uIcc_of_le (by norm_num)] at ht
        have := hpath b t ht.1 (ht.2.trans (by norm_num))
        linarith)
    (fun j hj w _ w' _ => by
      rw [one_mul, pi_norm_le_iff_of_nonneg (norm_nonneg _)]
      intro c
      fin_cases c
      · simp [linShear]
      · exact norm_le_pi_norm (w - w') 0)
    (fun i hi b j hj z hz => by
      rw [hre] at hz
      have hj' : (j : ℝ) ≤ 1 := by exact_mod_cast (by omega : j ≤ 1)
      have hj0 : (0 : ℝ) ≤ j := by positivity
      have hp := hpath b (0 + j * (1 / 1024)) (by positivity) (by linarith)
      have hz2 : ‖z‖ ≤ 5 / 2 := by
        have := norm_add_le (z - linPath (cross2 0 1 b) (0 + j * (1 / 1024)))
          (linPath (cross2 0 1 b) (0 + j * (1 / 1024)))
        rw [sub_add_cancel] at this
        linarith
      have h0 := abs_le.1 ((norm_le_pi_norm z 0).trans hz2)
      have h1 := abs_le.1 ((norm_le_pi_norm z 1).trans hz2)
      unfold OnAxis64
      rw [node64_re, node64_re]
      norm_num
      refine ⟨⟨?_, ?_⟩, ?_, ?_⟩ <;> linarith [h0.1, h0.2, h1.1, h1.2])
    (fun _ => 2) (fun _ => 2) (fun i hi => by
      obtain rfl : i = 0 := by omega
      have h2 : (2 : ℝ) ^ (-500 : ℤ) ≤ |2| :=
        (zpow_le_one_of_nonpos₀ (by norm_num) (by norm_num)).trans (by norm_num)
      have g : ∀ b c, (groupOf seed 4 1 2 0 b c).re = cross2 0 1 b c := fun b c =>
        congrFun (s4 b) c
      refine ⟨?_, ?_, h2, h2⟩ <;> rw [g, g] <;> simp [cross2] <;> norm_num)
    (fun _ => !![1, 0; 1 / 512, 1]) (fun i hi => by
      obtain rfl : i = 0 := by omega
      simp only [s4, hre]
      rw [centralDiff2_ok]
      refine ⟨⟨?_, ?_⟩, ?_⟩
      · simp [cross2]
      · simp [cross2]
      · ext i j
        fin_cases i <;> fin_cases j <;> simp [diffs2, cross2, linPath] <;> norm_num)
    (fun _ => σ) (fun _ => b) (fun _ => by rw [hre, abs_of_pos (by norm_num : (0 : ℝ) < 1 / 1024)])
    (fun i hi => ⟨hσ, by
      have : (2 : ℝ) ^ (-200 : ℤ) ≤ 2 ^ (-1 : ℤ) := zpow_le_zpow_right₀ (by norm_num) (by norm_num)
      norm_num at this hb1 ⊢
      linarith [hb1.2]⟩)
  obtain ⟨c1, c2, -⟩ := r2 0 one_pos
  have hbσ : b * σ ≤ 24 / 10 ^ 6 * (1 + 1 / 512) :=
    mul_le_mul hb1.2 hσ2 (by linarith) (by norm_num)
  have hq : 1 + 1 / 600 ≤ (σ - b) ^ 2 := by
    have : (σ - b) ^ 2 = σ ^ 2 - 2 * (b * σ) + b ^ 2 := by ring
    rw [this]
    have := sq_nonneg b
    norm_num at hbσ ⊢
    linarith
  have hb2 : b ^ 2 ≤ 1 / 10 ^ 5 := by
    have := pow_le_pow_left₀ hb1.1 hb1.2 2
    norm_num at this ⊢
    linarith
  have hnan := c2 (by
    rw [Matrix.det_fin_two]
    have := mul_le_mul_of_nonneg_left hq (by norm_num : (0 : ℝ) ≤ 1 - 2 ^ (-22 : ℤ))
    refine le_trans ?_ this
    norm_num at hbσ hb2 ⊢
    linarith)
  obtain ⟨x, hx, hxb⟩ := c1.resolve_left hnan
  refine ⟨m, σ, x, hm, hσ, ?_, ?_⟩
  · rw [r1, ← hx]; rfl
  · have hl0 : 0 ≤ Real.log σ := Real.log_nonneg hσ0
    have hl1 : Real.log σ ≤ 1 / 512 := (Real.log_le_sub_one_of_pos (by linarith)).trans (by linarith)
    have hd : b / (σ - b) ≤ 241 / 10 ^ 7 := by
      rw [div_le_iff₀ (by linarith [hb1.2])]
      norm_num at hb1 ⊢
      linarith [hb1.2]
    rw [hre, abs_of_pos (by norm_num : (0 : ℝ) < 1 / 1024), abs_of_nonneg hl0] at hxb
    norm_num at hxb hd ⊢
    refine hxb.trans ?_
    linarith

end Verif
