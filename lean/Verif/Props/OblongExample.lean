import Verif.Props.Oblong
import Verif.Props.OneCoordinateFileExample

/-!
# C145 on a rectangle: a case

9 × 17 nodes with integer coordinates.
-/

namespace Verif

/-- The samples `(0, g i)`, `i` the number of the node, and the seeds of `cellFiles`. -/
noncomputable def oblongFiles (g : ℕ → ℝ) : MatFS ℝ := fun path =>
  if path = "c" ∨ path = "d" then some fun key =>
    if key = "coordinate_x" then some (listing (9 * 17) fun i => -4 + (i % 9 : ℕ) * 1)
    else if key = "coordinate_y" then some (listing (9 * 17) fun i => -8 + (i / 9 : ℕ) * 1)
    else none
  else if path = "v" then some fun key =>
    if key = "velocity_x" then some (listing (9 * 17) fun _ => 0)
    else if key = "velocity_y" then some (listing (9 * 17) g)
    else none
  else cellFiles (fun x => -x) 20 0 (1 / 2) path

/-- The field with these samples at the nodes. -/
noncomputable def oblong (g : ℕ → ℝ) (_ : ℝ) (z : Fin 2 → ℝ) : Fin 2 → ℝ :=
  ![0, g (⌊z 0 + 4⌋₊ + 9 * ⌊z 1 + 8⌋₊)]

theorem oblong_node (g : ℕ → ℝ) (t : ℝ) (a b : ℕ) :
    oblong g t ![-4 + a * 1, -8 + b * 1] = ![0, g (a + 9 * b)] := by
  have e1 : (-4 + (a : ℝ) * 1) + 4 = a := by ring
  have e2 : (-8 + (b : ℝ) * 1) + 8 = b := by ring
  show ![0, g (⌊(-4 + (a : ℝ) * 1) + 4⌋₊ + 9 * ⌊(-8 + (b : ℝ) * 1) + 8⌋₊)] = _
  rw [e1, e2, Nat.floor_natCast, Nat.floor_natCast]

theorem oblong_samples (g : ℕ → ℝ) :
    Samples2 (oblongFiles g) (pairSource ["v", "v"] ["c", "d"] false) (oblong g) 0 9 17 (-4) 1 (-8) 1 where
  fresh := rfl
  hnx := by norm_num
  hny := by norm_num
  lnx := by norm_num
  lny := by norm_num
  hdx := one_pos
  hdy := one_pos
  data := by
    intro j hj
    have hj : j < 2 := hj
    obtain ⟨V, h1, a2, a3, a4⟩ := stack_two (9 * 17) (fun _ => (0 : ℝ)) g
    have a1 : readVelocity (oblongFiles g) "v" = .ok V := by
      rw [← h1]
      simp [readVelocity, loadmat, oblongFiles, readComponents]
    obtain ⟨P, h2, b2, b3, b4⟩ := stack_two (9 * 17) (fun i => (-4 : ℝ) + (i % 9 : ℕ) * 1)
      (fun i => -8 + (i / 9 : ℕ) * 1)
    have b1 : ∀ e, e = "c" ∨ e = "d" → readCoordinate (oblongFiles g) e = .ok P := by
      intro e he
      rw [← h2]
      simp only [readCoordinate, loadmat, oblongFiles, he, if_true]
      simp [readComponents]
    obtain ⟨e, e1, e2⟩ : ∃ e, ["c", "d"][j]? = some e ∧ (e = "c" ∨ e = "d") := by
      interval_cases j
      exacts [⟨_, rfl, .inl rfl⟩, ⟨_, rfl, .inr rfl⟩]
    refine ⟨V, P, ⟨⟨"v", ?_, a1⟩, e, e1, b1 e e2⟩, a2, b2, ?_, ?_⟩
    · show ["v", "v"][j]? = some "v"
      interval_cases j <;> rfl
    · intro a ha b hb
      rw [b3, b4, Nat.add_mul_mod_self_left, Nat.mod_eq_of_lt ha,
        Nat.add_mul_div_left _ _ (by omega), Nat.div_eq_of_lt ha, Nat.zero_add]
      exact ⟨rfl, rfl⟩
    · intro i hi c
      rw [b3, b4, oblong_node, Nat.mod_add_div]
      fin_cases c
      · exact a3 i
      · exact a4 i

theorem lerp_bound {a b t : ℝ} (ha : |a| ≤ 1) (hb : |b| ≤ 1) (h0 : 0 ≤ t) (h1 : t ≤ 1) :
    |lerp a b t| ≤ 1 := by
  rw [abs_le] at *
  unfold lerp
  constructor <;> nlinarith

theorem oblong_bound {g : ℕ → ℝ} (hg : ∀ i, |g i| ≤ 1) (t : ℝ) (z : Fin 2 → ℝ) :
    bilinear (oblong g) t 9 17 (-4) 1 (-8) 1 z 0 = 0 ∧
      |bilinear (oblong g) t 9 17 (-4) 1 (-8) 1 z 1| ≤ 1 := by
  unfold bilinear cellValue2
  simp only [oblong_node]
  split_ifs with h
  · obtain ⟨-, p1, p2⟩ := cell_frac h.1
    obtain ⟨-, q1, q2⟩ := cell_frac h.2
    refine ⟨by simp [lerp], ?_⟩
    exact lerp_bound (lerp_bound (hg _) (hg _) p1 p2) (lerp_bound (hg _) (hg _) p1 p2) q1 q2
  · simp

/-- Files with the velocity `(0, sin a)` at the nodes `(a, b)`, and what SciPy makes of them. -/
example (queue queue' : Bool) :
    ((⟨.file (pairSource ["v", "v"] ["c", "d"] false), .grid (GridState.fresh .linear [9, 17]),
      .fresh .euler⟩ : Solver ℝ).run
        { realEnv with fs := oblongFiles (fun i => Real.sin (i % 9 : ℕ)), sp := linearSciPy } queue' none).result =
    ((⟨.file (pairSource ["v", "v"] ["c", "d"] false), .highPerf (HighPerf.fresh [9, 17]),
      .fresh .euler⟩ : Solver ℝ).run
        { realEnv with fs := oblongFiles (fun i => Real.sin ((i % 9 * 17 + i / 9) % 9 : ℕ)) } queue
        none).result := by
  have hseed := cell_seeds (fun x => -x) 20 0 (1 / 2)
  obtain ⟨seed, P, s1, s2, s3, s4⟩ := hseed
  have s3' : ∀ g, readSeedParticles (oblongFiles g) "p" = .ok P := by
    intro g
    rw [← s3]
    simp [readSeedParticles, loadmat, oblongFiles]
  have ht : (pairSource ["v", "v"] ["c", "d"] false).timestep = 1 / 20 := rfl
  refine C145_rectangle_2d_fails
    (env := { realEnv with fs := oblongFiles (fun i => Real.sin ((i % 9 * 17 + i / 9) % 9 : ℕ)) })
    (env' := { realEnv with fs := oblongFiles (fun i => Real.sin (i % 9 : ℕ)), sp := linearSciPy })
    ⟨rfl, rfl, rfl⟩ ⟨rfl, rfl, rfl⟩ (.inl rfl) linearSciPy_grid2 queue queue' .euler
    (oblong_samples _) (oblong_samples _) (fun j hj a ha b hb => ?_) rfl rfl s1 s2 (s3' _) (s3' _)
    (fun i hi q j hj z hz => ?_)
  · rw [oblong_node, oblong_node, Nat.mod_add_div, Nat.add_mul_mod_self_left, Nat.mod_eq_of_lt ha,
      Nat.add_mul_div_left _ _ (by omega), Nat.div_eq_of_lt ha, Nat.zero_add]
  · obtain rfl : i = 0 := by omega
    have hj : j < 2 := hj
    rw [s4, ht] at hz
    have on : ∀ z : Fin 2 → ℝ, -2 ≤ z 0 → z 0 ≤ 2 → -2 ≤ z 1 → z 1 ≤ 2 →
        OnAxis 9 (-4) 1 (z 0) ∧ OnAxis 17 (-8) 1 (z 1) := by
      intro z h1 h2 h3 h4
      refine ⟨⟨?_, ?_⟩, ?_, ?_⟩ <;> norm_num <;> linarith
    have hx : -1 ≤ cross2 ![0, 0] (1 / 2) q 0 ∧ cross2 ![0, 0] (1 / 2) q 0 ≤ 1 := by
      fin_cases q <;> norm_num [cross2]
    have hy : -1 ≤ cross2 ![0, 0] (1 / 2) q 1 ∧ cross2 ![0, 0] (1 / 2) q 1 ≤ 1 := by
      fin_cases q <;> norm_num [cross2]
    generalize cross2 ![0, 0] (1 / 2) q = x at hx hy hz
    simp only [stages, List.mem_singleton] at hz
    interval_cases j
    · have hz : z = x := hz
      rw [hz]
      exact on x (by linarith) (by linarith) (by linarith) (by linarith)
    · have b := oblong_bound (g := fun i => Real.sin ((i % 9 * 17 + i / 9) % 9 : ℕ))
        (fun i => Real.abs_sin_le_one _) (0 + (0 : ℕ) * (1 / 20)) x
      have hz' : z = fun c => x c + (1 / 20) * bilinear
          (oblong fun i => Real.sin ((i % 9 * 17 + i / 9) % 9 : ℕ)) (0 + (0 : ℕ) * (1 / 20)) 9 17 (-4) 1 (-8) 1
          x c := by
        rw [hz]
        rfl
      have z0 := congrFun hz' 0
      have z1 := congrFun hz' 1
      have b0 := b.1
      have b1 := abs_le.1 b.2
      exact on z (by linarith) (by linarith) (by linarith) (by linarith)

end Verif
