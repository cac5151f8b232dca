import Verif.Props.OblongOnce
import Verif.Props.OblongExample

/-!
# C146 on a rectangle: a case

9 × 17 nodes with integer coordinates and two files of velocities.
-/

namespace Verif

/-- `oblongFiles g` with a second file `w` of velocities. -/
noncomputable def oblongPair (g g' : ℕ → ℝ) : MatFS ℝ := fun path =>
  if path = "w" then oblongFiles g' "v" else oblongFiles g path

theorem oblong_listed (g g' : ℕ → ℝ) {vs cs : List String} (hv : vs = ["v", "v"] ∨ vs = ["v", "w"])
    (hc : cs = ["c", "c"] ∨ cs = ["c", "d"]) {j : ℕ} (hj : j < 2) :
    ∃ V P, (pairSource vs cs false).Listed (oblongPair g g') j V P ∧ V.shape = [2, 9 * 17] ∧
      P.shape = [2, 9 * 17] ∧ (∀ i, P.get [0, i] = -4 + (i % 9 : ℕ) * 1) ∧
      (∀ i, P.get [1, i] = -8 + (i / 9 : ℕ) * 1) ∧ (∀ i, V.get [0, i] = 0) ∧
      ∀ i, V.get [1, i] = if vs[j]? = some "w" then g' i else g i := by
  obtain ⟨e, e1, e2⟩ : ∃ e, cs[j]? = some e ∧ (e = "c" ∨ e = "d") := by
    rcases hc with rfl | rfl <;> interval_cases j
    exacts [⟨_, rfl, .inl rfl⟩, ⟨_, rfl, .inl rfl⟩, ⟨_, rfl, .inl rfl⟩, ⟨_, rfl, .inr rfl⟩]
  obtain ⟨f, f1, f2⟩ : ∃ f, vs[j]? = some f ∧ (f = "v" ∨ f = "w") := by
    rcases hv with rfl | rfl <;> interval_cases j
    exacts [⟨_, rfl, .inl rfl⟩, ⟨_, rfl, .inl rfl⟩, ⟨_, rfl, .inl rfl⟩, ⟨_, rfl, .inr rfl⟩]
  obtain ⟨P, h2, b2, b3, b4⟩ := stack_two (9 * 17) (fun i => (-4 : ℝ) + (i % 9 : ℕ) * 1)
    (fun i => -8 + (i / 9 : ℕ) * 1)
  have b1 : readCoordinate (oblongPair g g') e = .ok P := by
    rw [← h2]
    rcases e2 with rfl | rfl <;>
      simp [readCoordinate, loadmat, oblongPair, oblongFiles, readComponents]
  obtain ⟨V, h1, a2, a3, a4⟩ := stack_two (9 * 17) (fun _ => (0 : ℝ)) (if f = "w" then g' else g)
  have a1 : readVelocity (oblongPair g g') f = .ok V := by
    rw [← h1]
    rcases f2 with rfl | rfl <;>
      simp [readVelocity, loadmat, oblongPair, oblongFiles, readComponents]
  refine ⟨V, P, ⟨⟨f, f1, a1⟩, e, e1, b1⟩, a2, b2, b3, b4, a3, fun i => ?_⟩
  rw [a4, f1]
  rcases f2 with rfl | rfl <;> simp

/-- Samples `h` at time 0 and `g` afterwards. -/
noncomputable def oblongTurn (h g : ℕ → ℝ) (t : ℝ) : (Fin 2 → ℝ) → Fin 2 → ℝ :=
  if t = 0 then oblong h t else oblong g t

/-- The samples `g i` with the node `i = a + 9 b` read as `a * 17 + b`. -/
noncomputable def reread (g : ℕ → ℝ) (i : ℕ) : ℝ := g (i % 9 * 17 + i / 9)

theorem reread_node (g : ℕ → ℝ) {a : ℕ} (ha : a < 9) (b : ℕ) : reread g (a + 9 * b) = g (a * 17 + b) := by
  unfold reread
  rw [Nat.add_mul_mod_self_left, Nat.mod_eq_of_lt ha, Nat.add_mul_div_left _ _ (by omega),
    Nat.div_eq_of_lt ha, Nat.zero_add]

theorem oblong_axes {V P : NDArray ℝ} (hV : V.shape = [2, 9 * 17]) (hP : P.shape = [2, 9 * 17])
    (b3 : ∀ i, P.get [0, i] = -4 + (i % 9 : ℕ) * 1) (b4 : ∀ i, P.get [1, i] = -8 + (i / 9 : ℕ) * 1) :
    Grid2 9 17 (-4) 1 (-8) 1 V P :=
  listed_grid2 (by norm_num) (by norm_num) (by norm_num) (by norm_num) one_pos one_pos hV hP
    fun a ha b hb => by
      rw [b3, b4, Nat.add_mul_mod_self_left, Nat.mod_eq_of_lt ha,
        Nat.add_mul_div_left _ _ (by omega), Nat.div_eq_of_lt ha, Nat.zero_add]
      exact ⟨rfl, rfl⟩

/-- The second file of velocities: `g` listed with `y` first. -/
noncomputable def across (g : ℕ → ℝ) (i : ℕ) : ℝ := g (i / 17 + 9 * (i % 17))

theorem across_node (g : ℕ → ℝ) (a : ℕ) {b : ℕ} (hb : b < 17) : across g (a * 17 + b) = g (a + 9 * b) := by
  unfold across
  rw [show a * 17 + b = b + 17 * a by ring, Nat.add_mul_mod_self_left, Nat.mod_eq_of_lt hb,
    Nat.add_mul_div_left _ _ (by omega), Nat.div_eq_of_lt hb, Nat.zero_add]

/-- The files `v` and `w`, read with `y` first. -/
theorem turn_nodes (g : ℕ → ℝ) :
    NodeValues2 (oblongPair g (across g)) (pairSource ["v", "w"] ["c", "d"] false)
      (oblongTurn (reread g) g) 0 9 17 (-4) 1 (-8) 1 where
  fresh := rfl
  hnx := by norm_num
  hny := by norm_num
  hdx := one_pos
  hdy := one_pos
  data := by
    intro j hj
    have hj : j < 2 := hj
    obtain ⟨V, P, l, a2, b2, b3, b4, a3, a4⟩ := oblong_listed g (across g) (.inr rfl) (.inr rfl) hj
    have G := oblong_axes a2 b2 b3 b4
    refine ⟨V, P, l, a2, b2, G.hx, G.hy, fun a ha b hb c => ?_⟩
    interval_cases j
    · have e : oblongTurn (reread g) g (0 + (0 : ℕ) * (1 / 20)) = oblong (reread g) 0 := by
        simp [oblongTurn]
      show _ = oblongTurn (reread g) g (0 + (0 : ℕ) * (1 / 20)) _ c
      rw [e, oblong_node, reread_node g ha]
      fin_cases c
      · exact a3 _
      · exact a4 _
    · have e : oblongTurn (reread g) g (0 + (1 : ℕ) * (1 / 20)) = oblong g (1 / 20) := by
        simp [oblongTurn]
      show _ = oblongTurn (reread g) g (0 + (1 : ℕ) * (1 / 20)) _ c
      rw [e, oblong_node]
      fin_cases c
      · exact a3 _
      · exact (a4 _).trans (across_node g a hb)

/-- The file `v` alone, read with `x` first and with `y` first. -/
theorem once_samples (g : ℕ → ℝ) :
    Samples2 (oblongPair g (across g)) (pairSource ["v", "v"] ["c", "c"] false) (oblong g) 0 9 17 (-4) 1
      (-8) 1 where
  fresh := rfl
  hnx := by norm_num
  hny := by norm_num
  lnx := by norm_num
  lny := by norm_num
  hdx := one_pos
  hdy := one_pos
  data := by
    intro j hj
    have hj : j < 2 := hj
    obtain ⟨V, P, l, a2, b2, b3, b4, a3, a4⟩ := oblong_listed g (across g) (.inl rfl) (.inl rfl) hj
    refine ⟨V, P, l, a2, b2, fun a ha b hb => ?_, fun i hi c => ?_⟩
    · rw [b3, b4, Nat.add_mul_mod_self_left, Nat.mod_eq_of_lt ha,
        Nat.add_mul_div_left _ _ (by omega), Nat.div_eq_of_lt ha, Nat.zero_add]
      exact ⟨rfl, rfl⟩
    · rw [b3, b4, oblong_node, Nat.mod_add_div]
      fin_cases c
      · exact a3 i
      · refine (a4 i).trans ?_
        interval_cases j <;> rfl

theorem once_nodes (g : ℕ → ℝ) :
    NodeValues2 (oblongPair g (across g)) (pairSource ["v", "v"] ["c", "c"] false) (oblong (reread g)) 0 9 17
      (-4) 1 (-8) 1 :=
  samples_reread_2d (once_samples g) fun j hj a ha b hb => by
    rw [oblong_node, oblong_node, reread_node g ha, Nat.mod_add_div]

theorem turn_stays {g : ℕ → ℝ} (hg : ∀ i, |g i| ≤ 1) {seed : NDArray ℝ}
    (s4 : groupOf seed 4 1 2 0 = cross2 ![0, 0] (1 / 2)) :
    ∀ i < 1, ∀ q, ∀ j : ℕ, j < 2 → ∀ z ∈ stages .euler
      (bilinear (oblongTurn (reread g) g) (0 + j * (1 / 20)) 9 17 (-4) 1 (-8) 1) (1 / 20)
      (flowMap .euler (fun j => bilinear (oblongTurn (reread g) g) (0 + (j : ℕ) * (1 / 20)) 9 17 (-4) 1 (-8) 1)
        (1 / 20) j (groupOf seed 4 1 2 i q)), OnAxis 9 (-4) 1 (z 0) ∧ OnAxis 17 (-8) 1 (z 1) := by
  intro i hi q j hj z hz
  obtain rfl : i = 0 := by omega
  rw [s4] at hz
  have on : ∀ z : Fin 2 → ℝ, -2 ≤ z 0 → z 0 ≤ 2 → -2 ≤ z 1 → z 1 ≤ 2 →
      OnAxis 9 (-4) 1 (z 0) ∧ OnAxis 17 (-8) 1 (z 1) := by
    intro z h1 h2 h3 h4
    refine ⟨⟨?_, ?_⟩, ?_, ?_⟩ <;> norm_num <;> linarith
  have hx : -1 ≤ cross2 ![0, 0] (1 / 2) q 0 ∧ cross2 ![0, 0] (1 / 2) q 0 ≤ 1 := by
    fin_cases q <;> norm_num [cross2]
  have hy : -1 ≤ cross2 ![0, 0] (1 / 2) q 1 ∧ cross2 ![0, 0] (1 / 2) q 1 ≤ 1 := by
    fin_cases q <;> norm_num [cross2]
  generalize cross2 ![0, 0] (1 / 2) q = x at hx hy hz
  simp only [stages, List.mem_singleton] at hz
  interval_cases j
  · have hz : z = x := hz
    rw [hz]
    exact on x (by linarith) (by linarith) (by linarith) (by linarith)
  · have b := oblong_bound (g := reread g) (fun i => hg _) 0 x
    have e : bilinear (oblongTurn (reread g) g) (0 + (0 : ℕ) * (1 / 20)) 9 17 (-4) 1 (-8) 1 x =
        bilinear (oblong (reread g)) 0 9 17 (-4) 1 (-8) 1 x := by
      funext c
      simp [bilinear, oblongTurn]
    have hz' : z = fun c => x c + (1 / 20) * bilinear (oblong (reread g)) 0 9 17 (-4) 1 (-8) 1 x c := by
      rw [hz, ← e]
      rfl
    have z0 := congrFun hz' 0
    have z1 := congrFun hz' 1
    have b0 := b.1
    have b1 := abs_le.1 b.2
    exact on z (by linarith) (by linarith) (by linarith) (by linarith)

theorem turn_seeds (g g' : ℕ → ℝ) : ∃ (seed : NDArray ℝ) (P : Particles ℝ), seed.shape = [4 * 1, 2] ∧
    mkParticles seed = .ok P ∧ readSeedParticles (oblongPair g g') "p" = .ok P ∧
    groupOf seed 4 1 2 0 = cross2 ![0, 0] (1 / 2) := by
  obtain ⟨seed, P, s1, s2, s3, s4⟩ := cell_seeds (fun x => -x) 20 0 (1 / 2)
  refine ⟨seed, P, s1, s2, ?_, s4⟩
  rw [← s3]
  simp [readSeedParticles, loadmat, oblongPair, oblongFiles]

/-- Files of `g`, `|g| ≤ 1`, listed with `x` first. -/
example (queue queue' : Bool) {g : ℕ → ℝ} (hg : ∀ i, |g i| ≤ 1) :
    ((⟨.file (pairSource ["v", "v"] ["c", "c"] true), .grid (GridState.fresh .linear [9, 17]),
      .fresh .euler⟩ : Solver ℝ).run { realEnv with fs := oblongPair g (across g), sp := linearSciPy } queue'
        none).result =
    ((⟨.file (pairSource ["v", "w"] ["c", "d"] false), .grid (GridState.fresh .linear [9, 17]),
      .fresh .euler⟩ : Solver ℝ).run { realEnv with fs := oblongPair g (across g), sp := linearSciPy } queue
        none).result := by
  obtain ⟨seed, P, s1, s2, s3, s4⟩ := turn_seeds g (across g)
  refine C146_mixed_rectangle_2d_fails
    (env := { realEnv with fs := oblongPair g (across g), sp := linearSciPy })
    (env' := { realEnv with fs := oblongPair g (across g), sp := linearSciPy })
    ⟨rfl, rfl, rfl⟩ ⟨rfl, rfl, rfl⟩ linearSciPy_grid2 linearSciPy_grid2 queue queue' .euler (turn_nodes g) rfl
    (once_samples g) (fun a ha b hb => ?_) (fun j hj a ha b hb => ?_) rfl rfl s1 s2 s3 s3 (turn_stays hg s4)
  · have e : oblongTurn (reread g) g 0 = oblong (reread g) 0 := by simp [oblongTurn]
    rw [e, oblong_node, oblong_node, reread_node g ha, Nat.mod_add_div]
  · have h : (0 : ℝ) + j * (1 / 20) ≠ 0 := by positivity
    have e : oblongTurn (reread g) g (0 + j * (1 / 20)) = oblong g (0 + j * (1 / 20)) := if_neg h
    exact congrFun e _

/-- The same files, as samples listed with `y` first. -/
example (queue queue' : Bool) {g : ℕ → ℝ} (hg : ∀ i, |g i| ≤ 1) :
    ((⟨.file (pairSource ["v", "v"] ["c", "c"] true), .grid (GridState.fresh .linear [9, 17]),
      .fresh .euler⟩ : Solver ℝ).run { realEnv with fs := oblongPair g (across g), sp := linearSciPy } queue'
        none).result =
    ((⟨.file (pairSource ["v", "w"] ["c", "d"] false), .grid (GridState.fresh .linear [9, 17]),
      .fresh .euler⟩ : Solver ℝ).run { realEnv with fs := oblongPair g (across g), sp := linearSciPy } queue
        none).result := by
  obtain ⟨seed, P, s1, s2, s3, s4⟩ := turn_seeds g (across g)
  refine C146_own_rectangle_2d_fails
    (env := { realEnv with fs := oblongPair g (across g), sp := linearSciPy })
    (env' := { realEnv with fs := oblongPair g (across g), sp := linearSciPy })
    ⟨rfl, rfl, rfl⟩ ⟨rfl, rfl, rfl⟩ linearSciPy_grid2 linearSciPy_grid2 queue queue' .euler (turn_nodes g) rfl
    (once_nodes g) (fun a ha b hb => ?_) (fun j hj a ha b hb => ?_) rfl rfl s1 s2 s3 s3 (turn_stays hg s4)
  · have e : oblongTurn (reread g) g 0 = oblong (reread g) 0 := by simp [oblongTurn]
    exact congrFun e _
  · have h : (0 : ℝ) + j * (1 / 20) ≠ 0 := by positivity
    have e : oblongTurn (reread g) g (0 + j * (1 / 20)) = oblong g (0 + j * (1 / 20)) := if_neg h
    refine (congrFun e _).trans ?_
    have h1 : (a + 9 * b) / 17 < 9 := Nat.div_lt_of_lt_mul (by omega)
    rw [oblong_node, oblong_node, reread_node g h1, Nat.div_add_mod']

end Verif
