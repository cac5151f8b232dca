import Verif.Props.GridSpacingSharp

/-!
# Runs that meet the hypotheses of C132

Parallel flows on the square `[-4, 4]²` with spacing `1/q`, `q + 1` snapshots `1/q` apart, a cross of
arm `δ` around `(c, 0)`.
-/

namespace Verif

open Matrix Set

def seedAt (x y : ℝ) : NDArray ℝ := ⟨[1, 2], fun i => if i.getD 1 0 = 0 then x else y⟩

noncomputable def cellFiles (f : ℝ → ℝ) (q : ℕ) (c δ : ℝ) : MatFS ℝ := fun path =>
  if path = "c" then some fun key =>
    if key = "coordinate_x" then
      some (listing ((8 * q + 1) * (8 * q + 1)) fun i => -4 + (i % (8 * q + 1) : ℕ) * (1 / (q : ℝ)))
    else if key = "coordinate_y" then
      some (listing ((8 * q + 1) * (8 * q + 1)) fun i => -4 + (i / (8 * q + 1) : ℕ) * (1 / (q : ℝ)))
    else none
  else if path = "v" then some fun key =>
    if key = "velocity_x" then some (listing ((8 * q + 1) * (8 * q + 1)) fun _ => 0)
    else if key = "velocity_y" then
      some (listing ((8 * q + 1) * (8 * q + 1)) fun i =>
        f (-4 + (i % (8 * q + 1) : ℕ) * (1 / (q : ℝ))))
    else none
  else if path = "p" then some fun key =>
    if key = "left" then some (seedAt (c - δ) 0)
    else if key = "right" then some (seedAt (c + δ) 0)
    else if key = "top" then some (seedAt c δ)
    else if key = "bottom" then some (seedAt c (-δ))
    else none
  else none

/-- `n` snapshots `1/q` apart; `fineSource q` has `q + 1` of them. -/
noncomputable def cellSource (q n : ℕ) : FileSource ℝ :=
  ⟨List.replicate n "v", List.replicate n "c", "p", 1 / (q : ℝ), "v", false⟩

theorem cell_samples_of (f : ℝ → ℝ) (c δ t0 : ℝ) {q : ℕ} (n : ℕ) (hq : 0 < q)
    (hl : ((8 * q + 1 : ℕ) : ℤ) < intLim) :
    Samples2 (cellFiles f q c δ) (cellSource q n) (fun _ => parallel f) t0 (8 * q + 1) (8 * q + 1) (-4)
      (1 / q) (-4) (1 / q) where
  fresh := rfl
  hnx := by omega
  hny := by omega
  lnx := hl
  lny := hl
  hdx := by positivity
  hdy := by positivity
  data := by
    intro j hj
    have hj : j < n := by simpa [cellSource] using hj
    obtain ⟨V, h1, a2, a3, a4⟩ := stack_two ((8 * q + 1) * (8 * q + 1)) (fun _ => (0 : ℝ))
      (fun i => f (-4 + (i % (8 * q + 1) : ℕ) * (1 / (q : ℝ))))
    have a1 : readVelocity (cellFiles f q c δ) "v" = .ok V := by
      rw [← h1]
      simp [readVelocity, loadmat, cellFiles, readComponents]
    obtain ⟨P, h2, b2, b3, b4⟩ := stack_two ((8 * q + 1) * (8 * q + 1))
      (fun i => (-4 : ℝ) + (i % (8 * q + 1) : ℕ) * (1 / (q : ℝ)))
      (fun i => -4 + (i / (8 * q + 1) : ℕ) * (1 / (q : ℝ)))
    have b1 : readCoordinate (cellFiles f q c δ) "c" = .ok P := by
      rw [← h2]
      simp [readCoordinate, loadmat, cellFiles, readComponents]
    refine ⟨V, P, ⟨⟨"v", by simp [cellSource, hj], a1⟩,
      ⟨"c", by simp [cellSource, hj], b1⟩⟩, a2, b2, ?_, ?_⟩
    · intro a ha b hb
      rw [b3, b4, Nat.add_mul_mod_self_left, Nat.mod_eq_of_lt ha,
        Nat.add_mul_div_left _ _ (by omega), Nat.div_eq_of_lt ha, Nat.zero_add]
      exact ⟨rfl, rfl⟩
    · intro i hi e
      fin_cases e
      · exact a3 i
      · show V.get [1, i] = f (P.get [0, i])
        rw [a4, b3]

theorem cell_samples (f : ℝ → ℝ) (c δ : ℝ) {q : ℕ} (hq : 0 < q)
    (hl : ((8 * q + 1 : ℕ) : ℤ) < intLim) :
    Samples2 (cellFiles f q c δ) (fineSource q) (fun _ => parallel f) 0 (8 * q + 1) (8 * q + 1) (-4)
      (1 / q) (-4) (1 / q) :=
  cell_samples_of f c δ 0 (q + 1) hq hl

theorem cell_seeds (f : ℝ → ℝ) (q : ℕ) (c δ : ℝ) : ∃ seed P, seed.shape = [4 * 1, 2] ∧
    mkParticles seed = .ok P ∧ readSeedParticles (cellFiles f q c δ) "p" = .ok P ∧
    groupOf seed 4 1 2 0 = cross2 ![c, 0] δ := by
  obtain ⟨A, a1, a2, a3⟩ := concat0_eq (m := 1) (rest := [2])
    [seedAt (c - δ) 0, seedAt (c + δ) 0, seedAt c δ, seedAt c (-δ)] (by simp) (by simp [seedAt])
  obtain ⟨P, p1, -⟩ := mkParticles_2d (show A.shape = [4 * 1, 2] from a2)
  refine ⟨A, P, a2, p1, ?_, funext fun b => ?_⟩
  · simp [readSeedParticles, loadmat, cellFiles, a1, p1]
  · have g0 := a3 0 (by simp) 0
    have g1 := a3 1 (by simp) 0
    have g2 := a3 2 (by simp) 0
    have g3 := a3 3 (by simp) 0
    funext e
    fin_cases b <;> fin_cases e <;> simp [groupOf, rowOf, cross2, seedAt] at g0 g1 g2 g3 ⊢ <;>
      simp [g0, g1, g2, g3]

theorem cell_axis {q : ℕ} (hq : 0 < q) {x : ℝ} (h0 : -4 ≤ x) (h1 : x < 4) :
    OnAxis (8 * q + 1) (-4) (1 / (q : ℝ)) x := by
  have e8 : (-4 : ℝ) + (((8 * q + 1 : ℕ) : ℝ) - 1) * (1 / q) = 4 := by
    have h8 : 8 * (q : ℝ) * (1 / q) = 8 := by field_simp
    push_cast
    rw [add_sub_cancel_right, h8]
    norm_num
  unfold OnAxis
  rw [e8]
  exact ⟨h0, h1⟩

/-- The hypotheses of C132 hold for the shear flow `(0, sin x)` with crosses of every arm around the
origin: one constant for all spacings and arms. -/
example (k : Kind) : ∃ C η : ℝ, 0 < η ∧ ∀ (q : ℕ) (δ : ℝ), 0 < q →
    ((8 * q + 1 : ℕ) : ℤ) < intLim → 1 / (q : ℝ) ≤ η → 0 < δ → δ ≤ η → ∃ Λ : ℝ,
      ((⟨.file (fineSource q), .highPerf (HighPerf.fresh [8 * q + 1, 8 * q + 1]), .fresh k⟩ :
        Solver ℝ).run { realEnv with fs := cellFiles Real.sin q 0 δ } false none).result =
          .ok (some [.fin Λ]) ∧
      |Λ - Real.arsinh ((1 + 1 / q) / 2)| ≤ C * ((1 / (q : ℝ)) ^ documentedOrder k + δ ^ 2 +
        min (1 / (q : ℝ)) ((1 / (q : ℝ)) ^ 2 / δ)) := by
  have hsin : HasDerivAt Real.sin 1 ((0 : Fin 2 → ℝ) 0) := by
    have := Real.hasDerivAt_sin 0
    simpa using this
  have smooth : ∀ m : WithTop ℕ∞, ContDiff ℝ m (parallel Real.sin) := by
    intro m
    rw [contDiff_pi]
    intro i
    fin_cases i
    · exact contDiff_const
    · exact Real.contDiff_sin.comp (contDiff_apply ℝ ℝ (0 : Fin 2))
  have hsm : SmoothForGroups k fun _ : ℝ => parallel Real.sin := by
    cases k with
    | euler => exact (smooth 3).comp contDiff_snd
    | ab2 => exact (smooth 3).comp contDiff_snd
    | rk4 => exact ⟨_, smooth 5, rfl⟩
  obtain ⟨C, η, hη, H⟩ := C132_gridded_2d_partial k (.inl ⟨rfl, hsm⟩)
    (isCompact_Icc (a := (0 : ℝ)) (b := 2)) (convex_Icc _ _) (t0 := 0) ⟨le_rfl, by norm_num⟩
    one_pos (N := 1) (fun _ => parallelPath Real.sin 0) (fun _ _ => parallel_trajectory _ _ _)
    (fun _ t => !![1, 0; t * 1, 1]) (fun _ _ => parallel_deformation hsin _)
  refine ⟨C, η, hη, fun q δ hq hl hqη hδ0 hδη => ?_⟩
  obtain ⟨seed, P, s1, s2, s3, s4⟩ := cell_seeds Real.sin q 0 δ
  have hq' : (1 : ℝ) ≤ q := by exact_mod_cast hq
  have hq0 : (q : ℝ) ≠ 0 := by positivity
  have hqp : 0 < 1 / (q : ℝ) := by positivity
  have hq1 : 1 / (q : ℝ) ≤ 1 := by rw [div_le_one (by linarith)]; exact hq'
  have hnh : ((q + 1 : ℕ) : ℝ) * (1 / (q : ℝ)) = 1 + 1 / q := by
    push_cast
    field_simp
  have path : ∀ t, parallelPath Real.sin 0 t = 0 := by
    intro t
    funext i
    fin_cases i <;> simp [parallelPath]
  obtain ⟨Λ, h1, h2⟩ := H { realEnv with fs := cellFiles Real.sin q 0 δ } ⟨rfl, rfl, rfl⟩ (.inl rfl)
    false seed P (fineSource q) (8 * q + 1) (8 * q + 1) (-4) (1 / q) (-4) (1 / q) (q + 1) (1 / q) δ s1
    s2 (fun i hi => by
      obtain rfl : i = 0 := by omega
      rw [s4, path]
      congr 1
      funext i
      fin_cases i <;> rfl)
    (cell_samples _ _ _ hq hl) (by simp [fineSource]) rfl s3 (by omega) hqp.ne'
    (by rwa [abs_of_pos hqp]) hδ0 hδη (by rwa [max_self])
    (by rw [zero_add, hnh]; constructor <;> linarith)
    (fun i hi j hj z hz => by
      simp only [path, sub_zero] at hz
      have c0 := abs_le.1 ((norm_le_pi_norm z 0).trans hz)
      have c1 := abs_le.1 ((norm_le_pi_norm z 1).trans hz)
      exact ⟨cell_axis hq (by linarith [c0.1]) (by linarith [c0.2]),
        cell_axis hq (by linarith [c1.1]) (by linarith [c1.2])⟩)
    _ (fun i hi => maxStretch_shear _)
  refine ⟨Λ 0, h1, ?_⟩
  have h3 := h2 0 one_pos
  have hT : 1 / ((((q + 1 : ℕ) : ℝ) - 1) * |1 / (q : ℝ)|) = 1 := by
    rw [abs_of_pos hqp]
    push_cast
    rw [add_sub_cancel_right, mul_one_div_cancel hq0, div_one]
  rw [hT, one_mul, one_mul, max_self, Real.log_exp, zero_add, mul_one, hnh,
    abs_of_pos (by linarith : 0 < 1 + 1 / (q : ℝ)), abs_of_pos hqp] at h3
  exact h3

/-- The hypotheses of `C132_inside_cell` and `C132_second_order_fails` hold for the profile `x²` and
the cell that starts at the origin, with every spacing `1/q`. -/
example (k : Kind) (q : ℕ) (hq : 0 < q) (hl : ((8 * q + 1 : ℕ) : ℤ) < intLim) (δ : ℝ) (hδ0 : 0 < δ)
    (hδ : δ ≤ 1 / (q : ℝ) / 4) :
    ((⟨.file (fineSource q), .highPerf (HighPerf.fresh [8 * q + 1, 8 * q + 1]), .fresh k⟩ :
      Solver ℝ).run { realEnv with fs := cellFiles (fun x => x ^ 2) q (1 / (q : ℝ) / 4) δ } false
        none).result = .ok (some [.fin (Real.arsinh ((1 + 1 / (q : ℝ)) * (1 / q) / 2))]) := by
  obtain ⟨seed, P, s1, s2, s3, s4⟩ := cell_seeds (fun x => x ^ 2) q (1 / (q : ℝ) / 4) δ
  have hq' : (1 : ℝ) ≤ q := by exact_mod_cast hq
  have hq0 : (q : ℝ) ≠ 0 := by positivity
  have hqp : 0 < 1 / (q : ℝ) := by positivity
  have hq1 : 1 / (q : ℝ) ≤ 1 := by rw [div_le_one (by linarith)]; exact hq'
  have hlen : (fineSource q).snapshotFiles.length = q + 1 := by simp [fineSource]
  have hst : (fineSource q).timestep = 1 / (q : ℝ) := rfl
  have hnh : ((q + 1 : ℕ) : ℝ) * (1 / (q : ℝ)) = 1 + 1 / q := by
    push_cast
    field_simp
  have n0 : (-4 : ℝ) + ((4 * q : ℕ) : ℝ) * (1 / q) = 0 := by
    push_cast; field_simp; norm_num
  have n1 : (-4 : ℝ) + (((4 * q : ℕ) : ℝ) + 1) * (1 / q) = 1 / q := by
    rw [add_mul, one_mul, ← add_assoc, n0, zero_add]
  have hd := cell_samples (fun x => x ^ 2) (1 / (q : ℝ) / 4) δ hq hl
  have key := (C132_inside_cell
    (env := { realEnv with fs := cellFiles (fun x => x ^ 2) q (1 / (q : ℝ) / 4) δ }) ⟨rfl, rfl, rfl⟩
    (.inl rfl) false k hd (a := 4 * q) (show 4 * q + 1 < 8 * q + 1 by omega) (c := 1 / (q : ℝ) / 4) (y := 0) (by
      rw [add_mul, ← add_assoc, n0]; ring) hδ0 hδ s1 s2 s3 s4 (by rw [hlen]; omega) hqp.ne' (fun w hw => by
      rw [hlen, hst, n0, n1, abs_of_pos hqp, hnh, sub_zero] at hw
      have m1 : max (|(0 : ℝ)| ^ 2) ((1 / (q : ℝ)) ^ 2) ≤ 1 :=
        max_le (by simp) (pow_le_one₀ hqp.le hq1)
      have m2 : (1 + 1 / (q : ℝ)) * max (|(0 : ℝ)| ^ 2) ((1 / (q : ℝ)) ^ 2) ≤ 2 * 1 :=
        mul_le_mul (by linarith) m1 (le_max_of_le_left (by positivity)) (by norm_num)
      have hw := abs_le.1 hw
      exact cell_axis hq (by linarith [hw.1]) (by linarith [hw.2]))).1
  rw [key, hlen, hst, abs_of_pos hqp, hnh]
  have hT : 1 / ((((q + 1 : ℕ) : ℝ) - 1) * (1 / (q : ℝ))) = 1 := by
    push_cast
    rw [add_sub_cancel_right, mul_one_div_cancel hq0, div_one]
  have e : 2 * (1 / (q : ℝ) / 4) + 1 / q / 2 = 1 / q := by ring
  rw [hT, one_mul, e, abs_of_pos hqp]

/-- The hypotheses of C132 in three dimensions: the flow `(0, 0, sin x)` of the files of C84 around the
origin, with its deformation and its cross of seeds. -/
example (k : Kind) : ∃ (M : ℝ → Matrix (Fin 3) (Fin 3) ℝ) (seed : NDArray ℝ) (P : Particles ℝ),
    SmoothForGroups k (fun _ : ℝ => shear3) ∧ IsTrajectory (fun _ => shear3) (Icc 0 2) (fun _ => 0) ∧
    IsDeformation (fun _ => shear3) (Icc 0 2) 0 (fun _ => 0) M ∧ M 1 ≠ 1 ∧
    Samples3 shearFiles3 shearSource (fun _ => shear3) 0 801 801 (-4) (1 / 100) (-4) (1 / 100) (-4)
      (1 / 100) ∧ seed.shape = [6 * 1, 3] ∧ mkParticles seed = .ok P ∧
    readSeedParticles shearFiles3 "p" = .ok P ∧ groupOf seed 6 1 3 0 = cross3 0 1 := by
  obtain ⟨seed, P, s1, s2, s3, s4⟩ := shear3_seeds
  have smooth : ∀ m : WithTop ℕ∞, ContDiff ℝ m shear3 := by
    intro m
    rw [contDiff_pi]
    intro i
    fin_cases i
    · exact contDiff_const
    · exact contDiff_const
    · exact Real.contDiff_sin.comp (contDiff_apply ℝ ℝ (0 : Fin 3))
  have h0 : HasFDerivAt (fun x : Fin 3 → ℝ => x 0)
      (ContinuousLinearMap.proj (R := ℝ) (φ := fun _ : Fin 3 => ℝ) 0) 0 := hasFDerivAt_apply 0 0
  have hd : ∀ u, fderiv ℝ shear3 0 u = ![0, 0, u 0] := by
    intro u
    have : HasFDerivAt shear3 (ContinuousLinearMap.pi
        ![0, 0, ContinuousLinearMap.proj (R := ℝ) (φ := fun _ : Fin 3 => ℝ) 0]) 0 := by
      rw [hasFDerivAt_pi']
      intro i
      fin_cases i
      · exact (hasFDerivAt_const (0 : ℝ) 0).congr_fderiv (by ext; simp)
      · exact (hasFDerivAt_const (0 : ℝ) 0).congr_fderiv (by ext; simp)
      · exact h0.sin.congr_fderiv (by ext; simp)
    rw [this.fderiv]
    funext i
    fin_cases i <;> simp
  refine ⟨fun t => !![1, 0, 0; 0, 1, 0; t, 0, 1], seed, P, ?_, ?_, ⟨?_, ?_⟩, ?_, shear3_samples, s1, s2,
    s3, funext s4⟩
  · cases k with
    | euler => exact (smooth 3).comp contDiff_snd
    | ab2 => exact (smooth 3).comp contDiff_snd
    | rk4 => exact ⟨_, smooth 5, rfl⟩
  · intro t _
    have e : shear3 0 = 0 := by
      funext i
      fin_cases i <;> simp [shear3]
    show HasDerivWithinAt (fun _ => (0 : Fin 3 → ℝ)) (shear3 0) _ _
    rw [e]
    exact hasDerivWithinAt_const _ _ _
  · ext i j
    fin_cases i <;> fin_cases j <;> simp
  · intro u t _
    rw [hd, hasDerivWithinAt_pi]
    intro i
    fin_cases i
    · simpa [Matrix.mulVec, dotProduct, Fin.sum_univ_three] using
        hasDerivWithinAt_const t (Icc (0 : ℝ) 2) (u 0)
    · simpa [Matrix.mulVec, dotProduct, Fin.sum_univ_three] using
        hasDerivWithinAt_const t (Icc (0 : ℝ) 2) (u 1)
    · have := ((hasDerivWithinAt_id t (Icc (0 : ℝ) 2)).mul_const (u 0)).add_const (u 2)
      simpa [Matrix.mulVec, dotProduct, Fin.sum_univ_three] using this
  · intro h
    have := congrFun (congrFun h 2) 0
    simp at this

end Verif
