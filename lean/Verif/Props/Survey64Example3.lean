import Verif.Props.Survey64Example

/-!
# C115: a concrete call in three dimensions
-/

namespace Verif

open Matrix Set

/-- The experiment of the call in space. -/
abbrev spaceCall : Experiment Fl := callExperiment64 ⟨1 / 1024⟩ [8193, 8193, 8193]

theorem spaceStep : spaceCall.timestep.re = 1 / 1024 := by
  norm_num [callExperiment64, Fl.re]

theorem spaceData64 {P : Particles Fl} (hP : readSeedParticles linFiles3 "p" = .ok P) :
    Survey64x3 linFiles3 spaceCall (fun _ => linShear3) 0 8193 8193 node64 node64 node64 (1 / 1024) (1 / 1024)
      (1 / 1024) 0 0
      P where
  x := lin_nodes
  y := lin_nodes
  z := lin_nodes
  lim := by norm_num
  several := by simp [callExperiment64]
  distinct := by simp only [callExperiment64]; decide
  nodes := by
    intro f hf
    have hf : String.ofList f = "c0" ∨ String.ofList f = "c1" := by
      simp only [callExperiment64, List.mem_cons, List.not_mem_nil, or_false] at hf
      rcases hf with rfl | rfl
      · exact .inl rfl
      · exact .inr rfl
    obtain ⟨C, b1, b2, b3, b4, b5⟩ := lin3_coordinate hf
    refine ⟨C, b1, b2, fun a ha b hb e he => ?_⟩
    rw [b3, b4, b5, fold_div _ he, fold_mod _ ha, fold_div _ ha, fold_mod _ he]
    exact ⟨rfl, rfl, rfl⟩
  samples := by
    intro j f hj
    have hf : String.ofList f = "v0" ∨ String.ofList f = "v1" := by
      have := List.mem_of_getElem? hj
      simp only [callExperiment64, List.mem_cons, List.not_mem_nil, or_false] at this
      rcases this with rfl | rfl | rfl
      · exact .inl rfl
      · exact .inr rfl
      · exact .inl rfl
    obtain ⟨V, a1, a2, a3, a4, a5⟩ := lin3_velocity hf
    refine ⟨V, a1, a2, fun a ha b hb e he c => ?_⟩
    refine le_of_eq (abs_eq_zero.2 ?_)
    fin_cases c
    · show (V.get [0, (b * 8193 + a) * 8193 + e]).re - 0 = 0
      rw [a3]
      simp [Fl.re]
    · show (V.get [1, (b * 8193 + a) * 8193 + e]).re - (node64 a).re = 0
      rw [a4, fold_div _ he, fold_mod _ ha, sub_self]
    · show (V.get [2, (b * 8193 + a) * 8193 + e]).re - 0 = 0
      rw [a5]
      simp [Fl.re]
  seeds := by
    intro f hf
    simp only [callExperiment64, List.mem_cons, List.not_mem_nil, or_false] at hf
    rw [hf]
    exact hP

theorem linShear3_from {x : Fin 3 → ℝ} (hx : |x 0| ≤ 1) (t0 h : ℝ) (n : ℕ) :
    Along (fun _ => linShear3) t0 h n 1 0 (fun t => linPath3 x (t - t0)) where
  trajectory := by
    intro t _
    rw [hasDerivWithinAt_pi]
    intro i
    fin_cases i
    · exact hasDerivWithinAt_const _ _ _
    · have := (((hasDerivWithinAt_id t (uIcc t0 (t0 + n * h))).sub_const t0).mul_const
        (x 0)).const_add (x 1)
      simpa [linShear3, linPath3] using this
    · exact hasDerivWithinAt_const _ _ _
  speed := by
    intro t _
    rw [pi_norm_le_iff_of_nonneg (by positivity)]
    intro c
    fin_cases c
    · simp [linShear3]
    · exact hx
    · simp [linShear3]
  accel := by
    intro s _ t _
    have : linShear3 (linPath3 x (s - t0)) = linShear3 (linPath3 x (t - t0)) := by
      simp [linShear3, linPath3]
    rw [this]
    simp

/-- The call resolves the flow: the bound `b` for the errors of the quotients is tiny. -/
theorem spaceResolved64 {seed : NDArray Fl} (s4 : ∀ b, reVec (groupOf seed 6 1 3 0 b) = cross3 0 1 b)
    {σ : ℝ} (hσ : IsMaxStretch !![1, 0, 0; 1 / 512, 1, 0; 0, 0, 1] σ) (hσ0 : 1 ≤ σ) (hσ2 : σ ≤ 1 + 1 / 512) :
    ∃ X b, 0 ≤ b ∧ b ≤ 54 / 10 ^ 6 ∧
      Resolved64x3 spaceCall (fun _ => linShear3) 0 8193 8193 node64 node64 node64 (1 / 1024) (1 / 1024)
      (1 / 1024) 0 0
        1 1 0 1 3 1 seed X (fun _ _ => !![1, 0, 0; 1 / 512, 1, 0; 0, 0, 1]) (fun _ _ => σ) (fun _ _ => b) := by
  have habs : |spaceCall.timestep.re| = 1 / 1024 := by rw [spaceStep, abs_of_pos (by norm_num)]
  obtain ⟨small, pe0, pe⟩ := callSmall64 habs
  have g : ∀ b c, (groupOf seed 6 1 3 0 b c).re = cross3 0 1 b c := fun b c => congrFun (s4 b) c
  have w1 : (groupOf seed 6 1 3 0 1 0).re - (groupOf seed 6 1 3 0 0 0).re = 2 := by
    rw [g, g]; simp [cross3]; norm_num
  have w2 : (groupOf seed 6 1 3 0 2 1).re - (groupOf seed 6 1 3 0 3 1).re = 2 := by
    rw [g, g]; simp [cross3]; norm_num
  have w3 : (groupOf seed 6 1 3 0 4 2).re - (groupOf seed 6 1 3 0 5 2).re = 2 := by
    rw [g, g]; simp [cross3]; norm_num
  set X : ℕ → ℕ → Fin 6 → ℝ → Fin 3 → ℝ := fun i _ b t =>
    linPath3 (cross3 0 1 b) (t - spaceCall.startTime64 0 i) with hX
  set e := steadyError 2 spaceCall.timestep linEps linL 1 0 1 3 with he
  have pe0 : 0 ≤ e := pe0
  have pe : e ≤ 58 / 10 ^ 7 := pe
  have hx0 : ∀ b : Fin 6, ∀ c, |cross3 (0 : Fin 3 → ℝ) 1 b c| ≤ 1 := by
    intro b c
    fin_cases b <;> fin_cases c <;> simp [cross3]
  have hpath : ∀ b : Fin 6, ∀ t : ℝ, |t| ≤ 1 / 512 → ‖linPath3 (cross3 0 1 b) t‖ ≤ 3 / 2 := by
    intro b t ht
    have h0 := hx0 b
    have : |t * cross3 (0 : Fin 3 → ℝ) 1 b 0| ≤ 1 / 512 * 1 := by
      rw [abs_mul]
      exact mul_le_mul ht (h0 0) (abs_nonneg _) (by norm_num)
    rw [pi_norm_le_iff_of_nonneg (by norm_num)]
    intro c
    fin_cases c
    · exact (h0 0).trans (by norm_num)
    · exact (abs_add_le _ _).trans (by linarith [h0 1])
    · exact (h0 2).trans (by norm_num)
  refine ⟨X, 62 / 10 * e * (1 / |(2 : ℝ)| + 1 / |(2 : ℝ)| + 1 / |(2 : ℝ)|) + 2 ^ (-53 : ℤ) * (1 + 36 * σ), ?_, ?_, ?_⟩
  · positivity
  · rw [abs_of_pos (by norm_num)]
    have : (2 : ℝ) ^ (-53 : ℤ) * (1 + 36 * σ) ≤ 2 ^ (-53 : ℤ) * 40 :=
      mul_le_mul_of_nonneg_left (by linarith) (by positivity)
    norm_num at this pe ⊢
    linarith
  refine ⟨le_rfl, ?_, ?_, zero_le_one, zero_le_one, ?_, ?_, ?_, ?_, ?_⟩
  · rw [habs]
    exact (zpow_le_zpow_right₀ (by norm_num) (by norm_num : (-500 : ℤ) ≤ -10)).trans (by norm_num)
  · rw [habs]
    refine le_trans ?_ (one_le_pow₀ (by norm_num : (1 : ℝ) ≤ 2))
    norm_num [callExperiment64]
  · rw [linEps_eq3]; exact small
  · intro j _ w _ w' _
    rw [one_mul, pi_norm_le_iff_of_nonneg (norm_nonneg _)]
    intro c
    fin_cases c
    · simp [linShear3]
    · exact norm_le_pi_norm (w - w') 0
    · simp [linShear3]
  · intro i _ k hk b
    obtain rfl : k = 0 := by omega
    refine ⟨linShear3_from (hx0 b 0) _ _ _, ?_, fun t ht => ?_⟩
    · rw [s4, hX]; funext c; fin_cases c <;> simp [linPath3]
    · have := hpath b (t - spaceCall.startTime64 0 i) (by
        rw [spaceStep, uIcc_of_le (by norm_num [callExperiment64])] at ht
        have h1 := ht.1
        have h2 := ht.2
        have h3 : (spaceCall.snapshots : ℝ) = 2 := rfl
        rw [h3] at h2
        rw [abs_le]
        constructor <;> linarith)
      simp only [hX]
      linarith
  · intro i _ k hk b j hj z hz
    have hj : j < 2 := hj
    have hj' : (j : ℝ) ≤ 1 := by exact_mod_cast (by omega : j ≤ 1)
    have hj0 : (0 : ℝ) ≤ j := by positivity
    simp only [hX, add_sub_cancel_left, spaceStep] at hz
    have hp := hpath b (j * (1 / 1024)) (by rw [abs_le]; constructor <;> linarith)
    have hz2 : ‖z‖ ≤ 5 / 2 := by
      have := norm_add_le (z - linPath3 (cross3 0 1 b) (j * (1 / 1024)))
        (linPath3 (cross3 0 1 b) (j * (1 / 1024)))
      rw [sub_add_cancel] at this
      linarith
    have key : ∀ c : Fin 3, OnAxis64 8193 node64 (1 / 1024) (z c) := by
      intro c
      have h0 := abs_le.1 ((norm_le_pi_norm z c).trans hz2)
      unfold OnAxis64
      rw [node64_re, node64_re]
      norm_num
      constructor <;> linarith [h0.1, h0.2]
    exact ⟨key 0, key 1, key 2⟩
  · intro i _
    have h2 : (2 : ℝ) ^ (-500 : ℤ) ≤ |2| :=
      (zpow_le_one_of_nonpos₀ (by norm_num) (by norm_num)).trans (by norm_num)
    refine ⟨?_, ?_, ?_, ?_, ?_⟩ <;> intro k hk <;> obtain rfl : k = 0 := by omega
    · rw [w1, w2, w3]; exact ⟨h2, h2, h2⟩
    · simp only [hX, add_sub_cancel_left, s4, spaceStep]
      ext i j
      fin_cases i <;> fin_cases j <;> simp [diffs3, cross3, linPath3, callExperiment64] <;> norm_num
    · exact hσ
    · rw [w1, w2, w3, linEps_eq3]; rfl
    · have : (2 : ℝ) ^ (-200 : ℤ) ≤ 2 ^ (-1 : ℤ) := zpow_le_zpow_right₀ (by norm_num) (by norm_num)
      have h3 : (2 : ℝ) ^ (-53 : ℤ) * (1 + 36 * σ) ≤ 2 ^ (-53 : ℤ) * 40 :=
        mul_le_mul_of_nonneg_left (by linarith) (by positivity)
      rw [abs_of_pos (by norm_num : (0 : ℝ) < 2)]
      norm_num at this h3 pe ⊢
      linarith

/-- The call starts, runs to its end, and leaves two files with one record each: the origin,
and a number within six per cent of the exponent `1024 ln σ`, which is about 1. -/
example : ∃ (lm : Libm) (la : Linalg) (σ : ℝ) (st : Started Fl Val64) (rs : _), lm.Accurate (2 ^ (-52 : ℤ)) ∧
    la.Accurate (2 ^ (-40 : ℤ)) ∧
    IsMaxStretch !![1, 0, 0; 1 / 512, 1, 0; 0, 0, 1] σ ∧
    (startCommand asciiData callFloat64 (fun _ => []) surveyTexts (fun _ _ => .ok 2) id callDisk64
      (callArgv64 "0.0009765625".toList "8193,8193,8193".toList)).2.2 = .ok st ∧
    ∀ name ∈ ["ftle_v0.mat", "ftle_v1.mat"], ∃ (saved : Saved Fl Val64) (x : Fl),
      ((startCommand asciiData callFloat64 (fun _ => []) surveyTexts (fun _ _ => .ok 2) id callDisk64
        (callArgv64 "0.0009765625".toList "8193,8193,8193".toList) :
          _ × _ × Except Stop (Started Fl Val64)).1.writeFiles st.folder
          (st.files id rs [1, 0])).1.node
        [tmpName, "outputs".toList, "run".toList, name.toList] = some (.file saved) ∧
      saved.Says [(.fin x, [⟨0⟩, ⟨0⟩, ⟨0⟩])] ∧ |x.re - 1024 * Real.log σ| ≤ 6 / 100 := by
  obtain ⟨lm, hm⟩ := exists_libm (κ := 2 ^ (-52 : ℤ)) (by positivity)
  obtain ⟨la, ha⟩ := exists_linalg (μ := 2 ^ (-40 : ℤ)) (by positivity)
  obtain ⟨seed, P, s1, s2, s3, s4⟩ := lin3_seeds
  obtain ⟨σ, hσ⟩ := ftle3_computes.exists_stretch !![(1 : ℝ), 0, 0; 1 / 512, 1, 0; 0, 0, 1]
  have hσ0 : 1 ≤ σ := by
    have := entry_le_stretch hσ 0 0
    simpa using this
  have hσ2 : σ ≤ 1 + 1 / 512 := by
    have := maxStretch_le_add hσ (maxStretch_one (d := 3))
    simp [Fin.sum_univ_three] at this
    norm_num [Matrix.one_apply, Fin.ext_iff] at this
    linarith
  obtain ⟨X, b, b0, b1, res⟩ := spaceResolved64 s4 hσ hσ0 hσ2
  have hb1 : 0 ≤ b ∧ b ≤ 54 / 10 ^ 6 := ⟨b0, b1⟩
  have parsed : (Except.toOption (convert asciiData callFloat .flowGridShape "8193,8193,8193".toList) :
      Option (List ℤ)) = some [8193, 8193, 8193] := by decide +kernel
  have shape : ShapeLiteral asciiData "8193,8193,8193".toList [8193, 8193, 8193] :=
    (convert_iff asciiData callFloat asciiData_lawful .flowGridShape _ _).1
      (ok_of_toOption parsed)
  have step : callFloat64 "0.0009765625".toList = some ⟨1 / 1024⟩ := rfl
  have asks := callAsks64 step shape
  obtain ⟨st, H, s₀, h1, h2, -, h4⟩ := C105_starts (F := Val64) asciiData callFloat64 (fun _ => [])
    surveyTexts (fun _ _ => .ok 2) id asciiData_lawful (by simp) (callSays64 _ _) (callFromFile64 _ _ _)
    asks (callSensible64 _ _) (by decide) callDisk64 (linEnv3 lm la) (fun _ _ => ⟨7⟩)
  obtain ⟨bs, s, rs, h5, h6, -⟩ := C115_completes_3d asciiData callFloat64 (fun _ => [])
    surveyTexts (fun _ _ => .ok 2) id asciiData_lawful (by simp) (callSays64 _ _) (callFromFile64 _ _ _)
    asks (callSensible64 _ _) (by decide) callDisk64 (env := linEnv3 lm la) (la := la) ⟨rfl, rfl⟩ (.inl rfl) hm
    (by positivity) (by norm_num) ha (by positivity) (by norm_num) rfl rfl rfl (spaceData64 s3) (.inl rfl) s1 s2 res (fun _ _ => ⟨7⟩)
    h1 h2 h4 .nil (by simp) 0 0
  have hall := C115_values_3d asciiData callFloat64 (fun _ => [])
    surveyTexts (fun _ _ => .ok 2) id asciiData_lawful (by simp) (callSays64 _ _) (callFromFile64 _ _ _)
    asks (callSensible64 _ _) (by decide) callDisk64 (env := linEnv3 lm la) (la := la) ⟨rfl, rfl⟩ (.inl rfl) hm
    (by positivity) (by norm_num) ha (by positivity) (by norm_num) (by
      rw [callOrder64]
      show ∀ v ∈ ["v0", "v1"], '/' ∉ v.toList
      decide +kernel)
    (by
      rw [callOrder64]
      show ["v0", "v1"].Nodup
      decide +kernel) (callTakes64 _ _) rfl rfl rfl (spaceData64 s3) (.inl rfl) s1 s2
    res (fun _ _ => ⟨7⟩) h1 h2 h4 h5 h6 [1, 0] (by decide) id
  have value : ∀ Λ : ℕ → Val64, Good64x3 1 spaceCall.snapshots spaceCall.timestep (2 ^ (-52 : ℤ))
      (2 ^ (-40 : ℤ)) (fun _ => σ) (fun _ => b) Λ →
      ∃ x, Λ 0 = .fin x ∧ |x.re - 1024 * Real.log σ| ≤ 6 / 100 := by
    intro Λ good
    obtain ⟨x, hx, hxb⟩ := good 0 one_pos
    refine ⟨x, hx, ?_⟩
    have hl0 : 0 ≤ Real.log σ := Real.log_nonneg hσ0
    have hl1 : Real.log σ ≤ 1 / 512 := (Real.log_le_sub_one_of_pos (by linarith)).trans (by linarith)
    have hd : b / (σ - b) ≤ 541 / 10 ^ 7 := by
      rw [div_le_iff₀ (by linarith [hb1.2])]
      norm_num at hb1 ⊢
      linarith [hb1.2]
    have h3 : (spaceCall.snapshots : ℝ) = 2 := rfl
    rw [spaceStep, abs_of_pos (by norm_num : (0 : ℝ) < 1 / 1024), abs_of_nonneg hl0, h3] at hxb
    norm_num at hxb hd ⊢
    refine hxb.trans ?_
    linarith
  have record : ∀ Λ : ℕ → Val64, runRecords seed 1 3 ((List.range 1).map Λ) =
      [(Λ 0, [⟨0⟩, ⟨0⟩, ⟨0⟩])] := by
    intro Λ
    have val : ∀ b c, ((groupOf seed 6 1 3 0 b c).val : ℝ) = cross3 0 1 b c := fun b c =>
      congrFun (s4 b) c
    have q : ∀ b c (x : ℚ), cross3 (0 : Fin 3 → ℝ) 1 b c = (x : ℝ) → groupOf seed 6 1 3 0 b c = ⟨x⟩ := by
      intro b c x hx
      have h := val b c
      rw [hx] at h
      exact congrArg Fl.mk (Rat.cast_injective h)
    have a0 : seed.get [0, 0] = ⟨-1⟩ := q 0 0 (-1) (by simp [cross3])
    have a1 : seed.get [1, 0] = ⟨1⟩ := q 1 0 1 (by simp [cross3])
    have a2 : seed.get [2, 0] = ⟨0⟩ := q 2 0 0 (by simp [cross3])
    have a3 : seed.get [3, 0] = ⟨0⟩ := q 3 0 0 (by simp [cross3])
    have a4 : seed.get [4, 0] = ⟨0⟩ := q 4 0 0 (by simp [cross3])
    have a5 : seed.get [5, 0] = ⟨0⟩ := q 5 0 0 (by simp [cross3])
    have b0 : seed.get [0, 1] = ⟨0⟩ := q 0 1 0 (by simp [cross3])
    have b1 : seed.get [1, 1] = ⟨0⟩ := q 1 1 0 (by simp [cross3])
    have b2 : seed.get [2, 1] = ⟨1⟩ := q 2 1 1 (by simp [cross3])
    have b3 : seed.get [3, 1] = ⟨-1⟩ := q 3 1 (-1) (by simp [cross3])
    have b4 : seed.get [4, 1] = ⟨0⟩ := q 4 1 0 (by simp [cross3])
    have b5 : seed.get [5, 1] = ⟨0⟩ := q 5 1 0 (by simp [cross3])
    have c0 : seed.get [0, 2] = ⟨0⟩ := q 0 2 0 (by simp [cross3])
    have c1 : seed.get [1, 2] = ⟨0⟩ := q 1 2 0 (by simp [cross3])
    have c2 : seed.get [2, 2] = ⟨0⟩ := q 2 2 0 (by simp [cross3])
    have c3 : seed.get [3, 2] = ⟨0⟩ := q 3 2 0 (by simp [cross3])
    have c4 : seed.get [4, 2] = ⟨1⟩ := q 4 2 1 (by simp [cross3])
    have c5 : seed.get [5, 2] = ⟨-1⟩ := q 5 2 (-1) (by simp [cross3])
    have d0 : ((⟨-1⟩ + ⟨1⟩ + ⟨0⟩ + ⟨0⟩ + ⟨0⟩ + ⟨0⟩) / ((6 : ℕ) : Fl) : Fl) = ⟨0⟩ := by decide +kernel
    have d1 : ((⟨0⟩ + ⟨0⟩ + ⟨1⟩ + ⟨-1⟩ + ⟨0⟩ + ⟨0⟩) / ((6 : ℕ) : Fl) : Fl) = ⟨0⟩ := by decide +kernel
    have d2 : ((⟨0⟩ + ⟨0⟩ + ⟨0⟩ + ⟨0⟩ + ⟨1⟩ + ⟨-1⟩) / ((6 : ℕ) : Fl) : Fl) = ⟨0⟩ := by decide +kernel
    simp [runRecords, List.range_succ, a0, a1, a2, a3, a4, a5, b0, b1, b2, b3, b4, b5, c0, c1, c2, c3, c4, c5]
    exact ⟨d0, d1, d2⟩
  refine ⟨lm, la, σ, st, rs, hm, ha, hσ, h1, fun name hname => ?_⟩
  simp only [List.mem_cons, List.not_mem_nil, or_false] at hname
  rcases hname with rfl | rfl
  · obtain ⟨first, saved, Λ, g1, g2, g3, g4⟩ := hall 0 (by simp [Experiment.fields, callExperiment64])
    obtain rfl : "v0".toList = first := Option.some.inj ((callFirst64 _ _).1.symm.trans g1)
    obtain ⟨x, hx, hxb⟩ := value Λ g4
    rw [record, hx] at g3
    exact ⟨saved, x, g2, g3, hxb⟩
  · obtain ⟨first, saved, Λ, g1, g2, g3, g4⟩ := hall 1 (by simp [Experiment.fields, callExperiment64])
    obtain rfl : "v1".toList = first := Option.some.inj ((callFirst64 _ _).2.symm.trans g1)
    obtain ⟨x, hx, hxb⟩ := value Λ g4
    rw [record, hx] at g3
    exact ⟨saved, x, g2, g3, hxb⟩

end Verif
