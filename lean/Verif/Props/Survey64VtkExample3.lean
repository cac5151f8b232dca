import Verif.Props.Survey64VtkExample
import Verif.Props.Survey64Example3

/-!
# C115 for VTK output: a concrete call in space

The forward call of the example of C115 with `--output_format=vtk`.
-/

namespace Verif

open Matrix Set

theorem spaceDataVtk {P : Particles Fl} (hP : readSeedParticles linFiles3 "p" = .ok P) :
    Survey64x3 linFiles3 (callExperimentVtk ⟨1 / 1024⟩ [8193, 8193, 8193]) (fun _ => linShear3) 0 8193
      8193 node64 node64 node64 (1 / 1024) (1 / 1024) (1 / 1024) 0 0 P :=
  have h := spaceData64 hP
  ⟨h.x, h.y, h.z, h.lim, h.several, h.distinct, h.nodes, h.samples, h.seeds⟩

theorem spaceResolvedVtk {L B M r W : ℝ} {seed : NDArray Fl} {X D σ b} (h : Resolved64x3 spaceCall
    (fun _ => linShear3) 0 8193 8193 node64 node64 node64 (1 / 1024) (1 / 1024) (1 / 1024) 0 0 L B M r W
    1 seed X D σ b) :
    Resolved64x3 (callExperimentVtk ⟨1 / 1024⟩ [8193, 8193, 8193]) (fun _ => linShear3) 0 8193 8193
      node64 node64 node64 (1 / 1024) (1 / 1024) (1 / 1024) 0 0 L B M r W 1 seed X D σ b :=
  ⟨h.two_le, h.step, h.span, h.radius, h.constant, h.small, h.lipschitz, h.trajectories, h.inside,
    h.stretching⟩

/-- The call starts, runs to its end, and leaves two files with one record each: the origin,
and a number within six per cent of the exponent `1024 ln σ`, which is about 1. -/
example : ∃ (lm : Libm) (la : Linalg) (σ : ℝ) (st : Started Fl Val64) (rs : _), lm.Accurate (2 ^ (-52 : ℤ)) ∧
    la.Accurate (2 ^ (-40 : ℤ)) ∧
    IsMaxStretch !![1, 0, 0; 1 / 512, 1, 0; 0, 0, 1] σ ∧
    (startCommand asciiData callFloat64 (fun _ => []) surveyTexts (fun _ _ => .ok 2) id callDisk64
      (callArgvVtk "0.0009765625".toList "8193,8193,8193".toList)).2.2 = .ok st ∧
    ∀ name ∈ ["ftle_v0.vtp", "ftle_v1.vtp"], ∃ (saved : Saved Fl Val64) (x : Fl),
      ((startCommand asciiData callFloat64 (fun _ => []) surveyTexts (fun _ _ => .ok 2) id callDisk64
        (callArgvVtk "0.0009765625".toList "8193,8193,8193".toList) :
          _ × _ × Except Stop (Started Fl Val64)).1.writeFiles st.folder
          (st.files id rs [1, 0])).1.node
        [tmpName, "outputs".toList, "run".toList, name.toList] = some (.file saved) ∧
      saved.Says [(.fin x, [⟨0⟩, ⟨0⟩, ⟨0⟩])] ∧ |x.re - 1024 * Real.log σ| ≤ 6 / 100 := by
  obtain ⟨lm, hm⟩ := exists_libm (κ := 2 ^ (-52 : ℤ)) (by positivity)
  obtain ⟨la, ha⟩ := exists_linalg (μ := 2 ^ (-40 : ℤ)) (by positivity)
  obtain ⟨seed, P, s1, s2, s3, s4⟩ := lin3_seeds
  obtain ⟨σ, hσ⟩ := ftle3_computes.exists_stretch !![(1 : ℝ), 0, 0; 1 / 512, 1, 0; 0, 0, 1]
  have hσ0 : 1 ≤ σ := by
    have := entry_le_stretch hσ 0 0
    simpa using this
  have hσ2 : σ ≤ 1 + 1 / 512 := by
    have := maxStretch_le_add hσ (maxStretch_one (d := 3))
    simp [Fin.sum_univ_three] at this
    norm_num [Matrix.one_apply, Fin.ext_iff] at this
    linarith
  obtain ⟨X, b, b0, b1, res0⟩ := spaceResolved64 s4 hσ hσ0 hσ2
  have res := spaceResolvedVtk res0
  have hb1 : 0 ≤ b ∧ b ≤ 54 / 10 ^ 6 := ⟨b0, b1⟩
  have parsed : (Except.toOption (convert asciiData callFloat .flowGridShape "8193,8193,8193".toList) :
      Option (List ℤ)) = some [8193, 8193, 8193] := by decide +kernel
  have shape : ShapeLiteral asciiData "8193,8193,8193".toList [8193, 8193, 8193] :=
    (convert_iff asciiData callFloat asciiData_lawful .flowGridShape _ _).1
      (ok_of_toOption parsed)
  have step : callFloat64 "0.0009765625".toList = some ⟨1 / 1024⟩ := rfl
  have asks := callAsksVtk step shape
  obtain ⟨st, H, s₀, h1, h2, -, h4⟩ := C105_starts (F := Val64) asciiData callFloat64 (fun _ => [])
    surveyTexts (fun _ _ => .ok 2) id asciiData_lawful (by simp) (callSaysVtk _ _) (callFromFileVtk _ _ _)
    asks (callSensibleVtk _ _) (by decide) callDisk64 (linEnv3 lm la) (fun _ _ => ⟨7⟩)
  obtain ⟨bs, s, rs, h5, h6, -⟩ := C115_vtk_completes_3d asciiData callFloat64 (fun _ => [])
    surveyTexts (fun _ _ => .ok 2) id asciiData_lawful (by simp) (callSaysVtk _ _) (callFromFileVtk _ _ _)
    asks (callSensibleVtk _ _) (by decide) callDisk64 (env := linEnv3 lm la) (la := la) ⟨rfl, rfl⟩ (.inl rfl) hm
    (by positivity) (by norm_num) ha (by positivity) (by norm_num) rfl rfl rfl (spaceDataVtk s3) rfl s1 s2 res (fun _ _ => ⟨7⟩)
    h1 h2 h4 .nil (by simp) 0 0
  have hall := C115_vtk_values_3d asciiData callFloat64 (fun _ => [])
    surveyTexts (fun _ _ => .ok 2) id asciiData_lawful (by simp) (callSaysVtk _ _) (callFromFileVtk _ _ _)
    asks (callSensibleVtk _ _) (by decide) callDisk64 (env := linEnv3 lm la) (la := la) ⟨rfl, rfl⟩ (.inl rfl) hm
    (by positivity) (by norm_num) ha (by positivity) (by norm_num) (by
      rw [callOrderVtk]
      show ∀ v ∈ ["v0", "v1"], '/' ∉ v.toList
      decide +kernel)
    (by
      rw [callOrderVtk]
      show ["v0", "v1"].Nodup
      decide +kernel) (callTakesVtk _ _) rfl rfl rfl (spaceDataVtk s3) rfl s1 s2
    res (fun _ _ => ⟨7⟩) h1 h2 h4 h5 h6 [1, 0] (by decide) id
  have value : ∀ Λ : ℕ → Val64, Good64x3 1 spaceCall.snapshots spaceCall.timestep (2 ^ (-52 : ℤ))
      (2 ^ (-40 : ℤ)) (fun _ => σ) (fun _ => b) Λ →
      ∃ x, Λ 0 = .fin x ∧ |x.re - 1024 * Real.log σ| ≤ 6 / 100 := by
    intro Λ good
    obtain ⟨x, hx, hxb⟩ := good 0 one_pos
    refine ⟨x, hx, ?_⟩
    have hl0 : 0 ≤ Real.log σ := Real.log_nonneg hσ0
    have hl1 : Real.log σ ≤ 1 / 512 := (Real.log_le_sub_one_of_pos (by linarith)).trans (by linarith)
    have hd : b / (σ - b) ≤ 541 / 10 ^ 7 := by
      rw [div_le_iff₀ (by linarith [hb1.2])]
      norm_num at hb1 ⊢
      linarith [hb1.2]
    have h3 : (spaceCall.snapshots : ℝ) = 2 := rfl
    rw [spaceStep, abs_of_pos (by norm_num : (0 : ℝ) < 1 / 1024), abs_of_nonneg hl0, h3] at hxb
    norm_num at hxb hd ⊢
    refine hxb.trans ?_
    linarith
  have record : ∀ Λ : ℕ → Val64, runRecords seed 1 3 ((List.range 1).map Λ) =
      [(Λ 0, [⟨0⟩, ⟨0⟩, ⟨0⟩])] := by
    intro Λ
    have val : ∀ b c, ((groupOf seed 6 1 3 0 b c).val : ℝ) = cross3 0 1 b c := fun b c =>
      congrFun (s4 b) c
    have q : ∀ b c (x : ℚ), cross3 (0 : Fin 3 → ℝ) 1 b c = (x : ℝ) → groupOf seed 6 1 3 0 b c = ⟨x⟩ := by
      intro b c x hx
      have h := val b c
      rw [hx] at h
      exact congrArg Fl.mk (Rat.cast_injective h)
    have a0 : seed.get [0, 0] = ⟨-1⟩ := q 0 0 (-1) (by simp [cross3])
    have a1 : seed.get [1, 0] = ⟨1⟩ := q 1 0 1 (by simp [cross3])
    have a2 : seed.get [2, 0] = ⟨0⟩ := q 2 0 0 (by simp [cross3])
    have a3 : seed.get [3, 0] = ⟨0⟩ := q 3 0 0 (by simp [cross3])
    have a4 : seed.get [4, 0] = ⟨0⟩ := q 4 0 0 (by simp [cross3])
    have a5 : seed.get [5, 0] = ⟨0⟩ := q 5 0 0 (by simp [cross3])
    have b0 : seed.get [0, 1] = ⟨0⟩ := q 0 1 0 (by simp [cross3])
    have b1 : seed.get [1, 1] = ⟨0⟩ := q 1 1 0 (by simp [cross3])
    have b2 : seed.get [2, 1] = ⟨1⟩ := q 2 1 1 (by simp [cross3])
    have b3 : seed.get [3, 1] = ⟨-1⟩ := q 3 1 (-1) (by simp [cross3])
    have b4 : seed.get [4, 1] = ⟨0⟩ := q 4 1 0 (by simp [cross3])
    have b5 : seed.get [5, 1] = ⟨0⟩ := q 5 1 0 (by simp [cross3])
    have c0 : seed.get [0, 2] = ⟨0⟩ := q 0 2 0 (by simp [cross3])
    have c1 : seed.get [1, 2] = ⟨0⟩ := q 1 2 0 (by simp [cross3])
    have c2 : seed.get [2, 2] = ⟨0⟩ := q 2 2 0 (by simp [cross3])
    have c3 : seed.get [3, 2] = ⟨0⟩ := q 3 2 0 (by simp [cross3])
    have c4 : seed.get [4, 2] = ⟨1⟩ := q 4 2 1 (by simp [cross3])
    have c5 : seed.get [5, 2] = ⟨-1⟩ := q 5 2 (-1) (by simp [cross3])
    have d0 : ((⟨-1⟩ + ⟨1⟩ + ⟨0⟩ + ⟨0⟩ + ⟨0⟩ + ⟨0⟩) / ((6 : ℕ) : Fl) : Fl) = ⟨0⟩ := by decide +kernel
    have d1 : ((⟨0⟩ + ⟨0⟩ + ⟨1⟩ + ⟨-1⟩ + ⟨0⟩ + ⟨0⟩) / ((6 : ℕ) : Fl) : Fl) = ⟨0⟩ := by decide +kernel
    have d2 : ((⟨0⟩ + ⟨0⟩ + ⟨0⟩ + ⟨0⟩ + ⟨1⟩ + ⟨-1⟩) / ((6 : ℕ) : Fl) : Fl) = ⟨0⟩ := by decide +kernel
    simp [runRecords, List.range_succ, a0, a1, a2, a3, a4, a5, b0, b1, b2, b3, b4, b5, c0, c1, c2, c3, c4, c5]
    exact ⟨d0, d1, d2⟩
  refine ⟨lm, la, σ, st, rs, hm, ha, hσ, h1, fun name hname => ?_⟩
  simp only [List.mem_cons, List.not_mem_nil, or_false] at hname
  rcases hname with rfl | rfl
  · obtain ⟨first, saved, Λ, g1, g2, g3, g4⟩ := hall 0 (by simp [Experiment.fields, callExperimentVtk])
    obtain rfl : "v0".toList = first := Option.some.inj ((callFirstVtk _ _).1.symm.trans g1)
    obtain ⟨x, hx, hxb⟩ := value Λ g4
    rw [record, hx] at g3
    exact ⟨saved, x, g2, g3, hxb⟩
  · obtain ⟨first, saved, Λ, g1, g2, g3, g4⟩ := hall 1 (by simp [Experiment.fields, callExperimentVtk])
    obtain rfl : "v1".toList = first := Option.some.inj ((callFirstVtk _ _).2.symm.trans g1)
    obtain ⟨x, hx, hxb⟩ := value Λ g4
    rw [record, hx] at g3
    exact ⟨saved, x, g2, g3, hxb⟩

end Verif
