import Verif.Props.Survey64Vtk
import Verif.Props.Survey64Example

/-!
# C115 for VTK output: a concrete call

The backward call of the example of C115 with `--output_format=vtk`.
-/

namespace Verif

open Matrix Set

/-- The options of the call. -/
def callOptionsVtk (step grid : Str) : List (Opt × Str) :=
  [(.experimentName, "run".toList), (.listVelocityFiles, ['V']), (.listCoordinateFiles, ['C']),
    (.listParticleFiles, ['P']), (.snapshotTimestep, step),
    (.flowMapPeriod, "0.0009765625".toList), (.integrator, "rk4".toList),
    (.interpolator, "grid".toList), (.outputFormat, "vtk".toList), (.flowGridShape, grid)]

/-- The command line: `--OPTION=VALUE ...`. -/
def callArgvVtk (step grid : Str) : List Str :=
  (callOptionsVtk step grid).map fun e => e.1.name ++ '=' :: e.2

/-- What it asks for. -/
def callExperimentVtk (h : Fl) (shape : List ℕ) : Experiment Fl where
  name := "run".toList
  velocity := ["v0".toList, "v1".toList, "v0".toList]
  coordinate := ["c0".toList, "c1".toList]
  particle := [['p']]
  timestep := h
  snapshots := 2
  integrator := "rk4"
  interpolator := "grid"
  format := "vtk"
  processes := 1
  flowGrid := some shape
  particlesGrid := none

theorem callSaysVtk (step grid : Str) :
    Says asciiData (callArgvVtk step grid) (callOptionsVtk step grid) := by
  have hn : ∀ o, Names (Opt.name o) o := by
    intro o
    refine ⟨?_, fun o' => ?_⟩
    · have : ∀ o ∈ Opt.all, "--".toList.isPrefixOf o.name = true := by decide +kernel
      rw [← List.isPrefixOf_iff_prefix]
      exact this o (by cases o <;> decide)
    · have : ∀ o ∈ Opt.all, ∀ o' ∈ Opt.all, o.name.isPrefixOf o'.name = true ↔ o' = o := by
        decide +kernel
      rw [← List.isPrefixOf_iff_prefix]
      exact this o (by cases o <;> decide) o' (by cases o' <;> decide)
  have hp : ∀ e ∈ callOptionsVtk step grid, e.1 ≠ .help := by simp [callOptionsVtk]
  unfold callArgvVtk
  generalize callOptionsVtk step grid = l at hp
  induction l with
  | nil => exact .nil
  | cons e l ih => exact .glued (.inl (hn e.1)) (hp e (by simp)) (ih fun x hx => hp x (by simp [hx]))

theorem callFromFileVtk (items : Str → Option (List (Str × CfgValue))) (step grid : Str) :
    FromFile items (callArgvVtk step grid) (callOptionsVtk step grid) [] := by
  refine .inl ⟨fun p hp => ?_, rfl⟩
  have := hp.mem
  simp [callOptionsVtk] at this

theorem callAsksVtk {step grid : Str} {h : Fl} {t : List ℤ} (hh : callFloat64 step = some h)
    (shape : ShapeLiteral asciiData grid t) :
    Asks asciiData callFloat64 surveyTexts (fun _ _ => .ok 2) ([] ++ callOptionsVtk step grid)
      (callExperimentVtk h (t.map Int.toNat)) := by
  have last : ∀ (a b : List (Opt × Str)) (o : Opt) (v : Str), (∀ e ∈ b, e.1 ≠ o) →
      LastValue (a ++ (o, v) :: b) o v := fun a b o v h => ⟨a, b, rfl, fun w hw => h _ hw rfl⟩
  have fl : callFloat64 "0.0009765625".toList = some ⟨1 / 1024⟩ := if_pos rfl
  refine ⟨?_, last [] _ _ _ (by simp),
    ⟨['V'], last ((callOptionsVtk step grid).take 1) _ _ _ (by simp), rfl⟩,
    ⟨['C'], last ((callOptionsVtk step grid).take 2) _ _ _ (by simp), rfl⟩,
    ⟨['P'], last ((callOptionsVtk step grid).take 3) _ _ _ (by simp), rfl⟩,
    ⟨_, last ((callOptionsVtk step grid).take 4) _ _ _ (by simp), hh⟩,
    ⟨_, _, last ((callOptionsVtk step grid).take 5) _ _ _ (by simp), fl, rfl⟩,
    last ((callOptionsVtk step grid).take 6) _ _ _ (by simp),
    last ((callOptionsVtk step grid).take 7) _ _ _ (by simp),
    last ((callOptionsVtk step grid).take 8) _ _ _ (by simp),
    .inr ⟨by simp [callOptionsVtk], rfl⟩,
    .inl ⟨_, _, last ((callOptionsVtk step grid).take 9) [] _ _ (by simp), shape, rfl⟩,
    .inr ⟨by simp [callOptionsVtk], rfl⟩⟩
  intro e he
  simp only [callOptionsVtk, List.nil_append, List.mem_cons, List.not_mem_nil, or_false] at he
  rcases he with rfl | rfl | rfl | rfl | rfl | rfl | rfl | rfl | rfl | rfl
  · exact ⟨_, rfl⟩
  · exact ⟨_, rfl⟩
  · exact ⟨_, rfl⟩
  · exact ⟨_, rfl⟩
  · exact ⟨h, hh⟩
  · exact ⟨(⟨1 / 1024⟩ : Fl), fl⟩
  · exact ⟨"rk4".toList, rfl, .inl rfl⟩
  · exact ⟨"grid".toList, rfl, .inr (.inr (.inr rfl))⟩
  · exact ⟨"vtk".toList, rfl, .inr rfl⟩
  · exact ⟨t, shape⟩

theorem callSensibleVtk (h : Fl) (shape : List ℕ) : (callExperimentVtk h shape).Sensible where
  plain := by
    intro f hf
    simp only [callExperimentVtk, List.cons_append, List.nil_append, List.mem_cons, List.not_mem_nil,
      or_false] at hf
    rcases hf with rfl | rfl | rfl | rfl | rfl | rfl <;>
      exact ⟨by decide +kernel, by decide +kernel, by decide +kernel, by decide +kernel⟩
  coordinate_ne := by simp [callExperimentVtk]
  particle_ne := by simp [callExperimentVtk]
  one_le := by simp [callExperimentVtk]
  enough := by simp [callExperimentVtk]
  shape := by simp [callExperimentVtk]
  processes := by simp [callExperimentVtk]

/-- The list of files reads the same in both directions. -/
theorem callOrderVtk (h : Fl) (shape : List ℕ) :
    inRunOrder (callExperimentVtk h shape).timestep (callExperimentVtk h shape).velocity =
      ["v0", "v1", "v0"] := by
  unfold inRunOrder
  split <;> rfl

theorem callTakesVtk (h : Fl) (shape : List ℕ) :
    callDisk64.Takes ("outputs/".toList ++ (callExperimentVtk h shape).name)
      ((callExperimentVtk h shape).fileNames id) := by
  have names : (callExperimentVtk h shape).fileNames id =
      ["ftle_v0.vtp".toList, "ftle_v1.vtp".toList] := by
    unfold Experiment.fileNames
    rw [callOrderVtk]
    rfl
  have way : callDisk64.way ("outputs/".toList ++ (callExperimentVtk h shape).name) =
      [[tmpName], [tmpName, "outputs".toList], [tmpName, "outputs".toList, "run".toList]] := by rfl
  have target : callDisk64.target ("outputs/".toList ++ (callExperimentVtk h shape).name) =
      [tmpName, "outputs".toList, "run".toList] := by rfl
  refine ⟨diskOf_tree rfl rfl ?_, .inl (by show ['.', '.'] ∉ namesIn ("outputs/".toList ++ "run".toList); decide +kernel), ?_, rfl, ?_⟩
  · intro e he
    simp only [List.mem_cons, List.not_mem_nil, or_false] at he
    rcases he with rfl | rfl
    · exact .inl rfl
    · exact .inr rfl
  · rw [way]
    intro x hx
    simp only [List.mem_cons, List.not_mem_nil, or_false] at hx
    rcases hx with rfl | rfl | rfl
    · exact .inl rfl
    · exact .inr ⟨rfl, rfl⟩
    · exact .inr ⟨rfl, rfl⟩
  · rw [way, target, names]
    intro n hn
    simp only [List.mem_cons, List.not_mem_nil, or_false] at hn
    rcases hn with rfl | rfl
    · refine ⟨?_, rfl, by decide⟩
      rw [show callDisk64.node _ = none from rfl]
      simp
    · refine ⟨?_, rfl, by decide⟩
      rw [show callDisk64.node _ = none from rfl]
      simp

/-- Field 0 starts at the first or the last file, field 1 at the second. -/
theorem callFirstVtk (h : Fl) (shape : List ℕ) :
    (callExperimentVtk h shape).velocity[(callExperimentVtk h shape).first 0]? = some "v0".toList ∧
    (callExperimentVtk h shape).velocity[(callExperimentVtk h shape).first 1]? = some "v1".toList := by
  unfold Experiment.first
  split <;> exact ⟨rfl, rfl⟩

theorem planeDataVtk {P : Particles Fl} (hP : readSeedParticles linFiles "p" = .ok P) :
    Survey64 linFiles (callExperimentVtk ⟨-1 / 1024⟩ [8193, 8193]) (fun _ => linShear) 0 8193 8193
      node64 node64 (1 / 1024) (1 / 1024) 0 0 P :=
  have h := planeData hP
  ⟨h.x, h.y, h.several, h.distinct, h.nodes, h.samples, h.seeds⟩

theorem planeResolvedVtk {L B M r W : ℝ} {seed : NDArray Fl} {X D σ b} (h : Resolved64 planeCall
    (fun _ => linShear) 0 8193 8193 node64 node64 (1 / 1024) (1 / 1024) 0 0 L B M r W 1 seed X D σ b) :
    Resolved64 (callExperimentVtk ⟨-1 / 1024⟩ [8193, 8193]) (fun _ => linShear) 0 8193 8193 node64
      node64 (1 / 1024) (1 / 1024) 0 0 L B M r W 1 seed X D σ b :=
  ⟨h.two_le, h.step, h.span, h.radius, h.constant, h.small, h.lipschitz, h.trajectories, h.inside,
    h.stretching⟩

/-- The backward call starts, runs to its end, and leaves two files with one record each: the origin,
and a number within three per cent of the exponent `1024 ln σ`, which is about 1. -/
example : ∃ (lm : Libm) (σ : ℝ) (st : Started Fl Val64) (rs : _), lm.Accurate (2 ^ (-52 : ℤ)) ∧
    IsMaxStretch !![1, 0; -(1 / 512), 1] σ ∧
    (startCommand asciiData callFloat64 (fun _ => []) surveyTexts (fun _ _ => .ok 2) id callDisk64
      (callArgvVtk "-0.0009765625".toList "8193,8193".toList)).2.2 = .ok st ∧
    ∀ name ∈ ["ftle_v0.vtp", "ftle_v1.vtp"], ∃ (saved : Saved Fl Val64) (x : Fl),
      ((startCommand asciiData callFloat64 (fun _ => []) surveyTexts (fun _ _ => .ok 2) id callDisk64
        (callArgvVtk "-0.0009765625".toList "8193,8193".toList) :
          _ × _ × Except Stop (Started Fl Val64)).1.writeFiles st.folder
          (st.files id rs [1, 0])).1.node
        [tmpName, "outputs".toList, "run".toList, name.toList] = some (.file saved) ∧
      saved.Says [(.fin x, [⟨0⟩, ⟨0⟩, ⟨0⟩])] ∧ |x.re - 1024 * Real.log σ| ≤ 3 / 100 := by
  obtain ⟨lm, hm⟩ := exists_libm (κ := 2 ^ (-52 : ℤ)) (by positivity)
  obtain ⟨seed, P, s1, s2, s3, s4⟩ := lin_seeds
  obtain ⟨σ, hσ⟩ := ftle2_computes.exists_stretch !![(1 : ℝ), 0; -(1 / 512), 1]
  have hσ0 : 1 ≤ σ := by
    have := entry_le_stretch hσ 0 0
    simpa using this
  have hσ1 : 1 + 1 / 512 ≤ σ ^ 2 := by
    have h1 := maxStretch_bound hσ ![1, -1]
    have h2 := pow_le_pow_left₀ (len_nonneg _) h1 2
    rw [mul_pow, len_sq, len_sq] at h2
    simp [Matrix.mulVec, dotProduct, Fin.sum_univ_two] at h2
    norm_num at h2 ⊢
    linarith
  have hσ2 : σ ≤ 1 + 1 / 512 := by
    have := maxStretch_le_add hσ (maxStretch_one (d := 2))
    simp [Fin.sum_univ_two, Matrix.one_apply] at this
    norm_num at this ⊢
    linarith
  obtain ⟨X, b, b0, b1, res0⟩ := planeResolved s4 hσ hσ0 hσ2
  have res := planeResolvedVtk res0
  have hb1 : 0 ≤ b ∧ b ≤ 24 / 10 ^ 6 := ⟨b0, b1⟩
  have parsed : (Except.toOption (convert asciiData callFloat .flowGridShape "8193,8193".toList) :
      Option (List ℤ)) = some [8193, 8193] := by decide +kernel
  have shape : ShapeLiteral asciiData "8193,8193".toList [8193, 8193] :=
    (convert_iff asciiData callFloat asciiData_lawful .flowGridShape _ _).1
      (ok_of_toOption parsed)
  have step : callFloat64 "-0.0009765625".toList = some ⟨-1 / 1024⟩ := rfl
  have asks := callAsksVtk step shape
  obtain ⟨st, H, s₀, h1, h2, -, h4⟩ := C105_starts (F := Val64) asciiData callFloat64 (fun _ => [])
    surveyTexts (fun _ _ => .ok 2) id asciiData_lawful (by simp) (callSaysVtk _ _) (callFromFileVtk _ _ _)
    asks (callSensibleVtk _ _) (by decide) callDisk64 (linEnv lm) (fun _ _ => ⟨7⟩)
  obtain ⟨bs, s, rs, h5, h6, -⟩ := C115_vtk_completes_2d asciiData callFloat64 (fun _ => [])
    surveyTexts (fun _ _ => .ok 2) id asciiData_lawful (by simp) (callSaysVtk _ _) (callFromFileVtk _ _ _)
    asks (callSensibleVtk _ _) (by decide) callDisk64 (env := linEnv lm) ⟨rfl, rfl⟩ (.inl rfl) hm
    (by positivity) (by norm_num) rfl rfl rfl (planeDataVtk s3) (.inl rfl) s1 s2 res (fun _ _ => ⟨7⟩)
    h1 h2 h4 .nil (by simp) 0 0
  have hall := C115_vtk_values_2d asciiData callFloat64 (fun _ => [])
    surveyTexts (fun _ _ => .ok 2) id asciiData_lawful (by simp) (callSaysVtk _ _) (callFromFileVtk _ _ _)
    asks (callSensibleVtk _ _) (by decide) callDisk64 (env := linEnv lm) ⟨rfl, rfl⟩ (.inl rfl) hm
    (by positivity) (by norm_num) (by
      rw [callOrderVtk]
      show ∀ v ∈ ["v0", "v1"], '/' ∉ v.toList
      decide +kernel)
    (by
      rw [callOrderVtk]
      show ["v0", "v1"].Nodup
      decide +kernel) (callTakesVtk _ _) rfl rfl rfl (planeDataVtk s3) (.inl rfl) s1 s2
    res (fun _ _ => ⟨7⟩) h1 h2 h4 h5 h6 [1, 0] (by decide) id
  have value : ∀ Λ : ℕ → Val64, Good64 1 planeCall.snapshots planeCall.timestep (2 ^ (-52 : ℤ))
      (fun _ => !![1, 0; -(1 / 512), 1]) (fun _ => σ) (fun _ => b) Λ →
      ∃ x, Λ 0 = .fin x ∧ |x.re - 1024 * Real.log σ| ≤ 3 / 100 := by
    intro Λ good
    obtain ⟨c1, c2, -⟩ := good 0 one_pos
    have hbσ : b * σ ≤ 24 / 10 ^ 6 * (1 + 1 / 512) :=
      mul_le_mul hb1.2 hσ2 (by linarith) (by norm_num)
    have hq : 1 + 1 / 600 ≤ (σ - b) ^ 2 := by
      have : (σ - b) ^ 2 = σ ^ 2 - 2 * (b * σ) + b ^ 2 := by ring
      rw [this]
      have := sq_nonneg b
      norm_num at hbσ ⊢
      linarith
    have hb2 : b ^ 2 ≤ 1 / 10 ^ 5 := by
      have := pow_le_pow_left₀ hb1.1 hb1.2 2
      norm_num at this ⊢
      linarith
    have hnan := c2 (by
      rw [Matrix.det_fin_two]
      have := mul_le_mul_of_nonneg_left hq (by norm_num : (0 : ℝ) ≤ 1 - 2 ^ (-22 : ℤ))
      refine le_trans ?_ this
      norm_num at hbσ hb2 ⊢
      linarith)
    obtain ⟨x, hx, hxb⟩ := c1.resolve_left hnan
    refine ⟨x, hx, ?_⟩
    have hl0 : 0 ≤ Real.log σ := Real.log_nonneg hσ0
    have hl1 : Real.log σ ≤ 1 / 512 := (Real.log_le_sub_one_of_pos (by linarith)).trans (by linarith)
    have hd : b / (σ - b) ≤ 241 / 10 ^ 7 := by
      rw [div_le_iff₀ (by linarith [hb1.2])]
      norm_num at hb1 ⊢
      linarith [hb1.2]
    have h3 : (planeCall.snapshots : ℝ) = 2 := rfl
    rw [planeStep, abs_neg, abs_of_pos (by norm_num : (0 : ℝ) < 1 / 1024), abs_of_nonneg hl0, h3] at hxb
    norm_num at hxb hd ⊢
    refine hxb.trans ?_
    linarith
  have record : ∀ Λ : ℕ → Val64, planeRecords64 seed 1 ((List.range 1).map Λ) =
      [(Λ 0, [⟨0⟩, ⟨0⟩, ⟨0⟩])] := by
    intro Λ
    have val : ∀ b c, ((groupOf seed 4 1 2 0 b c).val : ℝ) = cross2 0 1 b c := fun b c =>
      congrFun (s4 b) c
    have q : ∀ b c (x : ℚ), cross2 (0 : Fin 2 → ℝ) 1 b c = (x : ℝ) → groupOf seed 4 1 2 0 b c = ⟨x⟩ := by
      intro b c x hx
      have h := val b c
      rw [hx] at h
      exact congrArg Fl.mk (Rat.cast_injective h)
    have a0 : seed.get [0, 0] = ⟨-1⟩ := q 0 0 (-1) (by simp [cross2])
    have a1 : seed.get [1, 0] = ⟨1⟩ := q 1 0 1 (by simp [cross2])
    have a2 : seed.get [2, 0] = ⟨0⟩ := q 2 0 0 (by simp [cross2])
    have a3 : seed.get [3, 0] = ⟨0⟩ := q 3 0 0 (by simp [cross2])
    have b0 : seed.get [0, 1] = ⟨0⟩ := q 0 1 0 (by simp [cross2])
    have b1 : seed.get [1, 1] = ⟨0⟩ := q 1 1 0 (by simp [cross2])
    have b2 : seed.get [2, 1] = ⟨1⟩ := q 2 1 1 (by simp [cross2])
    have b3 : seed.get [3, 1] = ⟨-1⟩ := q 3 1 (-1) (by simp [cross2])
    have c0 : ((⟨-1⟩ + ⟨1⟩ + ⟨0⟩ + ⟨0⟩) / ((4 : ℕ) : Fl) : Fl) = ⟨0⟩ := by decide +kernel
    have c1 : ((⟨0⟩ + ⟨0⟩ + ⟨1⟩ + ⟨-1⟩) / ((4 : ℕ) : Fl) : Fl) = ⟨0⟩ := by decide +kernel
    simp [planeRecords64, runRecords, List.range_succ, a0, a1, a2, a3, b0, b1, b2, b3]
    exact ⟨c0, c1, rfl⟩
  refine ⟨lm, σ, st, rs, hm, hσ, h1, fun name hname => ?_⟩
  simp only [List.mem_cons, List.not_mem_nil, or_false] at hname
  rcases hname with rfl | rfl
  · obtain ⟨first, saved, Λ, g1, g2, g3, g4⟩ := hall 0 (by simp [Experiment.fields, callExperimentVtk])
    obtain rfl : "v0".toList = first := Option.some.inj ((callFirstVtk _ _).1.symm.trans g1)
    obtain ⟨x, hx, hxb⟩ := value Λ g4
    rw [record, hx] at g3
    exact ⟨saved, x, g2, g3, hxb⟩
  · obtain ⟨first, saved, Λ, g1, g2, g3, g4⟩ := hall 1 (by simp [Experiment.fields, callExperimentVtk])
    obtain rfl : "v1".toList = first := Option.some.inj ((callFirstVtk _ _).2.symm.trans g1)
    obtain ⟨x, hx, hxb⟩ := value Λ g4
    rw [record, hx] at g3
    exact ⟨saved, x, g2, g3, hxb⟩

end Verif
