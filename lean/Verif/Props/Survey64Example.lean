import Verif.Props.Survey64
import Verif.Props.SurveyExample
import Verif.Props.Grid64x3Example

/-!
# C115: concrete calls

The shear flow `(0, x)` of C87 in three snapshots `2^-10` apart, the four seeds at distance 1 from the
origin, backward in time; and the shear flow `(0, x, 0)` of C113 with six seeds, forward.  Each call
asks for two fields.
-/

namespace Verif

open Matrix Set

/-! ## The command line -/

/-- A stand-in for `float` that can read two numbers. -/
def callFloat64 (s : Str) : Option Fl :=
  if s = "0.0009765625".toList then some ⟨1 / 1024⟩
  else if s = "-0.0009765625".toList then some ⟨-1 / 1024⟩
  else none

/-- The options of the calls. -/
def callOptions64 (step grid : Str) : List (Opt × Str) :=
  [(.experimentName, "run".toList), (.listVelocityFiles, ['V']), (.listCoordinateFiles, ['C']),
    (.listParticleFiles, ['P']), (.snapshotTimestep, step),
    (.flowMapPeriod, "0.0009765625".toList), (.integrator, "rk4".toList),
    (.interpolator, "grid".toList), (.outputFormat, "mat".toList), (.flowGridShape, grid)]

/-- The command lines: `--OPTION=VALUE ...`. -/
def callArgv64 (step grid : Str) : List Str :=
  (callOptions64 step grid).map fun e => e.1.name ++ '=' :: e.2

/-- What they ask for. -/
def callExperiment64 (h : Fl) (shape : List ℕ) : Experiment Fl where
  name := "run".toList
  velocity := ["v0".toList, "v1".toList, "v0".toList]
  coordinate := ["c0".toList, "c1".toList]
  particle := [['p']]
  timestep := h
  snapshots := 2
  integrator := "rk4"
  interpolator := "grid"
  format := "mat"
  processes := 1
  flowGrid := some shape
  particlesGrid := none

theorem callSays64 (step grid : Str) :
    Says asciiData (callArgv64 step grid) (callOptions64 step grid) := by
  have hn : ∀ o, Names (Opt.name o) o := by
    intro o
    refine ⟨?_, fun o' => ?_⟩
    · have : ∀ o ∈ Opt.all, "--".toList.isPrefixOf o.name = true := by decide +kernel
      rw [← List.isPrefixOf_iff_prefix]
      exact this o (by cases o <;> decide)
    · have : ∀ o ∈ Opt.all, ∀ o' ∈ Opt.all, o.name.isPrefixOf o'.name = true ↔ o' = o := by
        decide +kernel
      rw [← List.isPrefixOf_iff_prefix]
      exact this o (by cases o <;> decide) o' (by cases o' <;> decide)
  have hp : ∀ e ∈ callOptions64 step grid, e.1 ≠ .help := by simp [callOptions64]
  unfold callArgv64
  generalize callOptions64 step grid = l at hp
  induction l with
  | nil => exact .nil
  | cons e l ih => exact .glued (.inl (hn e.1)) (hp e (by simp)) (ih fun x hx => hp x (by simp [hx]))

theorem callFromFile64 (items : Str → Option (List (Str × CfgValue))) (step grid : Str) :
    FromFile items (callArgv64 step grid) (callOptions64 step grid) [] := by
  refine .inl ⟨fun p hp => ?_, rfl⟩
  have := hp.mem
  simp [callOptions64] at this

theorem callAsks64 {step grid : Str} {h : Fl} {t : List ℤ} (hh : callFloat64 step = some h)
    (shape : ShapeLiteral asciiData grid t) :
    Asks asciiData callFloat64 surveyTexts (fun _ _ => .ok 2) ([] ++ callOptions64 step grid)
      (callExperiment64 h (t.map Int.toNat)) := by
  have last : ∀ (a b : List (Opt × Str)) (o : Opt) (v : Str), (∀ e ∈ b, e.1 ≠ o) →
      LastValue (a ++ (o, v) :: b) o v := fun a b o v h => ⟨a, b, rfl, fun w hw => h _ hw rfl⟩
  have fl : callFloat64 "0.0009765625".toList = some ⟨1 / 1024⟩ := if_pos rfl
  refine ⟨?_, last [] _ _ _ (by simp),
    ⟨['V'], last ((callOptions64 step grid).take 1) _ _ _ (by simp), rfl⟩,
    ⟨['C'], last ((callOptions64 step grid).take 2) _ _ _ (by simp), rfl⟩,
    ⟨['P'], last ((callOptions64 step grid).take 3) _ _ _ (by simp), rfl⟩,
    ⟨_, last ((callOptions64 step grid).take 4) _ _ _ (by simp), hh⟩,
    ⟨_, _, last ((callOptions64 step grid).take 5) _ _ _ (by simp), fl, rfl⟩,
    last ((callOptions64 step grid).take 6) _ _ _ (by simp),
    last ((callOptions64 step grid).take 7) _ _ _ (by simp),
    last ((callOptions64 step grid).take 8) _ _ _ (by simp),
    .inr ⟨by simp [callOptions64], rfl⟩,
    .inl ⟨_, _, last ((callOptions64 step grid).take 9) [] _ _ (by simp), shape, rfl⟩,
    .inr ⟨by simp [callOptions64], rfl⟩⟩
  intro e he
  simp only [callOptions64, List.nil_append, List.mem_cons, List.not_mem_nil, or_false] at he
  rcases he with rfl | rfl | rfl | rfl | rfl | rfl | rfl | rfl | rfl | rfl
  · exact ⟨_, rfl⟩
  · exact ⟨_, rfl⟩
  · exact ⟨_, rfl⟩
  · exact ⟨_, rfl⟩
  · exact ⟨h, hh⟩
  · exact ⟨(⟨1 / 1024⟩ : Fl), fl⟩
  · exact ⟨"rk4".toList, rfl, .inl rfl⟩
  · exact ⟨"grid".toList, rfl, .inr (.inr (.inr rfl))⟩
  · exact ⟨"mat".toList, rfl, .inl rfl⟩
  · exact ⟨t, shape⟩

theorem callSensible64 (h : Fl) (shape : List ℕ) : (callExperiment64 h shape).Sensible where
  plain := by
    intro f hf
    simp only [callExperiment64, List.cons_append, List.nil_append, List.mem_cons, List.not_mem_nil,
      or_false] at hf
    rcases hf with rfl | rfl | rfl | rfl | rfl | rfl <;>
      exact ⟨by decide +kernel, by decide +kernel, by decide +kernel, by decide +kernel⟩
  coordinate_ne := by simp [callExperiment64]
  particle_ne := by simp [callExperiment64]
  one_le := by simp [callExperiment64]
  enough := by simp [callExperiment64]
  shape := by simp [callExperiment64]
  processes := by simp [callExperiment64]

/-- The disk of the example: an empty working directory. -/
def callDisk64 : Disk (Saved Fl Val64) := diskOf [tmpName] [([], .dir), ([tmpName], .dir)] []

/-- The list of files reads the same in both directions. -/
theorem callOrder64 (h : Fl) (shape : List ℕ) :
    inRunOrder (callExperiment64 h shape).timestep (callExperiment64 h shape).velocity =
      ["v0", "v1", "v0"] := by
  unfold inRunOrder
  split <;> rfl

theorem callTakes64 (h : Fl) (shape : List ℕ) :
    callDisk64.Takes ("outputs/".toList ++ (callExperiment64 h shape).name)
      ((callExperiment64 h shape).fileNames id) := by
  have names : (callExperiment64 h shape).fileNames id =
      ["ftle_v0.mat".toList, "ftle_v1.mat".toList] := by
    unfold Experiment.fileNames
    rw [callOrder64]
    rfl
  have way : callDisk64.way ("outputs/".toList ++ (callExperiment64 h shape).name) =
      [[tmpName], [tmpName, "outputs".toList], [tmpName, "outputs".toList, "run".toList]] := by rfl
  have target : callDisk64.target ("outputs/".toList ++ (callExperiment64 h shape).name) =
      [tmpName, "outputs".toList, "run".toList] := by rfl
  refine ⟨diskOf_tree rfl rfl ?_, .inl (by show ['.', '.'] ∉ namesIn ("outputs/".toList ++ "run".toList); decide +kernel), ?_, rfl, ?_⟩
  · intro e he
    simp only [List.mem_cons, List.not_mem_nil, or_false] at he
    rcases he with rfl | rfl
    · exact .inl rfl
    · exact .inr rfl
  · rw [way]
    intro x hx
    simp only [List.mem_cons, List.not_mem_nil, or_false] at hx
    rcases hx with rfl | rfl | rfl
    · exact .inl rfl
    · exact .inr ⟨rfl, rfl⟩
    · exact .inr ⟨rfl, rfl⟩
  · rw [way, target, names]
    intro n hn
    simp only [List.mem_cons, List.not_mem_nil, or_false] at hn
    rcases hn with rfl | rfl
    · refine ⟨?_, rfl, by decide⟩
      rw [show callDisk64.node _ = none from rfl]
      simp
    · refine ⟨?_, rfl, by decide⟩
      rw [show callDisk64.node _ = none from rfl]
      simp

/-- Field 0 starts at the first or the last file, field 1 at the second. -/
theorem callFirst64 (h : Fl) (shape : List ℕ) :
    (callExperiment64 h shape).velocity[(callExperiment64 h shape).first 0]? = some "v0".toList ∧
    (callExperiment64 h shape).velocity[(callExperiment64 h shape).first 1]? = some "v1".toList := by
  unfold Experiment.first
  split <;> exact ⟨rfl, rfl⟩

/-! ## Estimates -/

theorem callSmall64 {h : ℝ} (hh : |h| = 1 / 1024) :
    SmallSteps (effError linEps linL (stepRounding 3 (1 + linEps + linL * 1) |h|) h) linL 1 0 h 2 1 ∧
    0 ≤ posError (effError linEps linL (stepRounding 3 (1 + linEps + linL * 1) |h|) h) linL 1 0 h 2 ∧
    posError (effError linEps linL (stepRounding 3 (1 + linEps + linL * 1) |h|) h) linL 1 0 h 2 ≤
      58 / 10 ^ 7 := by
  have h1 : |(1 / 1024 : ℝ)| = 1 / 1024 := abs_of_pos (by norm_num)
  obtain ⟨a, b⟩ := linGridSmall
  have e1 : effError linEps linL (stepRounding 3 (1 + linEps + linL * 1) |h|) h =
      effError linEps linL (stepRounding 3 (1 + linEps + linL * 1) (1 / 1024)) (1 / 1024) := by
    unfold effError
    rw [hh, h1]
  have e2 : ∀ ε, posError ε linL 1 0 h 2 = posError ε linL 1 0 (1 / 1024) 2 := by
    intro ε
    unfold posError
    rw [hh, h1]
  rw [e1, e2]
  refine ⟨⟨a.eps, a.lip, a.speed, a.accel, ?_, ?_, ?_⟩, ?_, b⟩
  · rw [hh, ← h1]; exact a.step
  · rw [e2]; exact a.stay
  · have := a.reach
    rw [h1] at this
    rwa [hh]
  · have := a.eps
    have := a.lip
    unfold posError
    positivity

theorem linEps_eq : gridError64 1 1 (max (1 / 1024) (1 / 1024)) 0 0 = linEps := rfl

theorem linEps_eq3 : gridError64 1 1 (max (max (1 / 1024) (1 / 1024)) (1 / 1024)) 0 0 = linEps := by
  unfold linEps gridError64
  rw [max_self, max_self]

/-! ## The plane, backward -/

/-- The experiment of the plane call. -/
abbrev planeCall : Experiment Fl := callExperiment64 ⟨-1 / 1024⟩ [8193, 8193]

theorem planeStep : planeCall.timestep.re = -(1 / 1024) := by
  norm_num [callExperiment64, Fl.re]

theorem planeData {P : Particles Fl} (hP : readSeedParticles linFiles "p" = .ok P) :
    Survey64 linFiles planeCall (fun _ => linShear) 0 8193 8193 node64 node64 (1 / 1024) (1 / 1024) 0 0
      P where
  x := lin_nodes
  y := lin_nodes
  several := by simp [callExperiment64]
  distinct := by simp only [callExperiment64]; decide
  nodes := by
    intro f hf
    have hf : String.ofList f = "c0" ∨ String.ofList f = "c1" := by
      simp only [callExperiment64, List.mem_cons, List.not_mem_nil, or_false] at hf
      rcases hf with rfl | rfl
      · exact .inl rfl
      · exact .inr rfl
    obtain ⟨C, b1, b2, b3, b4⟩ := lin_coordinate hf
    refine ⟨C, b1, b2, fun a ha b hb => ?_⟩
    rw [b3, b4, Nat.add_mul_mod_self_left, Nat.mod_eq_of_lt ha,
      Nat.add_mul_div_left _ _ (by norm_num), Nat.div_eq_of_lt ha, Nat.zero_add]
    exact ⟨rfl, rfl⟩
  samples := by
    intro j f hj
    have hf : String.ofList f = "v0" ∨ String.ofList f = "v1" := by
      have := List.mem_of_getElem? hj
      simp only [callExperiment64, List.mem_cons, List.not_mem_nil, or_false] at this
      rcases this with rfl | rfl | rfl
      · exact .inl rfl
      · exact .inr rfl
      · exact .inl rfl
    obtain ⟨V, a1, a2, a3, a4⟩ := lin_velocity hf
    refine ⟨V, a1, a2, fun a ha b hb c => ?_⟩
    refine le_of_eq (abs_eq_zero.2 ?_)
    fin_cases c
    · show (V.get [0, a + 8193 * b]).re - 0 = 0
      rw [a3]
      simp [Fl.re]
    · show (V.get [1, a + 8193 * b]).re - (node64 a).re = 0
      rw [a4, Nat.add_mul_mod_self_left, Nat.mod_eq_of_lt ha, sub_self]
  seeds := by
    intro f hf
    simp only [callExperiment64, List.mem_cons, List.not_mem_nil, or_false] at hf
    rw [hf]
    exact hP

theorem linShear_from {x : Fin 2 → ℝ} (hx : |x 0| ≤ 1) (t0 h : ℝ) (n : ℕ) :
    Along (fun _ => linShear) t0 h n 1 0 (fun t => linPath x (t - t0)) where
  trajectory := by
    intro t _
    rw [hasDerivWithinAt_pi]
    intro i
    fin_cases i
    · exact hasDerivWithinAt_const _ _ _
    · have := (((hasDerivWithinAt_id t (uIcc t0 (t0 + n * h))).sub_const t0).mul_const
        (x 0)).const_add (x 1)
      simpa [linShear, linPath] using this
  speed := by
    intro t _
    rw [pi_norm_le_iff_of_nonneg (by positivity)]
    intro c
    fin_cases c
    · simp [linShear]
    · exact hx
  accel := by
    intro s _ t _
    have : linShear (linPath x (s - t0)) = linShear (linPath x (t - t0)) := by
      simp [linShear, linPath]
    rw [this]
    simp

/-- The call resolves the flow: the bound `b` for the errors of the quotients is tiny. -/
theorem planeResolved {seed : NDArray Fl} (s4 : ∀ b, reVec (groupOf seed 4 1 2 0 b) = cross2 0 1 b)
    {σ : ℝ} (hσ : IsMaxStretch !![1, 0; -(1 / 512), 1] σ) (hσ0 : 1 ≤ σ) (hσ2 : σ ≤ 1 + 1 / 512) :
    ∃ X b, 0 ≤ b ∧ b ≤ 24 / 10 ^ 6 ∧
      Resolved64 planeCall (fun _ => linShear) 0 8193 8193 node64 node64 (1 / 1024) (1 / 1024) 0 0
        1 1 0 1 3 1 seed X (fun _ _ => !![1, 0; -(1 / 512), 1]) (fun _ _ => σ) (fun _ _ => b) := by
  have habs : |planeCall.timestep.re| = 1 / 1024 := by rw [planeStep, abs_neg, abs_of_pos (by norm_num)]
  obtain ⟨small, pe0, pe⟩ := callSmall64 habs
  have g : ∀ b c, (groupOf seed 4 1 2 0 b c).re = cross2 0 1 b c := fun b c => congrFun (s4 b) c
  have w1 : (groupOf seed 4 1 2 0 1 0).re - (groupOf seed 4 1 2 0 0 0).re = 2 := by
    rw [g, g]; simp [cross2]; norm_num
  have w2 : (groupOf seed 4 1 2 0 2 1).re - (groupOf seed 4 1 2 0 3 1).re = 2 := by
    rw [g, g]; simp [cross2]; norm_num
  set X : ℕ → ℕ → Fin 4 → ℝ → Fin 2 → ℝ := fun i _ b t =>
    linPath (cross2 0 1 b) (t - planeCall.startTime64 0 i) with hX
  set e := steadyError 2 planeCall.timestep linEps linL 1 0 1 3 with he
  have pe0 : 0 ≤ e := pe0
  have pe : e ≤ 58 / 10 ^ 7 := pe
  have hx0 : ∀ b : Fin 4, |cross2 (0 : Fin 2 → ℝ) 1 b 0| ≤ 1 ∧ |cross2 (0 : Fin 2 → ℝ) 1 b 1| ≤ 1 := by
    intro b
    fin_cases b <;> simp [cross2]
  have hpath : ∀ b : Fin 4, ∀ t : ℝ, |t| ≤ 1 / 512 → ‖linPath (cross2 0 1 b) t‖ ≤ 3 / 2 := by
    intro b t ht
    have h0 := hx0 b
    have : |t * cross2 (0 : Fin 2 → ℝ) 1 b 0| ≤ 1 / 512 * 1 := by
      rw [abs_mul]
      exact mul_le_mul ht h0.1 (abs_nonneg _) (by norm_num)
    rw [pi_norm_le_iff_of_nonneg (by norm_num)]
    intro c
    fin_cases c
    · exact h0.1.trans (by norm_num)
    · exact (abs_add_le _ _).trans (by linarith [h0.2])
  refine ⟨X, 41 / 10 * e * (1 / |(2 : ℝ)| + 1 / |(2 : ℝ)|) + 2 ^ (-53 : ℤ) * (1 + 16 * σ), ?_, ?_, ?_⟩
  · positivity
  · rw [abs_of_pos (by norm_num)]
    have : (2 : ℝ) ^ (-53 : ℤ) * (1 + 16 * σ) ≤ 2 ^ (-53 : ℤ) * 20 :=
      mul_le_mul_of_nonneg_left (by linarith) (by positivity)
    norm_num at this pe ⊢
    linarith
  refine ⟨le_rfl, ?_, ?_, zero_le_one, zero_le_one, ?_, ?_, ?_, ?_, ?_⟩
  · rw [habs]
    exact (zpow_le_zpow_right₀ (by norm_num) (by norm_num : (-500 : ℤ) ≤ -10)).trans (by norm_num)
  · rw [habs]
    refine le_trans ?_ (one_le_pow₀ (by norm_num : (1 : ℝ) ≤ 2))
    norm_num [callExperiment64]
  · rw [linEps_eq]; exact small
  · intro j _ w _ w' _
    rw [one_mul, pi_norm_le_iff_of_nonneg (norm_nonneg _)]
    intro c
    fin_cases c
    · simp [linShear]
    · exact norm_le_pi_norm (w - w') 0
  · intro i _ k hk b
    obtain rfl : k = 0 := by omega
    refine ⟨linShear_from (hx0 b).1 _ _ _, ?_, fun t ht => ?_⟩
    · rw [s4, hX]; funext c; fin_cases c <;> simp [linPath]
    · have := hpath b (t - planeCall.startTime64 0 i) (by
        rw [planeStep, uIcc_of_ge (by norm_num [callExperiment64])] at ht
        have h1 := ht.1
        have h2 := ht.2
        have h3 : (planeCall.snapshots : ℝ) = 2 := rfl
        rw [h3] at h1
        rw [abs_le]
        constructor <;> linarith)
      simp only [hX]
      linarith
  · intro i _ k hk b j hj z hz
    have hj : j < 2 := hj
    have hj' : (j : ℝ) ≤ 1 := by exact_mod_cast (by omega : j ≤ 1)
    have hj0 : (0 : ℝ) ≤ j := by positivity
    simp only [hX, add_sub_cancel_left, planeStep] at hz
    have hp := hpath b (j * (-(1 / 1024))) (by rw [abs_le]; constructor <;> linarith)
    have hz2 : ‖z‖ ≤ 5 / 2 := by
      have := norm_add_le (z - linPath (cross2 0 1 b) (j * (-(1 / 1024))))
        (linPath (cross2 0 1 b) (j * (-(1 / 1024))))
      rw [sub_add_cancel] at this
      linarith
    have h0 := abs_le.1 ((norm_le_pi_norm z 0).trans hz2)
    have h1 := abs_le.1 ((norm_le_pi_norm z 1).trans hz2)
    unfold OnAxis64
    rw [node64_re, node64_re]
    norm_num
    refine ⟨⟨?_, ?_⟩, ?_, ?_⟩ <;> linarith [h0.1, h0.2, h1.1, h1.2]
  · intro i _
    have h2 : (2 : ℝ) ^ (-500 : ℤ) ≤ |2| :=
      (zpow_le_one_of_nonpos₀ (by norm_num) (by norm_num)).trans (by norm_num)
    refine ⟨?_, ?_, ?_, ?_, ?_⟩ <;> intro k hk <;> obtain rfl : k = 0 := by omega
    · rw [w1, w2]; exact ⟨h2, h2⟩
    · simp only [hX, add_sub_cancel_left, s4, planeStep]
      ext i j
      fin_cases i <;> fin_cases j <;> simp [diffs2, cross2, linPath, callExperiment64] <;> norm_num
    · exact hσ
    · rw [w1, w2, linEps_eq]; rfl
    · have : (2 : ℝ) ^ (-200 : ℤ) ≤ 2 ^ (-1 : ℤ) := zpow_le_zpow_right₀ (by norm_num) (by norm_num)
      have h3 : (2 : ℝ) ^ (-53 : ℤ) * (1 + 16 * σ) ≤ 2 ^ (-53 : ℤ) * 20 :=
        mul_le_mul_of_nonneg_left (by linarith) (by positivity)
      rw [abs_of_pos (by norm_num : (0 : ℝ) < 2)]
      norm_num at this h3 pe ⊢
      linarith

/-- The backward call starts, runs to its end, and leaves two files with one record each: the origin,
and a number within three per cent of the exponent `1024 ln σ`, which is about 1. -/
example : ∃ (lm : Libm) (σ : ℝ) (st : Started Fl Val64) (rs : _), lm.Accurate (2 ^ (-52 : ℤ)) ∧
    IsMaxStretch !![1, 0; -(1 / 512), 1] σ ∧
    (startCommand asciiData callFloat64 (fun _ => []) surveyTexts (fun _ _ => .ok 2) id callDisk64
      (callArgv64 "-0.0009765625".toList "8193,8193".toList)).2.2 = .ok st ∧
    ∀ name ∈ ["ftle_v0.mat", "ftle_v1.mat"], ∃ (saved : Saved Fl Val64) (x : Fl),
      ((startCommand asciiData callFloat64 (fun _ => []) surveyTexts (fun _ _ => .ok 2) id callDisk64
        (callArgv64 "-0.0009765625".toList "8193,8193".toList) :
          _ × _ × Except Stop (Started Fl Val64)).1.writeFiles st.folder
          (st.files id rs [1, 0])).1.node
        [tmpName, "outputs".toList, "run".toList, name.toList] = some (.file saved) ∧
      saved.Says [(.fin x, [⟨0⟩, ⟨0⟩])] ∧ |x.re - 1024 * Real.log σ| ≤ 3 / 100 := by
  obtain ⟨lm, hm⟩ := exists_libm (κ := 2 ^ (-52 : ℤ)) (by positivity)
  obtain ⟨seed, P, s1, s2, s3, s4⟩ := lin_seeds
  obtain ⟨σ, hσ⟩ := ftle2_computes.exists_stretch !![(1 : ℝ), 0; -(1 / 512), 1]
  have hσ0 : 1 ≤ σ := by
    have := entry_le_stretch hσ 0 0
    simpa using this
  have hσ1 : 1 + 1 / 512 ≤ σ ^ 2 := by
    have h1 := maxStretch_bound hσ ![1, -1]
    have h2 := pow_le_pow_left₀ (len_nonneg _) h1 2
    rw [mul_pow, len_sq, len_sq] at h2
    simp [Matrix.mulVec, dotProduct, Fin.sum_univ_two] at h2
    norm_num at h2 ⊢
    linarith
  have hσ2 : σ ≤ 1 + 1 / 512 := by
    have := maxStretch_le_add hσ (maxStretch_one (d := 2))
    simp [Fin.sum_univ_two, Matrix.one_apply] at this
    norm_num at this ⊢
    linarith
  obtain ⟨X, b, b0, b1, res⟩ := planeResolved s4 hσ hσ0 hσ2
  have hb1 : 0 ≤ b ∧ b ≤ 24 / 10 ^ 6 := ⟨b0, b1⟩
  have parsed : (Except.toOption (convert asciiData callFloat .flowGridShape "8193,8193".toList) :
      Option (List ℤ)) = some [8193, 8193] := by decide +kernel
  have shape : ShapeLiteral asciiData "8193,8193".toList [8193, 8193] :=
    (convert_iff asciiData callFloat asciiData_lawful .flowGridShape _ _).1
      (ok_of_toOption parsed)
  have step : callFloat64 "-0.0009765625".toList = some ⟨-1 / 1024⟩ := rfl
  have asks := callAsks64 step shape
  obtain ⟨st, H, s₀, h1, h2, -, h4⟩ := C105_starts (F := Val64) asciiData callFloat64 (fun _ => [])
    surveyTexts (fun _ _ => .ok 2) id asciiData_lawful (by simp) (callSays64 _ _) (callFromFile64 _ _ _)
    asks (callSensible64 _ _) (by decide) callDisk64 (linEnv lm) (fun _ _ => ⟨7⟩)
  obtain ⟨bs, s, rs, h5, h6, -⟩ := C115_completes_2d asciiData callFloat64 (fun _ => [])
    surveyTexts (fun _ _ => .ok 2) id asciiData_lawful (by simp) (callSays64 _ _) (callFromFile64 _ _ _)
    asks (callSensible64 _ _) (by decide) callDisk64 (env := linEnv lm) ⟨rfl, rfl⟩ (.inl rfl) hm
    (by positivity) (by norm_num) rfl rfl rfl (planeData s3) (.inl rfl) s1 s2 res (fun _ _ => ⟨7⟩)
    h1 h2 h4 .nil (by simp) 0 0
  have hall := C115_values_2d asciiData callFloat64 (fun _ => [])
    surveyTexts (fun _ _ => .ok 2) id asciiData_lawful (by simp) (callSays64 _ _) (callFromFile64 _ _ _)
    asks (callSensible64 _ _) (by decide) callDisk64 (env := linEnv lm) ⟨rfl, rfl⟩ (.inl rfl) hm
    (by positivity) (by norm_num) (by
      rw [callOrder64]
      show ∀ v ∈ ["v0", "v1"], '/' ∉ v.toList
      decide +kernel)
    (by
      rw [callOrder64]
      show ["v0", "v1"].Nodup
      decide +kernel) (callTakes64 _ _) rfl rfl rfl (planeData s3) (.inl rfl) s1 s2
    res (fun _ _ => ⟨7⟩) h1 h2 h4 h5 h6 [1, 0] (by decide) id
  have value : ∀ Λ : ℕ → Val64, Good64 1 planeCall.snapshots planeCall.timestep (2 ^ (-52 : ℤ))
      (fun _ => !![1, 0; -(1 / 512), 1]) (fun _ => σ) (fun _ => b) Λ →
      ∃ x, Λ 0 = .fin x ∧ |x.re - 1024 * Real.log σ| ≤ 3 / 100 := by
    intro Λ good
    obtain ⟨c1, c2, -⟩ := good 0 one_pos
    have hbσ : b * σ ≤ 24 / 10 ^ 6 * (1 + 1 / 512) :=
      mul_le_mul hb1.2 hσ2 (by linarith) (by norm_num)
    have hq : 1 + 1 / 600 ≤ (σ - b) ^ 2 := by
      have : (σ - b) ^ 2 = σ ^ 2 - 2 * (b * σ) + b ^ 2 := by ring
      rw [this]
      have := sq_nonneg b
      norm_num at hbσ ⊢
      linarith
    have hb2 : b ^ 2 ≤ 1 / 10 ^ 5 := by
      have := pow_le_pow_left₀ hb1.1 hb1.2 2
      norm_num at this ⊢
      linarith
    have hnan := c2 (by
      rw [Matrix.det_fin_two]
      have := mul_le_mul_of_nonneg_left hq (by norm_num : (0 : ℝ) ≤ 1 - 2 ^ (-22 : ℤ))
      refine le_trans ?_ this
      norm_num at hbσ hb2 ⊢
      linarith)
    obtain ⟨x, hx, hxb⟩ := c1.resolve_left hnan
    refine ⟨x, hx, ?_⟩
    have hl0 : 0 ≤ Real.log σ := Real.log_nonneg hσ0
    have hl1 : Real.log σ ≤ 1 / 512 := (Real.log_le_sub_one_of_pos (by linarith)).trans (by linarith)
    have hd : b / (σ - b) ≤ 241 / 10 ^ 7 := by
      rw [div_le_iff₀ (by linarith [hb1.2])]
      norm_num at hb1 ⊢
      linarith [hb1.2]
    have h3 : (planeCall.snapshots : ℝ) = 2 := rfl
    rw [planeStep, abs_neg, abs_of_pos (by norm_num : (0 : ℝ) < 1 / 1024), abs_of_nonneg hl0, h3] at hxb
    norm_num at hxb hd ⊢
    refine hxb.trans ?_
    linarith
  have record : ∀ Λ : ℕ → Val64, runRecords seed 1 2 ((List.range 1).map Λ) =
      [(Λ 0, [⟨0⟩, ⟨0⟩])] := by
    intro Λ
    have val : ∀ b c, ((groupOf seed 4 1 2 0 b c).val : ℝ) = cross2 0 1 b c := fun b c =>
      congrFun (s4 b) c
    have q : ∀ b c (x : ℚ), cross2 (0 : Fin 2 → ℝ) 1 b c = (x : ℝ) → groupOf seed 4 1 2 0 b c = ⟨x⟩ := by
      intro b c x hx
      have h := val b c
      rw [hx] at h
      exact congrArg Fl.mk (Rat.cast_injective h)
    have a0 : seed.get [0, 0] = ⟨-1⟩ := q 0 0 (-1) (by simp [cross2])
    have a1 : seed.get [1, 0] = ⟨1⟩ := q 1 0 1 (by simp [cross2])
    have a2 : seed.get [2, 0] = ⟨0⟩ := q 2 0 0 (by simp [cross2])
    have a3 : seed.get [3, 0] = ⟨0⟩ := q 3 0 0 (by simp [cross2])
    have b0 : seed.get [0, 1] = ⟨0⟩ := q 0 1 0 (by simp [cross2])
    have b1 : seed.get [1, 1] = ⟨0⟩ := q 1 1 0 (by simp [cross2])
    have b2 : seed.get [2, 1] = ⟨1⟩ := q 2 1 1 (by simp [cross2])
    have b3 : seed.get [3, 1] = ⟨-1⟩ := q 3 1 (-1) (by simp [cross2])
    have c0 : ((⟨-1⟩ + ⟨1⟩ + ⟨0⟩ + ⟨0⟩) / ((4 : ℕ) : Fl) : Fl) = ⟨0⟩ := by decide +kernel
    have c1 : ((⟨0⟩ + ⟨0⟩ + ⟨1⟩ + ⟨-1⟩) / ((4 : ℕ) : Fl) : Fl) = ⟨0⟩ := by decide +kernel
    simp [runRecords, List.range_succ, a0, a1, a2, a3, b0, b1, b2, b3]
    exact ⟨c0, c1⟩
  refine ⟨lm, σ, st, rs, hm, hσ, h1, fun name hname => ?_⟩
  simp only [List.mem_cons, List.not_mem_nil, or_false] at hname
  rcases hname with rfl | rfl
  · obtain ⟨first, saved, Λ, g1, g2, g3, g4⟩ := hall 0 (by simp [Experiment.fields, callExperiment64])
    obtain rfl : "v0".toList = first := Option.some.inj ((callFirst64 _ _).1.symm.trans g1)
    obtain ⟨x, hx, hxb⟩ := value Λ g4
    rw [record, hx] at g3
    exact ⟨saved, x, g2, g3, hxb⟩
  · obtain ⟨first, saved, Λ, g1, g2, g3, g4⟩ := hall 1 (by simp [Experiment.fields, callExperiment64])
    obtain rfl : "v1".toList = first := Option.some.inj ((callFirst64 _ _).2.symm.trans g1)
    obtain ⟨x, hx, hxb⟩ := value Λ g4
    rw [record, hx] at g3
    exact ⟨saved, x, g2, g3, hxb⟩

end Verif
