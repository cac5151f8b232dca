import Verif.Props.Scattered
import Verif.Props.SurveyExample

/-!
# C116: a concrete call

The shear flow of C106 with `--interpolator nearest`, one coordinate file for the three snapshots and
no shape of the flow grid.
-/

namespace Verif

open Matrix Set

/-- The number of a sample point nearest to `z`. -/
noncomputable def nearestTo (p : NDArray ℝ) (n : ℕ) (z : Fin 2 → ℝ) : ℕ :=
  open Classical in
  if h : ∃ k < n, ∀ k' < n, ‖samplePoint p k - z‖ ≤ ‖samplePoint p k' - z‖ then h.choose else 0

theorem nearestTo_spec (p : NDArray ℝ) {n : ℕ} (hn : 0 < n) (z : Fin 2 → ℝ) :
    nearestTo p n z < n ∧ ∀ k < n, ‖samplePoint p (nearestTo p n z) - z‖ ≤ ‖samplePoint p k - z‖ := by
  have h : ∃ k < n, ∀ k' < n, ‖samplePoint p k - z‖ ≤ ‖samplePoint p k' - z‖ := by
    obtain ⟨k, h1, h2⟩ := Finset.exists_min_image (Finset.range n) (fun k => ‖samplePoint p k - z‖)
      ⟨0, Finset.mem_range.2 hn⟩
    exact ⟨k, Finset.mem_range.1 h1, fun k' hk' => h2 k' (Finset.mem_range.2 hk')⟩
  unfold nearestTo
  rw [dif_pos h]
  exact h.choose_spec

/-- Interpolation of scattered data by a nearest point. -/
noncomputable def nearestSciPy : SciPy ℝ where
  scatterBuild := fun _ _ _ => none
  scatterCall := fun _ p w q => .ok fun r => w.get [nearestTo p (w.shape.headD 0) (rowOf q 2 r)]
  gridBuild := fun _ _ _ => none
  gridCall := fun _ _ _ _ => .error .valueError

theorem nearestSciPy_blends (me : Scatter) (p : NDArray ℝ) {n : ℕ} (hn : 0 < n) (Δ : ℝ) :
    nearestSciPy.Blends me p n {z | ∃ k < n, ‖samplePoint p k - z‖ ≤ Δ} Δ :=
  C116_nearest_blends (nearestTo p n) (nearestTo_spec p hn) (fun _ _ => rfl)
    (fun w q rows hw _ => ⟨_, rfl, fun r _ => by rw [hw]; rfl⟩) Δ

/-- The contract is also met by linear interpolation: on the triangle with the corners `(0, 0)`,
`(1, 0)`, `(0, 1)`. -/
example : ∃ (sp : SciPy ℝ) (p : NDArray ℝ), sp.Blends .linear p 3
    {z | 0 ≤ z 0 ∧ 0 ≤ z 1 ∧ z 0 + z 1 ≤ 1} 1 := by
  set p : NDArray ℝ := ⟨[2, 3], fun i => if i = [0, 1] ∨ i = [1, 2] then 1 else 0⟩ with hp
  have p0 : samplePoint p 0 = ![0, 0] := by simp [samplePoint, hp]
  have p1 : samplePoint p 1 = ![1, 0] := by simp [samplePoint, hp]
  have p2 : samplePoint p 2 = ![0, 1] := by simp [samplePoint, hp]
  set bar : (Fin 2 → ℝ) → Fin 3 → ℝ := fun z => ![1 - z 0 - z 1, z 0, z 1] with hbar
  refine ⟨⟨fun _ _ _ => none, fun _ _ w q => .ok fun r => ∑ i : Fin 3, bar (rowOf q 2 r) i * w.get [i.1],
    fun _ _ _ => none, fun _ _ _ _ => .error .valueError⟩, p,
    C116_linear_blends (c := fun _ i => i.1) (fun _ i => i.2) (fun _ => 0) bar ?_ ?_
      (fun _ _ => rfl) (fun w q rows _ _ => ⟨_, rfl, fun _ _ _ => rfl⟩)⟩
  · rintro z ⟨h0, h1, h2⟩
    refine ⟨fun i => ?_, ?_, ?_⟩
    · fin_cases i
      · show 0 ≤ 1 - z 0 - z 1
        linarith
      · exact h0
      · exact h1
    · simp only [hbar, Fin.sum_univ_three]
      show 1 - z 0 - z 1 + z 0 + z 1 = 1
      ring
    · funext c
      fin_cases c <;> simp [hbar, Fin.sum_univ_three, p0, p1, p2]
  · intro a i j
    rw [pi_norm_le_iff_of_nonneg (by norm_num)]
    intro c
    fin_cases i <;> fin_cases j <;> fin_cases c <;> simp [p0, p1, p2]

/-- The lists of files of the call. -/
def scatTexts (p : Str) : Option Str :=
  if p = ['V'] then some "v0\nv1\nv0\n".toList
  else if p = ['C'] then some "c0\n".toList
  else if p = ['P'] then some "p\n".toList
  else none

/-- The options of the call. -/
def scatOptions : List (Opt × Str) :=
  [(.experimentName, "run".toList), (.listVelocityFiles, ['V']), (.listCoordinateFiles, ['C']),
    (.listParticleFiles, ['P']), (.snapshotTimestep, "0.01".toList),
    (.flowMapPeriod, "0.01".toList), (.integrator, "ab2".toList), (.interpolator, "nearest".toList),
    (.outputFormat, "mat".toList)]

/-- The command line. -/
def scatArgv : List Str := scatOptions.flatMap fun e => [e.1.name, e.2]

/-- What it asks for. -/
noncomputable def scatExperiment : Experiment ℝ :=
  { surveyExperiment with coordinate := ["c0".toList], interpolator := "nearest", flowGrid := none }

theorem scatSays : Says asciiData scatArgv scatOptions := by
  have hn : ∀ o, Names (Opt.name o) o := by
    intro o
    refine ⟨?_, fun o' => ?_⟩
    · have : ∀ o ∈ Opt.all, "--".toList.isPrefixOf o.name = true := by decide +kernel
      rw [← List.isPrefixOf_iff_prefix]
      exact this o (by cases o <;> decide)
    · have : ∀ o ∈ Opt.all, ∀ o' ∈ Opt.all, o.name.isPrefixOf o'.name = true ↔ o' = o := by
        decide +kernel
      rw [← List.isPrefixOf_iff_prefix]
      exact this o (by cases o <;> decide) o' (by cases o' <;> decide)
  have hp : ∀ e ∈ scatOptions, e.1 ≠ .help ∧ ¬ "-".toList <+: e.2 := by decide +kernel
  unfold scatArgv
  generalize scatOptions = l at hp
  induction l with
  | nil => exact .nil
  | cons e l ih =>
    obtain ⟨h1, h2⟩ := hp e (by simp)
    exact .pair (.inl (hn e.1)) h1 (.inl h2) (ih fun x hx => hp x (by simp [hx]))

theorem scatFromFile (items : Str → Option (List (Str × CfgValue))) :
    FromFile items scatArgv scatOptions [] := by
  refine .inl ⟨fun p hp => ?_, rfl⟩
  have := hp.mem
  simp [scatOptions] at this

theorem scatAsks : Asks asciiData surveyFloat scatTexts (fun _ _ => .ok 2)
    ([] ++ scatOptions) scatExperiment := by
  have last : ∀ (a b : List (Opt × Str)) (o : Opt) (v : Str), (∀ e ∈ b, e.1 ≠ o) →
      LastValue (a ++ (o, v) :: b) o v := fun a b o v h => ⟨a, b, rfl, fun w hw => h _ hw rfl⟩
  have fl : surveyFloat "0.01".toList = some (1 / 100) := if_pos rfl
  refine ⟨?_, last [] _ _ _ (by decide), ⟨['V'], last (scatOptions.take 1) _ _ _ (by decide), rfl⟩,
    ⟨['C'], last (scatOptions.take 2) _ _ _ (by decide), rfl⟩,
    ⟨['P'], last (scatOptions.take 3) _ _ _ (by decide), rfl⟩,
    ⟨_, last (scatOptions.take 4) _ _ _ (by decide), fl⟩,
    ⟨_, _, last (scatOptions.take 5) _ _ _ (by decide), fl, rfl⟩,
    last (scatOptions.take 6) _ _ _ (by decide),
    last (scatOptions.take 7) _ _ _ (by decide), last (scatOptions.take 8) [] _ _ (by decide),
    .inr ⟨by simp [scatOptions], rfl⟩, .inr ⟨by simp [scatOptions], rfl⟩,
    .inr ⟨by simp [scatOptions], rfl⟩⟩
  intro e he
  simp only [scatOptions, List.nil_append, List.mem_cons, List.not_mem_nil, or_false] at he
  rcases he with rfl | rfl | rfl | rfl | rfl | rfl | rfl | rfl | rfl
  · exact ⟨_, rfl⟩
  · exact ⟨_, rfl⟩
  · exact ⟨_, rfl⟩
  · exact ⟨_, rfl⟩
  · exact ⟨(1 / 100 : ℝ), fl⟩
  · exact ⟨(1 / 100 : ℝ), fl⟩
  · exact ⟨"ab2".toList, rfl, .inr (.inr rfl)⟩
  · exact ⟨"nearest".toList, rfl, by simp⟩
  · exact ⟨"mat".toList, rfl, .inl rfl⟩

theorem scatSensible : scatExperiment.Sensible where
  plain := by
    intro f hf
    simp only [scatExperiment, surveyExperiment, List.cons_append, List.nil_append, List.mem_cons,
      List.not_mem_nil, or_false] at hf
    rcases hf with rfl | rfl | rfl | rfl | rfl <;>
      exact ⟨by decide +kernel, by decide +kernel, by decide +kernel, by decide +kernel⟩
  coordinate_ne := by simp [scatExperiment]
  particle_ne := by simp [scatExperiment, surveyExperiment]
  one_le := by simp [scatExperiment, surveyExperiment]
  enough := by simp [scatExperiment, surveyExperiment]
  shape := by simp [scatExperiment]
  processes := by simp [scatExperiment, surveyExperiment]

/-- The environment of the example. -/
noncomputable def scatEnv : Env ℝ FVal := { shearEnv with sp := nearestSciPy }

/-- The files are a survey of the shear flow; every point of the grid but its border is within `1/100`
of a sample point. -/
theorem scatData {P : Particles ℝ} (hP : readSeedParticles shearFiles "p" = .ok P) :
    ∃ C : NDArray ℝ, ScatteredSurvey shearFiles scatExperiment (fun _ => shear) 0 (fun _ => C)
      (fun _ => 801 * 801) P ∧
      ∀ z : Fin 2 → ℝ, OnAxis 801 (-4) (1 / 100) (z 0) ∧ OnAxis 801 (-4) (1 / 100) (z 1) →
        ∃ k < 801 * 801, ‖samplePoint C k - z‖ ≤ 1 * max (1 / 100) (1 / 100) := by
  obtain ⟨C, b1, b2, b3, b4⟩ := shear_coordinate (f := "c0") (.inl rfl)
  refine ⟨C, ⟨.inl rfl, fun j hj => ⟨"c0".toList, rfl, b1, b2⟩, ?_, ?_⟩, ?_⟩
  · intro j f hj
    have hf : String.ofList f = "v0" ∨ String.ofList f = "v1" := by
      have := List.mem_of_getElem? hj
      simp only [scatExperiment, surveyExperiment, List.mem_cons, List.not_mem_nil, or_false] at this
      rcases this with rfl | rfl | rfl
      · exact .inl rfl
      · exact .inr rfl
      · exact .inl rfl
    obtain ⟨V, a1, a2, a3, a4⟩ := shear_velocity hf
    refine ⟨V, a1, a2, fun k hk c => ?_⟩
    fin_cases c
    · exact a3 _
    · show V.get [1, k] = Real.sin (C.get [0, k])
      rw [a4, b3]
  · intro f hf
    simp only [scatExperiment, surveyExperiment, List.mem_cons, List.not_mem_nil, or_false] at hf
    rw [hf]
    exact hP
  · have axis : ∀ x : ℝ, OnAxis 801 (-4) (1 / 100) x →
        ∃ a : ℕ, a < 801 ∧ |(-4 + (a : ℝ) * (1 / 100)) - x| ≤ 1 / 100 := by
      rintro x ⟨h1, h2⟩
      norm_num at h2
      refine ⟨⌊(x + 4) * 100⌋₊, ?_, ?_⟩
      · rw [Nat.floor_lt (by linarith)]
        norm_num
        linarith
      · have f1 := Nat.floor_le (show 0 ≤ (x + 4) * 100 by linarith)
        have f2 := Nat.lt_floor_add_one ((x + 4) * 100)
        rw [abs_le]
        constructor <;> linarith
    rintro z ⟨h0, h1⟩
    obtain ⟨a, ha, a1⟩ := axis _ h0
    obtain ⟨b, hb, c1⟩ := axis _ h1
    refine ⟨a + 801 * b, by nlinarith, ?_⟩
    rw [pi_norm_le_iff_of_nonneg (by norm_num)]
    have e0 : (a + 801 * b) % 801 = a := by omega
    have e1 : (a + 801 * b) / 801 = b := by omega
    intro c
    fin_cases c
    · show |C.get [0, a + 801 * b] - z 0| ≤ _
      rw [b3, e0]
      simpa using a1
    · show |C.get [1, a + 801 * b] - z 1| ≤ _
      rw [b4, e1]
      simpa using c1

/-- The call starts, runs to its end, and leaves two files with one record each: the origin, and a
value within `1/2` of `100 ln σ`. -/
example : ∃ (σ : ℝ) (st : Started ℝ FVal) (rs : _), 1 ≤ σ ∧
    (startCommand asciiData surveyFloat (fun _ => []) scatTexts (fun _ _ => .ok 2) id surveyDisk
      scatArgv).2.2 = .ok st ∧
    ∀ name ∈ ["ftle_v0.mat", "ftle_v1.mat"], ∃ (saved : Saved ℝ FVal) (Λ : ℝ),
      ((startCommand asciiData surveyFloat (fun _ => []) scatTexts (fun _ _ => .ok 2) id surveyDisk
        scatArgv : _ × _ × Except Stop (Started ℝ FVal)).1.writeFiles st.folder
          (st.files id rs [1, 0])).1.node
        [tmpName, "outputs".toList, "run".toList, name.toList] = some (.file saved) ∧
      saved.Says [(.fin Λ, [0, 0])] ∧ |Λ - 100 * Real.log σ| ≤ 1 / 2 := by
  obtain ⟨seed, P, s1, s2, s3, s4⟩ := shear_seeds
  obtain ⟨X, σ, hσ, res⟩ := surveyResolved s4
  obtain ⟨C, sv, cover⟩ := scatData s3
  have res' : ScatteredResolved scatExperiment (fun _ => shear) 0 (fun _ => C) (fun _ => 801 * 801)
      (fun _ => {z | ∃ k < 801 * 801, ‖samplePoint C k - z‖ ≤ 1 * max (1 / 100) (1 / 100)})
      (1 * max (1 / 100) (1 / 100)) 1 1 0 2 1 (groupOf seed 4 1 2) X (fun _ _ => σ) :=
    ⟨res.two_le, res.step, by rw [one_mul]; exact res.small,
      fun i _ g _ b j _ k _ => shear_lipschitz _ _, res.trajectories,
      fun i hi g hg b j hj z hz => cover z (res.inside i hi g hg b j hj z hz),
      by rw [one_mul (1 * max (1 / 100 : ℝ) (1 / 100))]; exact res.stretching⟩
  have blends : ∀ j < scatExperiment.velocity.length, scatEnv.sp.Blends .nearest C (801 * 801)
      {z | ∃ k < 801 * 801, ‖samplePoint C k - z‖ ≤ 1 * max (1 / 100) (1 / 100)}
      (1 * max (1 / 100) (1 / 100)) := fun j _ => nearestSciPy_blends _ _ (by norm_num) _
  obtain ⟨st, H, s₀, h1, h2, -, h4⟩ := C105_starts (F := FVal) asciiData surveyFloat (fun _ => [])
    scatTexts (fun _ _ => .ok 2) id asciiData_lawful (by simp) scatSays (scatFromFile _)
    scatAsks scatSensible (by decide) surveyDisk scatEnv (fun _ _ => 7)
  obtain ⟨bs, s, rs, h5, h6, -⟩ := C116_completes asciiData surveyFloat (fun _ => [])
    scatTexts (fun _ _ => .ok 2) id asciiData_lawful (by simp) scatSays (scatFromFile _)
    scatAsks scatSensible (by decide) surveyDisk (env := scatEnv) ⟨rfl, rfl, rfl⟩ (me := .nearest) rfl
    rfl rfl sv blends (.inl rfl) s1 s2 res' (fun _ _ => 7) h1 h2 h4 .nil (by simp) 0 0
  have order : inRunOrder scatExperiment.timestep scatExperiment.velocity = ["v0", "v1", "v0"] :=
    surveyOrder
  have hall := C116_values asciiData surveyFloat (fun _ => [])
    scatTexts (fun _ _ => .ok 2) id asciiData_lawful (by simp) scatSays (scatFromFile _)
    scatAsks scatSensible (by decide) surveyDisk (env := scatEnv) ⟨rfl, rfl, rfl⟩
    (by rw [order]; decide +kernel) (by rw [order]; decide +kernel) surveyTakes (me := .nearest) rfl rfl
    rfl sv blends (.inl rfl) s1 s2 res' (fun _ _ => 7) h1 h2 h4 h5 h6 [1, 0] (by decide) id
  have w1 : groupOf seed 4 1 2 0 1 0 - groupOf seed 4 1 2 0 0 0 = 2 := by
    simp [s4, cross2]; norm_num
  have w2 : groupOf seed 4 1 2 0 2 1 - groupOf seed 4 1 2 0 3 1 = 2 := by
    simp [s4, cross2]; norm_num
  have value : ∀ Λ : ℝ, Near Λ ((scatExperiment.snapshots - 1) * |scatExperiment.timestep|) σ
      (stretchError2 (1 * (1 * max (1 / 100) (1 / 100))) 1 1 0 scatExperiment.timestep
        scatExperiment.snapshots (groupOf seed 4 1 2 0)) → |Λ - 100 * Real.log σ| ≤ 1 / 2 := by
    intro Λ h3
    unfold Near stretchError2 at h3
    rw [w1, w2] at h3
    have e1 : scatExperiment.timestep = 1 / 100 := rfl
    have e2 : scatExperiment.snapshots = 2 := rfl
    rw [e1, e2] at h3
    have hb : 4 * posError (1 * (1 * max (1 / 100) (1 / 100))) 1 1 0 (1 / 100) 2 *
        (1 / |(2 : ℝ)| + 1 / |(2 : ℝ)|) ≤ 1 / 400 := by
      unfold posError; norm_num [abs_of_pos]
    set β := 4 * posError (1 * (1 * max (1 / 100) (1 / 100))) 1 1 0 (1 / 100) 2 *
      (1 / |(2 : ℝ)| + 1 / |(2 : ℝ)|)
    have hT : 1 / ((((2 : ℕ) : ℝ) - 1) * |(1 / 100 : ℝ)|) = 100 := by norm_num [abs_of_pos]
    rw [hT] at h3
    refine h3.trans ?_
    have : β / (σ - β) ≤ 1 / 200 := by
      rw [div_le_div_iff₀ (by linarith) (by norm_num)]
      linarith
    linarith
  have record : ∀ Λ : ℕ → ℝ, (List.range 1).map
      (fun g => groupRecordAt (Λ g) (groupOf seed 4 1 2 g)) = [(FVal.fin (Λ 0), [0, 0])] := by
    intro Λ
    simp [groupRecordAt, s4, cross2, Fin.sum_univ_four]
  have first_eq : ∀ i, scatExperiment.first i = i := surveyFirst
  refine ⟨σ, st, rs, hσ, h1, fun name hname => ?_⟩
  simp only [List.mem_cons, List.not_mem_nil, or_false] at hname
  rcases hname with rfl | rfl
  · obtain ⟨first, saved, Λ, g1, g2, g3, g4⟩ := hall 0
      (by simp [Experiment.fields, scatExperiment, surveyExperiment])
    rw [first_eq] at g1
    obtain rfl : "v0".toList = first := Option.some.inj g1
    rw [record] at g3
    exact ⟨saved, Λ 0, g2, g3, value _ (g4 0 one_pos)⟩
  · obtain ⟨first, saved, Λ, g1, g2, g3, g4⟩ := hall 1
      (by simp [Experiment.fields, scatExperiment, surveyExperiment])
    rw [first_eq] at g1
    obtain rfl : "v1".toList = first := Option.some.inj g1
    rw [record] at g3
    exact ⟨saved, Λ 0, g2, g3, value _ (g4 0 one_pos)⟩

end Verif
