import Verif.Props.Contents
import Verif.Props.DualityExample

/-!
# C127: cases
-/

namespace Verif

/-- The files of `pumpFiles` and copies: `d/…` and `c2`. -/
noncomputable def pumpCopies : MatFS ℝ := fun path =>
  pumpFiles (if path = "c2" ∨ path = "d/c" then "c" else if path = "d/v0" then "v0"
    else if path = "d/v1" ∨ path = "w1" then "v1" else if path = "d/p" then "p" else path)

/-- The hypotheses of C127 hold: the data have been moved into a folder and the coordinates copied. -/
theorem pump_copies : SameContents pumpFiles pumpForward pumpCopies
    (⟨["d/v0", "d/v1"], ["d/c", "c2"], "d/p", 1, "d/v0", false⟩ : FileSource ℝ) where
  snapshots := by simp [pumpForward, pumpCopies]
  coordinates := by simp [pumpForward, pumpCopies]
  seeds := by simp [pumpForward, pumpCopies]
  timestep := rfl

example : ((⟨.file ⟨["d/v0", "d/v1"], ["d/c", "c2"], "d/p", 1, "d/v0", false⟩,
    .highPerf (HighPerf.fresh [9, 9]), .fresh .euler⟩ : Solver ℝ).run { pumpEnv with fs := pumpCopies }
    false none).result = .ok (some [.fin (Real.log 2)]) :=
  (C127_names_partial pumpEnv pump_copies rfl false false _ _ rfl).trans pump_euler

/-- **C127 is false of the code (fast interpolator).**  Two task descriptions listing files with the same
contents: with the sample points in two copies the run reports log 2; with one file listed twice it raises,
because only then are the coordinates read once. -/
theorem C127_fast_fails : ∃ s s' : FileSource ℝ,
    FileSource.create id ["v0", "v1"] ["c", "c2"] "p" 1 = .ok s ∧
    FileSource.create id ["v0", "v1"] ["c", "c"] "p" 1 = .ok s' ∧
    SameContents pumpCopies s pumpCopies s' ∧
    ((⟨.file s, .highPerf (HighPerf.fresh [9, 9]), .fresh .euler⟩ : Solver ℝ).run
      { pumpEnv with fs := pumpCopies } false none).result = .ok (some [.fin (Real.log 2)]) ∧
    ∃ e, ((⟨.file s', .highPerf (HighPerf.fresh [9, 9]), .fresh .euler⟩ : Solver ℝ).run
      { pumpEnv with fs := pumpCopies } false none).result = .error e := by
  refine ⟨_, _, rfl, rfl, ⟨rfl, ?_, rfl, rfl⟩, ?_, ?_⟩
  · simp [pumpCopies]
  · have h : SameContents pumpFiles pumpForward pumpCopies
        (⟨["v0", "v1"], ["c", "c2"], "p", 1, "v0", false⟩ : FileSource ℝ) :=
      ⟨by simp [pumpForward, pumpCopies], by simp [pumpForward, pumpCopies],
        by simp [pumpForward, pumpCopies], rfl⟩
    exact (C127_names_partial pumpEnv h rfl false false _ _ rfl).trans pump_euler
  · exact C35_fast_static_fails _ false none rfl le_rfl _ _

/-- The same two descriptions with an interpolator for scattered data: the results are equal. -/
example (t : ScatterState ℝ) (G : Integ ℝ) :
    ((⟨.file ⟨["v0", "v1"], ["c", "c"], "p", 1, "v0", true⟩, .scatter t, G⟩ : Solver ℝ).run
      { pumpEnv with fs := pumpCopies } false none).result =
    ((⟨.file ⟨["v0", "v1"], ["c", "c2"], "p", 1, "v0", false⟩, .scatter t, G⟩ : Solver ℝ).run
      { pumpEnv with fs := pumpCopies } false none).result :=
  C127_scattered_partial { pumpEnv with fs := pumpCopies } (fs' := pumpCopies)
    (s := ⟨["v0", "v1"], ["c", "c2"], "p", 1, "v0", false⟩)
    (s' := ⟨["v0", "v1"], ["c", "c"], "p", 1, "v0", true⟩) ⟨rfl, by simp [pumpCopies], rfl, rfl⟩ (.inr (by simp [pumpCopies])) false false t G rfl

/-- The hypotheses of the theorem on periodic data hold: the snapshots alternate. -/
example : ∃ tasks, (⟨["v0", "v1", "d/v0", "d/v1"], ["c", "c2"], ["p"], 1⟩ : Manager ℝ).createBatches id 2 =
      .ok tasks ∧ tasks.length = 3 ∧
    ∀ i t t', tasks[i]? = some t → tasks[i + 2]? = some t' →
      ∀ (queue queue' : Bool) (I0 : AnyInterp ℝ) (G : Integ ℝ),
      ((⟨.file t', I0, G⟩ : Solver ℝ).run { pumpEnv with fs := pumpCopies } queue' none).result =
        ((⟨.file t, I0, G⟩ : Solver ℝ).run { pumpEnv with fs := pumpCopies } queue none).result :=
  C127_periodic (q := 2) { pumpEnv with fs := pumpCopies } id ⟨["v0", "v1", "d/v0", "d/v1"], ["c", "c2"], ["p"], 1⟩
    (by norm_num) (by simp) (by simp) (.inr (by decide))
    (fun k f g hf hg => by
      rcases k with _ | _ | k
      · simp at hf hg; subst hf hg; simp [pumpCopies]
      · simp at hf hg; subst hf hg; simp [pumpCopies]
      · simp at hg)
    (by simp [pumpCopies]) (by simp)

/-- The hypotheses of the theorem on steady data hold. -/
example : ∃ tasks, (⟨["v1", "d/v1", "w1"], ["c", "c2"], ["p"], 1⟩ : Manager ℝ).createBatches id 2 =
      .ok tasks ∧ tasks.length = 2 ∧
    ∀ t ∈ tasks, ∀ t' ∈ tasks, ∀ (queue queue' : Bool) (I0 : AnyInterp ℝ) (G : Integ ℝ),
      ((⟨.file t', I0, G⟩ : Solver ℝ).run { pumpEnv with fs := pumpCopies } queue' none).result =
        ((⟨.file t, I0, G⟩ : Solver ℝ).run { pumpEnv with fs := pumpCopies } queue none).result :=
  C127_steady { pumpEnv with fs := pumpCopies } id ⟨["v1", "d/v1", "w1"], ["c", "c2"], ["p"], 1⟩
    (by norm_num) (by simp) (by simp) (.inr (by decide)) (by simp [pumpCopies]) (by simp [pumpCopies])
    (by simp)

end Verif
