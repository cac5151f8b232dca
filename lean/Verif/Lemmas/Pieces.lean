import Verif.Lemmas.Affine
import Verif.Lemmas.FlowOn
import Verif.Props.GridError

/-!
# Particles that are handed the same velocities, or velocities from one piece
-/

namespace Verif

open Matrix

section
variable {K : Type} [Add K] [Sub K] [Mul K] [Div K] [NumLits K] {d : ℕ}

theorem rowStep_congr {k : Kind} {g g' : (Fin d → K) → Fin d → K} {h : K} {prev : Option (Fin d → K)}
    {x : Fin d → K} (hg : ∀ z ∈ stages k g h x, g z = g' z) :
    rowStep k g h prev x = rowStep k g' h prev x ∧ nextPrev k g x = nextPrev k g' x := by
  cases k with
  | euler =>
    have := hg x (by simp [stages])
    exact ⟨by simp only [rowStep, this], rfl⟩
  | ab2 =>
    have := hg x (by simp [stages])
    refine ⟨?_, by simp only [nextPrev, this]⟩
    cases prev <;> simp only [rowStep, this]
  | rk4 =>
    have e1 := hg x (by simp [stages])
    have e2 := hg _ (show (fun c => x c + (NumLits.half * h) * g x c) ∈ stages .rk4 g h x by
      simp [stages])
    have e3 := hg _ (show (fun c => x c + (NumLits.half * h) *
      g (fun c => x c + (NumLits.half * h) * g x c) c) ∈ stages .rk4 g h x by simp [stages])
    have e4 := hg _ (show (fun c => x c + h * g (fun c => x c + (NumLits.half * h) *
      g (fun c => x c + (NumLits.half * h) * g x c) c) c) ∈ stages .rk4 g h x by simp [stages])
    refine ⟨?_, rfl⟩
    rw [e2] at e3
    rw [e2, e3] at e4
    rw [e1] at e2 e3 e4
    simp only [rowStep, e1, e2, e3, e4]

/-- Two velocities that agree at the points where the method asks for them give the same run. -/
theorem flowMap_congr {k : Kind} {g g' : ℕ → (Fin d → K) → Fin d → K} {h : K} {x : Fin d → K} {n : ℕ}
    (hg : ∀ j < n, ∀ z ∈ stages k (g j) h (flowMap k g h j x), g j z = g' j z) :
    flowMap k g h n x = flowMap k g' h n x ∧ flowPrev k g h x n = flowPrev k g' h x n := by
  induction n with
  | zero => exact ⟨rfl, rfl⟩
  | succ n ih =>
    obtain ⟨i1, i2⟩ := ih fun j hj => hg j (by omega)
    have s := rowStep_congr (prev := flowPrev k g h x n) (hg n (by omega))
    refine ⟨?_, ?_⟩
    · rw [flowMap_succ, flowMap_succ, s.1, i1, i2]
    · simp only [flowPrev]
      rw [s.2, i1]

end

variable {d : ℕ}

theorem rowStep_together {k : Kind} {g : (Fin d → ℝ) → Fin d → ℝ} {h : ℝ} {prev : Option (Fin d → ℝ)}
    {x y : Fin d → ℝ} (hg : (stages k g h x).map g = (stages k g h y).map g) :
    rowStep k g h prev x - rowStep k g h prev y = x - y ∧ nextPrev k g x = nextPrev k g y := by
  cases k with
  | euler =>
    simp only [stages, List.map_cons, List.map_nil, List.cons.injEq, and_true] at hg
    refine ⟨?_, rfl⟩
    funext c
    simp only [rowStep, hg, Pi.sub_apply]
    ring
  | ab2 =>
    simp only [stages, List.map_cons, List.map_nil, List.cons.injEq, and_true] at hg
    refine ⟨?_, by simp only [nextPrev, hg]⟩
    funext c
    cases prev <;> simp only [rowStep, hg, Pi.sub_apply] <;> ring
  | rk4 =>
    simp only [stages, List.map_cons, List.map_nil, List.cons.injEq, and_true] at hg
    obtain ⟨e1, e2, e3, e4⟩ := hg
    refine ⟨?_, rfl⟩
    funext c
    have f1 := congrFun e1 c
    have f2 := congrFun e2 c
    have f3 := congrFun e3 c
    have f4 := congrFun e4 c
    simp only [rowStep, Pi.sub_apply]
    linear_combination (h / NumLits.six) * (f1 + NumLits.two * f2 + NumLits.two * f3 + f4)

/-- Two particles that are handed the same velocities keep their difference. -/
theorem flowMap_together {k : Kind} {g : ℕ → (Fin d → ℝ) → Fin d → ℝ} {h : ℝ} {x y : Fin d → ℝ} {n : ℕ}
    (hg : ∀ j < n, (stages k (g j) h (flowMap k g h j x)).map (g j) =
      (stages k (g j) h (flowMap k g h j y)).map (g j)) :
    flowMap k g h n x - flowMap k g h n y = x - y ∧ flowPrev k g h x n = flowPrev k g h y n := by
  induction n with
  | zero => exact ⟨rfl, rfl⟩
  | succ n ih =>
    obtain ⟨i1, i2⟩ := ih fun j hj => hg j (by omega)
    have s := rowStep_together (prev := flowPrev k g h x n) (hg n (by omega))
    refine ⟨?_, by simp only [flowPrev]; exact s.2⟩
    rw [flowMap_succ, flowMap_succ, ← i2, s.1, i1]

/-- The values of a field, from the matrices of its groups. -/
theorem field_values {f : List (Matrix (Fin d) (Fin d) ℝ) → ℝ → Py (List FVal)}
    (hf : ComputesFtle f) {N : ℕ} {T : ℝ} (hT : T ≠ 0) {D : ℕ → Matrix (Fin d) (Fin d) ℝ} :
    ∃ vs, f ((List.range N).map D) T = .ok vs ∧ vs.length = N ∧
      ∀ i < N, ∃ σ, IsMaxStretch (D i) σ ∧ vs[i]? = some (ftleVal σ T) := by
  obtain ⟨vs, h1, h2⟩ := hf.value ((List.range N).map D) T hT
  have hl : vs.length = N := by rw [← h2.length_eq, List.length_map, List.length_range]
  refine ⟨vs, h1, hl, fun i hi => ?_⟩
  have := h2.get (i := i) (by simpa using hi) (by omega)
  simp only [List.get_eq_getElem, List.getElem_map, List.getElem_range] at this
  obtain ⟨σ, s1, s2⟩ := this
  exact ⟨σ, s1, by rw [List.getElem?_eq_getElem (by omega), s2]⟩

theorem centralDiff2_some (X : Fin 4 → Fin 2 → ℝ) {x : Fin 4 → Fin 2 → ℝ} (h1 : x 1 0 ≠ x 0 0)
    (h2 : x 2 1 ≠ x 3 1) : ∃ D, centralDiff2 X x = .ok D :=
  ⟨_, centralDiff2_ok.2 ⟨⟨sub_ne_zero.2 h1, sub_ne_zero.2 h2⟩, rfl⟩⟩

theorem centralDiff3_some (X : Fin 6 → Fin 3 → ℝ) {x : Fin 6 → Fin 3 → ℝ} (h1 : x 1 0 ≠ x 0 0)
    (h2 : x 2 1 ≠ x 3 1) (h3 : x 4 2 ≠ x 5 2) : ∃ D, centralDiff3 X x = .ok D :=
  ⟨_, centralDiff3_ok.2 ⟨⟨sub_ne_zero.2 h1, sub_ne_zero.2 h2, sub_ne_zero.2 h3⟩, rfl⟩⟩

end Verif
