import Verif.Model.Missing
import Verif.Lemmas.Converge
import Verif.Lemmas.FlowOn
import Verif.Lemmas.Ftle
import Verif.Spec.Groups

/-!
# Helper lemmas: NaNs through integrators and kernels
-/

set_option linter.unusedSectionVars false

namespace Verif

namespace Miss
variable {K : Type}

section ops
variable [Add K] [Sub K] [Mul K] [Div K]

@[simp] theorem nan_add (a : Miss K) : nan + a = nan := by cases a <;> rfl
@[simp] theorem add_nan (a : Miss K) : a + nan = nan := by cases a <;> rfl
@[simp] theorem nan_sub (a : Miss K) : nan - a = nan := by cases a <;> rfl
@[simp] theorem sub_nan (a : Miss K) : a - nan = nan := by cases a <;> rfl
@[simp] theorem nan_mul (a : Miss K) : nan * a = nan := by cases a <;> rfl
@[simp] theorem mul_nan (a : Miss K) : a * nan = nan := by cases a <;> rfl
@[simp] theorem nan_div (a : Miss K) : nan / a = nan := by cases a <;> rfl
@[simp] theorem div_nan (a : Miss K) : a / nan = nan := by cases a <;> rfl
@[simp] theorem num_add (a b : K) : (num a + num b : Miss K) = num (a + b) := rfl
@[simp] theorem num_sub (a b : K) : (num a - num b : Miss K) = num (a - b) := rfl
@[simp] theorem num_mul (a b : K) : (num a * num b : Miss K) = num (a * b) := rfl
@[simp] theorem num_div (a b : K) : (num a / num b : Miss K) = num (a / b) := rfl

end ops

theorem half_eq [NumLits K] : (NumLits.half : Miss K) = num NumLits.half := rfl
theorem onePointFive_eq [NumLits K] : (NumLits.onePointFive : Miss K) = num NumLits.onePointFive := rfl
theorem two_eq [NumLits K] : (NumLits.two : Miss K) = num NumLits.two := rfl
theorem six_eq [NumLits K] : (NumLits.six : Miss K) = num NumLits.six := rfl
theorem zero_eq [Zero K] : (0 : Miss K) = num 0 := rfl
theorem one_eq [One K] : (1 : Miss K) = num 1 := rfl

end Miss

open Miss

section flow
variable {K : Type} [Add K] [Sub K] [Mul K] [Div K] [NumLits K] {d : ℕ}

/-- A particle that is nowhere stays nowhere. -/
theorem flowMap_nan_mono (k : Kind) (g : ℕ → (Fin d → Miss K) → Fin d → Miss K) (h : Miss K)
    (x : Fin d → Miss K) (c : Fin d) {m n : ℕ} (hmn : m ≤ n) (hm : flowMap k g h m x c = nan) :
    flowMap k g h n x c = nan := by
  induction n, hmn using Nat.le_induction with
  | base => exact hm
  | succ n _ ih =>
    rw [flowMap_succ]
    cases k with
    | euler => simp [rowStep, ih]
    | ab2 =>
      cases flowPrev .ab2 g h x n <;> simp [rowStep, ih]
    | rk4 => simp [rowStep, ih]

/-- A missing velocity makes the position missing. -/
theorem flowMap_nan (k : Kind) (g : ℕ → (Fin d → Miss K) → Fin d → Miss K) (h : Miss K)
    (x : Fin d → Miss K) (c : Fin d) {n : ℕ} {z : Fin d → Miss K}
    (hz : z ∈ stages k (g n) h (flowMap k g h n x)) (hc : g n z c = nan) :
    flowMap k g h (n + 1) x c = nan := by
  rw [flowMap_succ]
  cases k with
  | euler =>
    simp only [stages, List.mem_singleton] at hz
    subst hz
    simp [rowStep, hc]
  | ab2 =>
    simp only [stages, List.mem_singleton] at hz
    subst hz
    cases flowPrev .ab2 g h x n <;> simp [rowStep, hc]
  | rk4 =>
    simp only [stages, List.mem_cons, List.not_mem_nil, or_false] at hz
    rcases hz with rfl | rfl | rfl | rfl <;> simp [rowStep, hc]

/-- Where the velocities are numbers the flow is that of numbers. -/
theorem flowMap_num (k : Kind) (g : ℕ → (Fin d → Miss K) → Fin d → Miss K)
    (f : ℕ → (Fin d → K) → Fin d → K) (h : K) (x : Fin d → K) (n : ℕ)
    (hg : ∀ j < n, ∀ z ∈ stages k (f j) h (flowMap k f h j x),
      g j (fun c => num (z c)) = fun c => num (f j z c)) :
    ∀ m ≤ n, flowMap k g (num h) m (fun c => num (x c)) = (fun c => num (flowMap k f h m x c)) ∧
      flowPrev k g (num h) (fun c => num (x c)) m =
        (flowPrev k f h x m).map fun p c => num (p c) := by
  intro m
  induction m with
  | zero => exact fun _ => ⟨rfl, rfl⟩
  | succ m ih =>
    intro hm
    obtain ⟨i1, i2⟩ := ih (by omega)
    have hgm := hg m (by omega)
    rw [flowMap_succ, flowMap_succ, i1, i2]
    cases k with
    | euler =>
      have := hgm (flowMap .euler f h m x) (by simp [stages])
      exact ⟨by simp only [rowStep, this]; rfl, rfl⟩
    | ab2 =>
      have := hgm (flowMap .ab2 f h m x) (by simp [stages])
      refine ⟨?_, ?_⟩
      · cases flowPrev .ab2 f h x m <;> simp only [rowStep, this, Option.map] <;> rfl
      · simp only [flowPrev, nextPrev, i1, this, Option.map]
    | rk4 =>
      have s1 := hgm _ (List.mem_cons_self ..)
      have s2 := hgm _ (List.mem_cons_of_mem _ (List.mem_cons_self ..))
      have s3 := hgm _ (List.mem_cons_of_mem _ (List.mem_cons_of_mem _ (List.mem_cons_self ..)))
      have s4 := hgm _ (List.mem_cons_of_mem _ (List.mem_cons_of_mem _ (List.mem_cons_of_mem _
        (List.mem_cons_self ..))))
      refine ⟨?_, rfl⟩
      simp only [rowStep, half_eq, two_eq, six_eq, num_mul, num_add, num_div, s1, s2, s3, s4]

end flow

/-! ## The kernels -/

theorem maxEig2M_num (F : Matrix (Fin 2) (Fin 2) ℝ) :
    maxEig2M (cauchyGreen2 (F.map num)) = maxEig2 (cauchyGreen2 F) := by
  have h1 : disc2 (num 4) (cauchyGreen2 (F.map num)) =
      num (disc2 4 (cauchyGreen2 F)) := by simp [disc2, trace2, cauchyGreen2]
  have h2 : trace2 (cauchyGreen2 (F.map num)) = num (trace2 (cauchyGreen2 F)) := by
    simp [trace2, cauchyGreen2]
  unfold maxEig2M maxEig2
  rw [h1, h2]
  simp only [Miss.toF]
  cases FVal.sqrt (.fin (disc2 4 (cauchyGreen2 F))) <;> rfl

theorem maxEig2M_nan {F : Matrix (Fin 2) (Fin 2) (Miss ℝ)} {i j : Fin 2} (h : F i j = nan) :
    maxEig2M (cauchyGreen2 F) = .nan := by
  have h2 : trace2 (cauchyGreen2 F) = nan := by
    fin_cases i <;> fin_cases j <;> simp at h <;> simp [trace2, cauchyGreen2, h]
  unfold maxEig2M
  rw [h2]
  split
  · rename_i h; cases h
  · rfl

theorem cauchyGreen3M_nan {F : Matrix (Fin 3) (Fin 3) (Miss ℝ)} {i j : Fin 3} (h : F i j = nan) :
    cauchyGreen3M F i i = nan := by
  fin_cases j <;> simp at h <;> simp [cauchyGreen3M, h]

theorem cauchyGreen3M_num (F : Matrix (Fin 3) (Fin 3) ℝ) (i j : Fin 3) :
    cauchyGreen3M (F.map num) i j = num (cauchyGreen3 F i j) := by
  simp [cauchyGreen3M, cauchyGreen3, Matrix.mul_apply, Fin.sum_univ_three]

/-- NaN results of the 2-D kernel. -/
theorem ftle2M_ok {Js : List (Matrix (Fin 2) (Fin 2) (Miss ℝ))} {T : ℝ} (hT : T ≠ 0) :
    ftle2M Js (num T) = .ok (Js.map fun F =>
      FVal.smul (1 / T) (FVal.log (FVal.sqrt (maxEig2M (cauchyGreen2 F))))) := by
  simp only [ftle2M, recipPeriodM, hT, if_false, List.map_map]
  rfl

theorem ftle2M_value (F : Matrix (Fin 2) (Fin 2) ℝ) (T : ℝ) : ∃ s, IsMaxStretch F s ∧
    FVal.smul (1 / T) (FVal.log (FVal.sqrt (maxEig2M (cauchyGreen2 (F.map num))))) =
      ftleVal s T := by
  obtain ⟨l, h1, h2, h3⟩ := entry2 F
  exact ⟨_, h3, by rw [maxEig2M_num, h1, ftle_expr l T h2]⟩

theorem ftle3M_error {Js : List (Matrix (Fin 3) (Fin 3) (Miss ℝ))} (T : Miss ℝ)
    (h : ∃ F ∈ Js, ∃ i j, F i j = nan) : ftle3M Js T = .error .linAlgError := by
  obtain ⟨F, hF, i, j, hn⟩ := h
  have : ∃ C ∈ Js.map cauchyGreen3M, ∃ i j, C i j = nan :=
    ⟨_, List.mem_map_of_mem hF, i, i, cauchyGreen3M_nan hn⟩
  simp only [ftle3M, maxEigs3M, this, if_true]

theorem ftle3M_num (Js : List (Matrix (Fin 3) (Fin 3) ℝ)) {T : ℝ} (hT : T ≠ 0) :
    ftle3M (Js.map fun F => F.map num) (num T) = ftle3 Js T := by
  have h1 : ¬ ∃ C ∈ (Js.map fun F => F.map num).map cauchyGreen3M, ∃ i j, C i j = nan := by
    rintro ⟨C, hC, i, j, hn⟩
    rw [List.map_map] at hC
    obtain ⟨F, -, rfl⟩ := List.mem_map.1 hC
    rw [Function.comp_apply, cauchyGreen3M_num] at hn
    cases hn
  have h2 : (((Js.map fun F => F.map num).map cauchyGreen3M).map fun C =>
      Matrix.of fun i j => (C i j).get) = Js.map cauchyGreen3 := by
    rw [List.map_map, List.map_map]
    refine List.map_congr_left fun F _ => ?_
    ext i j
    simp [cauchyGreen3M_num, Miss.get]
  simp only [ftle3M, maxEigs3M, h1, if_false, h2, ftle3, recipPeriodM, recipPeriod, hT]
  rfl

theorem ftleVal_ne_nan {s T : ℝ} (hs : 0 ≤ s) (hT : T ≠ 0) : ftleVal s T ≠ .nan := by
  rcases hs.lt_or_eq with h | rfl
  · rw [ftleVal_pos h]
    simp
  · rcases lt_or_gt_of_ne hT with h | h
    · rw [ftleVal_zero_neg h]
      simp
    · rw [ftleVal_zero_pos h]
      simp

end Verif
