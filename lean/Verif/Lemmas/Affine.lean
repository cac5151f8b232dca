import Verif.Spec.Affine
import Verif.Lemmas.GridOrder

/-!
# The three methods on affine flows
-/

namespace Verif

open Matrix

variable {d : ℕ}

/-- Matrices of a method. -/
noncomputable def runMatrix (k : Kind) (A : ℕ → Matrix (Fin d) (Fin d) ℝ) (h : ℝ) :
    ℕ → Matrix (Fin d) (Fin d) ℝ
  | 0 => 1
  | 1 =>
    match k with
    | .rk4 => 1 + h • A 0 + (h ^ 2 / 2) • A 0 ^ 2 + (h ^ 3 / 6) • A 0 ^ 3 + (h ^ 4 / 24) • A 0 ^ 4
    | _ => 1 + h • A 0
  | n + 2 =>
    match k with
    | .euler => (1 + h • A (n + 1)) * runMatrix k A h (n + 1)
    | .rk4 => (1 + h • A (n + 1) + (h ^ 2 / 2) • A (n + 1) ^ 2 + (h ^ 3 / 6) • A (n + 1) ^ 3 +
        (h ^ 4 / 24) • A (n + 1) ^ 4) * runMatrix k A h (n + 1)
    | .ab2 => runMatrix k A h (n + 1) + h • ((3 / 2 : ℝ) • (A (n + 1) * runMatrix k A h (n + 1)) -
        (1 / 2 : ℝ) • (A n * runMatrix k A h n))

theorem runMatrix_ok (k : Kind) (A : ℕ → Matrix (Fin d) (Fin d) ℝ) (h : ℝ) :
    RunMatrices k A h (runMatrix k A h) where
  zero := rfl
  euler := by
    rintro rfl n
    cases n with
    | zero => simp [runMatrix]
    | succ n => rfl
  rk4 := by
    rintro rfl n
    cases n with
    | zero => simp [runMatrix]
    | succ n => rfl
  first := by rintro rfl; rfl
  ab2 := by rintro rfl n; rfl

/-- Two particles in the same affine flow: one step without memory. -/
theorem rowStep_affine {k : Kind} (hk : k ≠ .ab2) {g : (Fin d → ℝ) → Fin d → ℝ}
    {A : Matrix (Fin d) (Fin d) ℝ} {b : Fin d → ℝ} (hg : ∀ x, g x = A *ᵥ x + b) (h : ℝ)
    (p q r : Option (Fin d → ℝ)) (x y : Fin d → ℝ) :
    rowStep k g h p x - rowStep k g h q y = rowStep k (fun z => A *ᵥ z) h r (x - y) := by
  have gs : ∀ u w, g u - g w = A *ᵥ (u - w) := fun u w => by rw [hg, hg, mulVec_sub]; abel
  cases k with
  | ab2 => exact absurd rfl hk
  | euler =>
    funext c
    have := congrFun (gs x y) c
    simp only [Pi.sub_apply] at this
    simp only [rowStep, Pi.sub_apply, ← this]
    ring
  | rk4 =>
    have e1 := gs x y
    have e2 := gs (fun c => x c + (NumLits.half * h) * g x c) (fun c => y c + (NumLits.half * h) * g y c)
    have s2 : (fun c => x c + (NumLits.half * h) * g x c) - (fun c => y c + (NumLits.half * h) * g y c) =
        fun c => (x - y) c + (NumLits.half * h) * (A *ᵥ (x - y)) c := by
      funext c
      rw [← e1]
      simp only [Pi.sub_apply]
      ring
    rw [s2] at e2
    set k2x := g (fun c => x c + (NumLits.half * h) * g x c)
    set k2y := g (fun c => y c + (NumLits.half * h) * g y c)
    set k2 := A *ᵥ (fun c => (x - y) c + (NumLits.half * h) * (A *ᵥ (x - y)) c)
    have e3 := gs (fun c => x c + (NumLits.half * h) * k2x c) (fun c => y c + (NumLits.half * h) * k2y c)
    have s3 : (fun c => x c + (NumLits.half * h) * k2x c) - (fun c => y c + (NumLits.half * h) * k2y c) =
        fun c => (x - y) c + (NumLits.half * h) * k2 c := by
      funext c
      rw [← e2]
      simp only [Pi.sub_apply]
      ring
    rw [s3] at e3
    set k3x := g (fun c => x c + (NumLits.half * h) * k2x c)
    set k3y := g (fun c => y c + (NumLits.half * h) * k2y c)
    set k3 := A *ᵥ (fun c => (x - y) c + (NumLits.half * h) * k2 c)
    have e4 := gs (fun c => x c + h * k3x c) (fun c => y c + h * k3y c)
    have s4 : (fun c => x c + h * k3x c) - (fun c => y c + h * k3y c) =
        fun c => (x - y) c + h * k3 c := by
      funext c
      rw [← e3]
      simp only [Pi.sub_apply]
      ring
    rw [s4] at e4
    funext c
    have f1 := congrFun e1 c
    have f2 := congrFun e2 c
    have f3 := congrFun e3 c
    have f4 := congrFun e4 c
    rw [Pi.sub_apply] at f1 f2 f3 f4
    show (x c + _ * (g x c + _ * k2x c + _ * k3x c + g (fun c => x c + h * k3x c) c)) -
      (y c + _ * (g y c + _ * k2y c + _ * k3y c + g (fun c => y c + h * k3y c) c)) =
      (x c - y c) + _ * ((A *ᵥ (x - y)) c + _ * k2 c + _ * k3 c +
        (A *ᵥ fun c => (x - y) c + h * k3 c) c)
    rw [← f1, ← f2, ← f3, ← f4]
    ring

/-- A run in an affine flow is an affine map with the matrix of the method. -/
theorem flowMap_affine {k : Kind} {g : ℕ → (Fin d → ℝ) → Fin d → ℝ}
    {A : ℕ → Matrix (Fin d) (Fin d) ℝ} {b : ℕ → Fin d → ℝ} {n : ℕ}
    (hg : ∀ i < n, ∀ x, g i x = A i *ᵥ x + b i) {h : ℝ} {M : ℕ → Matrix (Fin d) (Fin d) ℝ}
    (hM : RunMatrices k A h M) (x y : Fin d → ℝ) :
    flowMap k g h n x - flowMap k g h n y = M n *ᵥ (x - y) := by
  induction n using Nat.strong_induction_on with
  | _ n ih =>
    cases n with
    | zero => rw [hM.zero, one_mulVec]; rfl
    | succ n =>
      have i1 := ih n (by omega) (fun i hi => hg i (by omega))
      rw [flowMap_succ, flowMap_succ]
      by_cases hk : k = .ab2
      · subst hk
        cases n with
        | zero =>
          have e : ∀ z, rowStep .ab2 (g 0) h (flowPrev .ab2 g h z 0) (flowMap .ab2 g h 0 z) =
              rowStep .euler (g 0) h none z := fun z => rfl
          rw [e, e, rowStep_affine (by decide) (hg 0 (by omega)) h none none none, rowStep_euler_linear,
            hM.first rfl]
        | succ n =>
          have i0 := ih n (by omega) (fun i hi => hg i (by omega))
          have g1 : g (n + 1) (flowMap .ab2 g h (n + 1) x) - g (n + 1) (flowMap .ab2 g h (n + 1) y) =
              A (n + 1) *ᵥ (M (n + 1) *ᵥ (x - y)) := by
            rw [hg _ (by omega), hg _ (by omega), ← i1, mulVec_sub]; abel
          have g0 : g n (flowMap .ab2 g h n x) - g n (flowMap .ab2 g h n y) =
              A n *ᵥ (M n *ᵥ (x - y)) := by
            rw [hg _ (by omega), hg _ (by omega), ← i0, mulVec_sub]; abel
          rw [hM.ab2 rfl]
          simp only [add_mulVec, smul_mulVec, sub_mulVec, ← mulVec_mulVec]
          rw [← g1, ← g0, ← i1]
          funext c
          simp only [rowStep, flowPrev, nextPrev, Pi.sub_apply, Pi.add_apply, Pi.smul_apply,
            smul_eq_mul, NumLits.onePointFive, NumLits.half]
          ring
      · rw [rowStep_affine hk (hg n (by omega)) h _ _ none, i1]
        cases k with
        | ab2 => exact absurd rfl hk
        | euler => rw [rowStep_euler_linear, hM.euler rfl, mulVec_mulVec]
        | rk4 =>
          rw [rowStep_rk4_linear, hM.rk4 rfl, mulVec_mulVec]
          congr 2
          simp only [taylor4, smul_pow, smul_smul]
          congr 1
          · congr 1
            · congr 1
              congr 1
              ring
            · congr 1
              ring
          · congr 1
            ring

/-- Interpolation of an affine field gives the field. -/
theorem bilinear_affine {v : ℝ → (Fin 2 → ℝ) → Fin 2 → ℝ} {A : ℝ → Matrix (Fin 2) (Fin 2) ℝ}
    {b : ℝ → Fin 2 → ℝ} (hv : IsAffine v A b) (t : ℝ) {nx ny : ℕ} {x0 dx y0 dy : ℝ} (hdx : 0 < dx)
    (hdy : 0 < dy) {z : Fin 2 → ℝ} (hz : OnAxis nx x0 dx (z 0) ∧ OnAxis ny y0 dy (z 1)) :
    bilinear v t nx ny x0 dx y0 dy z = v t z := by
  funext c
  have := cellValue2_affine (f := fun a b => v t ![x0 + a * dx, y0 + b * dy] c)
    (X := (z 0 - x0) / dx) (Y := (z 1 - y0) / dy) (c := v t z c) (α := A t c 0 * dx)
    (β := A t c 1 * dy) (δ := 0) (hz.1.inCells hdx) (hz.2.inCells hdy) (fun i j _ _ _ _ => by
      rw [hv, hv]
      simp only [Pi.add_apply, mulVec, dotProduct, Fin.sum_univ_two, cons_val_zero, cons_val_one]
      rw [abs_nonpos_iff]
      field_simp
      ring)
  exact sub_eq_zero.1 (abs_nonpos_iff.1 this)

theorem trilinear_affine {v : ℝ → (Fin 3 → ℝ) → Fin 3 → ℝ} {A : ℝ → Matrix (Fin 3) (Fin 3) ℝ}
    {b : ℝ → Fin 3 → ℝ} (hv : IsAffine v A b) (t : ℝ) {m nz : ℕ} {x0 dx y0 dy z0 dz : ℝ}
    (hdx : 0 < dx) (hdy : 0 < dy) (hdz : 0 < dz) {z : Fin 3 → ℝ}
    (hz : OnAxis m x0 dx (z 0) ∧ OnAxis m y0 dy (z 1) ∧ OnAxis nz z0 dz (z 2)) :
    trilinear v t m nz x0 dx y0 dy z0 dz z = v t z := by
  funext c
  have := cellValue3_affine (f := fun a b e => v t ![x0 + a * dx, y0 + b * dy, z0 + e * dz] c)
    (X := (z 0 - x0) / dx) (Y := (z 1 - y0) / dy) (Z := (z 2 - z0) / dz) (c := v t z c)
    (α := A t c 0 * dx) (β := A t c 1 * dy) (γ := A t c 2 * dz) (δ := 0) (hz.1.inCells hdx)
    (hz.2.1.inCells hdy) (hz.2.2.inCells hdz) (fun i j k _ _ _ _ _ _ => by
      rw [hv, hv]
      simp only [Pi.add_apply, mulVec, dotProduct, Fin.sum_univ_three, cons_val_zero, cons_val_one,
        cons_val_two, head_cons, tail_cons, cons_val]
      rw [abs_nonpos_iff]
      field_simp
      ring)
  exact sub_eq_zero.1 (abs_nonpos_iff.1 this)

end Verif
