import Verif.Lemmas.Strain

/-!
# The same start in two velocity fields

`CloseFields S S' g g' L ρ`: the velocities of the two fields at points a distance `r` apart differ by at most
`L (r + ρ)`.  If the first field has the strain `L` and the fields differ by `η`, then `ρ = η / L`.
-/

namespace Verif

open Matrix

variable {d : ℕ}

def CloseFields (S S' : Set (Fin d → ℝ)) (g g' : (Fin d → ℝ) → Fin d → ℝ) (L ρ : ℝ) : Prop :=
  ∀ x ∈ S, ∀ y ∈ S', ‖g x - g' y‖ ≤ L * (‖x - y‖ + ρ)

theorem CloseFields.stage {g g' : (Fin d → ℝ) → Fin d → ℝ} {S S' : Set (Fin d → ℝ)} {L ρ : ℝ}
    (hg : CloseFields S S' g g' L ρ) (hL : 0 ≤ L) {u w : Fin d → ℝ} (hu : u ∈ S) (hw : w ∈ S') {r : ℝ}
    (h : ‖u - w‖ + ρ ≤ r) : ‖g u - g' w‖ ≤ L * r :=
  (hg u hu w hw).trans (mul_le_mul_of_nonneg_left h hL)

theorem point_apart {x y p q : Fin d → ℝ} (b : ℝ) {s ρ D : ℝ} (hD : ‖x - y‖ + ρ = D) (h : ‖p - q‖ ≤ s) :
    ‖x + b • p - (y + b • q)‖ + ρ ≤ D + |b| * s := by
  have := point_near (x := x) (y := y) b h
  linarith

/-- One step of the methods without memory. -/
theorem increment_near {k : Kind} (hk : k ≠ .ab2) {g g' : (Fin d → ℝ) → Fin d → ℝ}
    {S S' : Set (Fin d → ℝ)} {L ρ : ℝ} (hg : CloseFields S S' g g' L ρ) (hL : 0 ≤ L) {h : ℝ} {x y : Fin d → ℝ}
    (hx : ∀ z ∈ stages k g h x, z ∈ S) (hy : ∀ z ∈ stages k g' h y, z ∈ S')
    (p q : Option (Fin d → ℝ)) :
    |h| * ‖increment k g h p x - increment k g' h q y‖ ≤
      (growth k (|h| * L) - 1) * (‖x - y‖ + ρ) := by
  obtain ⟨D, hD⟩ : ∃ D, ‖x - y‖ + ρ = D := ⟨_, rfl⟩
  cases k with
  | ab2 => exact absurd rfl hk
  | euler =>
    have := hg x (hx _ (mem_stages_self _ _ _ _)) y (hy _ (mem_stages_self _ _ _ _))
    simp only [increment, growth]
    calc _ ≤ |h| * (L * (‖x - y‖ + ρ)) := by gcongr
      _ = _ := by ring
  | rk4 =>
    have e : ∀ (z : Fin d → ℝ) (a : ℝ) (w : Fin d → ℝ), (fun c => z c + a * w c) = z + a • w :=
      fun z a w => rfl
    simp only [stages, NumLits.half, e] at hx hy
    simp only [increment]
    have ha : |1 / 2 * h| = 1 / 2 * |h| := by rw [abs_mul]; norm_num
    have b1 := hg.stage hL (hx x (by simp)) (hy y (by simp)) hD.le
    have c2 := point_apart (x := x) (y := y) (1 / 2 * h) hD b1
    have b2 := hg.stage hL (hx (x + (1 / 2 * h) • g x) (by simp))
      (hy (y + (1 / 2 * h) • g' y) (by simp)) c2
    generalize g (x + (1 / 2 * h) • g x) = X2 at *
    generalize g' (y + (1 / 2 * h) • g' y) = Y2 at *
    have c3 := point_apart (x := x) (y := y) (1 / 2 * h) hD b2
    have b3 := hg.stage hL (hx (x + (1 / 2 * h) • X2) (by simp))
      (hy (y + (1 / 2 * h) • Y2) (by simp)) c3
    generalize g (x + (1 / 2 * h) • X2) = X3 at *
    generalize g' (y + (1 / 2 * h) • Y2) = Y3 at *
    have c4 := point_apart (x := x) (y := y) h hD b3
    have b4 := hg.stage hL (hx (x + h • X3) (by simp)) (hy (y + h • Y3) (by simp)) c4
    generalize g (x + h • X3) = X4 at *
    generalize g' (y + h • Y3) = Y4 at *
    generalize g x = X1 at *
    generalize g' y = Y1 at *
    rw [ha] at *
    have split : (1 / 6 : ℝ) • (X1 + (2 : ℝ) • X2 + (2 : ℝ) • X3 + X4) -
        (1 / 6 : ℝ) • (Y1 + (2 : ℝ) • Y2 + (2 : ℝ) • Y3 + Y4) =
        (1 / 6 : ℝ) • ((X1 - Y1) + (2 : ℝ) • (X2 - Y2) + (2 : ℝ) • (X3 - Y3) + (X4 - Y4)) := by
      funext c
      simp only [Pi.smul_apply, Pi.sub_apply, Pi.add_apply, smul_eq_mul]
      ring
    rw [split, norm_smul, hD]
    have tri : ‖(X1 - Y1) + (2 : ℝ) • (X2 - Y2) + (2 : ℝ) • (X3 - Y3) + (X4 - Y4)‖ ≤
        ‖X1 - Y1‖ + 2 * ‖X2 - Y2‖ + 2 * ‖X3 - Y3‖ + ‖X4 - Y4‖ := by
      refine (norm_add_le _ _).trans (add_le_add ((norm_add_le _ _).trans (add_le_add
        ((norm_add_le _ _).trans (add_le_add le_rfl ?_)) ?_)) le_rfl) <;>
        rw [norm_smul] <;> norm_num
    have n6 : ‖(1 / 6 : ℝ)‖ = 1 / 6 := by norm_num
    rw [n6]
    have hh := abs_nonneg h
    calc |h| * (1 / 6 * ‖(X1 - Y1) + (2 : ℝ) • (X2 - Y2) + (2 : ℝ) • (X3 - Y3) + (X4 - Y4)‖)
        ≤ |h| * (1 / 6 * (L * D + 2 * (L * (D + 1 / 2 * |h| * (L * D))) +
          2 * (L * (D + 1 / 2 * |h| * (L * (D + 1 / 2 * |h| * (L * D))))) +
          L * (D + |h| * (L * (D + 1 / 2 * |h| * (L * (D + 1 / 2 * |h| * (L * D)))))))) := by
          gcongr
          exact tri.trans (by gcongr)
      _ = _ := by
          simp only [growth]
          ring

/-- One step of the Adams-Bashforth method. -/
theorem ab2_near {g g' : (Fin d → ℝ) → Fin d → ℝ} {L h r r' : ℝ} {x y p q : Fin d → ℝ}
    (h1 : ‖g x - g' y‖ ≤ L * r) (h0 : ‖p - q‖ ≤ L * r') :
    |h| * ‖increment .ab2 g h (some p) x - increment .ab2 g' h (some q) y‖ ≤
      3 / 2 * (|h| * L) * r + 1 / 2 * (|h| * L) * r' := by
  have e : increment .ab2 g h (some p) x - increment .ab2 g' h (some q) y =
      (3 / 2 : ℝ) • (g x - g' y) - (1 / 2 : ℝ) • (p - q) := by
    funext c
    simp only [increment, Pi.smul_apply, Pi.sub_apply, smul_eq_mul]
    ring
  rw [e]
  have t : ‖(3 / 2 : ℝ) • (g x - g' y) - (1 / 2 : ℝ) • (p - q)‖ ≤
      3 / 2 * (L * r) + 1 / 2 * (L * r') := by
    refine (norm_sub_le _ _).trans (add_le_add ?_ ?_)
    · rw [norm_smul]
      norm_num
      linarith
    · rw [norm_smul]
      norm_num
      linarith
  calc _ ≤ |h| * (3 / 2 * (L * r) + 1 / 2 * (L * r')) := by gcongr
    _ = _ := by ring

section
variable {k : Kind} {g g' : ℕ → (Fin d → ℝ) → Fin d → ℝ} {S S' : ℕ → Set (Fin d → ℝ)} {L ρ h : ℝ}
  {n : ℕ} {x : Fin d → ℝ}

theorem flows_near (hL : 0 ≤ L) (hρ : 0 ≤ ρ) (hg : ∀ j < n, CloseFields (S j) (S' j) (g j) (g' j) L ρ)
    (hx : ∀ j < n, ∀ z ∈ stages k (g j) h (flowMap k g h j x), z ∈ S j)
    (hy : ∀ j < n, ∀ z ∈ stages k (g' j) h (flowMap k g' h j x), z ∈ S' j) :
    ‖flowMap k g h n x - flowMap k g' h n x‖ + ρ ≤ growth k (|h| * L) ^ n * ρ := by
  have ha : 0 ≤ |h| * L := by positivity
  have hG := growth_one_le k ha
  induction n using Nat.strong_induction_on with
  | _ n ih =>
    cases n with
    | zero => simp [flowMap, rowRun]
    | succ n =>
      have i1 := ih n (by omega) (fun j hj => hg j (by omega)) (fun j hj => hx j (by omega))
        (fun j hj => hy j (by omega))
      have base := hg n (by omega) _ (hx n (by omega) _ (mem_stages_self _ _ _ _)) _
        (hy n (by omega) _ (mem_stages_self _ _ _ _))
      rw [flowMap_succ, flowMap_succ, rowStep_increment, rowStep_increment]
      suffices H : |h| * ‖increment k (g n) h (flowPrev k g h x n) (flowMap k g h n x) -
          increment k (g' n) h (flowPrev k g' h x n) (flowMap k g' h n x)‖ ≤
          (growth k (|h| * L) - 1) * (growth k (|h| * L) ^ n * ρ) by
        have := (step_bounds (x := flowMap k g h n x) (y := flowMap k g' h n x) H).1
        rw [pow_succ']
        linarith
      by_cases hk : k = .ab2
      · subst hk
        cases n with
        | zero =>
          show |h| * ‖g 0 x - g' 0 x‖ ≤ _
          have b' : ‖g 0 x - g' 0 x‖ ≤ L * (‖x - x‖ + ρ) := base
          rw [sub_self, norm_zero, zero_add] at b'
          have m := mul_le_mul_of_nonneg_left b' (abs_nonneg h)
          have := mul_nonneg ha hρ
          simp only [growth, pow_zero, one_mul]
          linarith
        | succ n =>
          have i0 := ih n (by omega) (fun j hj => hg j (by omega)) (fun j hj => hx j (by omega))
            (fun j hj => hy j (by omega))
          have prev := hg n (by omega) _ (hx n (by omega) _ (mem_stages_self _ _ _ _)) _
            (hy n (by omega) _ (mem_stages_self _ _ _ _))
          refine (ab2_near base prev).trans ?_
          have up : growth .ab2 (|h| * L) ^ n * ρ ≤ growth .ab2 (|h| * L) ^ (n + 1) * ρ := by
            gcongr
            omega
          have m1 := mul_le_mul_of_nonneg_left i1 ha
          have m0 := mul_le_mul_of_nonneg_left (i0.trans up) ha
          have e : growth .ab2 (|h| * L) - 1 = 2 * (|h| * L) := by simp only [growth]; ring
          rw [e]
          linarith
      · refine (increment_near hk (hg n (by omega)) hL (hx n (by omega)) (hy n (by omega)) _ _).trans ?_
        exact mul_le_mul_of_nonneg_left i1 (by linarith)

end

end Verif
