import Verif.Props.Order
import Verif.Lemmas.Variation

/-!
# Particles around a centre, followed as centre and direction

Two particles `m + δ ξ` and `m - δ ξ` are followed through the pair `(m, ξ)`.  The pair moves under
a velocity field of its own, which for small `δ` is close to the flow together with its linear part.
-/

namespace Verif

open Matrix Set Metric

/-! ## The integrators commute with linear maps -/

section
variable {d e : ℕ} (L : (Fin e → ℝ) →ₗ[ℝ] (Fin d → ℝ))

theorem lin_move (x y : Fin e → ℝ) (a : ℝ) :
    L (fun c => x c + a * y c) = fun c => L x c + a * L y c := by
  have : (fun c => x c + a * y c) = x + a • y := rfl
  rw [this, map_add, map_smul]
  rfl

theorem rowStep_linear (k : Kind) {g : (Fin d → ℝ) → Fin d → ℝ} {G : (Fin e → ℝ) → Fin e → ℝ}
    (hg : ∀ z, g (L z) = L (G z)) (h : ℝ) (prev : Option (Fin e → ℝ)) (x : Fin e → ℝ) :
    rowStep k g h (prev.map L) (L x) = L (rowStep k G h prev x) ∧
    nextPrev k g (L x) = (nextPrev k G x).map L ∧
    stages k g h (L x) = (stages k G h x).map L := by
  cases k with
  | euler =>
    refine ⟨?_, rfl, rfl⟩
    simp only [rowStep, hg, lin_move]
  | ab2 =>
    refine ⟨?_, by simp only [nextPrev, hg, Option.map_some], rfl⟩
    cases prev with
    | none => simp only [rowStep, hg, lin_move, Option.map_none]
    | some p =>
      simp only [rowStep, hg, Option.map_some]
      rw [lin_move]
      have e1 : (fun c => NumLits.onePointFive * G x c - NumLits.half * p c) =
          (NumLits.onePointFive : ℝ) • G x - (NumLits.half : ℝ) • p := rfl
      rw [e1, map_sub, map_smul, map_smul]
      rfl
  | rk4 =>
    refine ⟨?_, rfl, ?_⟩
    · simp only [rowStep, hg, ← lin_move]
      rw [lin_move]
      have e1 : ∀ a b c d : Fin e → ℝ,
          (fun q => a q + NumLits.two * b q + NumLits.two * c q + d q) =
          a + (NumLits.two : ℝ) • b + (NumLits.two : ℝ) • c + d := fun _ _ _ _ => rfl
      rw [e1]
      simp only [map_add, map_smul]
      rfl
    · simp only [stages, hg, ← lin_move, List.map_cons, List.map_nil]

theorem flowMap_linear (k : Kind) {g : ℕ → (Fin d → ℝ) → Fin d → ℝ}
    {G : ℕ → (Fin e → ℝ) → Fin e → ℝ} (hg : ∀ j z, g j (L z) = L (G j z)) (h : ℝ)
    (x : Fin e → ℝ) (n : ℕ) :
    flowMap k g h n (L x) = L (flowMap k G h n x) ∧
    flowPrev k g h (L x) n = (flowPrev k G h x n).map L := by
  induction n with
  | zero => exact ⟨rfl, rfl⟩
  | succ n ih =>
    obtain ⟨s1, s2, -⟩ := rowStep_linear L k (hg n) h (flowPrev k G h x n) (flowMap k G h n x)
    rw [flowMap_succ, flowMap_succ, ih.1, ih.2]
    refine ⟨s1, ?_⟩
    simp only [flowPrev]
    rw [ih.1, s2]

theorem stages_linear (k : Kind) {g : ℕ → (Fin d → ℝ) → Fin d → ℝ}
    {G : ℕ → (Fin e → ℝ) → Fin e → ℝ} (hg : ∀ j z, g j (L z) = L (G j z)) (h : ℝ)
    (x : Fin e → ℝ) (n : ℕ) :
    stages k (g n) h (flowMap k g h n (L x)) =
      (stages k (G n) h (flowMap k G h n x)).map L := by
  rw [(flowMap_linear L k hg h x n).1]
  exact (rowStep_linear L k (hg n) h none _).2.2

end

/-! ## Differences on both sides of a point -/

section
variable {E F : Type*} [NormedAddCommGroup E] [NormedSpace ℝ E] [NormedAddCommGroup F]
  [NormedSpace ℝ F]

theorem field_taylor_two [ProperSpace E] {w : E → F} (hw : ContDiff ℝ 3 w) (R : ℝ) :
    ∃ M, 0 ≤ M ∧ ∀ x ∈ Metric.closedBall (0 : E) R, ∀ δ, x + δ ∈ Metric.closedBall (0 : E) R →
      ‖w (x + δ) - (w x + fderiv ℝ w x δ + (1 / 2 : ℝ) • fderiv ℝ (fderiv ℝ w) x δ δ)‖ ≤
        M * ‖δ‖ ^ 3 := by
  have hA : ContDiff ℝ 2 (fderiv ℝ w) := hw.fderiv_right (by norm_num)
  have hB : ContDiff ℝ 1 (fderiv ℝ (fderiv ℝ w)) := hA.fderiv_right (by norm_num)
  obtain ⟨Λ, hΛ⟩ := (hB.locallyLipschitz.locallyLipschitzOn
    (s := Metric.closedBall (0 : E) R)).exists_lipschitzOnWith_of_compact (isCompact_closedBall _ _)
  refine ⟨Λ, Λ.2, fun x hx δ hδ => ?_⟩
  have hline : ∀ s ∈ Icc (0 : ℝ) 1, x + s • δ ∈ Metric.closedBall (0 : E) R := by
    intro s hs
    have := (convex_closedBall (0 : E) R).add_smul_mem hx hδ hs
    exact this
  have dA : ∀ s, HasDerivWithinAt (fun s : ℝ => w (x + s • δ)) (fderiv ℝ w (x + s • δ) δ)
      (Icc 0 1) s := fun s =>
    deriv_on_line (hw.differentiable (by norm_num)) x δ _ s
  have dB : ∀ s, HasDerivWithinAt (fun s : ℝ => fderiv ℝ w (x + s • δ))
      (fderiv ℝ (fderiv ℝ w) (x + s • δ) δ) (Icc 0 1) s := fun s =>
    deriv_on_line (hA.differentiable (by norm_num)) x δ _ s
  have dB' : ∀ s, HasDerivWithinAt (fun s : ℝ => fderiv ℝ w (x + s • δ) δ)
      (fderiv ℝ (fderiv ℝ w) (x + s • δ) δ δ) (Icc 0 1) s := by
    intro s
    have := (dB s).clm_apply (hasDerivWithinAt_const s (Icc (0 : ℝ) 1) δ)
    simpa using this
  have key := taylor_chain (convex_Icc (0 : ℝ) 1) (M := Λ * ‖δ‖ ^ 3) (by positivity) 2
    (fun j s => match j with
      | 0 => w (x + s • δ)
      | 1 => fderiv ℝ w (x + s • δ) δ
      | _ => fderiv ℝ (fderiv ℝ w) (x + s • δ) δ δ)
    (by
      intro j hj t _
      match j, hj with
      | 0, _ => exact dA t
      | 1, _ => exact dB' t)
    (by
      intro s hs t ht
      have h1 := hΛ.dist_le_mul _ (hline s hs) _ (hline t ht)
      rw [dist_eq_norm, dist_eq_norm] at h1
      have h2 : x + s • δ - (x + t • δ) = (s - t) • δ := by module
      rw [h2, norm_smul, Real.norm_eq_abs] at h1
      set D := fderiv ℝ (fderiv ℝ w) (x + s • δ) - fderiv ℝ (fderiv ℝ w) (x + t • δ) with hD
      show ‖D δ δ‖ ≤ _
      have h3 : ‖D δ δ‖ ≤ ‖D‖ * ‖δ‖ * ‖δ‖ :=
        (ContinuousLinearMap.le_opNorm _ _).trans (mul_le_mul_of_nonneg_right
            (ContinuousLinearMap.le_opNorm _ _) (norm_nonneg _))
      refine h3.trans ?_
      have h5 := mul_le_mul_of_nonneg_right h1 (by positivity : 0 ≤ ‖δ‖ ^ 2)
      nlinarith)
    0 (by simp) 1 (by simp)
  simpa [taylorSum, Finset.sum_range_succ, Nat.factorial] using key

/-- Half the sum and half the difference of the values on both sides of a point. -/
theorem both_sides [ProperSpace E] {w : E → F} (hw : ContDiff ℝ 3 w) (R : ℝ) :
    ∃ M, 0 ≤ M ∧ ∀ x δ, x ∈ Metric.closedBall (0 : E) R → x + δ ∈ Metric.closedBall (0 : E) R →
      x - δ ∈ Metric.closedBall (0 : E) R →
      ‖(1 / 2 : ℝ) • (w (x + δ) + w (x - δ)) - w x‖ ≤ M * ‖δ‖ ^ 2 + M * ‖δ‖ ^ 3 ∧
      ‖(1 / 2 : ℝ) • (w (x + δ) - w (x - δ)) - fderiv ℝ w x δ‖ ≤ M * ‖δ‖ ^ 3 := by
  obtain ⟨Λ, hΛ0, hΛ⟩ := field_taylor_two hw R
  have hA : ContDiff ℝ 2 (fderiv ℝ w) := hw.fderiv_right (by norm_num)
  have hB : ContDiff ℝ 1 (fderiv ℝ (fderiv ℝ w)) := hA.fderiv_right (by norm_num)
  obtain ⟨N, hN⟩ := (isCompact_closedBall (0 : E) R).exists_bound_of_continuousOn
    (f := fderiv ℝ (fderiv ℝ w)) hB.continuous.continuousOn
  refine ⟨max Λ |N|, by positivity, fun x δ hx hp hm => ?_⟩
  have a1 := hΛ x hx δ hp
  have a2 := hΛ x hx (-δ) (by rwa [← sub_eq_add_neg])
  rw [norm_neg, ← sub_eq_add_neg] at a2
  have e2 : fderiv ℝ (fderiv ℝ w) x (-δ) (-δ) = fderiv ℝ (fderiv ℝ w) x δ δ := by
    simp only [map_neg, ContinuousLinearMap.neg_apply, neg_neg]
  rw [e2, map_neg] at a2
  have a3 : ‖fderiv ℝ (fderiv ℝ w) x δ δ‖ ≤ |N| * ‖δ‖ ^ 2 := by
    have h3 : ‖fderiv ℝ (fderiv ℝ w) x δ δ‖ ≤ ‖fderiv ℝ (fderiv ℝ w) x‖ * ‖δ‖ * ‖δ‖ :=
        (ContinuousLinearMap.le_opNorm _ _).trans (mul_le_mul_of_nonneg_right
            (ContinuousLinearMap.le_opNorm _ _) (norm_nonneg _))
    have h4 := (hN x hx).trans (le_abs_self N)
    have h5 := mul_le_mul_of_nonneg_right h4 (by positivity : 0 ≤ ‖δ‖ ^ 2)
    nlinarith
  generalize fderiv ℝ (fderiv ℝ w) x δ δ = B at *
  generalize fderiv ℝ w x δ = A at *
  have m1 : Λ * ‖δ‖ ^ 3 ≤ max Λ |N| * ‖δ‖ ^ 3 :=
    mul_le_mul_of_nonneg_right (le_max_left _ _) (by positivity)
  have m2 : |N| * ‖δ‖ ^ 2 ≤ max Λ |N| * ‖δ‖ ^ 2 :=
    mul_le_mul_of_nonneg_right (le_max_right _ _) (by positivity)
  have nn : 0 ≤ max Λ |N| * ‖δ‖ ^ 2 := by positivity
  constructor
  · have e : (1 / 2 : ℝ) • (w (x + δ) + w (x - δ)) - w x =
        (1 / 2 : ℝ) • (w (x + δ) - (w x + A + (1 / 2 : ℝ) • B)) +
        (1 / 2 : ℝ) • (w (x - δ) - (w x + -A + (1 / 2 : ℝ) • B)) + (1 / 2 : ℝ) • B := by module
    rw [e]
    refine (norm_add₃_le).trans ?_
    simp only [norm_smul, Real.norm_eq_abs]
    rw [abs_of_pos (by norm_num : (0 : ℝ) < 1 / 2)]
    linarith
  · have e : (1 / 2 : ℝ) • (w (x + δ) - w (x - δ)) - A =
        (1 / 2 : ℝ) • (w (x + δ) - (w x + A + (1 / 2 : ℝ) • B)) -
        (1 / 2 : ℝ) • (w (x - δ) - (w x + -A + (1 / 2 : ℝ) • B)) := by module
    rw [e]
    refine (norm_sub_le _ _).trans ?_
    simp only [norm_smul, Real.norm_eq_abs]
    rw [abs_of_pos (by norm_num : (0 : ℝ) < 1 / 2)]
    linarith

end

/-! ## Centre and direction -/

section
variable {d : ℕ}

def centreOf : (Fin (d + d) → ℝ) →ₗ[ℝ] (Fin d → ℝ) where
  toFun z c := z (Fin.castAdd d c)
  map_add' _ _ := rfl
  map_smul' _ _ := rfl

def directionOf : (Fin (d + d) → ℝ) →ₗ[ℝ] (Fin d → ℝ) where
  toFun z c := z (Fin.natAdd d c)
  map_add' _ _ := rfl
  map_smul' _ _ := rfl

/-- The particle at `s` times the direction from the centre. -/
def armAt (s : ℝ) : (Fin (d + d) → ℝ) →ₗ[ℝ] (Fin d → ℝ) := centreOf + s • directionOf

def pairOf (m ξ : Fin d → ℝ) : Fin (d + d) → ℝ := Fin.append m ξ

@[simp] theorem centreOf_pair (m ξ : Fin d → ℝ) : centreOf (pairOf m ξ) = m :=
  funext fun c => Fin.append_left m ξ c

@[simp] theorem directionOf_pair (m ξ : Fin d → ℝ) : directionOf (pairOf m ξ) = ξ :=
  funext fun c => Fin.append_right m ξ c

theorem armAt_apply (s : ℝ) (z : Fin (d + d) → ℝ) :
    armAt s z = centreOf z + s • directionOf z := rfl

theorem centreOf_norm (z : Fin (d + d) → ℝ) : ‖centreOf z‖ ≤ ‖z‖ :=
  (pi_norm_le_iff_of_nonneg (norm_nonneg _)).2 fun c => norm_le_pi_norm z (Fin.castAdd d c)

theorem directionOf_norm (z : Fin (d + d) → ℝ) : ‖directionOf z‖ ≤ ‖z‖ :=
  (pi_norm_le_iff_of_nonneg (norm_nonneg _)).2 fun c => norm_le_pi_norm z (Fin.natAdd d c)

theorem pair_norm {z : Fin (d + d) → ℝ} {b : ℝ} (hb : 0 ≤ b) (h1 : ‖centreOf z‖ ≤ b)
    (h2 : ‖directionOf z‖ ≤ b) : ‖z‖ ≤ b := by
  rw [pi_norm_le_iff_of_nonneg hb]
  intro i
  refine Fin.addCases (fun c => ?_) (fun c => ?_) i
  · exact (norm_le_pi_norm (centreOf z) c).trans h1
  · exact (norm_le_pi_norm (directionOf z) c).trans h2

/-- The velocity field of centre and direction. -/
noncomputable def pairField (δ : ℝ) (g : (Fin d → ℝ) → Fin d → ℝ) (z : Fin (d + d) → ℝ) :
    Fin (d + d) → ℝ :=
  pairOf ((1 / 2 : ℝ) • (g (armAt δ z) + g (armAt (-δ) z)))
    ((1 / (2 * δ)) • (g (armAt δ z) - g (armAt (-δ) z)))

theorem pairField_arm {δ : ℝ} (hδ : δ ≠ 0) (g : (Fin d → ℝ) → Fin d → ℝ) (z : Fin (d + d) → ℝ) :
    g (armAt δ z) = armAt δ (pairField δ g z) ∧ g (armAt (-δ) z) = armAt (-δ) (pairField δ g z) := by
  rw [armAt_apply δ (pairField δ g z), armAt_apply (-δ) (pairField δ g z)]
  simp only [pairField, centreOf_pair, directionOf_pair, smul_smul]
  have e : δ * (1 / (2 * δ)) = 1 / 2 := by field_simp
  rw [neg_mul, e]
  generalize g (armAt δ z) = a
  generalize g (armAt (-δ) z) = b
  constructor <;> module

/-- The flow together with its linear part. -/
noncomputable def tangentField (v : ℝ → (Fin d → ℝ) → Fin d → ℝ) (t : ℝ) (z : Fin (d + d) → ℝ) :
    Fin (d + d) → ℝ :=
  pairOf (v t (centreOf z)) (fderiv ℝ (v t) (centreOf z) (directionOf z))

theorem tangent_trajectory {v : ℝ → (Fin d → ℝ) → Fin d → ℝ} {U : Set ℝ} {t0 : ℝ}
    {X : ℝ → Fin d → ℝ} (hX : IsTrajectory v U X) {M : ℝ → Matrix (Fin d) (Fin d) ℝ}
    (hM : IsDeformation v U t0 X M) (u : Fin d → ℝ) :
    IsTrajectory (tangentField v) U fun t => pairOf (X t) (M t *ᵥ u) := by
  intro t ht
  rw [hasDerivWithinAt_pi]
  intro i
  refine Fin.addCases (fun c => ?_) (fun c => ?_) i
  · simp only [pairOf, tangentField, Fin.append_left]
    have := hasDerivWithinAt_pi.1 (hX t ht) c
    convert this using 2
    exact centreOf_pair _ _
  · simp only [pairOf, tangentField, Fin.append_right]
    have := hasDerivWithinAt_pi.1 (hM.2 u t ht) c
    convert this using 3
    · exact centreOf_pair _ _
    · exact directionOf_pair _ _

theorem centreOf_smooth (n : WithTop ℕ∞) : ContDiff ℝ n (centreOf (d := d)) :=
  contDiff_pi.2 fun c => contDiff_apply ℝ ℝ (Fin.castAdd d c)

theorem directionOf_smooth (n : WithTop ℕ∞) : ContDiff ℝ n (directionOf (d := d)) :=
  contDiff_pi.2 fun c => contDiff_apply ℝ ℝ (Fin.natAdd d c)

theorem pairOf_smooth {E : Type*} [NormedAddCommGroup E] [NormedSpace ℝ E] {n : WithTop ℕ∞}
    {a b : E → Fin d → ℝ} (ha : ContDiff ℝ n a) (hb : ContDiff ℝ n b) :
    ContDiff ℝ n fun x => pairOf (a x) (b x) := by
  rw [contDiff_pi]
  intro i
  refine Fin.addCases (fun c => ?_) (fun c => ?_) i
  · simp only [pairOf, Fin.append_left]
    exact contDiff_pi.1 ha c
  · simp only [pairOf, Fin.append_right]
    exact contDiff_pi.1 hb c

theorem smoothForGroups_documented {k : Kind} {v : ℝ → (Fin d → ℝ) → Fin d → ℝ}
    (hv : SmoothForGroups k v) : ContDiff ℝ 3 fun q : ℝ × (Fin d → ℝ) => v q.1 q.2 := by
  cases k with
  | euler => exact hv
  | ab2 => exact hv
  | rk4 =>
    obtain ⟨w, hw, rfl⟩ := hv
    exact (hw.of_le (by norm_num)).comp contDiff_snd

theorem smoothForGroups_three {k : Kind} {ord : ℕ} {v : ℝ → (Fin d → ℝ) → Fin d → ℝ}
    (hv : AttainsForGroups k ord v) : ContDiff ℝ 3 fun q : ℝ × (Fin d → ℝ) => v q.1 q.2 := by
  rcases hv with ⟨-, h⟩ | ⟨-, h⟩
  · exact smoothForGroups_documented h
  · exact h

theorem AttainsForGroups.pos {k : Kind} {ord : ℕ} {v : ℝ → (Fin d → ℝ) → Fin d → ℝ}
    (hv : AttainsForGroups k ord v) : 1 ≤ ord := by
  rcases hv with ⟨rfl, -⟩ | ⟨rfl, -⟩
  · cases k <;> simp [documentedOrder]
  · exact le_rfl

theorem tangent_smooth {k : Kind} {ord : ℕ} {v : ℝ → (Fin d → ℝ) → Fin d → ℝ}
    (hv : AttainsForGroups k ord v) : Attains k ord (tangentField v) := by
  have two : ContDiff ℝ 2 fun q : ℝ × (Fin (d + d) → ℝ) => tangentField v q.1 q.2 := by
    have h3 := smoothForGroups_three hv
    have h2 : ContDiff ℝ 2 (fderiv ℝ fun q : ℝ × (Fin d → ℝ) => v q.1 q.2) :=
      h3.fderiv_right (by norm_num)
    have hp : ContDiff ℝ 2 fun q : ℝ × (Fin (d + d) → ℝ) => (q.1, centreOf q.2) :=
      contDiff_fst.prodMk ((centreOf_smooth 2).comp contDiff_snd)
    refine pairOf_smooth ((h3.of_le (by norm_num)).comp hp) ?_
    have h4 := (h2.comp hp).clm_apply ((contDiff_const (c := (0 : ℝ))).prodMk
      ((directionOf_smooth 2).comp contDiff_snd) :
        ContDiff ℝ 2 fun q : ℝ × (Fin (d + d) → ℝ) => ((0 : ℝ), directionOf q.2))
    have e : (fun q : ℝ × (Fin (d + d) → ℝ) => fderiv ℝ (v q.1) (centreOf q.2) (directionOf q.2)) =
        fun q => ((fderiv ℝ fun q : ℝ × (Fin d → ℝ) => v q.1 q.2) ∘
          fun q : ℝ × (Fin (d + d) → ℝ) => (q.1, centreOf q.2)) q (0, directionOf q.2) := by
      funext q
      rw [(smooth_fderiv (h3.of_le (by norm_num)) q.1 (centreOf q.2)).2]
      rfl
    rw [e]
    exact h4
  rcases hv with ⟨rfl, hv⟩ | ⟨rfl, -⟩
  swap
  · exact .inr ⟨rfl, two.of_le (by norm_num)⟩
  refine .inl ⟨rfl, ?_⟩
  cases k with
  | euler => exact (two.of_le (by norm_num) : ContDiff ℝ 1 _)
  | ab2 => exact two
  | rk4 =>
    obtain ⟨w, hw, rfl⟩ := hv
    refine ⟨fun z => pairOf (w (centreOf z)) (fderiv ℝ w (centreOf z) (directionOf z)), ?_, rfl⟩
    have h4 : ContDiff ℝ 4 (fderiv ℝ w) := hw.fderiv_right (by norm_num)
    exact pairOf_smooth ((hw.of_le (by norm_num)).comp (centreOf_smooth 4))
      ((h4.comp (centreOf_smooth 4)).clm_apply (directionOf_smooth 4))

/-- The velocity `g` is within `κ` of `w` near `x`, and the difference changes, from point to point, by
at most `κ` times the distance, up to `κ δ`. -/
def NearWith (g w : (Fin d → ℝ) → Fin d → ℝ) (x : Fin d → ℝ) (r κ δ : ℝ) : Prop :=
  ∀ z, ‖z - x‖ ≤ r → ‖g z - w z‖ ≤ κ ∧
    ∀ z', ‖z' - x‖ ≤ r → ‖g z - w z - (g z' - w z')‖ ≤ κ * (‖z - z'‖ + δ)

theorem nearWith_of_bound {g w : (Fin d → ℝ) → Fin d → ℝ} {x : Fin d → ℝ} {r ε δ : ℝ}
    (hδ0 : 0 < δ) (hδ1 : δ ≤ 1) (hε : 0 ≤ ε) (h : ∀ z, ‖z - x‖ ≤ r → ‖g z - w z‖ ≤ ε) :
    NearWith g w x r (2 * (ε / δ)) δ := by
  have e0 : 0 ≤ ε / δ := by positivity
  have e1 : ε ≤ ε / δ := by
    rw [le_div_iff₀ hδ0]
    nlinarith
  refine fun z hz => ⟨(h z hz).trans (by linarith), fun z' hz' => ?_⟩
  refine (norm_sub_le _ _).trans ((add_le_add (h z hz) (h z' hz')).trans ?_)
  have e2 : 2 * (ε / δ) * δ = 2 * ε := by field_simp
  have e3 : 0 ≤ 2 * (ε / δ) * ‖z - z'‖ := by positivity
  linarith

/-- The velocity field of centre and direction is close to the flow with its linear part. -/
theorem pairField_near {v : ℝ → (Fin d → ℝ) → Fin d → ℝ}
    (hv : ContDiff ℝ 3 fun q : ℝ × (Fin d → ℝ) => v q.1 q.2) {U : Set ℝ} (hUc : IsCompact U)
    {A : ℝ} (hA : 0 ≤ A) :
    ∃ C, 0 ≤ C ∧ ∀ t ∈ U, ∀ (z : Fin (d + d) → ℝ) (δ κ : ℝ) (g : (Fin d → ℝ) → Fin d → ℝ),
      ‖z‖ ≤ A → 0 < δ → δ ≤ 1 → 0 ≤ κ → ‖g (armAt δ z) - v t (armAt δ z)‖ ≤ κ →
      ‖g (armAt (-δ) z) - v t (armAt (-δ) z)‖ ≤ κ →
      ‖g (armAt δ z) - v t (armAt δ z) - (g (armAt (-δ) z) - v t (armAt (-δ) z))‖ ≤
        κ * (‖armAt δ z - armAt (-δ) z‖ + δ) →
      ‖pairField δ g z - tangentField v t z‖ ≤ C * (δ ^ 2 + κ) := by
  obtain ⟨τ, hτ⟩ := hUc.isBounded.exists_norm_le
  obtain ⟨M, hM0, hM⟩ := both_sides hv (max |τ| (2 * A))
  refine ⟨M * (A ^ 2 + A ^ 3) + 2 * A + 1, by positivity, fun t ht z δ κ g hz hδ0 hδ1 hκ hp hm hpm => ?_⟩
  have hc := (centreOf_norm z).trans hz
  have hd := (directionOf_norm z).trans hz
  have hD : ‖((0 : ℝ), δ • directionOf z)‖ = δ * ‖directionOf z‖ := by
    rw [Prod.norm_mk, norm_zero, max_eq_right (norm_nonneg _), norm_smul, Real.norm_of_nonneg hδ0.le]
  have hdδ : δ * ‖directionOf z‖ ≤ A := by nlinarith [norm_nonneg (directionOf z)]
  have mem : ∀ y : Fin d → ℝ, ‖y‖ ≤ 2 * A → (t, y) ∈ Metric.closedBall (0 : ℝ × (Fin d → ℝ))
      (max |τ| (2 * A)) := by
    intro y hy
    rw [mem_closedBall_zero_iff, Prod.norm_mk]
    exact max_le_max ((hτ t ht).trans (le_abs_self _)) hy
  have ep : ((t, centreOf z) : ℝ × (Fin d → ℝ)) + (0, δ • directionOf z) = (t, armAt δ z) := by
    rw [armAt_apply, Prod.mk_add_mk, add_zero]
  have em : ((t, centreOf z) : ℝ × (Fin d → ℝ)) - (0, δ • directionOf z) = (t, armAt (-δ) z) := by
    rw [armAt_apply, Prod.mk_sub_mk, sub_zero, neg_smul, sub_eq_add_neg]
  have hsm : ‖δ • directionOf z‖ ≤ A := by
    rw [norm_smul, Real.norm_of_nonneg hδ0.le]; exact hdδ
  have key := hM (t, centreOf z) (0, δ • directionOf z) (mem _ (by linarith))
    (by
      rw [ep]
      refine mem _ ?_
      rw [armAt_apply]
      exact (norm_add_le _ _).trans (by linarith))
    (by
      rw [em]
      refine mem _ ?_
      rw [armAt_apply, neg_smul, ← sub_eq_add_neg]
      exact (norm_sub_le _ _).trans (by linarith))
  rw [ep, em, hD] at key
  simp only at key
  have ef : fderiv ℝ (fun q : ℝ × (Fin d → ℝ) => v q.1 q.2) (t, centreOf z) (0, δ • directionOf z) =
      δ • fderiv ℝ (v t) (centreOf z) (directionOf z) := by
    rw [(smooth_fderiv (hv.of_le (by norm_num)) t (centreOf z)).2,
      ← map_smul (_ : (Fin d → ℝ) →L[ℝ] (Fin d → ℝ))]
    rfl
  rw [ef] at key
  -- the sizes
  have s2 : (δ * ‖directionOf z‖) ^ 2 ≤ A ^ 2 * δ ^ 2 := by
    rw [mul_pow, mul_comm]
    exact mul_le_mul_of_nonneg_right (pow_le_pow_left₀ (norm_nonneg _) hd 2) (by positivity)
  have s3 : (δ * ‖directionOf z‖) ^ 3 ≤ A ^ 3 * δ ^ 3 := by
    rw [mul_pow, mul_comm]
    exact mul_le_mul_of_nonneg_right (pow_le_pow_left₀ (norm_nonneg _) hd 3) (by positivity)
  have s32 : δ ^ 3 ≤ δ ^ 2 := pow_le_pow_of_le_one hδ0.le hδ1 (by norm_num)
  have harm : ‖armAt δ z - armAt (-δ) z‖ ≤ 2 * δ * A := by
    have e : armAt δ z - armAt (-δ) z = (2 * δ) • directionOf z := by
      rw [armAt_apply, armAt_apply]; module
    rw [e, norm_smul, Real.norm_of_nonneg (by positivity)]
    exact mul_le_mul_of_nonneg_left hd (by positivity)
  have p1 : 0 ≤ A * κ := by positivity
  have p2 : 0 ≤ A * δ ^ 2 := by positivity
  have p3 : 0 ≤ M * (A ^ 2 + A ^ 3) * κ := by positivity
  obtain ⟨k1, k2⟩ := key
  refine pair_norm (by positivity) ?_ ?_
  · rw [map_sub, pairField, tangentField, centreOf_pair, centreOf_pair]
    have e : (1 / 2 : ℝ) • (g (armAt δ z) + g (armAt (-δ) z)) - v t (centreOf z) =
        (1 / 2 : ℝ) • (g (armAt δ z) - v t (armAt δ z)) +
        (1 / 2 : ℝ) • (g (armAt (-δ) z) - v t (armAt (-δ) z)) +
        ((1 / 2 : ℝ) • (v t (armAt δ z) + v t (armAt (-δ) z)) - v t (centreOf z)) := by module
    rw [e]
    refine (norm_add₃_le).trans ?_
    rw [norm_smul, norm_smul, Real.norm_of_nonneg (by norm_num : (0 : ℝ) ≤ 1 / 2)]
    have b1 := mul_le_mul_of_nonneg_left s2 hM0
    have b2 := mul_le_mul_of_nonneg_left (s3.trans (mul_le_mul_of_nonneg_left s32
      (by positivity : 0 ≤ A ^ 3))) hM0
    nlinarith [sq_nonneg δ]
  · rw [map_sub, pairField, tangentField, directionOf_pair, directionOf_pair]
    have e : (1 / (2 * δ)) • (g (armAt δ z) - g (armAt (-δ) z)) -
        fderiv ℝ (v t) (centreOf z) (directionOf z) =
        (1 / δ) • ((1 / 2 : ℝ) • (g (armAt δ z) - v t (armAt δ z) -
          (g (armAt (-δ) z) - v t (armAt (-δ) z))) +
        ((1 / 2 : ℝ) • (v t (armAt δ z) - v t (armAt (-δ) z)) -
          δ • fderiv ℝ (v t) (centreOf z) (directionOf z))) := by
      have e1 : (1 / (2 * δ) : ℝ) = 1 / δ * (1 / 2) := by field_simp
      have e2 : ∀ y : Fin d → ℝ, y = (1 / δ) • (δ • y) := fun y => by
        rw [smul_smul, one_div_mul_cancel hδ0.ne', one_smul]
      rw [e1]
      nth_rewrite 1 [e2 (fderiv ℝ (v t) (centreOf z) (directionOf z))]
      module
    rw [e, norm_smul, Real.norm_of_nonneg (by positivity : 0 ≤ 1 / δ)]
    have b : ‖(1 / 2 : ℝ) • (g (armAt δ z) - v t (armAt δ z) -
          (g (armAt (-δ) z) - v t (armAt (-δ) z))) +
        ((1 / 2 : ℝ) • (v t (armAt δ z) - v t (armAt (-δ) z)) -
          δ • fderiv ℝ (v t) (centreOf z) (directionOf z))‖ ≤
        κ * (2 * δ * A + δ) + M * (A ^ 3 * δ ^ 3) := by
      refine (norm_add_le _ _).trans ?_
      have b0 := hpm.trans (mul_le_mul_of_nonneg_left (add_le_add_left harm δ) hκ)
      rw [norm_smul, Real.norm_of_nonneg (by norm_num : (0 : ℝ) ≤ 1 / 2)]
      have b1 := mul_le_mul_of_nonneg_left s3 hM0
      have b2 : 0 ≤ κ * (2 * δ * A + δ) := by positivity
      linarith
    refine (mul_le_mul_of_nonneg_left b (by positivity)).trans ?_
    have e3 : 1 / δ * (κ * (2 * δ * A + δ) + M * (A ^ 3 * δ ^ 3)) =
        κ * (2 * A + 1) + M * A ^ 3 * δ ^ 2 := by
      field_simp
    rw [e3]
    have : 0 ≤ M * A ^ 2 * δ ^ 2 := by positivity
    nlinarith [sq_nonneg δ]

/-- **Order of the central differences** in the time step, in the distance of the particles and in
the accuracy of the velocities. -/
theorem tangent_order {ι : Type*} [Finite ι] (k : Kind) {ord : ℕ} {v : ℝ → (Fin d → ℝ) → Fin d → ℝ}
    (hv : AttainsForGroups k ord v) {U : Set ℝ} (hUc : IsCompact U) (hUv : Convex ℝ U)
    {t0 : ℝ} (ht0 : t0 ∈ U) {X : ι → ℝ → Fin d → ℝ} (hX : ∀ q, IsTrajectory v U (X q))
    {M : ι → ℝ → Matrix (Fin d) (Fin d) ℝ} (hM : ∀ q, IsDeformation v U t0 (X q) (M q))
    {r : ℝ} (hr : 0 < r) :
    ∃ C η, 0 ≤ C ∧ 0 < η ∧ ∀ (h κ δ : ℝ) (n : ℕ) (g : ℕ → (Fin d → ℝ) → Fin d → ℝ), |h| ≤ η →
      0 ≤ κ → κ ≤ η → 0 < δ → δ ≤ η → t0 + n * h ∈ U → ∀ q,
      (∀ i < n, NearWith (g i) (v (t0 + i * h)) (X q (t0 + i * h)) r κ δ) → ∀ u : Fin d,
      ‖(1 / (2 * δ)) • (flowMap k g h n (X q t0 + δ • Pi.single u 1) -
          flowMap k g h n (X q t0 + (-δ) • Pi.single u 1)) - M q (t0 + n * h) *ᵥ Pi.single u 1‖ ≤
        C * (|h| ^ ord + δ ^ 2 + κ) ∧
      ∀ s, s = δ ∨ s = -δ → ∀ i < n,
        ∀ z ∈ stages k (g i) h (flowMap k g h i (X q t0 + s • Pi.single u 1)),
          ‖z - X q (t0 + i * h)‖ ≤ r := by
  cases nonempty_fintype ι
  set Z : ι × Fin d → ℝ → Fin (d + d) → ℝ :=
    fun p t => pairOf (X p.1 t) (M p.1 t *ᵥ Pi.single p.2 1) with hZdef
  have hZ : ∀ p, IsTrajectory (tangentField v) U (Z p) := fun p =>
    tangent_trajectory (hX p.1) (hM p.1) _
  -- sizes
  have hbd : ∃ A, 0 ≤ A ∧ ∀ p, ∀ t ∈ U, ‖Z p t‖ ≤ A := by
    have : ∀ p, ∃ A, ∀ t ∈ U, ‖Z p t‖ ≤ A := fun p =>
      hUc.exists_bound_of_continuousOn fun t ht => (hZ p t ht).continuousWithinAt
    choose A hA using this
    refine ⟨∑ p, |A p|, Finset.sum_nonneg fun p _ => abs_nonneg _, fun p t ht => ?_⟩
    exact ((hA p t ht).trans (le_abs_self _)).trans
      (Finset.single_le_sum (f := fun p => |A p|) (fun p _ => abs_nonneg _) (Finset.mem_univ p))
  obtain ⟨A, hA0, hA⟩ := hbd
  obtain ⟨K, hK0, hK⟩ := pairField_near (smoothForGroups_three hv) hUc
    (A := A + r / 2) (by positivity)
  obtain ⟨C, η, hC0, hη0, H⟩ := flow_order_many k (tangent_smooth hv) hUc hUv hZ ht0
    (r := r / 2) (by positivity)
  refine ⟨C * (K + 1), min (min 1 η) (min (η / (2 * (K + 1))) (r / (2 * (A + r / 2)))),
    by positivity, by positivity, fun h κ δ n g hh hκ0 hκ hδ0 hδ hn q hg u => ?_⟩
  obtain ⟨hh, -⟩ := le_min_iff.1 hh
  obtain ⟨hδa, hδb⟩ := le_min_iff.1 hδ
  obtain ⟨hδ1, hδη⟩ := le_min_iff.1 hδa
  obtain ⟨hδK, hδr⟩ := le_min_iff.1 hδb
  have hκK : κ ≤ η / (2 * (K + 1)) := hκ.trans ((min_le_right _ _).trans (min_le_left _ _))
  have hδsq : δ ^ 2 ≤ δ := by nlinarith
  have htimes : ∀ i ≤ n, t0 + i * h ∈ U := by
    intro i hi
    have h1 := mem_times (t0 := t0) (h := h) hi
    rw [← segment_eq_uIcc] at h1
    exact hUv.segment_subset ht0 hn h1
  have hE0 : 0 ≤ K * (δ ^ 2 + κ) := by positivity
  have hEη : K * (δ ^ 2 + κ) ≤ η := by
    have a1 : K * (δ ^ 2 + κ) ≤ K * (η / (2 * (K + 1)) + η / (2 * (K + 1))) :=
      mul_le_mul_of_nonneg_left (add_le_add (hδsq.trans hδK) hκK) hK0
    have a2 : (K + 1) * (η / (2 * (K + 1)) + η / (2 * (K + 1))) = η := by field_simp; norm_num
    have a3 : 0 ≤ η / (2 * (K + 1)) := by positivity
    linarith
  -- the arms stay near the centre
  have arms : ∀ i ≤ n, ∀ z, ‖z - Z (q, u) (t0 + i * h)‖ ≤ r / 2 → ‖z‖ ≤ A + r / 2 ∧
      ∀ s, s = δ ∨ s = -δ → ‖armAt s z - X q (t0 + i * h)‖ ≤ r := by
    intro i hi z hz
    have a0 : ‖z‖ ≤ A + r / 2 := by
      have h1 := norm_add_le (Z (q, u) (t0 + i * h)) (z - Z (q, u) (t0 + i * h))
      rw [add_sub_cancel] at h1
      have := hA (q, u) _ (htimes i hi)
      linarith
    refine ⟨a0, fun s hs => ?_⟩
    have hs' : |s| = δ := by rcases hs with rfl | rfl <;> simp [abs_of_pos hδ0]
    have a1 : ‖centreOf z - X q (t0 + i * h)‖ ≤ r / 2 := by
      have := (centreOf_norm (z - Z (q, u) (t0 + i * h))).trans hz
      rwa [map_sub, hZdef, centreOf_pair] at this
    have a2 : ‖s • directionOf z‖ ≤ r / 2 := by
      rw [norm_smul, Real.norm_eq_abs, hs']
      have b1 := (directionOf_norm z).trans a0
      have b2 := mul_le_mul hδr b1 (norm_nonneg _) (by positivity)
      refine b2.trans_eq ?_
      field_simp
    have e : armAt s z - X q (t0 + i * h) = (centreOf z - X q (t0 + i * h)) + s • directionOf z := by
      rw [armAt_apply]; abel
    rw [e]
    exact (norm_add_le _ _).trans (by linarith)
  have hG := H h (K * (δ ^ 2 + κ)) n (fun i => pairField δ (g i)) (hh.trans (min_le_right _ _))
    hE0 hEη hn (q, u) (fun i hi z hz => by
      obtain ⟨a1, a2⟩ := arms i hi.le z hz
      exact hK _ (htimes i hi.le) z δ κ (g i) a1 hδ0 hδ1 hκ0 (hg i hi _ (a2 δ (.inl rfl))).1
        (hg i hi _ (a2 (-δ) (.inr rfl))).1
        ((hg i hi _ (a2 δ (.inl rfl))).2 _ (a2 (-δ) (.inr rfl))))
  have hcomm : ∀ s, s = δ ∨ s = -δ → ∀ j z, g j (armAt s z) = armAt s (pairField δ (g j) z) := by
    rintro s (rfl | rfl) j z
    · exact (pairField_arm hδ0.ne' (g j) z).1
    · exact (pairField_arm hδ0.ne' (g j) z).2
  have start : ∀ s, armAt s (Z (q, u) t0) = X q t0 + s • Pi.single u 1 := by
    intro s
    rw [armAt_apply, hZdef]
    simp only [centreOf_pair, directionOf_pair]
    rw [(hM q).1, one_mulVec]
  constructor
  · rw [← start δ, ← start (-δ), (flowMap_linear _ k (hcomm δ (.inl rfl)) h _ n).1,
      (flowMap_linear _ k (hcomm (-δ) (.inr rfl)) h _ n).1]
    have e : (1 / (2 * δ)) • (armAt δ (flowMap k (fun i => pairField δ (g i)) h n (Z (q, u) t0)) -
        armAt (-δ) (flowMap k (fun i => pairField δ (g i)) h n (Z (q, u) t0))) -
        M q (t0 + n * h) *ᵥ Pi.single u 1 =
        directionOf (flowMap k (fun i => pairField δ (g i)) h n (Z (q, u) t0) -
          Z (q, u) (t0 + n * h)) := by
      rw [map_sub, armAt_apply, armAt_apply, hZdef]
      simp only [directionOf_pair]
      generalize centreOf _ = a
      generalize directionOf _ = b
      have e1 : a + δ • b - (a + -δ • b) = (2 * δ) • b := by module
      rw [e1, smul_smul, one_div_mul_cancel (by positivity), one_smul]
    rw [e]
    refine (directionOf_norm _).trans (hG.1.trans ?_)
    rw [mul_assoc]
    refine mul_le_mul_of_nonneg_left ?_ hC0
    have p0 : 0 ≤ |h| ^ ord := by positivity
    have p2 : 0 ≤ K * |h| ^ ord := by positivity
    nlinarith [sq_nonneg δ]
  · intro s hs i hi z hz
    rw [← start s, stages_linear _ k (hcomm s hs) h _ i, List.mem_map] at hz
    obtain ⟨y, hy, rfl⟩ := hz
    exact (arms i hi.le y (hG.2 i hi y hy)).2 s hs

end

end Verif
