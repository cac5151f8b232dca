import Verif.Lemmas.Order

/-!
# Local errors of the integrators, and the order of the positions
-/

namespace Verif

open Set

variable {d : ℕ}

theorem smoothEnough_one {k : Kind} {v : ℝ → (Fin d → ℝ) → Fin d → ℝ} (hv : SmoothEnough k v) :
    ContDiff ℝ 1 fun q : ℝ × (Fin d → ℝ) => v q.1 q.2 := by
  cases k with
  | euler => exact hv
  | ab2 =>
    have h2 : ContDiff ℝ 2 fun q : ℝ × (Fin d → ℝ) => v q.1 q.2 := hv
    exact h2.of_le (by norm_num)
  | rk4 =>
    obtain ⟨w, hw, rfl⟩ := hv
    exact (hw.of_le (by norm_num)).comp contDiff_snd

theorem ab2_algebra {x y v u a : Fin d → ℝ} {h M M' : ℝ} (hM' : 0 ≤ M')
    (h1 : ‖y - (x + h • v + (h ^ 2 / 2) • a)‖ ≤ M * |h| ^ 3)
    (h2 : ‖u - (v + (-h) • a)‖ ≤ M' * |h| ^ 2) :
    ‖y - x - h • ((3 / 2 : ℝ) • v - (1 / 2 : ℝ) • u)‖ ≤ |h| * ((M + M') * |h| ^ 2) := by
  have e : y - x - h • ((3 / 2 : ℝ) • v - (1 / 2 : ℝ) • u) =
      (y - (x + h • v + (h ^ 2 / 2) • a)) + (h / 2) • (u - (v + (-h) • a)) := by
    module
  rw [e]
  refine (norm_add_le _ _).trans ?_
  rw [norm_smul, Real.norm_eq_abs, abs_div, abs_of_pos (by norm_num : (0 : ℝ) < 2)]
  have h3 := mul_le_mul_of_nonneg_left h2 (by positivity : 0 ≤ |h| / 2)
  have e2 : |h| / 2 * (M' * |h| ^ 2) = |h| * (M' * |h| ^ 2) / 2 := by ring
  have e3 : |h| * ((M + M') * |h| ^ 2) = M * |h| ^ 3 + |h| * (M' * |h| ^ 2) := by ring
  have h4 : 0 ≤ |h| * (M' * |h| ^ 2) := by positivity
  rw [e2] at h3
  rw [e3]
  linarith

/-- One step of AB2 on exact positions. -/
theorem ab2_local {v : ℝ → (Fin d → ℝ) → Fin d → ℝ}
    (hv : ContDiff ℝ 2 fun q : ℝ × (Fin d → ℝ) => v q.1 q.2) {X : ℝ → Fin d → ℝ} {U : Set ℝ}
    (hUc : IsCompact U) (hUv : Convex ℝ U) (hX : IsTrajectory v U X) :
    ∃ M, 0 ≤ M ∧ ∀ t ∈ U, ∀ h, t + h ∈ U → t - h ∈ U →
      ‖X (t + h) - X t - h • ((3 / 2 : ℝ) • v t (X t) - (1 / 2 : ℝ) • v (t - h) (X (t - h)))‖ ≤
        |h| * (M * |h| ^ 2) := by
  set V : ℝ × (Fin d → ℝ) → Fin d → ℝ := fun q => v q.1 q.2 with hV
  set W : ℝ × (Fin d → ℝ) → ℝ × (Fin d → ℝ) := fun q => (1, V q) with hW
  have hWs : ContDiff ℝ 2 W := contDiff_const.prodMk hv
  have hY : ∀ t ∈ U, HasDerivWithinAt (fun t => (t, X t)) (W (t, X t)) U t :=
    fun t ht => (hasDerivWithinAt_id t U).prodMk (hX t ht)
  obtain ⟨M, hM0, hM⟩ := taylor_along hUc hUv (m := 2) hWs hY (G := Prod.snd) contDiff_snd
  obtain ⟨M', hM0', hM'⟩ := taylor_along hUc hUv (m := 1) (hWs.of_le (by norm_num)) hY (G := V)
    (by exact_mod_cast hv)
  refine ⟨M + M', by positivity, fun t ht h hp hm => ?_⟩
  have l0 : lieIter W (Prod.snd : ℝ × (Fin d → ℝ) → Fin d → ℝ) 0 = Prod.snd := rfl
  have l0' : lieIter W V 0 = V := rfl
  have l1 : lieIter W (Prod.snd : ℝ × (Fin d → ℝ) → Fin d → ℝ) 1 = V := by
    funext q
    show fderiv ℝ Prod.snd q (W q) = V q
    rw [fderiv_snd]
    rfl
  have l2 : lieIter W (Prod.snd : ℝ × (Fin d → ℝ) → Fin d → ℝ) 2 = lieIter W V 1 := by
    funext q
    show fderiv ℝ (lieIter W Prod.snd 1) q (W q) = fderiv ℝ V q (W q)
    rw [l1]
  have h1 := hM t ht h hp
  have h2 := hM' t ht (-h) (by rwa [← sub_eq_add_neg])
  simp only [taylorSum, Finset.sum_range_succ, Finset.sum_range_zero, l1, l2, zero_add, pow_zero,
    pow_one, Nat.factorial, Nat.cast_one, div_one, one_smul, ← sub_eq_add_neg, abs_neg] at h1 h2
  have f1 : ‖X (t + h) - (X t + h • v t (X t) + (h ^ 2 / 2) • lieIter W V 1 (t, X t))‖ ≤
      M * |h| ^ 3 := by
    simpa [l0, hV] using h1
  have f2 : ‖v (t - h) (X (t - h)) - (v t (X t) + (-h) • lieIter W V 1 (t, X t))‖ ≤
      M' * |h| ^ 2 := by
    rw [l0'] at h2
    simpa using h2
  exact ab2_algebra hM0' f1 f2

/-- One step of RK4 on exact positions of a steady flow. -/
theorem rk4_local {w : (Fin d → ℝ) → Fin d → ℝ} (hw : ContDiff ℝ 4 w) {X : ℝ → Fin d → ℝ}
    {U : Set ℝ} (hUc : IsCompact U) (hUv : Convex ℝ U) (hX : IsTrajectory (fun _ => w) U X) :
    ∃ M, 0 ≤ M ∧ ∀ t ∈ U, ∀ h, t + h ∈ U → |h| ≤ 1 →
      ‖X (t + h) - X t - h • rk4Inc w h (X t)‖ ≤ |h| * (M * |h| ^ 4) := by
  have hXc : ContinuousOn X U := fun t ht => (hX t ht).continuousWithinAt
  obtain ⟨C, hC0, hC⟩ := rk4Inc_taylor hw (hUc.image_of_continuousOn hXc)
  obtain ⟨M, hM0, hM⟩ := taylor_along hUc hUv (m := 4) hw hX (G := id) contDiff_id
  refine ⟨M + C, by positivity, fun t ht h hth hh => ?_⟩
  have h1 := hM t ht h hth
  have h2 := hC _ (mem_image_of_mem X ht) h hh
  simp only [taylorSum, Finset.sum_range_succ, Finset.sum_range_zero, zero_add, pow_zero,
    pow_one, Nat.factorial, Nat.cast_one, div_one, one_smul] at h1
  generalize lieIter w id 1 (X t) = a1 at h1 h2
  generalize lieIter w id 2 (X t) = a2 at h1 h2
  generalize lieIter w id 3 (X t) = a3 at h1 h2
  generalize lieIter w id 4 (X t) = a4 at h1 h2
  generalize rk4Inc w h (X t) = Φ at h2 ⊢
  change ‖X (t + h) - (X t + _ + _ + _ + _)‖ ≤ _ at h1
  generalize X (t + h) = y at h1 ⊢
  generalize X t = x at h1 ⊢
  have e : y - x - h • Φ =
      (y - (x + h • a1 + (h ^ 2 / 2) • a2 + (h ^ 3 / 6) • a3 + (h ^ 4 / 24) • a4)) -
      h • (Φ - (a1 + (h / 2) • a2 + (h ^ 2 / 6) • a3 + (h ^ 3 / 24) • a4)) := by
    module
  rw [e]
  refine (norm_sub_le _ _).trans ?_
  rw [norm_smul, Real.norm_eq_abs]
  have h3 := mul_le_mul_of_nonneg_left h2 (abs_nonneg h)
  have e3 : |h| * ((M + C) * |h| ^ 4) = M * |h| ^ (4 + 1) + |h| * (C * |h| ^ 4) := by ring
  rw [e3]
  refine add_le_add ?_ h3
  simpa using h1

/-- Local errors of the integrators on flows as smooth as they ask for. -/
theorem local_error_documented (k : Kind) {v : ℝ → (Fin d → ℝ) → Fin d → ℝ} (hv : SmoothEnough k v)
    {X : ℝ → Fin d → ℝ} {U : Set ℝ} (hUc : IsCompact U) (hUv : Convex ℝ U)
    (hX : IsTrajectory v U X) : ∃ M, 0 ≤ M ∧ ∀ t0 h : ℝ, ∀ n : ℕ, |h| ≤ 1 →
      (∀ i ≤ n, t0 + i * h ∈ U) → ∀ i < n,
      ‖X (t0 + (i + 1 : ℕ) * h) - X (t0 + i * h) - h • increment k (v (t0 + i * h)) h
        (exactPrev k (fun i => v (t0 + i * h)) (fun i => X (t0 + i * h)) i) (X (t0 + i * h))‖ ≤
      (if i = 0 then M * |h| ^ documentedOrder k else 0) +
        |h| * (M * |h| ^ documentedOrder k) := by
  have hstep : ∀ (t0 h : ℝ) (i : ℕ), t0 + ((i + 1 : ℕ) : ℝ) * h = t0 + i * h + h := by
    intro t0 h i; push_cast; ring
  obtain ⟨L, B, M, hL, hB, hM0, -, -, -, hM⟩ :=
    flow_constants (smoothEnough_one hv) hUc hUv hX 0
  cases k with
  | euler =>
    refine ⟨M, hM0, fun t0 h n hh ht i hi => ?_⟩
    have h1 := hM _ (ht i hi.le) h (by rw [← hstep]; exact ht _ hi)
    rw [hstep]
    refine h1.trans ?_
    have h2 : M * |h| * |h| = |h| * (M * |h| ^ documentedOrder .euler) := by
      simp [documentedOrder]; ring
    rw [h2]
    refine le_add_of_nonneg_left ?_
    split
    · positivity
    · exact le_rfl
  | ab2 =>
    obtain ⟨M', hM0', hM'⟩ := ab2_local hv hUc hUv hX
    refine ⟨M + M', by positivity, fun t0 h n hh ht i hi => ?_⟩
    cases i with
    | zero =>
      have h1 := hM _ (ht 0 hi.le) h (by rw [← hstep]; exact ht _ hi)
      rw [hstep]
      refine h1.trans ?_
      rw [if_pos rfl]
      have h2 : M * |h| * |h| ≤ (M + M') * |h| ^ 2 := by
        rw [mul_assoc, ← pow_two]
        exact mul_le_mul_of_nonneg_right (by linarith) (by positivity)
      refine h2.trans (le_add_of_nonneg_right (by positivity))
    | succ j =>
      have e : t0 + ((j + 1 : ℕ) : ℝ) * h - h = t0 + j * h := by push_cast; ring
      have h1 := hM' _ (ht (j + 1) hi.le) h (by rw [← hstep]; exact ht _ hi)
        (by rw [e]; exact ht j (by omega))
      rw [e] at h1
      rw [hstep t0 h (j + 1)]
      refine h1.trans ?_
      rw [if_neg (by omega), zero_add]
      exact mul_le_mul_of_nonneg_left
        (mul_le_mul_of_nonneg_right (by linarith) (by positivity)) (abs_nonneg h)
  | rk4 =>
    obtain ⟨w, hw, rfl⟩ := hv
    obtain ⟨M', hM0', hM'⟩ := rk4_local hw hUc hUv hX
    refine ⟨M', hM0', fun t0 h n hh ht i hi => ?_⟩
    have h1 := hM' _ (ht i hi.le) h (by rw [← hstep]; exact ht _ hi) hh
    rw [hstep]
    refine h1.trans (le_add_of_nonneg_left ?_)
    split
    · positivity
    · exact le_rfl

theorem Attains.one {k : Kind} {ord : ℕ} {v : ℝ → (Fin d → ℝ) → Fin d → ℝ} (hv : Attains k ord v) :
    ContDiff ℝ 1 fun q : ℝ × (Fin d → ℝ) => v q.1 q.2 := by
  rcases hv with ⟨-, h⟩ | ⟨-, h⟩
  · exact smoothEnough_one h
  · exact h

theorem Attains.pos {k : Kind} {ord : ℕ} {v : ℝ → (Fin d → ℝ) → Fin d → ℝ} (hv : Attains k ord v) :
    1 ≤ ord := by
  rcases hv with ⟨rfl, -⟩ | ⟨rfl, -⟩
  · cases k <;> simp [documentedOrder]
  · exact le_rfl

/-- Local errors at the order that is attained. -/
theorem local_error (k : Kind) {ord : ℕ} {v : ℝ → (Fin d → ℝ) → Fin d → ℝ} (hv : Attains k ord v)
    {X : ℝ → Fin d → ℝ} {U : Set ℝ} (hUc : IsCompact U) (hUv : Convex ℝ U)
    (hX : IsTrajectory v U X) : ∃ M η, 0 ≤ M ∧ 0 < η ∧ ∀ t0 h : ℝ, ∀ n : ℕ, |h| ≤ η →
      (∀ i ≤ n, t0 + i * h ∈ U) → ∀ i < n,
      ‖X (t0 + (i + 1 : ℕ) * h) - X (t0 + i * h) - h • increment k (v (t0 + i * h)) h
        (exactPrev k (fun i => v (t0 + i * h)) (fun i => X (t0 + i * h)) i) (X (t0 + i * h))‖ ≤
      (if i = 0 then M * |h| ^ ord else 0) + |h| * (M * |h| ^ ord) := by
  rcases hv with ⟨rfl, hv⟩ | ⟨rfl, hv⟩
  · obtain ⟨M, hM, H⟩ := local_error_documented k hv hUc hUv hX
    exact ⟨M, 1, hM, one_pos, H⟩
  obtain ⟨L, B, M, hL, hB, hM, c1, c2, c3, c4⟩ := flow_constants hv hUc hUv hX 1
  obtain ⟨η, hη0, hηL, hηB⟩ : ∃ η : ℝ, 0 < η ∧ L * η ≤ 1 ∧ η * (2 * B + 2 * L) ≤ 1 / 2 := by
    have hpos : 0 < 1 + L + (4 * B + 4 * L) := by positivity
    refine ⟨1 / (1 + L + (4 * B + 4 * L)), by positivity, ?_, ?_⟩
    · rw [mul_one_div, div_le_one hpos]
      linarith
    · rw [div_mul_eq_mul_div, div_le_iff₀ hpos]
      linarith
  refine ⟨2 * M + L * B, η, by positivity, hη0, fun t0 h n hh ht i hi => ?_⟩
  have hstep : t0 + ((i + 1 : ℕ) : ℝ) * h = t0 + i * h + h := by push_cast; ring
  have h1 := c4 _ (ht i hi.le) h (by rw [← hstep]; exact ht _ hi)
  have h2 := increment_error k (g := v (t0 + i * h)) (h := h) (ε := 0) (L := L) (B := B) (M := M)
    (e := 0) (r := 1) (x := X (t0 + i * h)) (y := X (t0 + i * h)) (w := v (t0 + i * h) (X (t0 + i * h)))
    (prev := exactPrev k (fun i => v (t0 + i * h)) (fun i => X (t0 + i * h)) i) hL le_rfl hM
    (fun z hz => by rw [zero_add]; exact c1 _ (ht i hi.le) z hz) (c2 _ (ht i hi.le)) (by simp)
    (fun p hp => by
      cases i with
      | zero => cases k <;> cases hp
      | succ j =>
        have hj := c3 _ (ht j (by omega)) _ (ht (j + 1) hi.le)
        have e : |t0 + (j : ℝ) * h - (t0 + ((j + 1 : ℕ) : ℝ) * h)| = |h| := by
          rw [show t0 + (j : ℝ) * h - (t0 + ((j + 1 : ℕ) : ℝ) * h) = -h by push_cast; ring, abs_neg]
        rw [e] at hj
        cases k with
        | euler => cases hp
        | rk4 => cases hp
        | ab2 =>
          cases hp
          simpa using hj)
    ((mul_le_mul_of_nonneg_left hh hL).trans hηL) (by norm_num) (by
      have h3 := mul_le_mul_of_nonneg_right hh (by positivity : 0 ≤ 2 * B + 2 * L)
      linarith)
  rw [hstep]
  generalize increment k (v (t0 + i * h)) h
    (exactPrev k (fun i => v (t0 + i * h)) (fun i => X (t0 + i * h)) i) (X (t0 + i * h)) = Φ at h2 ⊢
  have e : X (t0 + i * h + h) - X (t0 + i * h) - h • Φ =
      (X (t0 + i * h + h) - X (t0 + i * h) - h • v (t0 + i * h) (X (t0 + i * h))) -
        h • (Φ - v (t0 + i * h) (X (t0 + i * h))) := by
    module
  rw [e]
  refine (norm_sub_le _ _).trans ?_
  rw [norm_smul, Real.norm_eq_abs]
  have h3 := mul_le_mul_of_nonneg_left h2 (abs_nonneg h)
  have h4 : 0 ≤ if i = 0 then (2 * M + L * B) * |h| ^ 1 else 0 := by
    split
    · positivity
    · exact le_rfl
  nlinarith

/-- Constants of a smooth flow near a trajectory. -/
theorem tube_constants {v : ℝ → (Fin d → ℝ) → Fin d → ℝ}
    (hv : ContDiff ℝ 1 fun q : ℝ × (Fin d → ℝ) => v q.1 q.2) {X : ℝ → Fin d → ℝ} {U : Set ℝ}
    (hUc : IsCompact U) (hX : ContinuousOn X U) (r : ℝ) :
    ∃ L B : ℝ, 0 ≤ L ∧ 0 ≤ B ∧
      (∀ t ∈ U, ∀ z z', ‖z - X t‖ ≤ r → ‖z' - X t‖ ≤ r → ‖v t z - v t z'‖ ≤ L * ‖z - z'‖) ∧
      ∀ t ∈ U, ∀ z, ‖z - X t‖ ≤ r → ‖v t z‖ ≤ B := by
  obtain ⟨R, hR⟩ := (hUc.image_of_continuousOn hX).isBounded.exists_norm_le
  have hR' : ∀ t ∈ U, ‖X t‖ ≤ R := fun t ht => hR _ (mem_image_of_mem X ht)
  set K : Set (ℝ × (Fin d → ℝ)) := U ×ˢ Metric.closedBall 0 (R + |r|) with hK
  have hKc : IsCompact K := hUc.prod (isCompact_closedBall _ _)
  obtain ⟨Λ, hΛ⟩ := (hv.locallyLipschitz.locallyLipschitzOn (s := K)).exists_lipschitzOnWith_of_compact
    hKc
  obtain ⟨B, hB⟩ := (hKc.image_of_continuousOn hv.continuous.continuousOn).isBounded.exists_norm_le
  have hmem : ∀ t ∈ U, ∀ z, ‖z - X t‖ ≤ r → (t, z) ∈ K := by
    intro t ht z hz
    refine ⟨ht, ?_⟩
    rw [mem_closedBall_zero_iff]
    have h1 := norm_add_le (X t) (z - X t)
    rw [add_sub_cancel] at h1
    have := hR' t ht
    have := le_abs_self r
    show ‖z‖ ≤ _
    linarith
  refine ⟨Λ, |B|, Λ.2, abs_nonneg B, fun t ht z z' hz hz' => ?_, fun t ht z hz =>
    (hB _ (mem_image_of_mem _ (hmem t ht z hz))).trans (le_abs_self B)⟩
  have h1 := hΛ.dist_le_mul _ (hmem t ht z hz) _ (hmem t ht z' hz')
  rw [dist_eq_norm, Prod.dist_eq, dist_self, dist_eq_norm] at h1
  rwa [max_eq_right (norm_nonneg _)] at h1

/-- **Order of the positions.**  With velocities within `ε` of those of `v`, `n` steps of size `h`
end within a constant times `|h| ^ order + ε` of the exact position; the points at which velocities
are evaluated on the way lie within `r` of the exact positions. -/
theorem flow_order (k : Kind) {ord : ℕ} {v : ℝ → (Fin d → ℝ) → Fin d → ℝ} (hv : Attains k ord v)
    {X : ℝ → Fin d → ℝ} {U : Set ℝ} (hUc : IsCompact U) (hUv : Convex ℝ U)
    (hX : IsTrajectory v U X) {t0 : ℝ} (ht0 : t0 ∈ U) {r : ℝ} (hr : 0 < r) :
    ∃ C η, 0 ≤ C ∧ 0 < η ∧ ∀ (h ε : ℝ) (n : ℕ) (g : ℕ → (Fin d → ℝ) → Fin d → ℝ), |h| ≤ η →
      0 ≤ ε → ε ≤ η → t0 + n * h ∈ U →
      (∀ i < n, ∀ z, ‖z - X (t0 + i * h)‖ ≤ r → ‖g i z - v (t0 + i * h) z‖ ≤ ε) →
      ‖flowMap k g h n (X t0) - X (t0 + n * h)‖ ≤ C * (|h| ^ ord + ε) ∧
      ∀ i < n, ∀ z ∈ stages k (g i) h (flowMap k g h i (X t0)), ‖z - X (t0 + i * h)‖ ≤ r := by
  have hXc : ContinuousOn X U := fun t ht => (hX t ht).continuousWithinAt
  obtain ⟨L, B, hL0, hB0, hL, hB⟩ := tube_constants hv.one hUc hXc r
  obtain ⟨M, ηM, hM0, hηM, hM⟩ := local_error k hv hUc hUv hX
  obtain ⟨τ, hτ⟩ := hUc.isBounded.exists_norm_le
  have hp1 : 1 ≤ ord := hv.pos
  set D : ℝ := (M + 2 * τ * (2 + M)) * Real.exp (2 * L * (2 * τ)) with hD
  have hτ0 : 0 ≤ τ := (norm_nonneg _).trans (hτ t0 ht0)
  have hD0 : 0 ≤ D := by positivity
  -- the bound for small steps
  have bound : ∀ (h ε : ℝ) (n : ℕ), 0 ≤ ε → t0 + n * h ∈ U →
      orderBound L (M * |h| ^ ord) (2 * ε + M * |h| ^ ord) h n ≤
        D * (|h| ^ ord + ε) := by
    intro h ε n hε hn
    have hnh : n * |h| ≤ 2 * τ := by
      have h1 := norm_sub_le (t0 + n * h) t0
      have h2 := hτ _ hn
      have h3 := hτ _ ht0
      have h4 : ‖t0 + n * h - t0‖ = n * |h| := by
        rw [add_sub_cancel_left, Real.norm_eq_abs, abs_mul, Nat.abs_cast]
      linarith
    refine (orderBound_le_exp hL0 (by positivity) (by positivity) hnh).trans ?_
    rw [hD]
    have h5 : M * |h| ^ ord + 2 * τ * (2 * ε + M * |h| ^ ord) ≤
        (M + 2 * τ * (2 + M)) * (|h| ^ ord + ε) := by
      have : 0 ≤ |h| ^ ord := by positivity
      have h6 : 0 ≤ (M + 2 * τ * M) * ε + 4 * τ * |h| ^ ord := by positivity
      nlinarith
    have h7 := mul_le_mul_of_nonneg_right h5 (Real.exp_nonneg (2 * L * (2 * τ)))
    refine h7.trans_eq ?_
    ring
  -- small steps
  obtain ⟨η, hη0, hη1, hηL, hηD, hηB⟩ : ∃ η : ℝ, 0 < η ∧ η ≤ 1 ∧ L * η ≤ 1 ∧
      D * (η + η) ≤ r / 2 ∧ η * (2 * B + 2 + 2 * L * r) ≤ r / 2 := by
    refine ⟨min 1 (min (1 / (L + 1)) (min (r / (4 * (D + 1))) (r / (2 * (2 * B + 2 + 2 * L * r))))),
      by positivity, min_le_left _ _, ?_, ?_, ?_⟩
    · have h1 : min 1 (min (1 / (L + 1)) (min (r / (4 * (D + 1))) (r / (2 * (2 * B + 2 + 2 * L * r)))))
          ≤ 1 / (L + 1) := (min_le_right _ _).trans (min_le_left _ _)
      have h2 := mul_le_mul_of_nonneg_left h1 hL0
      have h3 : L * (1 / (L + 1)) ≤ 1 := by
        rw [mul_one_div, div_le_one (by positivity)]
        linarith
      linarith
    · have h1 : min 1 (min (1 / (L + 1)) (min (r / (4 * (D + 1))) (r / (2 * (2 * B + 2 + 2 * L * r)))))
          ≤ r / (4 * (D + 1)) :=
        (min_le_right _ _).trans ((min_le_right _ _).trans (min_le_left _ _))
      have h2 := mul_le_mul_of_nonneg_left h1 hD0
      have h3 : D * (r / (4 * (D + 1))) ≤ r / 4 := by
        rw [mul_div_assoc', div_le_div_iff₀ (by positivity) (by norm_num)]
        nlinarith
      linarith
    · have h1 : min 1 (min (1 / (L + 1)) (min (r / (4 * (D + 1))) (r / (2 * (2 * B + 2 + 2 * L * r)))))
          ≤ r / (2 * (2 * B + 2 + 2 * L * r)) :=
        (min_le_right _ _).trans ((min_le_right _ _).trans (min_le_right _ _))
      have h0 : 0 < 2 * B + 2 + 2 * L * r := by positivity
      have h2 := mul_le_mul_of_nonneg_right h1 h0.le
      have h3 : r / (2 * (2 * B + 2 + 2 * L * r)) * (2 * B + 2 + 2 * L * r) = r / 2 := by
        field_simp
      linarith
  obtain ⟨η, hη0, hη1, hηL, hηD, hηB, hηη⟩ : ∃ η : ℝ, 0 < η ∧ η ≤ 1 ∧ L * η ≤ 1 ∧
      D * (η + η) ≤ r / 2 ∧ η * (2 * B + 2 + 2 * L * r) ≤ r / 2 ∧ η ≤ ηM := by
    have h1 : min η ηM ≤ η := min_le_left _ _
    refine ⟨min η ηM, by positivity, h1.trans hη1, ?_, ?_, ?_, min_le_right _ _⟩
    · exact (mul_le_mul_of_nonneg_left h1 hL0).trans hηL
    · exact (mul_le_mul_of_nonneg_left (add_le_add h1 h1) hD0).trans hηD
    · exact (mul_le_mul_of_nonneg_right h1 (by positivity)).trans hηB
  refine ⟨D, η, hD0, hη0, fun h ε n g hh hε0 hε hn hg => ?_⟩
  have htimes : ∀ i ≤ n, t0 + i * h ∈ U := by
    intro i hi
    have h1 := mem_times (t0 := t0) (h := h) hi
    rw [← segment_eq_uIcc] at h1
    exact hUv.segment_subset ht0 hn h1
  have hb := bound h ε n hε0 hn
  have hpow : |h| ^ ord ≤ η := by
    have h1 : |h| ^ ord ≤ |h| ^ 1 :=
      pow_le_pow_of_le_one (abs_nonneg h) (hh.trans hη1) hp1
    rw [pow_one] at h1
    exact h1.trans hh
  have hbr : orderBound L (M * |h| ^ ord) (2 * ε + M * |h| ^ ord) h n ≤
      r / 2 := by
    refine hb.trans ((mul_le_mul_of_nonneg_left (add_le_add hpow hε) hD0).trans hηD)
  have hLh : L * |h| ≤ 1 := (mul_le_mul_of_nonneg_left hh hL0).trans hηL
  have hBr : |h| * (2 * B + 2 * ε + 2 * L * r) ≤ r / 2 := by
    have h2 : 2 * B + 2 * ε + 2 * L * r ≤ 2 * B + 2 + 2 * L * r := by linarith
    exact (mul_le_mul hh h2 (by positivity) hη0.le).trans hηB
  have main := flow_global k (g := g) (w := fun i => v (t0 + i * h)) (y := fun i => X (t0 + i * h))
    (ε := ε) (L := L) (B := B) (r := r) (h := h) (s := M * |h| ^ ord)
    (c := M * |h| ^ ord) (n := n) hε0 hL0 hB0 (by positivity) (by positivity) hg
    (fun i hi => hL _ (htimes i hi.le)) (fun i hi => hB _ (htimes i hi.le))
    (fun i hi => hM t0 h n (hh.trans hηη) htimes i hi) hLh (by
      have h3 : |h| * (B + ε) ≤ |h| * (2 * B + 2 * ε + 2 * L * r) :=
        mul_le_mul_of_nonneg_left (by nlinarith [mul_nonneg hL0 hr.le]) (abs_nonneg h)
      linarith)
  have e0 : X (t0 + ((0 : ℕ) : ℝ) * h) = X t0 := by simp
  simp only [e0] at main
  refine ⟨(main n le_rfl).trans hb, fun i hi => ?_⟩
  have hc0 : 0 ≤ 2 * ε + M * |h| ^ ord := by positivity
  have hxr : ‖X (t0 + i * h) - X (t0 + i * h)‖ ≤ r := by rw [sub_self, norm_zero]; exact hr.le
  refine stages_near k hL0 hε0 (w := v (t0 + i * h) (X (t0 + i * h))) (fun z hz => ?_)
    (hB _ (htimes i hi.le) _ hxr)
    ((main i hi.le).trans ((orderBound_mono hL0 (by positivity) hc0 hi.le).trans hbr)) hBr
  have h1 := norm_add_le (g i z - v (t0 + i * h) z) (v (t0 + i * h) z - v (t0 + i * h) (X (t0 + i * h)))
  rw [sub_add_sub_cancel] at h1
  have h2 := hg i hi z hz
  have h3 := hL _ (htimes i hi.le) z _ hz hxr
  linarith

end Verif
