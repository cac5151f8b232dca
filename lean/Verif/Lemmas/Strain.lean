import Verif.Spec.Strain
import Verif.Lemmas.FlowOn
import Verif.Lemmas.StretchLimit
import Verif.Lemmas.Converge

/-!
# How fast two particles come apart or together
-/

namespace Verif

open Matrix

variable {d : ℕ}

/-- The first stage is the position itself. -/
theorem mem_stages_self (k : Kind) (g : (Fin d → ℝ) → Fin d → ℝ) (h : ℝ) (x : Fin d → ℝ) :
    x ∈ stages k g h x := by
  cases k <;> simp [stages]

theorem growth_one_le (k : Kind) {a : ℝ} (ha : 0 ≤ a) : 1 ≤ growth k a := by
  cases k <;> simp only [growth]
  · linarith
  · linarith
  · have := pow_nonneg ha 2
    have := pow_nonneg ha 3
    have := pow_nonneg ha 4
    linarith

theorem stage_near {g : (Fin d → ℝ) → Fin d → ℝ} {S : Set (Fin d → ℝ)} {L : ℝ} (hg : Strained S g L)
    (hL : 0 ≤ L) {u w : Fin d → ℝ} (hu : u ∈ S) (hw : w ∈ S) {r : ℝ} (h : ‖u - w‖ ≤ r) :
    ‖g u - g w‖ ≤ L * r :=
  (hg u hu w hw).trans (mul_le_mul_of_nonneg_left h hL)

theorem point_near {x y p q : Fin d → ℝ} (b : ℝ) {s : ℝ} (h : ‖p - q‖ ≤ s) :
    ‖x + b • p - (y + b • q)‖ ≤ ‖x - y‖ + |b| * s := by
  have e : x + b • p - (y + b • q) = (x - y) + b • (p - q) := by rw [smul_sub]; abel
  rw [e]
  refine (norm_add_le _ _).trans ?_
  rw [norm_smul, Real.norm_eq_abs]
  gcongr

/-- One step of the methods without memory. -/
theorem increment_strain {k : Kind} (hk : k ≠ .ab2) {g : (Fin d → ℝ) → Fin d → ℝ}
    {S : Set (Fin d → ℝ)} {L : ℝ} (hg : Strained S g L) (hL : 0 ≤ L) {h : ℝ} {x y : Fin d → ℝ}
    (hx : ∀ z ∈ stages k g h x, z ∈ S) (hy : ∀ z ∈ stages k g h y, z ∈ S)
    (p q : Option (Fin d → ℝ)) :
    |h| * ‖increment k g h p x - increment k g h q y‖ ≤ (growth k (|h| * L) - 1) * ‖x - y‖ := by
  cases k with
  | ab2 => exact absurd rfl hk
  | euler =>
    have := hg x (hx _ (mem_stages_self _ _ _ _)) y (hy _ (mem_stages_self _ _ _ _))
    simp only [increment, growth]
    calc _ ≤ |h| * (L * ‖x - y‖) := by gcongr
      _ = _ := by ring
  | rk4 =>
    have e : ∀ (z : Fin d → ℝ) (a : ℝ) (w : Fin d → ℝ), (fun c => z c + a * w c) = z + a • w :=
      fun z a w => rfl
    simp only [stages, NumLits.half, e] at hx hy
    simp only [increment]
    have ha : |1 / 2 * h| = 1 / 2 * |h| := by rw [abs_mul]; norm_num
    have b1 := stage_near hg hL (hx x (by simp)) (hy y (by simp)) le_rfl
    have c2 := point_near (x := x) (y := y) (1 / 2 * h) b1
    have b2 := stage_near hg hL (hx (x + (1 / 2 * h) • g x) (by simp))
      (hy (y + (1 / 2 * h) • g y) (by simp)) c2
    generalize g (x + (1 / 2 * h) • g x) = X2 at *
    generalize g (y + (1 / 2 * h) • g y) = Y2 at *
    have c3 := point_near (x := x) (y := y) (1 / 2 * h) b2
    have b3 := stage_near hg hL (hx (x + (1 / 2 * h) • X2) (by simp))
      (hy (y + (1 / 2 * h) • Y2) (by simp)) c3
    generalize g (x + (1 / 2 * h) • X2) = X3 at *
    generalize g (y + (1 / 2 * h) • Y2) = Y3 at *
    have c4 := point_near (x := x) (y := y) h b3
    have b4 := stage_near hg hL (hx (x + h • X3) (by simp)) (hy (y + h • Y3) (by simp)) c4
    generalize g (x + h • X3) = X4 at *
    generalize g (y + h • Y3) = Y4 at *
    generalize g x = X1 at *
    generalize g y = Y1 at *
    rw [ha] at *
    have split : (1 / 6 : ℝ) • (X1 + (2 : ℝ) • X2 + (2 : ℝ) • X3 + X4) -
        (1 / 6 : ℝ) • (Y1 + (2 : ℝ) • Y2 + (2 : ℝ) • Y3 + Y4) =
        (1 / 6 : ℝ) • ((X1 - Y1) + (2 : ℝ) • (X2 - Y2) + (2 : ℝ) • (X3 - Y3) + (X4 - Y4)) := by
      funext c
      simp only [Pi.smul_apply, Pi.sub_apply, Pi.add_apply, smul_eq_mul]
      ring
    rw [split, norm_smul]
    have tri : ‖(X1 - Y1) + (2 : ℝ) • (X2 - Y2) + (2 : ℝ) • (X3 - Y3) + (X4 - Y4)‖ ≤
        ‖X1 - Y1‖ + 2 * ‖X2 - Y2‖ + 2 * ‖X3 - Y3‖ + ‖X4 - Y4‖ := by
      refine (norm_add_le _ _).trans (add_le_add ((norm_add_le _ _).trans (add_le_add
        ((norm_add_le _ _).trans (add_le_add le_rfl ?_)) ?_)) le_rfl) <;>
        rw [norm_smul] <;> norm_num
    have n6 : ‖(1 / 6 : ℝ)‖ = 1 / 6 := by norm_num
    rw [n6]
    have hh := abs_nonneg h
    calc |h| * (1 / 6 * ‖(X1 - Y1) + (2 : ℝ) • (X2 - Y2) + (2 : ℝ) • (X3 - Y3) + (X4 - Y4)‖)
        ≤ |h| * (1 / 6 * (L * ‖x - y‖ + 2 * (L * (‖x - y‖ + 1 / 2 * |h| * (L * ‖x - y‖))) +
          2 * (L * (‖x - y‖ + 1 / 2 * |h| * (L * (‖x - y‖ + 1 / 2 * |h| * (L * ‖x - y‖))))) +
          L * (‖x - y‖ + |h| * (L * (‖x - y‖ + 1 / 2 * |h| *
            (L * (‖x - y‖ + 1 / 2 * |h| * (L * ‖x - y‖)))))))) := by
          gcongr
          exact tri.trans (by gcongr)
      _ = _ := by
          simp only [growth]
          ring

/-- The distance after a step. -/
theorem step_bounds {x y p q : Fin d → ℝ} {h c : ℝ} (hc : |h| * ‖p - q‖ ≤ c) :
    ‖x + h • p - (y + h • q)‖ ≤ ‖x - y‖ + c ∧ ‖x - y‖ - c ≤ ‖x + h • p - (y + h • q)‖ := by
  have e : x + h • p - (y + h • q) = (x - y) + h • (p - q) := by rw [smul_sub]; abel
  have n : ‖h • (p - q)‖ ≤ c := by rwa [norm_smul, Real.norm_eq_abs]
  rw [e]
  refine ⟨(norm_add_le _ _).trans (by linarith), ?_⟩
  have := norm_sub_le ((x - y) + h • (p - q)) (h • (p - q))
  rw [add_sub_cancel_right] at this
  linarith

/-- One step of the Adams-Bashforth method. -/
theorem ab2_strain {g g' : (Fin d → ℝ) → Fin d → ℝ} {L h r r' : ℝ} {x y x' y' : Fin d → ℝ}
    (h1 : ‖g x - g y‖ ≤ L * r) (h0 : ‖g' x' - g' y'‖ ≤ L * r') :
    |h| * ‖increment .ab2 g h (some (g' x')) x - increment .ab2 g h (some (g' y')) y‖ ≤
      3 / 2 * (|h| * L) * r + 1 / 2 * (|h| * L) * r' := by
  have e : increment .ab2 g h (some (g' x')) x - increment .ab2 g h (some (g' y')) y =
      (3 / 2 : ℝ) • (g x - g y) - (1 / 2 : ℝ) • (g' x' - g' y') := by
    funext c
    simp only [increment, Pi.smul_apply, Pi.sub_apply, smul_eq_mul]
    ring
  rw [e]
  have t : ‖(3 / 2 : ℝ) • (g x - g y) - (1 / 2 : ℝ) • (g' x' - g' y')‖ ≤
      3 / 2 * (L * r) + 1 / 2 * (L * r') := by
    refine (norm_sub_le _ _).trans (add_le_add ?_ ?_)
    · rw [norm_smul]
      norm_num
      linarith
    · rw [norm_smul]
      norm_num
      linarith
  calc _ ≤ |h| * (3 / 2 * (L * r) + 1 / 2 * (L * r')) := by gcongr
    _ = _ := by ring

section
variable {k : Kind} {g : ℕ → (Fin d → ℝ) → Fin d → ℝ} {S : ℕ → Set (Fin d → ℝ)} {L h : ℝ} {n : ℕ}
  {x y : Fin d → ℝ}

/-- Distances grow at most by `growth` in a step. -/
theorem flow_growth (hL : 0 ≤ L) (hg : ∀ j < n, Strained (S j) (g j) L)
    (hx : ∀ j < n, ∀ z ∈ stages k (g j) h (flowMap k g h j x), z ∈ S j)
    (hy : ∀ j < n, ∀ z ∈ stages k (g j) h (flowMap k g h j y), z ∈ S j) :
    ‖flowMap k g h n x - flowMap k g h n y‖ ≤ growth k (|h| * L) ^ n * ‖x - y‖ := by
  have ha : 0 ≤ |h| * L := by positivity
  have hG := growth_one_le k ha
  induction n using Nat.strong_induction_on with
  | _ n ih =>
    cases n with
    | zero => simp [flowMap, rowRun]
    | succ n =>
      have i1 := ih n (by omega) (fun j hj => hg j (by omega)) (fun j hj => hx j (by omega))
        (fun j hj => hy j (by omega))
      rw [flowMap_succ, flowMap_succ, rowStep_increment, rowStep_increment]
      have base := hg n (by omega) _ (hx n (by omega) _ (mem_stages_self _ _ _ _)) _
        (hy n (by omega) _ (mem_stages_self _ _ _ _))
      by_cases hk : k = .ab2
      · subst hk
        cases n with
        | zero =>
          refine (step_bounds (c := |h| * L * ‖x - y‖) ?_).1.trans ?_
          · show |h| * ‖g 0 x - g 0 y‖ ≤ _
            calc _ ≤ |h| * (L * ‖x - y‖) := by
                  gcongr
                  exact base
              _ = _ := by ring
          · show ‖x - y‖ + _ ≤ _
            have := mul_nonneg ha (norm_nonneg (x - y))
            simp only [growth, zero_add, pow_one]
            linarith
        | succ n =>
          have i0 := ih n (by omega) (fun j hj => hg j (by omega)) (fun j hj => hx j (by omega))
            (fun j hj => hy j (by omega))
          have prev := hg n (by omega) _ (hx n (by omega) _ (mem_stages_self _ _ _ _)) _
            (hy n (by omega) _ (mem_stages_self _ _ _ _))
          refine (step_bounds (ab2_strain base prev)).1.trans ?_
          have up : growth .ab2 (|h| * L) ^ n * ‖x - y‖ ≤
              growth .ab2 (|h| * L) ^ (n + 1) * ‖x - y‖ := by
            gcongr
            omega
          have e : growth .ab2 (|h| * L) ^ (n + 1 + 1) * ‖x - y‖ =
              (1 + 2 * (|h| * L)) * (growth .ab2 (|h| * L) ^ (n + 1) * ‖x - y‖) := by
            rw [pow_succ' _ (n + 1), mul_assoc]
            rfl
          rw [e]
          have m1 := mul_le_mul_of_nonneg_left i1 ha
          have m0 := mul_le_mul_of_nonneg_left (i0.trans up) ha
          linarith
      · refine (step_bounds (increment_strain hk (hg n (by omega)) hL (hx n (by omega))
          (hy n (by omega)) _ _)).1.trans ?_
        rw [pow_succ']
        calc _ = growth k (|h| * L) * ‖flowMap k g h n x - flowMap k g h n y‖ := by ring
          _ ≤ growth k (|h| * L) * (growth k (|h| * L) ^ n * ‖x - y‖) := by gcongr
          _ = _ := by ring

/-- Distances shrink at most by `shrink` in a step. -/
theorem flow_shrink (hL : 0 ≤ L) (hg : ∀ j < n, Strained (S j) (g j) L)
    (hx : ∀ j < n, ∀ z ∈ stages k (g j) h (flowMap k g h j x), z ∈ S j)
    (hy : ∀ j < n, ∀ z ∈ stages k (g j) h (flowMap k g h j y), z ∈ S j)
    (h0 : 0 ≤ shrink k (|h| * L)) (h5 : k = .ab2 → |h| * L ≤ 1 / 5) :
    shrink k (|h| * L) ^ n * ‖x - y‖ ≤ ‖flowMap k g h n x - flowMap k g h n y‖ := by
  have ha : 0 ≤ |h| * L := by positivity
  suffices H : ∀ m ≤ n, shrink k (|h| * L) ^ m * ‖x - y‖ ≤ ‖flowMap k g h m x - flowMap k g h m y‖ ∧
      (m < n → shrink k (|h| * L) * ‖flowMap k g h m x - flowMap k g h m y‖ ≤
        ‖flowMap k g h (m + 1) x - flowMap k g h (m + 1) y‖) from (H n le_rfl).1
  intro m
  induction m with
  | zero =>
    intro _
    refine ⟨by simp [flowMap, rowRun], fun hn => ?_⟩
    rw [flowMap_succ, flowMap_succ, rowStep_increment, rowStep_increment]
    have base := hg 0 hn _ (hx 0 hn _ (mem_stages_self _ _ _ _)) _
      (hy 0 hn _ (mem_stages_self _ _ _ _))
    by_cases hk : k = .ab2
    · subst hk
      refine le_trans ?_ (step_bounds (c := |h| * L * ‖x - y‖) ?_).2
      · have := mul_nonneg ha (norm_nonneg (x - y))
        show shrink .ab2 (|h| * L) * ‖x - y‖ ≤ ‖x - y‖ - _
        simp only [shrink]
        linarith
      · show |h| * ‖g 0 x - g 0 y‖ ≤ _
        calc _ ≤ |h| * (L * ‖x - y‖) := by
              gcongr
              exact base
          _ = _ := by ring
    · refine le_trans (le_of_eq ?_) (step_bounds (increment_strain hk (hg 0 hn) hL (hx 0 hn)
        (hy 0 hn) _ _)).2
      cases k <;> simp only [shrink, growth] <;> first | exact absurd rfl hk | ring
  | succ m ih =>
    intro hm
    obtain ⟨i0, i1⟩ := ih (by omega)
    have i1 := i1 (by omega)
    refine ⟨?_, fun hn => ?_⟩
    · rw [pow_succ', mul_assoc]
      exact (mul_le_mul_of_nonneg_left i0 h0).trans i1
    · rw [flowMap_succ k g h (m + 1), flowMap_succ k g h (m + 1), rowStep_increment,
        rowStep_increment]
      have base := hg (m + 1) hn _ (hx (m + 1) hn _ (mem_stages_self _ _ _ _)) _
        (hy (m + 1) hn _ (mem_stages_self _ _ _ _))
      by_cases hk : k = .ab2
      · subst hk
        have prev := hg m (by omega) _ (hx m (by omega) _ (mem_stages_self _ _ _ _)) _
          (hy m (by omega) _ (mem_stages_self _ _ _ _))
        refine le_trans ?_ (step_bounds (ab2_strain base prev)).2
        have h5 := h5 rfl
        generalize ‖flowMap .ab2 g h (m + 1) x - flowMap .ab2 g h (m + 1) y‖ = D1 at *
        have hD := norm_nonneg (flowMap .ab2 g h m x - flowMap .ab2 g h m y)
        generalize ‖flowMap .ab2 g h m x - flowMap .ab2 g h m y‖ = D0 at *
        generalize |h| * L = a at *
        have e : shrink .ab2 a = 1 - 5 / 2 * a := rfl
        rw [e] at i1 ⊢
        have half : D0 ≤ 2 * D1 := by nlinarith
        nlinarith
      · refine le_trans (le_of_eq ?_) (step_bounds (increment_strain hk (hg _ hn) hL (hx _ hn)
          (hy _ hn) _ _)).2
        cases k <;> simp only [shrink, growth] <;> first | exact absurd rfl hk | ring
end

/-! ## Stretching -/

theorem maxStretch_le_entries {M : Matrix (Fin d) (Fin d) ℝ} {s G : ℝ} (hs : IsMaxStretch M s)
    (hG : 0 ≤ G) (h : ∀ i j, |M i j| ≤ G) : s ≤ d * G := by
  obtain ⟨⟨u, hu, rfl⟩, -⟩ := hs
  unfold len
  rw [Real.sqrt_le_left (by positivity)]
  have hu' : ∑ j, u j ^ 2 = 1 := by
    have : u ⬝ᵥ u = 1 := by rw [← len_sq, hu, one_pow]
    rw [← this]
    simp [dotProduct, sq]
  have row : ∀ i, (M *ᵥ u) i * (M *ᵥ u) i ≤ d * G ^ 2 := fun i => by
    have cs := Finset.sum_mul_sq_le_sq_mul_sq Finset.univ (fun j => M i j) u
    rw [hu', mul_one] at cs
    have e : (M *ᵥ u) i * (M *ᵥ u) i = (∑ j, M i j * u j) ^ 2 := by rw [sq]; rfl
    rw [e]
    refine cs.trans ?_
    calc ∑ j, M i j ^ 2 ≤ ∑ _j : Fin d, G ^ 2 :=
          Finset.sum_le_sum fun j _ => sq_le_sq' (neg_le_of_abs_le (h i j)) (le_of_abs_le (h i j))
      _ = d * G ^ 2 := by simp
  calc (M *ᵥ u) ⬝ᵥ (M *ᵥ u) ≤ ∑ _i : Fin d, d * G ^ 2 := Finset.sum_le_sum fun i _ => row i
    _ = (d * G) ^ 2 := by simp; ring

theorem entry_le_maxStretch {M : Matrix (Fin d) (Fin d) ℝ} {s : ℝ} (hs : IsMaxStretch M s)
    (i j : Fin d) : |M i j| ≤ s := by
  have h1 := maxStretch_bound hs (Pi.single j 1)
  have h2 := abs_le_len (M *ᵥ Pi.single j 1) i
  have e : len (Pi.single j (1 : ℝ) : Fin d → ℝ) = 1 := by simp [len, dotProduct, Pi.single_apply]
  rw [e, mul_one] at h1
  have := h2.trans h1
  simpa using this

end Verif
