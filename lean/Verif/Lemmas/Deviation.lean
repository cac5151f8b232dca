import Verif.Lemmas.Strain

/-!
# How far differences of positions change

Refines `flow_growth`: not only the length of the difference of two positions is bounded, but its
distance from the difference at the start.
-/

namespace Verif

open Matrix

variable {d : ℕ}

/-- The difference after a step, compared with a fixed difference `w`. -/
theorem step_deviation {x y p q w : Fin d → ℝ} {h c : ℝ} (hc : |h| * ‖p - q‖ ≤ c) :
    ‖x + h • p - (y + h • q) - w‖ ≤ ‖x - y - w‖ + c := by
  have e : x + h • p - (y + h • q) - w = (x - y - w) + h • (p - q) := by rw [smul_sub]; abel
  rw [e]
  refine (norm_add_le _ _).trans ?_
  rw [norm_smul, Real.norm_eq_abs]
  linarith

section
variable {k : Kind} {g : ℕ → (Fin d → ℝ) → Fin d → ℝ} {S : ℕ → Set (Fin d → ℝ)} {L h : ℝ} {n : ℕ}
  {x y : Fin d → ℝ}

theorem flow_deviation (hL : 0 ≤ L) (hg : ∀ j < n, Strained (S j) (g j) L)
    (hx : ∀ j < n, ∀ z ∈ stages k (g j) h (flowMap k g h j x), z ∈ S j)
    (hy : ∀ j < n, ∀ z ∈ stages k (g j) h (flowMap k g h j y), z ∈ S j) :
    ‖flowMap k g h n x - flowMap k g h n y - (x - y)‖ ≤
      (growth k (|h| * L) ^ n - 1) * ‖x - y‖ := by
  have ha : 0 ≤ |h| * L := by positivity
  have hG := growth_one_le k ha
  induction n with
  | zero => simp [flowMap, rowRun]
  | succ n ih =>
    have i1 := ih (fun j hj => hg j (by omega)) (fun j hj => hx j (by omega))
      (fun j hj => hy j (by omega))
    have d1 := flow_growth (k := k) (n := n) hL (fun j hj => hg j (by omega))
      (fun j hj => hx j (by omega)) (fun j hj => hy j (by omega))
    have base := hg n (by omega) _ (hx n (by omega) _ (mem_stages_self _ _ _ _)) _
      (hy n (by omega) _ (mem_stages_self _ _ _ _))
    rw [flowMap_succ, flowMap_succ, rowStep_increment, rowStep_increment]
    suffices H : |h| * ‖increment k (g n) h (flowPrev k g h x n) (flowMap k g h n x) -
        increment k (g n) h (flowPrev k g h y n) (flowMap k g h n y)‖ ≤
        (growth k (|h| * L) - 1) * (growth k (|h| * L) ^ n * ‖x - y‖) by
      refine (step_deviation H).trans ?_
      rw [pow_succ']
      linarith
    by_cases hk : k = .ab2
    · subst hk
      cases n with
      | zero =>
        show |h| * ‖g 0 x - g 0 y‖ ≤ _
        have b' : ‖g 0 x - g 0 y‖ ≤ L * ‖x - y‖ := base
        have m := mul_le_mul_of_nonneg_left b' (abs_nonneg h)
        have := mul_nonneg ha (norm_nonneg (x - y))
        simp only [growth, pow_zero, one_mul]
        linarith
      | succ n =>
        have d0 := flow_growth (k := .ab2) (n := n) hL (fun j hj => hg j (by omega))
          (fun j hj => hx j (by omega)) (fun j hj => hy j (by omega))
        have prev := hg n (by omega) _ (hx n (by omega) _ (mem_stages_self _ _ _ _)) _
          (hy n (by omega) _ (mem_stages_self _ _ _ _))
        refine (ab2_strain base prev).trans ?_
        have up : growth .ab2 (|h| * L) ^ n * ‖x - y‖ ≤
            growth .ab2 (|h| * L) ^ (n + 1) * ‖x - y‖ := by
          gcongr
          omega
        have m1 := mul_le_mul_of_nonneg_left d1 ha
        have m0 := mul_le_mul_of_nonneg_left (d0.trans up) ha
        have e : growth .ab2 (|h| * L) - 1 = 2 * (|h| * L) := by simp only [growth]; ring
        rw [e]
        linarith
    · refine (increment_strain hk (hg n (by omega)) hL (hx n (by omega)) (hy n (by omega)) _ _).trans ?_
      exact mul_le_mul_of_nonneg_left d1 (by linarith)

end

/-- A matrix whose entries differ by at most `e` from those of the identity. -/
theorem maxStretch_near_one [NeZero d] {M : Matrix (Fin d) (Fin d) ℝ} {s s' e : ℝ}
    (hs : IsMaxStretch M s) (hs' : IsMaxStretch (M - 1) s') (he : 0 ≤ e)
    (h : ∀ i j, |M i j - (1 : Matrix (Fin d) (Fin d) ℝ) i j| ≤ e) :
    1 - d * e ≤ s ∧ s ≤ 1 + d * e := by
  have small : s' ≤ d * e := maxStretch_le_entries hs' he h
  constructor
  · have u1 : len (Pi.single 0 (1 : ℝ) : Fin d → ℝ) = 1 := by simp [len, dotProduct, Pi.single_apply]
    have b1 := maxStretch_bound hs (Pi.single 0 1)
    have b2 := maxStretch_bound hs' (-Pi.single 0 1)
    have eq : (Pi.single 0 (1 : ℝ) : Fin d → ℝ) =
        M *ᵥ Pi.single 0 1 + (M - 1) *ᵥ (-Pi.single 0 1) := by
      rw [sub_mulVec, mulVec_neg, mulVec_neg, one_mulVec]; abel
    have t := len_add_le (M *ᵥ (Pi.single 0 (1 : ℝ) : Fin d → ℝ)) ((M - 1) *ᵥ (-Pi.single 0 1))
    rw [← eq, u1] at t
    have u2 : len (-Pi.single 0 (1 : ℝ) : Fin d → ℝ) = 1 := by rw [← u1]; simp [len]
    rw [u1] at b1
    rw [u2] at b2
    linarith
  · obtain ⟨⟨u, hu, rfl⟩, -⟩ := hs
    have e : M *ᵥ u = u + (M - 1) *ᵥ u := by rw [sub_mulVec, one_mulVec]; abel
    rw [e]
    refine (len_add_le _ _).trans ?_
    have b := maxStretch_bound hs' u
    rw [hu] at b ⊢
    linarith

/-! ## Particles that move slowly stay near -/

/-- Where the velocities are at most `B`, no point used in `n` steps is farther than `2 n |h| B` from
the start. -/
theorem slow_near (k : Kind) {g : ℕ → (Fin d → ℝ) → Fin d → ℝ} {h B : ℝ} (hB : 0 ≤ B) {n : ℕ}
    {x : Fin d → ℝ} (hg : ∀ j < n, ∀ z, ‖z - x‖ ≤ 2 * n * (|h| * B) → ‖g j z‖ ≤ B) :
    ∀ j < n, ∀ z ∈ stages k (g j) h (flowMap k g h j x), ‖z - x‖ ≤ 2 * n * (|h| * B) := by
  have hhB : 0 ≤ |h| * B := by positivity
  have far : ∀ {y : Fin d → ℝ} {j : ℕ}, j < n → ‖y - x‖ ≤ 2 * j * (|h| * B) →
      ∀ z ∈ stages k (g j) h y, ‖z - x‖ ≤ 2 * n * (|h| * B) := by
    intro y j hj hy
    have hjn : (j : ℝ) + 1 ≤ n := by exact_mod_cast hj
    have room : 2 * (j : ℝ) * (|h| * B) + |h| * B ≤ 2 * n * (|h| * B) := by nlinarith
    have one : ∀ (b : ℝ) (p : Fin d → ℝ), |b| ≤ |h| → ‖p‖ ≤ B → ‖y + b • p - x‖ ≤ 2 * n * (|h| * B) := by
      intro b p hb hp
      have e : y + b • p - x = (y - x) + b • p := by abel
      rw [e]
      refine (norm_add_le _ _).trans (le_trans (add_le_add hy ?_) room)
      rw [norm_smul, Real.norm_eq_abs]
      exact mul_le_mul hb hp (norm_nonneg _) (abs_nonneg _)
    have y0 : ‖y - x‖ ≤ 2 * n * (|h| * B) := by linarith
    have half : |1 / 2 * h| ≤ |h| := by
      rw [abs_mul]
      have := abs_nonneg h
      norm_num
      linarith
    cases k with
    | euler => intro z hz; rw [List.mem_singleton.1 hz]; exact y0
    | ab2 => intro z hz; rw [List.mem_singleton.1 hz]; exact y0
    | rk4 =>
      have e : ∀ (z : Fin d → ℝ) (a : ℝ) (w : Fin d → ℝ), (fun c => z c + a * w c) = z + a • w :=
        fun z a w => rfl
      simp only [stages, NumLits.half, e]
      have k1 := hg j hj y y0
      have p2 := one (1 / 2 * h) _ half k1
      have k2 := hg j hj _ p2
      have p3 := one (1 / 2 * h) _ half k2
      have k3 := hg j hj _ p3
      have p4 := one h _ le_rfl k3
      intro z hz
      simp only [List.mem_cons, List.not_mem_nil, or_false] at hz
      rcases hz with rfl | rfl | rfl | rfl
      exacts [y0, p2, p3, p4]
  have pos : ∀ j ≤ n, ‖flowMap k g h j x - x‖ ≤ 2 * j * (|h| * B) := by
    intro j
    induction j using Nat.strong_induction_on with
    | _ j ih =>
      cases j with
      | zero => intro _; simp [flowMap, rowRun]
      | succ j =>
        intro hj
        have ij := ih j (by omega) (by omega)
        have st := far (j := j) (by omega) ij
        rw [flowMap_succ, rowStep_increment]
        suffices H : ‖increment k (g j) h (flowPrev k g h x j) (flowMap k g h j x)‖ ≤ 2 * B by
          have e : flowMap k g h j x + h • increment k (g j) h (flowPrev k g h x j)
              (flowMap k g h j x) - x = (flowMap k g h j x - x) + h • increment k (g j) h
              (flowPrev k g h x j) (flowMap k g h j x) := by abel
          rw [e]
          refine (norm_add_le _ _).trans ?_
          rw [norm_smul, Real.norm_eq_abs]
          have := mul_le_mul_of_nonneg_left H (abs_nonneg h)
          push_cast
          linarith
        have k1 := hg j (by omega) _ (st _ (mem_stages_self _ _ _ _))
        cases k with
        | euler => exact k1.trans (by linarith)
        | ab2 =>
          cases j with
          | zero => exact k1.trans (by linarith)
          | succ j =>
            have k0 := hg j (by omega) _ (far (j := j) (by omega) (ih j (by omega) (by omega)) _
              (mem_stages_self _ _ _ _))
            show ‖(3 / 2 : ℝ) • g (j + 1) _ - (1 / 2 : ℝ) • g j _‖ ≤ _
            refine (norm_sub_le _ _).trans ?_
            rw [norm_smul, norm_smul]
            have e1 : ‖(3 / 2 : ℝ)‖ = 3 / 2 := by norm_num
            have e2 : ‖(1 / 2 : ℝ)‖ = 1 / 2 := by norm_num
            rw [e1, e2]
            linarith
        | rk4 =>
          have e : ∀ (z : Fin d → ℝ) (a : ℝ) (w : Fin d → ℝ), (fun c => z c + a * w c) = z + a • w :=
            fun z a w => rfl
          simp only [stages, NumLits.half, e] at st
          simp only [increment]
          simp only [List.forall_mem_cons] at st
          obtain ⟨-, s2, s3, s4, -⟩ := st
          have k2 := hg j (by omega) _ s2
          have k3 := hg j (by omega) _ s3
          have k4 := hg j (by omega) _ s4
          rw [norm_smul]
          have e6 : ‖(1 / 6 : ℝ)‖ = 1 / 6 := by norm_num
          rw [e6]
          have tri : ∀ a b c e : Fin d → ℝ, ‖a‖ ≤ B → ‖b‖ ≤ B → ‖c‖ ≤ B → ‖e‖ ≤ B →
              ‖a + (2 : ℝ) • b + (2 : ℝ) • c + e‖ ≤ 6 * B := by
            intro a b c e ha hb hc he
            have := norm_add₃_le (a := a + (2 : ℝ) • b) (b := (2 : ℝ) • c) (c := e)
            have h2 := norm_add_le a ((2 : ℝ) • b)
            rw [norm_smul] at this h2
            have e2 : ‖(2 : ℝ)‖ = 2 := by norm_num
            rw [e2] at this h2
            linarith
          have := tri _ _ _ _ k1 k2 k3 k4
          linarith
  exact fun j hj => far hj (pos j hj.le)

end Verif
