import Verif.Lemmas.Jac64

/-!
# C86: a whole 2-D run in binary64

Integration, Jacobian, period and exponent with every operation rounded, against the exponent of
the exact flow.
-/

namespace Verif

open Matrix Set

/-! ## Specification -/

/-- The scalars are binary64 numbers: `abs` is exact, the FTLE kernel is the rounded one with the
library functions `m`. -/
structure Env64 (env : Env Fl Val64) (m : Libm) : Prop where
  abs : env.abs = fun x => ⟨|x.val|⟩
  f2 : env.ftle2 = ftle64 m

/-! ## Lemmas -/

theorem det_error {A C : Matrix (Fin 2) (Fin 2) ℝ} {σ b : ℝ} (hσ : ∀ i j, |C i j| ≤ σ)
    (h : ∑ r, ∑ c, |A r c - C r c| ≤ b) : |A.det| ≤ |C.det| + b * σ + b ^ 2 := by
  rw [Fin.sum_univ_two, Fin.sum_univ_two, Fin.sum_univ_two] at h
  have hσ0 : 0 ≤ σ := (abs_nonneg _).trans (hσ 0 0)
  have n00 := abs_nonneg (A 0 0 - C 0 0)
  have n01 := abs_nonneg (A 0 1 - C 0 1)
  have n10 := abs_nonneg (A 1 0 - C 1 0)
  have n11 := abs_nonneg (A 1 1 - C 1 1)
  have hb : 0 ≤ b := by linarith
  have e : A.det = C.det + (C 0 0 * (A 1 1 - C 1 1) + C 1 1 * (A 0 0 - C 0 0) -
      C 0 1 * (A 1 0 - C 1 0) - C 1 0 * (A 0 1 - C 0 1)) +
      ((A 0 0 - C 0 0) * (A 1 1 - C 1 1) - (A 0 1 - C 0 1) * (A 1 0 - C 1 0)) := by
    rw [Matrix.det_fin_two, Matrix.det_fin_two]; ring
  have lin : ∀ i j k l, |C i j * (A k l - C k l)| ≤ σ * |A k l - C k l| := by
    intro i j k l
    rw [abs_mul]
    exact mul_le_mul_of_nonneg_right (hσ i j) (abs_nonneg _)
  have q1 : |(A 0 0 - C 0 0) * (A 1 1 - C 1 1)| = |A 0 0 - C 0 0| * |A 1 1 - C 1 1| := abs_mul _ _
  have q2 : |(A 0 1 - C 0 1) * (A 1 0 - C 1 0)| = |A 0 1 - C 0 1| * |A 1 0 - C 1 0| := abs_mul _ _
  have l1 := abs_le.1 (lin 0 0 1 1)
  have l2 := abs_le.1 (lin 1 1 0 0)
  have l3 := abs_le.1 (lin 0 1 1 0)
  have l4 := abs_le.1 (lin 1 0 0 1)
  have m1 := abs_le.1 q1.le
  have m2 := abs_le.1 q2.le
  have d1 := abs_le.1 (le_refl |C.det|)
  have s1 : σ * (|A 0 0 - C 0 0| + |A 0 1 - C 0 1| + |A 1 0 - C 1 0| + |A 1 1 - C 1 1|) ≤ σ * b :=
    mul_le_mul_of_nonneg_left (by linarith) hσ0
  have s2 : |A 0 0 - C 0 0| * |A 1 1 - C 1 1| + |A 0 1 - C 0 1| * |A 1 0 - C 1 0| ≤ b ^ 2 := by
    have h1 : b ^ 2 ≥ (|A 0 0 - C 0 0| + |A 0 1 - C 0 1| + |A 1 0 - C 1 0| + |A 1 1 - C 1 1|) ^ 2 :=
      pow_le_pow_left₀ (by positivity) (by linarith) 2
    nlinarith [mul_nonneg n00 n01, mul_nonneg n00 n10, mul_nonneg n00 n11, mul_nonneg n01 n10,
      mul_nonneg n01 n11, mul_nonneg n10 n11, sq_nonneg (A 0 0 - C 0 0)]
  rw [abs_le, e]
  constructor <;> linarith [l1.1, l1.2, l2.1, l2.2, l3.1, l3.2, l4.1, l4.2, m1.1, m1.2, m2.1, m2.2,
    d1.1, d1.2]

/-- One group: Jacobian near `D`, period near `T`. -/
theorem group64 {m : Libm} {κ : ℝ} (hm : m.Accurate κ) (hκ0 : 0 ≤ κ) (hκ : κ ≤ 1 / 100)
    {J : Matrix (Fin 2) (Fin 2) Fl} {D : Matrix (Fin 2) (Fin 2) ℝ} {σ b T : ℝ} {τ : Fl}
    (hD : IsMaxStretch D σ) (hJ : ∑ r, ∑ c, |reMat J r c - D r c| ≤ b)
    (hb : b + 2 ^ (-200 : ℤ) ≤ σ) (hT : 0 < T) (hT' : T ≤ 2 ^ 999)
    (hτ : |τ.re - T| ≤ 21 / 10 * (uR * T)) {v : Val64}
    (hv : v = Val64.smul (1 / τ) (Val64.log m (Val64.sqrt m (maxEig64 m (cauchyGreen2 J))))) :
    (v = .nan ∨ v.Within (1 / T * Real.log σ) (1 / T * (2 ^ (-22 : ℤ) +
      102 / 100 * (b / (σ - b)) + (κ + 2 ^ (-50 : ℤ)) * |Real.log σ|))) ∧
    (|D.det| + b * σ + b ^ 2 ≤ (1 - 2 ^ (-22 : ℤ)) * (σ - b) ^ 2 → v ≠ .nan) ∧
    (|D.det| + b * σ + b ^ 2 ≤ 1 / 2 * (σ - b) ^ 2 → v.Within (1 / T * Real.log σ)
      (1 / T * (2 ^ (-45 : ℤ) + 102 / 100 * (b / (σ - b)) +
        (κ + 2 ^ (-50 : ℤ)) * |Real.log σ|))) := by
  obtain ⟨l, -, -, hs⟩ := entry2 (reMat J)
  set s := √l with hsd
  have hp : (0 : ℝ) < 2 ^ (-200 : ℤ) := by positivity
  have near : |s - σ| ≤ b := by
    have h1 := maxStretch_le_add hs hD
    have h2 := maxStretch_le_add hD hs
    simp only [abs_sub_comm (D _ _)] at h2
    rw [abs_le]
    constructor <;> linarith
  have hs0 : 2 ^ (-200 : ℤ) ≤ s := by linarith [(abs_le.1 near).1]
  obtain ⟨hspos, hlog⟩ := log_error near (by linarith)
  have huT : uR * T ≤ 1 / 1000 * T :=
    mul_le_mul_of_nonneg_right (uR_le.trans (by norm_num)) hT.le
  have hτ0 : 0 < τ.re := by linarith [(abs_le.1 hτ).1]
  have hτ1 : |τ.re| ≤ 2 ^ 1000 := by
    rw [abs_of_pos hτ0]
    have h1 : τ.re ≤ 2 * T := by linarith [(abs_le.1 hτ).2]
    calc τ.re ≤ 2 * T := h1
      _ ≤ 2 * 2 ^ 999 := by linarith
      _ = 2 ^ 1000 := (pow_succ' 2 999).symm
  obtain ⟨c1, c2, c3⟩ := entry64_bounds hm hκ0 hκ J hτ0.ne' hτ1 hs hs0 hv
  have fin : ∀ P Q : ℝ, 0 ≤ P → 101 / 100 * P ≤ Q → v.Within (1 / τ.re * Real.log s)
      (1 / |τ.re| * (P + (κ + 2 ^ (-51 : ℤ)) * |Real.log s|)) →
      v.Within (1 / T * Real.log σ) (1 / T * (Q + 102 / 100 * (b / (σ - b)) +
        (κ + 2 ^ (-50 : ℤ)) * |Real.log σ|)) := by
    rintro P Q hP hPQ ⟨x, h1, h2⟩
    refine ⟨x, h1, (exponent64 hT hτ hκ0 hκ hP hlog h2).trans ?_⟩
    exact mul_le_mul_of_nonneg_left (by linarith) (by positivity)
  have hdet : ∀ c : ℝ, 0 ≤ c → |D.det| + b * σ + b ^ 2 ≤ c * (σ - b) ^ 2 →
      |(reMat J).det| ≤ c * s ^ 2 := by
    intro c hc h
    refine (det_error (fun i j => entry_le_stretch hD i j) hJ).trans (h.trans ?_)
    refine mul_le_mul_of_nonneg_left ?_ hc
    exact pow_le_pow_left₀ (by linarith) (by linarith [(abs_le.1 near).1]) 2
  refine ⟨c1.imp_right (fin _ _ (by positivity) (by norm_num)), fun h => c2 (hdet _ (by norm_num) h),
    fun h => fin _ _ (by positivity) (by norm_num) (c3 (hdet _ (by norm_num) h))⟩

/-! ## The theorem -/

/-- **C86 (2-D).**  A run in binary64 over at least two snapshots.  The source hands out, in step
`j`, velocities `g j` on the region `S j`, within `ε + L · distance` of the true velocity near the
exact trajectories.  Positions on the trajectories and within `r` of them have size at most `W`;
`ρ` bounds the rounding of one step.  Then the run succeeds, and the value of every group is NaN or
within `(1/T) (2^-22 + 1.02 b / (σ - b) + (κ + 2^-50) |ln σ|)` of `(1/T) ln σ`: `σ` is the maximal
stretching of the exact differences of the exact positions after `n` steps, `T = (n - 1)|h|`, and
`b` the error of the positions (the rounding of a step joins the error of the velocities) over the
distances of the seeds, plus the rounding of the Jacobian.  NaN is excluded when the two
stretches differ clearly, and `2^-22` becomes `2^-45` when they differ by a factor of about two. -/
theorem C86_binary64_2d {env : Env Fl Val64} {m : Libm} {κ : ℝ} (he : Env64 env m)
    (hm : m.Accurate κ) (hκ0 : 0 ≤ κ) (hκ : κ ≤ 1 / 100) (queue : Bool) (k : Kind)
    {v : ℝ → (Fin 2 → ℝ) → Fin 2 → ℝ} {t0 ε L B M r W ρ : ℝ} {src : Source Fl} {n : ℕ}
    (hn : src.numSteps = n) (hn2 : 2 ≤ n) {h : Fl} (hh : src.timestep = h)
    (hh0 : 2 ^ (-500 : ℤ) ≤ |h.re|) (hT : ((n : ℝ) - 1) * |h.re| ≤ 2 ^ 999) (hε : 0 ≤ ε)
    (hr : 0 ≤ r) (hρ : ρ = stepRounding W (B + ε + L * r) |h.re|)
    (small : SmallSteps (effError ε L ρ h.re) L B M h.re n r) {N : ℕ} {seed : NDArray Fl}
    (hs : seed.shape = [4 * N, 2]) {P : Particles Fl} (hp : mkParticles seed = .ok P)
    (hP : src.getParticles env.fs = .ok P) (X : ℕ → Fin 4 → ℝ → Fin 2 → ℝ)
    (hX : ∀ i < N, ∀ b, Along v t0 h.re n B M (X i b) ∧
      X i b t0 = reVec (groupOf seed 4 N 2 i b) ∧
      ∀ t ∈ uIcc t0 (t0 + n * h.re), ‖X i b t‖ + r ≤ W)
    {I0 : AnyInterp Fl} (hI : I0.Unused) {id : String} (hid : src.id env = .ok id)
    (hup : ∀ i < n, (src.updated env I0 (i + 1)).2 = none)
    (g : ℕ → (Fin 2 → Fl) → Fin 2 → Fl) (S : ℕ → Set (Fin 2 → Fl))
    (hv : ∀ j < n, PointwiseOn (S j) (4 * N) ((src.updated env I0 (j + 1)).1.velocity env) (g j))
    (hS : ∀ i < N, ∀ b, ∀ j < n, ∀ z, ‖reVec z - X i b (t0 + j * h.re)‖ ≤ r → z ∈ S j ∧
      ‖reVec (g j z) - v (t0 + j * h.re) (X i b (t0 + j * h.re))‖ ≤
        ε + L * ‖reVec z - X i b (t0 + j * h.re)‖)
    (Δx Δy : ℕ → ℝ)
    (hΔ : ∀ i < N, Δx i = (groupOf seed 4 N 2 i 1 0).re - (groupOf seed 4 N 2 i 0 0).re ∧
      Δy i = (groupOf seed 4 N 2 i 2 1).re - (groupOf seed 4 N 2 i 3 1).re ∧
      2 ^ (-500 : ℤ) ≤ |Δx i| ∧ 2 ^ (-500 : ℤ) ≤ |Δy i|)
    (D : ℕ → Matrix (Fin 2) (Fin 2) ℝ)
    (hD : ∀ i < N, centralDiff2 (fun b => X i b (t0 + n * h.re))
      (fun b => reVec (groupOf seed 4 N 2 i b)) = .ok (D i))
    (σ b : ℕ → ℝ) (hb : ∀ i, b i = 41 / 10 * posError (effError ε L ρ h.re) L B M h.re n *
      (1 / |Δx i| + 1 / |Δy i|) + 2 ^ (-53 : ℤ) * (1 + 16 * σ i))
    (hσ : ∀ i < N, IsMaxStretch (D i) (σ i) ∧ b i + 2 ^ (-200 : ℤ) ≤ σ i) :
    ∃ Λ : ℕ → Val64, ((⟨src, I0, .fresh k⟩ : Solver Fl).run env queue none).result =
        .ok (some ((List.range N).map Λ)) ∧
      ∀ i < N,
        (Λ i = .nan ∨ (Λ i).Within (1 / (((n : ℝ) - 1) * |h.re|) * Real.log (σ i))
          (1 / (((n : ℝ) - 1) * |h.re|) * (2 ^ (-22 : ℤ) + 102 / 100 * (b i / (σ i - b i)) +
            (κ + 2 ^ (-50 : ℤ)) * |Real.log (σ i)|))) ∧
        (|(D i).det| + b i * σ i + b i ^ 2 ≤ (1 - 2 ^ (-22 : ℤ)) * (σ i - b i) ^ 2 →
          Λ i ≠ .nan) ∧
        (|(D i).det| + b i * σ i + b i ^ 2 ≤ 1 / 2 * (σ i - b i) ^ 2 →
          (Λ i).Within (1 / (((n : ℝ) - 1) * |h.re|) * Real.log (σ i))
            (1 / (((n : ℝ) - 1) * |h.re|) * (2 ^ (-45 : ℤ) + 102 / 100 * (b i / (σ i - b i)) +
              (κ + 2 ^ (-50 : ℤ)) * |Real.log (σ i)|))) := by
  have hpos : (0 : ℝ) < 2 ^ (-500 : ℤ) := by positivity
  have hne : h.re ≠ 0 := abs_pos.1 (hpos.trans_le hh0)
  have near : ∀ i < N, ∀ b,
      ‖reVec (flowMap k g h n (groupOf seed 4 N 2 i b)) - X i b (t0 + n * h.re)‖ ≤
        posError (effError ε L ρ h.re) L B M h.re n ∧
      ∀ j < n, ∀ z ∈ stages k (g j) h (flowMap k g h j (groupOf seed 4 N 2 i b)),
        ‖reVec z - X i b (t0 + j * h.re)‖ ≤ r := by
    intro i hi b
    obtain ⟨h1, h2, h3⟩ := hX i hi b
    rw [posError_eq]
    exact flow64_near k hne hr h1.trajectory h2.symm small.lip hε small.accel small.speed
      (fun j hj z hz => (hS i hi b j hj z hz).2) h1.speed h3 h1.accel hρ.ge small.step
      (by rw [← posError_eq]; exact small.stay) small.reach
  have jac : ∀ i < N, ∃ J, centralDiff2
      (fun b => flowMap k g h n (groupOf seed 4 N 2 i b)) (groupOf seed 4 N 2 i) = .ok J ∧
      ∑ r, ∑ c, |reMat J r c - D i r c| ≤ b i := by
    intro i hi
    obtain ⟨d1, d2, d3, d4⟩ := hΔ i hi
    have hDi := (centralDiff2_ok.1 (hD i hi)).2
    rw [d1] at d3
    rw [d2] at d4
    obtain ⟨J, j1, j2⟩ := jac64_near (x := groupOf seed 4 N 2 i) (fun b => (near i hi b).1) d3 d4
      (by rw [← hDi]; exact (hσ i hi).1)
    refine ⟨J, j1, ?_⟩
    rw [hDi, hb, d1, d2]
    exact j2
  choose! J hJ using jac
  set τ := runPeriod env src with hτ
  have hT0 : 0 < ((n : ℝ) - 1) * |h.re| := by
    have : (2 : ℝ) ≤ n := by exact_mod_cast hn2
    exact mul_pos (by linarith) (hpos.trans_le hh0)
  have hτT : |τ.re - ((n : ℝ) - 1) * (|h.re|)| ≤ 21 / 10 * (uR * (((n : ℝ) - 1) * |h.re|)) := by
    have hk : (1 : ℤ) ≤ (n : ℤ) - 1 := by omega
    have := period64 (h := h) (a := env.abs h) hk (by
      rw [he.abs]; simp [Fl.re]) hh0
    push_cast at this
    rw [hτ, runPeriod, hn, hh]
    exact this
  have hτ0 : τ.val ≠ 0 := by
    intro h0
    rw [Fl.re_eq_zero] at h0
    rw [h0, zero_sub, abs_neg, abs_of_pos hT0] at hτT
    have := mul_le_mul_of_nonneg_right (uR_le.trans (by norm_num : _ ≤ (1 / 1000 : ℝ))) hT0.le
    linarith
  refine ⟨fun i => Val64.smul (1 / τ) (Val64.log m (Val64.sqrt m (maxEig64 m (cauchyGreen2 (J i))))),
    ?_, fun i hi => group64 hm hκ0 hκ (hσ i hi).1 (hJ i hi).2 (hσ i hi).2 hT0 hT hτT rfl⟩
  rw [run_flow_on_2d env src hI k g S (fun i hi => hup i (by omega)) N
    (fun j hj => hv j (by omega)) hid seed P queue hs hp hP (fun i hi b j hj z hz => by
      rw [hh] at hz
      exact (hS i hi b j (by omega) z ((near i hi b).2 j (by omega) z hz)).1)]
  rw [pyMap_ok_map (g := J)]
  · simp only [he.f2, ftle64, ← hτ, if_neg hτ0, List.map_map]
    rfl
  · intro i hi
    rw [hn, hh]
    exact (hJ i (List.mem_range.1 hi)).1

/-! ## A concrete run

The shear flow `(0, x)`, two steps of `2^-10`, four seeds at distance 1 from the origin. -/

/-- Binary64 with the library functions `m`. -/
noncomputable def flEnv (m : Libm) : Env Fl Val64 :=
  { fs := fun _ => none
    sp := ⟨fun _ _ _ => none, fun _ _ _ _ => .error .valueError, fun _ _ _ => none,
      fun _ _ _ _ => .error .valueError⟩
    m := isoCpp (fun x => ⌊x.val⌋) Int.cast
    stem := id
    timeName := fun _ => ""
    junk := fun _ => ⟨0⟩
    abs := fun x => ⟨|x.val|⟩
    ftle2 := ftle64 m
    ftle3 := fun _ _ => .error .valueError }

def linShear64 (z : Fin 2 → Fl) : Fin 2 → Fl := ![⟨0⟩, z 0]

def linShear (x : Fin 2 → ℝ) : Fin 2 → ℝ := ![0, x 0]

def linPath (x : Fin 2 → ℝ) (t : ℝ) : Fin 2 → ℝ := ![x 0, x 1 + t * x 0]

def cross64 : NDArray Fl := ⟨[4, 2], fun i =>
  if i = [0, 0] ∨ i = [3, 1] then ⟨-1⟩ else if i = [1, 0] ∨ i = [2, 1] then ⟨1⟩ else ⟨0⟩⟩

theorem cross64_re (b : Fin 4) : reVec (groupOf cross64 4 1 2 0 b) = cross2 0 1 b := by
  funext c
  fin_cases b <;> fin_cases c <;> simp [groupOf, rowOf, cross64, cross2, reVec, Fl.re]

theorem linShear_along {x : Fin 2 → ℝ} (hx : |x 0| ≤ 1) (h : ℝ) (n : ℕ) :
    Along (fun _ => linShear) 0 h n 1 0 (linPath x) where
  trajectory := by
    intro t _
    rw [hasDerivWithinAt_pi]
    intro i
    fin_cases i
    · exact hasDerivWithinAt_const _ _ _
    · have := ((hasDerivWithinAt_id t (uIcc 0 (0 + n * h))).mul_const (x 0)).const_add (x 1)
      simpa [linShear, linPath] using this
  speed := by
    intro t _
    rw [pi_norm_le_iff_of_nonneg (by positivity)]
    intro c
    fin_cases c
    · simp [linShear]
    · exact hx
  accel := by
    intro s _ t _
    have : linShear (linPath x s) = linShear (linPath x t) := by simp [linShear, linPath]
    rw [this]
    simp

theorem linRounding : 0 ≤ stepRounding 3 (1 + 0 + 1 * 1) (1 / 1024) ∧
    stepRounding 3 (1 + 0 + 1 * 1) (1 / 1024) ≤ 1 / 10 ^ 13 := by
  refine ⟨stepRounding_nonneg (by norm_num) (by norm_num) (by norm_num), ?_⟩
  unfold stepRounding
  linarith [uR_le, ηR_le]

theorem linSmall : SmallSteps (effError 0 1 (stepRounding 3 (1 + 0 + 1 * 1) (1 / 1024)) (1 / 1024))
    1 1 0 (1 / 1024) 2 1 ∧
    posError (effError 0 1 (stepRounding 3 (1 + 0 + 1 * 1) (1 / 1024)) (1 / 1024)) 1 1 0 (1 / 1024) 2
      ≤ 1 / 500000 := by
  obtain ⟨h1, h2⟩ := linRounding
  set ρ := stepRounding 3 (1 + 0 + 1 * 1) (1 / 1024)
  have e0 : 0 ≤ effError 0 1 ρ (1 / 1024) := by unfold effError; positivity
  have e1 : effError 0 1 ρ (1 / 1024) ≤ 1 / 10 ^ 10 := by
    unfold effError
    rw [abs_of_pos (by norm_num)]
    norm_num at h2 ⊢
    linarith
  have e2 : posError (effError 0 1 ρ (1 / 1024)) 1 1 0 (1 / 1024) 2 ≤ 1 / 500000 := by
    unfold posError
    rw [abs_of_pos (by norm_num)]
    norm_num
    linarith
  refine ⟨⟨e0, by norm_num, by norm_num, by norm_num, by norm_num [abs_of_pos], by linarith, ?_⟩, e2⟩
  rw [abs_of_pos (by norm_num)]
  linarith

/-- The hypotheses of C86 hold.  The value is a number within one per cent of the exponent
`1024 ln σ`, which is about 1. -/
example (k : Kind) : ∃ (m : Libm) (P : Particles Fl) (σ : ℝ) (x : Fl), m.Accurate (2 ^ (-52 : ℤ)) ∧
    IsMaxStretch !![1, 0; 1 / 512, 1] σ ∧
    ((⟨.analytical ⟨P, ⟨1 / 1024⟩, [⟨0⟩, ⟨1 / 1024⟩]⟩,
      .analytical (.fresh (some fun _ => sourceOf 2 linShear64)), .fresh k⟩ : Solver Fl).run (flEnv m)
      false none).result = .ok (some [.fin x]) ∧
    |x.re - 1024 * Real.log σ| ≤ 1 / 100 := by
  obtain ⟨m, hm⟩ := exists_libm (κ := 2 ^ (-52 : ℤ)) (by positivity)
  obtain ⟨P, hP, -⟩ := mkParticles_2d (show cross64.shape = [4 * 1, 2] from rfl)
  obtain ⟨σ, hσ⟩ := ftle2_computes.exists_stretch !![(1 : ℝ), 0; 1 / 512, 1]
  have hσ0 : 1 ≤ σ := by
    have := entry_le_stretch hσ 0 0
    simpa using this
  have hσ1 : 1 + 1 / 512 ≤ σ ^ 2 := by
    have h1 := maxStretch_bound hσ ![1, 1]
    have h2 := pow_le_pow_left₀ (len_nonneg _) h1 2
    rw [mul_pow, len_sq, len_sq] at h2
    simp [Matrix.mulVec, dotProduct, Fin.sum_univ_two] at h2
    linarith
  have hσ2 : σ ≤ 1 + 1 / 512 := by
    have := maxStretch_le_add hσ (maxStretch_one (d := 2))
    simpa [Fin.sum_univ_two] using this
  obtain ⟨small, pe⟩ := linSmall
  have hre : (⟨1 / 1024⟩ : Fl).re = 1 / 1024 := by norm_num [Fl.re]
  set pE := posError (effError 0 1 (stepRounding 3 (1 + 0 + 1 * 1) (1 / 1024)) (1 / 1024)) 1 1 0
    (1 / 1024) 2 with hpE
  have pe0 : 0 ≤ pE := by
    have := small.eps
    rw [hpE]
    unfold posError
    positivity
  set b := 41 / 10 * pE * (1 / |(2 : ℝ)| + 1 / |(2 : ℝ)|) + 2 ^ (-53 : ℤ) * (1 + 16 * σ) with hb
  have hb1 : 0 ≤ b ∧ b ≤ 83 / 10 ^ 7 := by
    rw [hb, abs_of_pos (by norm_num)]
    constructor
    · positivity
    · have : (2 : ℝ) ^ (-53 : ℤ) * (1 + 16 * σ) ≤ 2 ^ (-53 : ℤ) * 20 :=
        mul_le_mul_of_nonneg_left (by linarith) (by positivity)
      norm_num at this ⊢
      linarith
  have hupd : ∀ n, (Source.analytical ⟨P, ⟨1 / 1024⟩, [⟨0⟩, ⟨1 / 1024⟩]⟩ : Source Fl).updated
      (flEnv m) (.analytical (.fresh (some fun _ => sourceOf 2 linShear64))) n =
      (.analytical (.fresh (some fun _ => sourceOf 2 linShear64)), none) := by
    intro n
    induction n with
    | zero => rfl
    | succ n ih => simp only [Source.updated, ih, Source.updateInterp]
  have hx0 : ∀ b : Fin 4, |cross2 (0 : Fin 2 → ℝ) 1 b 0| ≤ 1 ∧ |cross2 (0 : Fin 2 → ℝ) 1 b 1| ≤ 1 := by
    intro b
    fin_cases b <;> simp [cross2]
  obtain ⟨Λ, r1, r2⟩ := C86_binary64_2d (env := flEnv m) ⟨rfl, rfl⟩ hm (by positivity) (by norm_num)
    false k (v := fun _ => linShear) (t0 := 0) (ε := 0) (L := 1) (B := 1) (M := 0) (r := 1) (W := 3)
    (src := .analytical ⟨P, ⟨1 / 1024⟩, [⟨0⟩, ⟨1 / 1024⟩]⟩) (n := 2) rfl le_rfl
    (h := ⟨1 / 1024⟩) rfl (by
      rw [hre, abs_of_pos (by norm_num)]
      exact (zpow_le_zpow_right₀ (by norm_num) (by norm_num : (-500 : ℤ) ≤ -10)).trans (by norm_num))
    (by
      rw [hre, abs_of_pos (by norm_num)]
      exact le_trans (by norm_num) (one_le_pow₀ (by norm_num : (1 : ℝ) ≤ 2)))
    le_rfl zero_le_one rfl (by rw [hre, abs_of_pos (by norm_num)]; exact small) (N := 1)
    (seed := cross64) rfl hP rfl (fun _ b => linPath (cross2 0 1 b))
    (fun i hi b => by
      obtain rfl : i = 0 := by omega
      refine ⟨linShear_along (hx0 b).1 _ _, ?_, ?_⟩
      · rw [cross64_re]; funext c; fin_cases c <;> simp [linPath]
      · intro t ht
        rw [hre, uIcc_of_le (by norm_num)] at ht
        have h0 := hx0 b
        have : |t * cross2 (0 : Fin 2 → ℝ) 1 b 0| ≤ 1 * 1 := by
          rw [abs_mul]
          refine mul_le_mul ?_ h0.1 (abs_nonneg _) zero_le_one
          rw [abs_of_nonneg ht.1]
          exact ht.2.trans (by norm_num)
        have hn : ‖linPath (cross2 0 1 b) t‖ ≤ 2 := by
          rw [pi_norm_le_iff_of_nonneg (by norm_num)]
          intro c
          fin_cases c
          · exact h0.1.trans (by norm_num)
          · exact (abs_add_le _ _).trans (by linarith [h0.2])
        linarith)
    (I0 := .analytical (.fresh (some fun _ => sourceOf 2 linShear64))) trivial rfl
    (fun i _ => by rw [hupd]) (fun _ => linShear64) (fun _ => univ)
    (fun j _ => by rw [hupd]; exact fun pos hp _ => sourceOf_pointwise _ _ _ pos hp)
    (fun i _ b j _ z _ => ⟨mem_univ _, by
      rw [one_mul, zero_add ‖_‖, pi_norm_le_iff_of_nonneg (norm_nonneg _)]
      intro c
      fin_cases c
      · simp [reVec, linShear64, linShear, Fl.re]
      · exact norm_le_pi_norm (reVec z - linPath (cross2 0 1 b) (0 + j * (⟨1 / 1024⟩ : Fl).re)) 0⟩)
    (fun _ => 2) (fun _ => 2) (fun i hi => by
      obtain rfl : i = 0 := by omega
      have h2 : (2 : ℝ) ^ (-500 : ℤ) ≤ |2| :=
        (zpow_le_one_of_nonpos₀ (by norm_num) (by norm_num)).trans (by norm_num)
      refine ⟨?_, ?_, h2, h2⟩ <;> simp [groupOf, rowOf, cross64, Fl.re] <;> norm_num)
    (fun _ => !![1, 0; 1 / 512, 1]) (fun i hi => by
      obtain rfl : i = 0 := by omega
      simp only [cross64_re, hre]
      rw [centralDiff2_ok]
      refine ⟨⟨?_, ?_⟩, ?_⟩
      · simp [cross2]
      · simp [cross2]
      · ext i j
        fin_cases i <;> fin_cases j <;> simp [diffs2, cross2, linPath] <;> norm_num) (fun _ => σ) (fun _ => b) (fun _ => by rw [hre, abs_of_pos (by norm_num : (0 : ℝ) < 1 / 1024)])
    (fun i hi => ⟨hσ, by
      have : (2 : ℝ) ^ (-200 : ℤ) ≤ 2 ^ (-1 : ℤ) := zpow_le_zpow_right₀ (by norm_num) (by norm_num)
      norm_num at this ⊢
      linarith [hb1.2]⟩)
  obtain ⟨c1, c2, -⟩ := r2 0 one_pos
  have hbσ : b * σ ≤ 83 / 10 ^ 7 * (1 + 1 / 512) :=
    mul_le_mul hb1.2 hσ2 (by linarith) (by norm_num)
  have hq : 1 + 1 / 1024 ≤ (σ - b) ^ 2 := by
    have : (σ - b) ^ 2 = σ ^ 2 - 2 * (b * σ) + b ^ 2 := by ring
    rw [this]
    have := sq_nonneg b
    linarith
  have hb2 : b ^ 2 ≤ 1 / 10 ^ 5 := by
    have := pow_le_pow_left₀ hb1.1 hb1.2 2
    norm_num at this ⊢
    linarith
  have hnan := c2 (by
    rw [Matrix.det_fin_two]
    have := mul_le_mul_of_nonneg_left hq (by norm_num : (0 : ℝ) ≤ 1 - 2 ^ (-22 : ℤ))
    refine le_trans ?_ this
    norm_num at hbσ hb2 ⊢
    linarith)
  obtain ⟨x, hx, hxb⟩ := c1.resolve_left hnan
  refine ⟨m, P, σ, x, hm, hσ, ?_, ?_⟩
  · rw [r1, ← hx]; rfl
  · have hl0 : 0 ≤ Real.log σ := Real.log_nonneg hσ0
    have hl1 : Real.log σ ≤ 1 / 512 := (Real.log_le_sub_one_of_pos (by linarith)).trans (by linarith)
    have hd : b / (σ - b) ≤ 831 / 10 ^ 8 := by
      rw [div_le_iff₀ (by linarith [hb1.2])]
      linarith [hb1.2]
    rw [hre, abs_of_pos (by norm_num : (0 : ℝ) < 1 / 1024), abs_of_nonneg hl0] at hxb
    norm_num at hxb hd ⊢
    refine hxb.trans ?_
    linarith

end Verif
