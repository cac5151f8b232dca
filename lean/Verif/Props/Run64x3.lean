import Verif.Lemmas.Linalg64
import Verif.Props.Run64

/-!
# C112: the 3-D kernel and a whole 3-D run in binary64

As C85 and C86, for three dimensions.  The eigenvalues come from `np.linalg.eigvals`; what is assumed
of it is `Linalg.Accurate`.
-/

namespace Verif

open Matrix Set

/-! ## Specification -/

/-- The scalars are binary64 numbers: `abs` is exact, the 3-D FTLE kernel is the rounded one. -/
structure Env64x3 (env : Env Fl Val64) (m : Libm) (la : Linalg) : Prop where
  abs : env.abs = fun x => ⟨|x.val|⟩
  f3 : env.ftle3 = ftle64x3 m la

/-! ## The theorems -/

/-- **C112** (accuracy of `compute_ftle_3x3`).  In binary64, with a square root accurate to one
rounding, a logarithm of relative error `κ` and largest eigenvalues of relative error `μ`: the kernel
returns for every list of Jacobians, and with `σ ≥ 2^-200` the largest stretch of one of them its
value is within `(11 μ + 2^-47 + (κ + 2^-51) |ln σ|) / |T|` of `(1/T) ln σ`.  (There is no exception
for equal stretches as in 2-D, C85.) -/
theorem C112_kernel {m : Libm} {κ : ℝ} (hm : m.Accurate κ) (hκ0 : 0 ≤ κ) (hκ : κ ≤ 1 / 100)
    {la : Linalg} {μ : ℝ} (ha : la.Accurate μ) (hμ0 : 0 ≤ μ) (hμ : μ ≤ 1 / 10 ^ 6)
    (Js : List (Matrix (Fin 3) (Fin 3) Fl)) {T : Fl} (hT : T.re ≠ 0) (hT' : |T.re| ≤ 2 ^ 1000) :
    ∃ vs, ftle64x3 m la Js T = .ok vs ∧ List.Forall₂ (fun F v => ∀ σ, IsMaxStretch (reMat F) σ →
      2 ^ (-200 : ℤ) ≤ σ → v.Within (1 / T.re * Real.log σ)
        (1 / |T.re| * (11 * μ + 2 ^ (-47 : ℤ) + (κ + 2 ^ (-51 : ℤ)) * |Real.log σ|))) Js vs := by
  have h1 : ∀ F : Matrix (Fin 3) (Fin 3) Fl, ∃ l, maxEig64x3 la (la.mul F Fᵀ) = .ok l := fun F => by
    obtain ⟨w, h, -⟩ := ha.eig _ (ha.symm F)
    exact ⟨_, by rw [maxEig64x3, h]⟩
  choose f hf using h1
  have h2 : pyMap (maxEig64x3 la) (Js.map fun F => la.mul F Fᵀ) = .ok (Js.map f) := by
    clear hT hT'
    induction Js with
    | nil => rfl
    | cons F Js ih => simp only [List.map_cons, pyMap, hf, ih]
  refine ⟨_, by rw [ftle64x3, h2]; exact if_neg fun h => hT (Fl.re_eq_zero.1 h), ?_⟩
  rw [List.map_map, List.forall₂_map_right_iff, List.forall₂_same]
  intro F _ σ hσ hσ0
  obtain ⟨l, e1, e2⟩ := entry64x3 hm hκ0 hκ ha hμ0 hμ F hT hT' hσ hσ0
  rw [hf] at e1
  cases e1
  exact e2

/-- **C112**: a zero period raises. -/
theorem C112_zero_period (m : Libm) {la : Linalg} {μ : ℝ} (ha : la.Accurate μ)
    (Js : List (Matrix (Fin 3) (Fin 3) Fl)) (T : Fl) (hT : T.val = 0) :
    ftle64x3 m la Js T = .error .zeroDivisionError := by
  have h2 : ∃ ls, pyMap (maxEig64x3 la) (Js.map fun F => la.mul F Fᵀ) = .ok ls := by
    induction Js with
    | nil => exact ⟨[], rfl⟩
    | cons F Js ih =>
      obtain ⟨ls, h⟩ := ih
      obtain ⟨w, hw, -⟩ := ha.eig _ (ha.symm F)
      exact ⟨.fin (max (max (w 0) (w 1)) (w 2)) :: ls, by
        simp only [List.map_cons, pyMap, maxEig64x3, hw, h]⟩
  obtain ⟨ls, h⟩ := h2
  rw [ftle64x3, h]
  exact if_pos hT

/-- **C112 (3-D run).**  A 3-D run in binary64 over at least two snapshots, with the hypotheses of C86:
velocities `g j` on the region `S j` within `ε + L · distance` of the true velocity near the exact
trajectories, positions of size at most `W`, rounding of one step at most `ρ`.  The run succeeds, and
every value is a number within
`(1/T) (12 μ + 2^-46 + 1.02 b / (σ - b) + (κ + 2^-50) |ln σ|)` of `(1/T) ln σ`: `σ` is the maximal
stretching of the exact differences of the exact positions after `n` steps, `T = (n - 1)|h|`, and `b`
the error of the positions over the distances of the seeds plus the rounding of the Jacobian. -/
theorem C112_binary64_3d {env : Env Fl Val64} {m : Libm} {κ : ℝ} {la : Linalg} {μ : ℝ}
    (he : Env64x3 env m la) (hm : m.Accurate κ) (hκ0 : 0 ≤ κ) (hκ : κ ≤ 1 / 100)
    (ha : la.Accurate μ) (hμ0 : 0 ≤ μ) (hμ : μ ≤ 1 / 10 ^ 6) (queue : Bool) (k : Kind)
    {v : ℝ → (Fin 3 → ℝ) → Fin 3 → ℝ} {t0 ε L B M r W ρ : ℝ} {src : Source Fl} {n : ℕ}
    (hn : src.numSteps = n) (hn2 : 2 ≤ n) {h : Fl} (hh : src.timestep = h)
    (hh0 : 2 ^ (-500 : ℤ) ≤ |h.re|) (hT : ((n : ℝ) - 1) * |h.re| ≤ 2 ^ 999) (hε : 0 ≤ ε)
    (hr : 0 ≤ r) (hρ : ρ = stepRounding W (B + ε + L * r) |h.re|)
    (small : SmallSteps (effError ε L ρ h.re) L B M h.re n r) {N : ℕ} {seed : NDArray Fl}
    (hs : seed.shape = [6 * N, 3]) {P : Particles Fl} (hp : mkParticles seed = .ok P)
    (hP : src.getParticles env.fs = .ok P) (X : ℕ → Fin 6 → ℝ → Fin 3 → ℝ)
    (hX : ∀ i < N, ∀ b, Along v t0 h.re n B M (X i b) ∧
      X i b t0 = reVec (groupOf seed 6 N 3 i b) ∧
      ∀ t ∈ uIcc t0 (t0 + n * h.re), ‖X i b t‖ + r ≤ W)
    {I0 : AnyInterp Fl} (hI : I0.Unused) {id : String} (hid : src.id env = .ok id)
    (hup : ∀ i < n, (src.updated env I0 (i + 1)).2 = none)
    (g : ℕ → (Fin 3 → Fl) → Fin 3 → Fl) (S : ℕ → Set (Fin 3 → Fl))
    (hv : ∀ j < n, PointwiseOn (S j) (6 * N) ((src.updated env I0 (j + 1)).1.velocity env) (g j))
    (hS : ∀ i < N, ∀ b, ∀ j < n, ∀ z, ‖reVec z - X i b (t0 + j * h.re)‖ ≤ r → z ∈ S j ∧
      ‖reVec (g j z) - v (t0 + j * h.re) (X i b (t0 + j * h.re))‖ ≤
        ε + L * ‖reVec z - X i b (t0 + j * h.re)‖)
    (Δx Δy Δz : ℕ → ℝ)
    (hΔ : ∀ i < N, Δx i = (groupOf seed 6 N 3 i 1 0).re - (groupOf seed 6 N 3 i 0 0).re ∧
      Δy i = (groupOf seed 6 N 3 i 2 1).re - (groupOf seed 6 N 3 i 3 1).re ∧
      Δz i = (groupOf seed 6 N 3 i 4 2).re - (groupOf seed 6 N 3 i 5 2).re ∧
      2 ^ (-500 : ℤ) ≤ |Δx i| ∧ 2 ^ (-500 : ℤ) ≤ |Δy i| ∧ 2 ^ (-500 : ℤ) ≤ |Δz i|)
    (D : ℕ → Matrix (Fin 3) (Fin 3) ℝ)
    (hD : ∀ i < N, centralDiff3 (fun b => X i b (t0 + n * h.re))
      (fun b => reVec (groupOf seed 6 N 3 i b)) = .ok (D i))
    (σ b : ℕ → ℝ) (hb : ∀ i, b i = 62 / 10 * posError (effError ε L ρ h.re) L B M h.re n *
      (1 / |Δx i| + 1 / |Δy i| + 1 / |Δz i|) + 2 ^ (-53 : ℤ) * (1 + 36 * σ i))
    (hσ : ∀ i < N, IsMaxStretch (D i) (σ i) ∧ b i + 2 ^ (-200 : ℤ) ≤ σ i) :
    ∃ Λ : ℕ → Val64, ((⟨src, I0, .fresh k⟩ : Solver Fl).run env queue none).result =
        .ok (some ((List.range N).map Λ)) ∧
      ∀ i < N, (Λ i).Within (1 / (((n : ℝ) - 1) * |h.re|) * Real.log (σ i))
        (1 / (((n : ℝ) - 1) * |h.re|) * (12 * μ + 2 ^ (-46 : ℤ) +
          102 / 100 * (b i / (σ i - b i)) + (κ + 2 ^ (-50 : ℤ)) * |Real.log (σ i)|)) := by
  have hpos : (0 : ℝ) < 2 ^ (-500 : ℤ) := by positivity
  have hne : h.re ≠ 0 := abs_pos.1 (hpos.trans_le hh0)
  have near : ∀ i < N, ∀ b,
      ‖reVec (flowMap k g h n (groupOf seed 6 N 3 i b)) - X i b (t0 + n * h.re)‖ ≤
        posError (effError ε L ρ h.re) L B M h.re n ∧
      ∀ j < n, ∀ z ∈ stages k (g j) h (flowMap k g h j (groupOf seed 6 N 3 i b)),
        ‖reVec z - X i b (t0 + j * h.re)‖ ≤ r := by
    intro i hi b
    obtain ⟨h1, h2, h3⟩ := hX i hi b
    rw [posError_eq]
    exact flow64_near k hne hr h1.trajectory h2.symm small.lip hε small.accel small.speed
      (fun j hj z hz => (hS i hi b j hj z hz).2) h1.speed h3 h1.accel hρ.ge small.step
      (by rw [← posError_eq]; exact small.stay) small.reach
  have jac : ∀ i < N, ∃ J, centralDiff3
      (fun b => flowMap k g h n (groupOf seed 6 N 3 i b)) (groupOf seed 6 N 3 i) = .ok J ∧
      ∑ r, ∑ c, |reMat J r c - D i r c| ≤ b i := by
    intro i hi
    obtain ⟨d1, d2, d3, d4, d5, d6⟩ := hΔ i hi
    have hDi := (centralDiff3_ok.1 (hD i hi)).2
    rw [d1] at d4
    rw [d2] at d5
    rw [d3] at d6
    obtain ⟨J, j1, j2⟩ := jac64x3_near (x := groupOf seed 6 N 3 i) (fun b => (near i hi b).1) d4 d5
      d6 (by rw [← hDi]; exact (hσ i hi).1)
    refine ⟨J, j1, ?_⟩
    rw [hDi, hb, d1, d2, d3]
    exact j2
  choose! J hJ using jac
  set τ := runPeriod env src with hτ
  have hT0 : 0 < ((n : ℝ) - 1) * |h.re| := by
    have : (2 : ℝ) ≤ n := by exact_mod_cast hn2
    exact mul_pos (by linarith) (hpos.trans_le hh0)
  have hτT : |τ.re - ((n : ℝ) - 1) * (|h.re|)| ≤ 21 / 10 * (uR * (((n : ℝ) - 1) * |h.re|)) := by
    have hk : (1 : ℤ) ≤ (n : ℤ) - 1 := by omega
    have := period64 (h := h) (a := env.abs h) hk (by
      rw [he.abs]; simp [Fl.re]) hh0
    push_cast at this
    rw [hτ, runPeriod, hn, hh]
    exact this
  have hτ0 : τ.val ≠ 0 := by
    intro h0
    rw [Fl.re_eq_zero] at h0
    rw [h0, zero_sub, abs_neg, abs_of_pos hT0] at hτT
    have := mul_le_mul_of_nonneg_right (uR_le.trans (by norm_num : _ ≤ (1 / 1000 : ℝ))) hT0.le
    linarith
  have hl : ∀ i < N, ∃ l, maxEig64x3 la (la.mul (J i) (J i)ᵀ) = .ok l ∧
      (Val64.smul (1 / τ) (Val64.log m (Val64.sqrt m l))).Within
        (1 / (((n : ℝ) - 1) * |h.re|) * Real.log (σ i))
        (1 / (((n : ℝ) - 1) * |h.re|) * (12 * μ + 2 ^ (-46 : ℤ) +
          102 / 100 * (b i / (σ i - b i)) + (κ + 2 ^ (-50 : ℤ)) * |Real.log (σ i)|)) :=
    fun i hi => group64x3 hm hκ0 hκ ha hμ0 hμ (hσ i hi).1 (hJ i hi).2 (hσ i hi).2 hT0 hT hτT
  have : Inhabited Val64 := ⟨.nan⟩
  choose! l hl using hl
  refine ⟨fun i => Val64.smul (1 / τ) (Val64.log m (Val64.sqrt m (l i))), ?_, fun i hi => (hl i hi).2⟩
  rw [run_flow_on_3d env src hI k g S (fun i hi => hup i (by omega)) N
    (fun j hj => hv j (by omega)) hid seed P queue hs hp hP (fun i hi b j hj z hz => by
      rw [hh] at hz
      exact (hS i hi b j (by omega) z ((near i hi b).2 j (by omega) z hz)).1)]
  rw [pyMap_ok_map (g := J)]
  · have h2 : pyMap (maxEig64x3 la) (((List.range N).map J).map fun F => la.mul F Fᵀ) =
        .ok ((List.range N).map l) := by
      have : ∀ is : List ℕ, (∀ i ∈ is, i < N) →
          pyMap (maxEig64x3 la) ((is.map J).map fun F => la.mul F Fᵀ) = .ok (is.map l) := by
        intro is
        induction is with
        | nil => exact fun _ => rfl
        | cons i is ih =>
          intro h
          simp only [List.map_cons, pyMap, (hl i (h i (by simp))).1,
            ih fun j hj => h j (List.mem_cons_of_mem _ hj)]
      exact this _ fun i hi => List.mem_range.1 hi
    have h3 : env.ftle3 ((List.range N).map J) τ = .ok ((List.range N).map
        fun i => Val64.smul (1 / τ) (Val64.log m (Val64.sqrt m (l i)))) := by
      rw [he.f3, ftle64x3, h2]
      simp only [if_neg hτ0, List.map_map]
      rfl
    simp only [← hτ, h3]
    rfl
  · intro i hi
    rw [hn, hh]
    exact (hJ i (List.mem_range.1 hi)).1

/-! ## The hypotheses can be met -/

/-- `A @ B` by rounded products and sums from left to right. -/
def matmul64 (A B : Matrix (Fin 3) (Fin 3) Fl) : Matrix (Fin 3) (Fin 3) Fl :=
  fun i j => A i 0 * B 0 j + A i 1 * B 1 j + A i 2 * B 2 j

theorem matmul64_near (A B : Matrix (Fin 3) (Fin 3) Fl) (i j : Fin 3) :
    |(matmul64 A B i j).re - ∑ k, (A i k).re * (B k j).re| ≤
      4 * 2 ^ (-53 : ℤ) * ∑ k, |(A i k).re| * |(B k j).re| + 2 ^ (-1070 : ℤ) := by
  have hu := uR_pos
  have hη := ηR_pos
  have hu1 : uR ≤ 1 / 1000 := uR_le.trans (by norm_num)
  have p0 := Fl.re_mul (A i 0) (B 0 j)
  have p1 := Fl.re_mul (A i 1) (B 1 j)
  have p2 := Fl.re_mul (A i 2) (B 2 j)
  have s1 := Fl.re_add (A i 0 * B 0 j) (A i 1 * B 1 j)
  have s2 := Fl.re_add (A i 0 * B 0 j + A i 1 * B 1 j) (A i 2 * B 2 j)
  rw [Fin.sum_univ_three, Fin.sum_univ_three, ← abs_mul, ← abs_mul, ← abs_mul]
  set x := (A i 0).re * (B 0 j).re
  set y := (A i 1).re * (B 1 j).re
  set z := (A i 2).re * (B 2 j).re
  have h1 := round_near s1 (add_near p0 p1) (abs_add_le x y)
  have h2 := round_near s2 (add_near h1 p2) ((abs_add_le (x + y) z).trans
    (add_le_add_left (abs_add_le x y) _))
  have e1 : (2 : ℝ) ^ (-53 : ℤ) = uR := rfl
  have e2 : (2 : ℝ) ^ (-1070 : ℤ) = 32 * ηR := by
    unfold ηR
    rw [show (-1070 : ℤ) = 5 + (-1075) by norm_num, zpow_add₀ (by norm_num)]
    norm_num
  rw [e1, e2]
  refine h2.trans ?_
  have nx := abs_nonneg x
  have ny := abs_nonneg y
  have nz := abs_nonneg z
  have f1 : ∀ t : ℝ, 0 ≤ t → uR * (uR * t) ≤ 1 / 1000 * (uR * t) := fun t ht =>
    mul_le_mul_of_nonneg_right hu1 (by positivity)
  have f2 : uR * ηR ≤ 1 / 1000 * ηR := mul_le_mul_of_nonneg_right hu1 hη.le
  have fx := f1 _ nx
  have fy := f1 _ ny
  have fz := f1 _ nz
  have gx : uR * (uR * (uR * |x|)) ≤ 1 / 1000 * (uR * (uR * |x|)) :=
    mul_le_mul_of_nonneg_right hu1 (by positivity)
  have gy : uR * (uR * (uR * |y|)) ≤ 1 / 1000 * (uR * (uR * |y|)) :=
    mul_le_mul_of_nonneg_right hu1 (by positivity)
  have g2 : uR * (uR * ηR) ≤ 1 / 1000 * (uR * ηR) := mul_le_mul_of_nonneg_right hu1 (by positivity)
  have ux : 0 ≤ uR * |x| := by positivity
  have uy : 0 ≤ uR * |y| := by positivity
  have uz : 0 ≤ uR * |z| := by positivity
  linarith

theorem fl_mul_comm (a b : Fl) : a * b = b * a := by
  show (⟨rne (a.val * b.val)⟩ : Fl) = ⟨rne (b.val * a.val)⟩
  rw [mul_comm]

/-- Libraries of any accuracy exist. -/
theorem exists_linalg {μ : ℝ} (hμ : 0 < μ) : ∃ la : Linalg, la.Accurate μ := by
  have h1 : ∀ C : Matrix (Fin 3) (Fin 3) Fl, ∃ x : Fl, Cᵀ = C →
      ∀ l, IsGreatest {x | IsEigenvalue (Linalg.real C) x} l →
        |x.re - l| ≤ μ * ∑ i, ∑ j, |(C i j).re| := by
    intro C
    by_cases hC : Cᵀ = C
    swap
    · exact ⟨⟨0⟩, fun h => absurd h hC⟩
    have hR : (Linalg.real C)ᵀ = Linalg.real C := by
      ext i j
      exact congrArg Fl.re (congrFun (congrFun hC i) j)
    obtain ⟨l, hl⟩ := exists_greatest_eigenvalue hR
    have hs : 0 ≤ ∑ i, ∑ j, |(C i j).re| :=
      Finset.sum_nonneg fun i _ => Finset.sum_nonneg fun j _ => abs_nonneg _
    obtain ⟨x, hx⟩ := exists_fl_near l (μ * ∑ i, ∑ j, |(C i j).re|) (fun h0 => by
      refine mul_pos hμ (lt_of_le_of_ne hs fun h => h0 ?_)
      have hz : ∀ i j, (C i j).re = 0 := by
        intro i j
        have h1 := (Finset.sum_eq_zero_iff_of_nonneg fun i _ =>
          Finset.sum_nonneg fun j _ => abs_nonneg _).1 h.symm i (Finset.mem_univ _)
        exact abs_eq_zero.1 ((Finset.sum_eq_zero_iff_of_nonneg fun j _ => abs_nonneg _).1 h1 j
          (Finset.mem_univ _))
      obtain ⟨v, hv, e⟩ := hl.1
      have e0 : Linalg.real C *ᵥ v = 0 := by
        have : Linalg.real C = 0 := by ext i j; exact hz i j
        rw [this, zero_mulVec]
      rw [e0] at e
      exact (smul_eq_zero.1 e.symm).resolve_right hv) (by positivity)
    exact ⟨x, fun _ l' hl' => by rw [hl'.unique hl]; exact hx⟩
  choose f hf using h1
  refine ⟨⟨matmul64, fun C => some fun _ => f C⟩, matmul64_near, fun F => ?_, fun C hC => ?_⟩
  · ext i j
    simp only [transpose_apply, matmul64, fl_mul_comm (F j _)]
  · exact ⟨_, rfl, fun l hl => by rw [max_self, max_self]; exact hf C hC l hl⟩

/-- Binary64 with the library functions `m` and `la`. -/
noncomputable def flEnv3 (m : Libm) (la : Linalg) : Env Fl Val64 :=
  { flEnv m with ftle3 := ftle64x3 m la }

def linShear64x3 (z : Fin 3 → Fl) : Fin 3 → Fl := ![⟨0⟩, z 0, ⟨0⟩]

def linShear3 (x : Fin 3 → ℝ) : Fin 3 → ℝ := ![0, x 0, 0]

def linPath3 (x : Fin 3 → ℝ) (t : ℝ) : Fin 3 → ℝ := ![x 0, x 1 + t * x 0, x 2]

def cross64x3 : NDArray Fl := ⟨[6, 3], fun i =>
  if i = [0, 0] ∨ i = [3, 1] ∨ i = [5, 2] then ⟨-1⟩
  else if i = [1, 0] ∨ i = [2, 1] ∨ i = [4, 2] then ⟨1⟩ else ⟨0⟩⟩

theorem cross64x3_re (b : Fin 6) : reVec (groupOf cross64x3 6 1 3 0 b) = cross3 0 1 b := by
  funext c
  fin_cases b <;> fin_cases c <;> simp [groupOf, rowOf, cross64x3, cross3, reVec, Fl.re]

theorem linShear3_along {x : Fin 3 → ℝ} (hx : |x 0| ≤ 1) (h : ℝ) (n : ℕ) :
    Along (fun _ => linShear3) 0 h n 1 0 (linPath3 x) where
  trajectory := by
    intro t _
    rw [hasDerivWithinAt_pi]
    intro i
    fin_cases i
    · exact hasDerivWithinAt_const _ _ _
    · have := ((hasDerivWithinAt_id t (uIcc 0 (0 + n * h))).mul_const (x 0)).const_add (x 1)
      simpa [linShear3, linPath3] using this
    · exact hasDerivWithinAt_const _ _ _
  speed := by
    intro t _
    rw [pi_norm_le_iff_of_nonneg (by positivity)]
    intro c
    fin_cases c
    · simp [linShear3]
    · exact hx
    · simp [linShear3]
  accel := by
    intro s _ t _
    have : linShear3 (linPath3 x s) = linShear3 (linPath3 x t) := by simp [linShear3, linPath3]
    rw [this]
    simp

/-- The hypotheses of C112 hold: the shear flow `(0, x, 0)`, two steps of `2^-10`, six seeds at
distance 1 from the origin.  The value is within one per cent of the exponent `1024 ln σ`, which is
about 1. -/
example (k : Kind) : ∃ (m : Libm) (la : Linalg) (P : Particles Fl) (σ : ℝ) (x : Fl),
    m.Accurate (2 ^ (-52 : ℤ)) ∧ la.Accurate (2 ^ (-40 : ℤ)) ∧
    IsMaxStretch !![1, 0, 0; 1 / 512, 1, 0; 0, 0, 1] σ ∧
    ((⟨.analytical ⟨P, ⟨1 / 1024⟩, [⟨0⟩, ⟨1 / 1024⟩]⟩,
      .analytical (.fresh (some fun _ => sourceOf 3 linShear64x3)), .fresh k⟩ : Solver Fl).run
      (flEnv3 m la) false none).result = .ok (some [.fin x]) ∧
    |x.re - 1024 * Real.log σ| ≤ 2 / 100 := by
  obtain ⟨m, hm⟩ := exists_libm (κ := 2 ^ (-52 : ℤ)) (by positivity)
  obtain ⟨la, ha⟩ := exists_linalg (μ := 2 ^ (-40 : ℤ)) (by positivity)
  obtain ⟨P, hP, -⟩ := mkParticles_3d (show cross64x3.shape = [6 * 1, 3] from rfl)
  obtain ⟨σ, hσ⟩ := ftle3_computes.exists_stretch !![(1 : ℝ), 0, 0; 1 / 512, 1, 0; 0, 0, 1]
  have hσ0 : 1 ≤ σ := by
    have := entry_le_stretch hσ 0 0
    simpa using this
  have hσ2 : σ ≤ 1 + 1 / 512 := by
    have := maxStretch_le_add hσ (maxStretch_one (d := 3))
    simp [Fin.sum_univ_three] at this
    norm_num [Matrix.one_apply, Fin.ext_iff] at this
    linarith
  obtain ⟨small, pe⟩ := linSmall
  have hre : (⟨1 / 1024⟩ : Fl).re = 1 / 1024 := by norm_num [Fl.re]
  set pE := posError (effError 0 1 (stepRounding 3 (1 + 0 + 1 * 1) (1 / 1024)) (1 / 1024)) 1 1 0
    (1 / 1024) 2 with hpE
  have pe0 : 0 ≤ pE := by
    have := small.eps
    rw [hpE]
    unfold posError
    positivity
  set b := 62 / 10 * pE * (1 / |(2 : ℝ)| + 1 / |(2 : ℝ)| + 1 / |(2 : ℝ)|) +
    2 ^ (-53 : ℤ) * (1 + 36 * σ) with hb
  have hb1 : 0 ≤ b ∧ b ≤ 187 / 10 ^ 7 := by
    rw [hb, abs_of_pos (by norm_num)]
    constructor
    · positivity
    · have : (2 : ℝ) ^ (-53 : ℤ) * (1 + 36 * σ) ≤ 2 ^ (-53 : ℤ) * 40 :=
        mul_le_mul_of_nonneg_left (by linarith) (by positivity)
      norm_num at this ⊢
      linarith
  have hupd : ∀ n, (Source.analytical ⟨P, ⟨1 / 1024⟩, [⟨0⟩, ⟨1 / 1024⟩]⟩ : Source Fl).updated
      (flEnv3 m la) (.analytical (.fresh (some fun _ => sourceOf 3 linShear64x3))) n =
      (.analytical (.fresh (some fun _ => sourceOf 3 linShear64x3)), none) := by
    intro n
    induction n with
    | zero => rfl
    | succ n ih => simp only [Source.updated, ih, Source.updateInterp]
  have hx0 : ∀ b : Fin 6, ∀ c, |cross3 (0 : Fin 3 → ℝ) 1 b c| ≤ 1 := by
    intro b c
    fin_cases b <;> fin_cases c <;> simp [cross3]
  obtain ⟨Λ, r1, r2⟩ := C112_binary64_3d (env := flEnv3 m la) (la := la) ⟨rfl, rfl⟩ hm (by positivity)
    (by norm_num) ha (by positivity) (by norm_num)
    false k (v := fun _ => linShear3) (t0 := 0) (ε := 0) (L := 1) (B := 1) (M := 0) (r := 1) (W := 3)
    (src := .analytical ⟨P, ⟨1 / 1024⟩, [⟨0⟩, ⟨1 / 1024⟩]⟩) (n := 2) rfl le_rfl
    (h := ⟨1 / 1024⟩) rfl (by
      rw [hre, abs_of_pos (by norm_num)]
      exact (zpow_le_zpow_right₀ (by norm_num) (by norm_num : (-500 : ℤ) ≤ -10)).trans (by norm_num))
    (by
      rw [hre, abs_of_pos (by norm_num)]
      exact le_trans (by norm_num) (one_le_pow₀ (by norm_num : (1 : ℝ) ≤ 2)))
    le_rfl zero_le_one rfl (by rw [hre, abs_of_pos (by norm_num)]; exact small) (N := 1)
    (seed := cross64x3) rfl hP rfl (fun _ b => linPath3 (cross3 0 1 b))
    (fun i hi b => by
      obtain rfl : i = 0 := by omega
      refine ⟨linShear3_along (hx0 b 0) _ _, ?_, ?_⟩
      · rw [cross64x3_re]; funext c; fin_cases c <;> simp [linPath3]
      · intro t ht
        rw [hre, uIcc_of_le (by norm_num)] at ht
        have h0 := hx0 b
        have : |t * cross3 (0 : Fin 3 → ℝ) 1 b 0| ≤ 1 * 1 := by
          rw [abs_mul]
          refine mul_le_mul ?_ (h0 0) (abs_nonneg _) zero_le_one
          rw [abs_of_nonneg ht.1]
          exact ht.2.trans (by norm_num)
        have hn : ‖linPath3 (cross3 0 1 b) t‖ ≤ 2 := by
          rw [pi_norm_le_iff_of_nonneg (by norm_num)]
          intro c
          fin_cases c
          · exact (h0 0).trans (by norm_num)
          · exact (abs_add_le _ _).trans (by linarith [h0 1])
          · exact (h0 2).trans (by norm_num)
        linarith)
    (I0 := .analytical (.fresh (some fun _ => sourceOf 3 linShear64x3))) trivial rfl
    (fun i _ => by rw [hupd]) (fun _ => linShear64x3) (fun _ => univ)
    (fun j _ => by rw [hupd]; exact fun pos hp _ => sourceOf_pointwise _ _ _ pos hp)
    (fun i _ b j _ z _ => ⟨mem_univ _, by
      rw [one_mul, zero_add ‖_‖, pi_norm_le_iff_of_nonneg (norm_nonneg _)]
      intro c
      fin_cases c
      · simp [reVec, linShear64x3, linShear3, Fl.re]
      · exact norm_le_pi_norm (reVec z - linPath3 (cross3 0 1 b) (0 + j * (⟨1 / 1024⟩ : Fl).re)) 0
      · simp [reVec, linShear64x3, linShear3, Fl.re]⟩)
    (fun _ => 2) (fun _ => 2) (fun _ => 2) (fun i hi => by
      obtain rfl : i = 0 := by omega
      have h2 : (2 : ℝ) ^ (-500 : ℤ) ≤ |2| :=
        (zpow_le_one_of_nonpos₀ (by norm_num) (by norm_num)).trans (by norm_num)
      refine ⟨?_, ?_, ?_, h2, h2, h2⟩ <;> simp [groupOf, rowOf, cross64x3, Fl.re] <;> norm_num)
    (fun _ => !![1, 0, 0; 1 / 512, 1, 0; 0, 0, 1]) (fun i hi => by
      obtain rfl : i = 0 := by omega
      simp only [cross64x3_re, hre]
      rw [centralDiff3_ok]
      refine ⟨⟨?_, ?_, ?_⟩, ?_⟩
      · simp [cross3]
      · simp [cross3]
      · simp [cross3]
      · ext i j
        fin_cases i <;> fin_cases j <;> simp [diffs3, cross3, linPath3] <;> norm_num)
    (fun _ => σ) (fun _ => b) (fun _ => by rw [hre, abs_of_pos (by norm_num : (0 : ℝ) < 1 / 1024)])
    (fun i hi => ⟨hσ, by
      have : (2 : ℝ) ^ (-200 : ℤ) ≤ 2 ^ (-1 : ℤ) := zpow_le_zpow_right₀ (by norm_num) (by norm_num)
      norm_num at this ⊢
      linarith [hb1.2]⟩)
  obtain ⟨x, hx, hxb⟩ := r2 0 one_pos
  refine ⟨m, la, P, σ, x, hm, ha, hσ, ?_, ?_⟩
  · rw [r1, ← hx]; rfl
  · have hl0 : 0 ≤ Real.log σ := Real.log_nonneg hσ0
    have hl1 : Real.log σ ≤ 1 / 512 := (Real.log_le_sub_one_of_pos (by linarith)).trans (by linarith)
    have hd : b / (σ - b) ≤ 188 / 10 ^ 7 := by
      rw [div_le_iff₀ (by linarith [hb1.2])]
      linarith [hb1.2]
    rw [hre, abs_of_pos (by norm_num : (0 : ℝ) < 1 / 1024), abs_of_nonneg hl0] at hxb
    norm_num at hxb hd ⊢
    refine hxb.trans ?_
    linarith

end Verif
