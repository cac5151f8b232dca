import Verif.Spec.Helix
import Verif.Props.Missing
import Verif.Props.Solver
import Mathlib.Analysis.SpecialFunctions.Trigonometric.Bounds

/-!
# Helper lemmas: the helical vortex and Euler steps of whole arrays
-/

set_option linter.unusedSectionVars false

namespace Verif

open Miss

/-! ## The greatest entry -/

theorem foldl_max_nan (l : List (Miss ℝ)) : l.foldl max nan = nan := by
  induction l with
  | nil => rfl
  | cons a l ih => exact ih

theorem foldl_max_mem_nan {l : List (Miss ℝ)} {a : Miss ℝ} (h : a = nan ∨ nan ∈ l) :
    l.foldl max a = nan := by
  induction l generalizing a with
  | nil => simpa using h
  | cons b l ih =>
    refine ih (a := max a b) ?_
    rcases h with rfl | h
    · exact .inl rfl
    · rcases List.mem_cons.1 h with rfl | h
      · left; cases a <;> rfl
      · exact .inr h

theorem foldl_max_num {l : List ℝ} {a : ℝ} : ∃ m, (l.map num).foldl max (num a) = num m ∧
    m ∈ a :: l ∧ ∀ b ∈ a :: l, b ≤ m := by
  induction l generalizing a with
  | nil => exact ⟨a, rfl, by simp, by simp⟩
  | cons b l ih =>
    obtain ⟨m, h1, h2, h3⟩ := ih (a := max a b)
    refine ⟨m, h1, ?_, ?_⟩
    · rcases List.mem_cons.1 h2 with rfl | h
      · rcases max_choice a b with h | h <;> simp [h]
      · simp [h]
    · have := h3 _ (List.mem_cons_self ..)
      intro c hc
      rcases List.mem_cons.1 hc with rfl | hc
      · exact (le_max_left _ _).trans this
      · rcases List.mem_cons.1 hc with rfl | hc
        · exact (le_max_right _ _).trans this
        · exact h3 c (List.mem_cons_of_mem _ hc)

theorem toList_one {K : Type} (n : ℕ) (f : List ℕ → K) :
    (⟨[n], f⟩ : NDArray K).toList = (List.range n).map fun r => f [r] := by
  simp only [NDArray.toList, NDArray.size, List.prod_cons, List.prod_nil, mul_one]
  exact List.map_congr_left fun k _ => by simp [decC]

theorem npMax_nan {n : ℕ} {f : List ℕ → Miss ℝ} {r : ℕ} (hr : r < n) (h : f [r] = nan) :
    npMax (⟨[n], f⟩ : NDArray (Miss ℝ)) = .ok nan := by
  have hm : nan ∈ (⟨[n], f⟩ : NDArray (Miss ℝ)).toList := by
    rw [toList_one, List.mem_map]
    exact ⟨r, List.mem_range.2 hr, h⟩
  unfold npMax
  cases hl : (⟨[n], f⟩ : NDArray (Miss ℝ)).toList with
  | nil => rw [hl] at hm; simp at hm
  | cons a l =>
    rw [hl] at hm
    simp only
    rw [foldl_max_mem_nan ((List.mem_cons.1 hm).imp Eq.symm id)]

theorem npMax_num {n : ℕ} (hn : 0 < n) {f : List ℕ → Miss ℝ} {s : ℕ → ℝ}
    (h : ∀ r < n, f [r] = num (s r)) :
    ∃ m, npMax (⟨[n], f⟩ : NDArray (Miss ℝ)) = .ok (num m) ∧ IsGreatest {y | ∃ r < n, y = s r} m := by
  have hl : (⟨[n], f⟩ : NDArray (Miss ℝ)).toList = ((List.range n).map s).map num := by
    rw [toList_one, List.map_map]
    exact List.map_congr_left fun r hr => h r (List.mem_range.1 hr)
  unfold npMax
  rw [hl]
  obtain ⟨a, l, e⟩ := List.exists_cons_of_ne_nil (l := (List.range n).map s) (by simp; omega)
  obtain ⟨m, h1, h2, h3⟩ := foldl_max_num (l := l) (a := a)
  rw [e]
  refine ⟨m, by simp only [List.map_cons, h1], ?_, ?_⟩
  · rw [← e, List.mem_map] at h2
    obtain ⟨r, h4, h5⟩ := h2
    exact ⟨r, List.mem_range.1 h4, h5.symm⟩
  · rintro y ⟨r, h4, rfl⟩
    exact h3 _ (by rw [← e]; exact List.mem_map_of_mem (List.mem_range.2 h4))

/-! ## One point -/

namespace Helix
variable {H : Helix}

theorem dist_nonneg (H : Helix) (t : ℝ) (p : Fin 3 → ℝ) : 0 ≤ H.dist t p := Real.sqrt_nonneg _

theorem at_off {t x y z : ℝ} (h : H.dist t ![x, y, z] ≠ 0) : helicalAt H t x y z =
    (num (H.velocity t ![x, y, z] 0), num (H.velocity t ![x, y, z] 1),
      num (H.velocity t ![x, y, z] 2)) := by
  set a := x - H.R0 * Real.cos (H.k * z + H.ω * t) with ha
  set b := y - H.R0 * Real.sin (H.k * z + H.ω * t) with hb
  have hd : H.dist t ![x, y, z] = √(a ^ 2 + b ^ 2) := by simp [dist, axis, ha, hb]
  have hR : √(a ^ 2 + b ^ 2) ≠ 0 := hd ▸ h
  have hz : (⟨a, b⟩ : ℂ) ≠ 0 := by
    intro e
    obtain ⟨e1, e2⟩ := Complex.ext_iff.1 e
    simp only [Complex.zero_re, Complex.zero_im] at e1 e2
    exact hR (by simp [e1, e2])
  have hn : ‖(⟨a, b⟩ : ℂ)‖ = √(a ^ 2 + b ^ 2) := by
    rw [Complex.norm_def, Complex.normSq_mk]
    congr 1
    ring
  have hc : Real.cos (arctan2 b a) = a / √(a ^ 2 + b ^ 2) := by
    rw [arctan2, Complex.cos_arg hz, hn]
  have hs : Real.sin (arctan2 b a) = b / √(a ^ 2 + b ^ 2) := by
    rw [arctan2, Complex.sin_arg, hn]
  have hp := Real.pi_ne_zero
  simp only [helicalAt, ← ha, ← hb, hR, if_false, num_mul, hc, hs, velocity, spin, hd]
  refine Prod.ext ?_ (Prod.ext ?_ ?_) <;>
    simp only [Matrix.cons_val_zero, Matrix.cons_val_one, Matrix.cons_val, axis, ← ha, ← hb] <;>
    congr 1
  · field_simp
  · field_simp
  · congr 1
    rw [show 2 * Real.pi * H.R0 = (10 * Real.pi * H.R0) * (2 / 10) by ring,
      mul_comm (2 / 10) H.Γ, mul_div_mul_right _ _ (by norm_num)]

theorem at_on {t x y z : ℝ} (h : H.dist t ![x, y, z] = 0) :
    (helicalAt H t x y z).1 = nan ∧ (helicalAt H t x y z).2.1 = nan := by
  have hd : √((x - H.R0 * Real.cos (H.k * z + H.ω * t)) ^ 2 +
      (y - H.R0 * Real.sin (H.k * z + H.ω * t)) ^ 2) = 0 := by
    rw [← h]; simp [dist, axis]
  simp [helicalAt, hd]

theorem velocity_up (hH : H.Proper) (t : ℝ) (p : Fin 3 → ℝ) : 0 < H.velocity t p 2 := by
  have h1 := hH.R0
  have h2 := hH.Γ
  simp only [velocity, Matrix.cons_val]
  positivity

theorem speed_pos (hH : H.Proper) (t : ℝ) (p : Fin 3 → ℝ) : 0 < speed (H.velocity t p) := by
  have := velocity_up hH t p
  unfold speed
  positivity

end Helix

theorem magnitude_num (v : Fin 3 → ℝ) : magnitude (num (v 0), num (v 1), num (v 2)) = num (speed v) := by
  simp [magnitude, speed, sq]

theorem magnitude_nan {a b c : Miss ℝ} (h : a = nan ∨ b = nan ∨ c = nan) : magnitude (a, b, c) = nan := by
  rcases h with rfl | rfl | rfl <;> simp [magnitude]

theorem speed_smul (c : ℝ) (v : Fin 3 → ℝ) : speed (fun i => c * v i) = |c| * speed v := by
  unfold speed
  rw [show (c * v 0) ^ 2 + (c * v 1) ^ 2 + (c * v 2) ^ 2 = c ^ 2 * (v 0 ^ 2 + v 1 ^ 2 + v 2 ^ 2) by ring,
    Real.sqrt_mul (sq_nonneg c), Real.sqrt_sq_eq_abs]

/-- The axis moves at most `R₀ |k|` per unit of height. -/
theorem Helix.dist_move (H : Helix) (hR : 0 ≤ H.R0) (t : ℝ) (p d : Fin 3 → ℝ) :
    H.dist t p - (1 + H.R0 * |H.k|) * speed d ≤ H.dist t fun c => p c + d c := by
  have hn : ∀ q : Fin 3 → ℝ, H.dist t q = ‖(⟨q 0, q 1⟩ : ℂ) -
      H.R0 * Complex.exp (Complex.I * ((H.k * q 2 + H.ω * t : ℝ) : ℂ))‖ := by
    intro q
    have : (⟨q 0, q 1⟩ : ℂ) - H.R0 * Complex.exp (Complex.I * ((H.k * q 2 + H.ω * t : ℝ) : ℂ)) =
        ⟨q 0 - H.axis t (q 2) 0, q 1 - H.axis t (q 2) 1⟩ := by
      generalize hα : H.k * q 2 + H.ω * t = α
      rw [mul_comm Complex.I, Complex.exp_mul_I, ← Complex.ofReal_cos, ← Complex.ofReal_sin]
      apply Complex.ext <;> simp [axis, hα, -Complex.ofReal_cos, -Complex.ofReal_sin]
    rw [this, Complex.norm_def, Complex.normSq_mk, dist]
    congr 1
    ring
  have h2 : ∀ a b : ℝ, ‖Complex.exp (Complex.I * (a : ℂ)) - Complex.exp (Complex.I * (b : ℂ))‖ ≤ |a - b| := by
    intro a b
    have e : Complex.exp (Complex.I * (a : ℂ)) - Complex.exp (Complex.I * (b : ℂ)) =
        Complex.exp (Complex.I * (b : ℂ)) * (Complex.exp (Complex.I * ((a - b : ℝ) : ℂ)) - 1) := by
      rw [mul_sub, ← Complex.exp_add, mul_one]
      congr 2
      push_cast
      ring
    rw [e, norm_mul, mul_comm Complex.I (b : ℂ), Complex.norm_exp_ofReal_mul_I, one_mul]
    exact Real.norm_exp_I_mul_ofReal_sub_one_le
  have h3 : ‖(⟨d 0, d 1⟩ : ℂ)‖ ≤ speed d := by
    rw [Complex.norm_def, Complex.normSq_mk, speed]
    exact Real.sqrt_le_sqrt (by nlinarith [sq_nonneg (d 2)])
  have h4 : |d 2| ≤ speed d := by
    rw [speed, ← Real.sqrt_sq_eq_abs]
    exact Real.sqrt_le_sqrt (by nlinarith [sq_nonneg (d 0), sq_nonneg (d 1)])
  rw [hn p, hn fun c => p c + d c]
  set E := Complex.exp (Complex.I * ((H.k * p 2 + H.ω * t : ℝ) : ℂ))
  set E' := Complex.exp (Complex.I * ((H.k * (p 2 + d 2) + H.ω * t : ℝ) : ℂ))
  have h5 : ‖E' - E‖ ≤ |H.k| * speed d := by
    refine (h2 _ _).trans ?_
    rw [show H.k * (p 2 + d 2) + H.ω * t - (H.k * p 2 + H.ω * t) = H.k * d 2 by ring, abs_mul]
    exact mul_le_mul_of_nonneg_left h4 (abs_nonneg _)
  have e : (⟨p 0, p 1⟩ : ℂ) - H.R0 * E = ((⟨p 0 + d 0, p 1 + d 1⟩ : ℂ) - H.R0 * E') -
      (⟨d 0, d 1⟩ : ℂ) + H.R0 * (E' - E) := by
    have : (⟨p 0 + d 0, p 1 + d 1⟩ : ℂ) = ⟨p 0, p 1⟩ + ⟨d 0, d 1⟩ := rfl
    rw [this]
    ring
  have h6 : ‖(⟨p 0, p 1⟩ : ℂ) - H.R0 * E‖ ≤ ‖(⟨p 0 + d 0, p 1 + d 1⟩ : ℂ) - H.R0 * E'‖ + speed d +
      H.R0 * (|H.k| * speed d) := by
    rw [e]
    refine (norm_add_le _ _).trans (add_le_add ((norm_sub_le _ _).trans (by gcongr)) ?_)
    rw [norm_mul, Complex.norm_real, Real.norm_eq_abs, abs_of_nonneg hR]
    exact mul_le_mul_of_nonneg_left h5 hR
  linarith

/-! ## Euler steps of a whole array -/

section whole
variable {K : Type} [Add K] [Sub K] [Mul K] [Div K] [NumLits K]

/-- Steps of Euler's method when the velocities depend on all rows together. -/
theorem euler_whole (junk : List ℕ → K) {vel : Velocity K} {R d : ℕ} (h : K)
    (P V : ℕ → ℕ → Fin d → K) (n : ℕ)
    (hv : ∀ j < n, ∀ pos : NDArray K, pos.shape = [R, d] → (∀ r < R, rowOf pos d r = P j r) →
      ∃ A, vel pos = .ok A ∧ A.shape = [R, d] ∧ ∀ r < R, rowOf A d r = V j r)
    (hP : ∀ j < n, ∀ r < R, P (j + 1) r = fun c => P j r c + h * V j r c)
    (buf : Option (NDArray K)) (pos : NDArray K) (hs : pos.shape = [R, d])
    (h0 : ∀ r < R, rowOf pos d r = P 0 r) :
    ∃ pos', (Integ.steps junk (List.replicate n (vel, h)) (.euler buf) pos).2 = .ok pos' ∧
      pos'.shape = [R, d] ∧ ∀ r < R, rowOf pos' d r = P n r := by
  induction n generalizing P V buf pos with
  | zero => exact ⟨pos, rfl, hs, h0⟩
  | succ n ih =>
    obtain ⟨A, a1, a2, a3⟩ := hv 0 (by omega) pos hs h0
    obtain ⟨B, b1, b2, b3⟩ := copyto_same ((reuseOrAlloc_shape junk buf pos).trans hs) a2
    obtain ⟨C, c1, c2, c3⟩ := zipWith_rows (f := fun x v => x + h * v) hs b2
    obtain ⟨pos', p1, p2, p3⟩ := ih (fun j => P (j + 1)) (fun j => V (j + 1))
      (fun j hj => hv (j + 1) (by omega)) (fun j hj => hP (j + 1) (by omega)) (some B) C c2
      (fun r hr => by rw [c3, b3 r hr, a3 r hr, hP 0 (by omega) r hr, h0 r hr])
    refine ⟨pos', ?_, p2, p3⟩
    simp only [List.replicate_succ, Integ.steps, Integ.step, eulerStep, fillFrom, a1, b1, eulerKernel,
      c1]
    exact p1

end whole

/-- All numbers of an array are missing. -/
def Lost (R d : ℕ) (a : NDArray (Miss ℝ)) : Prop := ∀ r < R, ∀ c, rowOf a d r c = nan

theorem fillFrom_lost {buf pos : NDArray (Miss ℝ)} {vel : Velocity (Miss ℝ)} {R d : ℕ}
    (hb : buf.shape = [R, d]) (h : ∃ A, vel pos = .ok A ∧ A.shape = [R, d] ∧ Lost R d A) :
    ∃ A, fillFrom buf vel pos = .ok A ∧ A.shape = [R, d] ∧ Lost R d A := by
  obtain ⟨A, a1, a2, a3⟩ := h
  obtain ⟨B, b1, b2, b3⟩ := copyto_same hb a2
  exact ⟨B, by simp only [fillFrom, a1, b1], b2, fun r hr c => by rw [b3 r hr, a3 r hr]⟩

/-- Once all velocities are missing all positions are, with every integrator. -/
theorem step_lost (junk : List ℕ → Miss ℝ) {vel : Velocity (Miss ℝ)} {R d : ℕ} (h : Miss ℝ)
    (hl : ∀ pos : NDArray (Miss ℝ), pos.shape = [R, d] → Lost R d pos →
      ∃ A, vel pos = .ok A ∧ A.shape = [R, d] ∧ Lost R d A)
    (I : Integ (Miss ℝ)) (hI : I.Fits R d) (pos : NDArray (Miss ℝ)) (hp : pos.shape = [R, d])
    (h0 : ∃ A, vel pos = .ok A ∧ A.shape = [R, d] ∧ Lost R d A) :
    ∃ I' pos', I.step junk vel h pos = (I', .ok pos') ∧ I'.Fits R d ∧ pos'.shape = [R, d] ∧
      Lost R d pos' := by
  cases I with
  | euler buf =>
    obtain ⟨V, v1, v2, v3⟩ := fillFrom_lost ((reuseOrAlloc_shape junk buf pos).trans hp) h0
    obtain ⟨A, a1, a2, a3⟩ := zipWith_rows (f := fun x v => x + h * v) hp v2
    refine ⟨.euler (some V), A, ?_, trivial, a2, fun r hr c => ?_⟩
    · simp only [Integ.step, eulerStep, v1, eulerKernel, a1]
    · simp [a3, v3 r hr]
  | ab2 prev buf =>
    obtain ⟨V, v1, v2, v3⟩ := fillFrom_lost ((reuseOrAlloc_shape junk buf pos).trans hp) h0
    cases prev with
    | none =>
      obtain ⟨A, a1, a2, a3⟩ := zipWith_rows (f := fun x v => x + h * v) hp v2
      obtain ⟨P, p1, p2, p3⟩ := copyto_same (dst := emptyLike junk V) v2 v2
      refine ⟨.ab2 (some P) (some V), A, ?_, p2, a2, fun r hr c => ?_⟩
      · simp only [Integ.step, ab2Step, v1, eulerKernel, a1, p1]
      · simp [a3, v3 r hr]
    | some Q =>
      have hQ : Q.shape = [R, d] := hI
      obtain ⟨W, w1, w2, w3⟩ := zipWith_rows
        (f := fun v p => NumLits.onePointFive * v - NumLits.half * p) v2 hQ
      obtain ⟨A, a1, a2, a3⟩ := zipWith_rows (f := fun x w => x + h * w) hp w2
      obtain ⟨P, p1, p2, p3⟩ := copyto_same (dst := Q) hQ v2
      refine ⟨.ab2 (some P) (some V), A, ?_, p2, a2, fun r hr c => ?_⟩
      · simp only [Integ.step, ab2Step, v1, ab2Kernel, w1, a1, p1]
      · simp [a3, w3, v3 r hr]
  | rk4 bufs =>
    obtain ⟨b, hb1, hb2, hb3, hb4, hb5, hb⟩ : ∃ b : Rk4Bufs (Miss ℝ), b.k1.shape = [R, d] ∧
        b.k2.shape = [R, d] ∧ b.k3.shape = [R, d] ∧ b.k4.shape = [R, d] ∧ b.tmp.shape = [R, d] ∧
        rk4Bufs junk bufs pos = b := by
      cases bufs with
      | none => exact ⟨_, hp, hp, hp, hp, hp, rfl⟩
      | some b =>
        by_cases hs : b.k1.shape = pos.shape
        · obtain ⟨e2, e3, e4, e5⟩ := hI
          exact ⟨b, hs.trans hp, e2.trans (hs.trans hp), e3.trans (hs.trans hp),
            e4.trans (hs.trans hp), e5.trans (hs.trans hp), by simp [rk4Bufs, hs]⟩
        · exact ⟨rk4Alloc junk pos, hp, hp, hp, hp, hp, by simp [rk4Bufs, hs]⟩
    obtain ⟨k1, u1, u2, u3⟩ := fillFrom_lost hb1 h0
    obtain ⟨t1, s1, s2, s3⟩ := stagePoint_rows (c := NumLits.half * h) hb5 hp u2
    obtain ⟨k2, m1, m2, m3⟩ := fillFrom_lost hb2 (hl t1 s2 fun r hr c => by
      simp [s3 r hr, u3 r hr])
    obtain ⟨t2, n1, n2, n3⟩ := stagePoint_rows (c := NumLits.half * h) s2 hp m2
    obtain ⟨k3, q1, q2, q3⟩ := fillFrom_lost hb3 (hl t2 n2 fun r hr c => by
      simp [n3 r hr, m3 r hr])
    obtain ⟨t3, w1, w2, w3⟩ := stagePoint_rows (c := h) n2 hp q2
    obtain ⟨k4, y1, y2, y3⟩ := fillFrom_lost hb4 (hl t3 w2 fun r hr c => by
      simp [w3 r hr, q3 r hr])
    obtain ⟨z12, za, zb, zc⟩ := zipWith_rows (f := fun a b => a + NumLits.two * b) u2 m2
    obtain ⟨z123, zd, ze, zf⟩ := zipWith_rows (f := fun a b => a + NumLits.two * b) zb q2
    obtain ⟨z, zg, zh, zi⟩ := zipWith_rows (f := fun a b => a + b) ze y2
    obtain ⟨A, a1, a2, a3⟩ := zipWith_rows (f := fun x s => x + (h / NumLits.six) * s) hp zh
    refine ⟨.rk4 (some ⟨k1, k2, k3, k4, t3⟩), A, ?_, ?_, a2, fun r hr c => ?_⟩
    · simp only [Integ.step, rk4Step, hb, u1, s1, m1, n1, q1, w1, y1, rk4Kernel, za, zd, zg, a1]
    · exact ⟨m2.trans u2.symm, q2.trans u2.symm, y2.trans u2.symm, w2.trans u2.symm⟩
    · simp [a3, zi, y3 r hr]

/-- If all velocities are missing at the start, all positions are at the end. -/
theorem steps_lost (junk : List ℕ → Miss ℝ) {vel : Velocity (Miss ℝ)} {R d : ℕ} (h : Miss ℝ)
    (hl : ∀ pos : NDArray (Miss ℝ), pos.shape = [R, d] → Lost R d pos →
      ∃ A, vel pos = .ok A ∧ A.shape = [R, d] ∧ Lost R d A) (n : ℕ)
    (I : Integ (Miss ℝ)) (hI : I.Fits R d) (pos : NDArray (Miss ℝ)) (hp : pos.shape = [R, d])
    (h0 : ∃ A, vel pos = .ok A ∧ A.shape = [R, d] ∧ Lost R d A) :
    ∃ pos', (Integ.steps junk (List.replicate (n + 1) (vel, h)) I pos).2 = .ok pos' ∧
      pos'.shape = [R, d] ∧ Lost R d pos' := by
  induction n generalizing I pos with
  | zero =>
    obtain ⟨I', A, s1, s2, s3, s4⟩ := step_lost junk h hl I hI pos hp h0
    exact ⟨A, by simp [Integ.steps, s1], s3, s4⟩
  | succ n ih =>
    obtain ⟨I', A, s1, s2, s3, s4⟩ := step_lost junk h hl I hI pos hp h0
    obtain ⟨pos', p1, p2, p3⟩ := ih I' s2 A s3 (hl A s3 s4)
    refine ⟨pos', ?_, p2, p3⟩
    rw [List.replicate_succ]
    simp only [Integ.steps, s1]
    exact p1

/-! ## Exponents of the final positions -/

/-- Final positions that are numbers give exponents. -/
theorem computeFtle_num3 {env : Env (Miss ℝ) FVal} (he : MissEnv env) {seed pos : NDArray (Miss ℝ)}
    {N : ℕ} {p : Particles (Miss ℝ)} (hs : seed.shape = [6 * N, 3]) (hp : pos.shape = [6 * N, 3])
    (hm : mkParticles seed = .ok p) (x X : ℕ → Fin 6 → Fin 3 → ℝ)
    (hx : ∀ i < N, groupOf seed 6 N 3 i = fun b c => num (x i b c))
    (hX : ∀ i < N, groupOf pos 6 N 3 i = fun b c => num (X i b c))
    (hsep : ∀ i < N, Separate3 (x i)) {h : ℝ} (h0 : h ≠ 0) {n : ℕ} (hn : n ≠ 1) :
    ∃ L : ℕ → FVal, computeFtle env (advected p pos) n (num h) = .ok ((List.range N).map L) ∧
      ∀ i < N, ∃ s, IsMaxStretch (diffs3 (X i) (x i)) s ∧ L i = ftleVal s (((n : ℝ) - 1) * |h|) := by
  have hT : ((n : ℝ) - 1) * |h| ≠ 0 :=
    mul_ne_zero (sub_ne_zero.2 (by exact_mod_cast hn)) (abs_ne_zero.2 h0)
  obtain ⟨vs, v1, v2⟩ := ftle3_computes.value ((List.range N).map fun i => diffs3 (X i) (x i))
    (((n : ℝ) - 1) * |h|) hT
  have hlen : vs.length = N := by
    rw [← v2.length_eq, List.length_map, List.length_range]
  refine ⟨fun i => vs.getD i .nan, ?_, fun i hi => ?_⟩
  · rw [advected, computeFtle_groups3 env hs hp hm, pyMap_ok_map
      (g := fun i => (diffs3 (X i) (x i)).map num) (fun i hi => by
        rw [hx i (List.mem_range.1 hi), hX i (List.mem_range.1 hi), ← diffs3M_num,
          centralDiff3_miss (hsep i (List.mem_range.1 hi))])]
    have hl : ((List.range N).map fun i => (diffs3 (X i) (x i)).map num) =
        ((List.range N).map fun i => diffs3 (X i) (x i)).map fun F => F.map num := by
      rw [List.map_map]
      rfl
    have hL : (List.range N).map (fun i => vs.getD i .nan) = vs := by
      refine List.ext_getElem (by simp [hlen]) fun i h1 h2 => ?_
      simp [h2]
    have hper : ((((n : ℤ) - 1 : ℤ) : Miss ℝ) * env.abs (num h)) = num (((n : ℝ) - 1) * |h|) := by
      rw [he.abs]
      change num _ * num _ = _
      rw [num_mul]
      push_cast
      rfl
    simp only [he.f3]
    rw [hper, hl, ftle3M_num _ hT, v1, hL]
  · have := List.forall₂_iff_get.1 v2 |>.2 i (by simpa using hi) (by omega)
    simp only [List.getD_eq_getElem _ _ (show i < vs.length by omega)]
    simpa using this

/-- Final positions that are missing end the computation. -/
theorem computeFtle_lost3 {env : Env (Miss ℝ) FVal} (he : MissEnv env) {seed pos : NDArray (Miss ℝ)}
    {N : ℕ} {p : Particles (Miss ℝ)} (hs : seed.shape = [6 * N, 3]) (hp : pos.shape = [6 * N, 3])
    (hm : mkParticles seed = .ok p) (x : ℕ → Fin 6 → Fin 3 → ℝ)
    (hx : ∀ i < N, groupOf seed 6 N 3 i = fun b c => num (x i b c))
    (hsep : ∀ i < N, Separate3 (x i)) (hN : 0 < N) (hl : Lost (6 * N) 3 pos) (n : ℕ) (h : Miss ℝ) :
    computeFtle env (advected p pos) n h = .error .linAlgError := by
  rw [advected, computeFtle_groups3 env hs hp hm, pyMap_ok_map
    (g := fun i => diffs3M (groupOf pos 6 N 3 i) fun b c => num (x i b c)) (fun i hi => by
      rw [hx i (List.mem_range.1 hi), centralDiff3_miss (hsep i (List.mem_range.1 hi))])]
  have h1 : groupOf pos 6 N 3 0 0 0 = nan := hl _ (by simp; omega) 0
  obtain ⟨r, q, hJ⟩ := diffs3M_nan (X := groupOf pos 6 N 3 0) (x := fun b c => num (x 0 b c)) h1
  simp only [he.f3]
  exact ftle3M_error _ ⟨_, List.mem_map_of_mem (List.mem_range.2 hN), r, q, hJ⟩

end Verif
