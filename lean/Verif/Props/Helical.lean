import Verif.Lemmas.Helical
import Verif.Props.Examples
import Verif.Props.Api
import Verif.Spec.Survey

/-!
# C119: the velocity of the helical notebook

The notebook describes the velocity around a rotating helical vortex, and a picture of its FTLE.  Its
function divides the velocities by the greatest speed of the array of positions it is given.  They are
those of the vortex, except for a factor that depends on which particles are followed together, and that
changes from step to step; and a single particle on the axis of the vortex makes all of them NaN.
-/

namespace Verif

open Miss

variable {H : Helix}

theorem notebookHelix_proper : notebookHelix.Proper := by
  constructor <;> norm_num [notebookHelix]

/-- **C119** (values).  For every array of positions off the axis the notebook's function returns the
velocities of the vortex, divided by the greatest speed among these positions. -/
theorem C119_velocity_partial (hH : H.Proper) (junk : List ℕ → Miss ℝ) (t : ℝ) {n : ℕ} (hn : 0 < n)
    (x : ℕ → Fin 3 → ℝ) {q : NDArray (Miss ℝ)} (hq : q.shape = [n, 3])
    (hx : ∀ r < n, rowOf q 3 r = fun c => num (x r c)) (hoff : ∀ r < n, H.dist t (x r) ≠ 0) :
    ∃ A M, helicalFn junk H (num t) q = .ok A ∧ A.shape = [n, 3] ∧ 0 < M ∧
      IsGreatest {s | ∃ r < n, s = speed (H.velocity t (x r))} M ∧
      ∀ r < n, rowOf A 3 r = fun c => num (H.velocity t (x r) c / M) := by
  have hrow : ∀ r < n, helicalRow H (num t) (q.get [r, 0]) (q.get [r, 1]) (q.get [r, 2]) =
      (num (H.velocity t (x r) 0), num (H.velocity t (x r) 1), num (H.velocity t (x r) 2)) := by
    intro r hr
    have e := hx r hr
    have e0 : q.get [r, 0] = num (x r 0) := congrFun e 0
    have e1 : q.get [r, 1] = num (x r 1) := congrFun e 1
    have e2 : q.get [r, 2] = num (x r 2) := congrFun e 2
    have ev : x r = ![x r 0, x r 1, x r 2] := by funext c; fin_cases c <;> rfl
    have h0 := hoff r hr
    rw [ev] at h0
    rw [e0, e1, e2]
    simp only [helicalRow]
    rw [Helix.at_off h0, ← ev]
  obtain ⟨M, m1, m2⟩ := npMax_num hn (f := fun idx => magnitude (helicalRow H (num t)
    (q.get [idx.getD 0 0, 0]) (q.get [idx.getD 0 0, 1]) (q.get [idx.getD 0 0, 2])))
    (s := fun r => speed (H.velocity t (x r)))
    (fun r hr => by simp only [List.getD_cons_zero]; rw [hrow r hr, magnitude_num])
  unfold helicalFn
  simp only [hq, show ¬ (3 < 3) by omega, if_false, m1]
  have hM : 0 < M := by
    obtain ⟨r, -, e⟩ := m2.1
    exact e ▸ Helix.speed_pos hH t (x r)
  refine ⟨_, M, rfl, rfl, hM, m2, fun r hr => ?_⟩
  funext c
  fin_cases c <;> simp [rowOf, hrow r hr]

/-- The function answers for every array of at least one position. -/
theorem helicalFn_ok (H : Helix) (junk : List ℕ → Miss ℝ) (t : Miss ℝ) {n : ℕ} (hn : 0 < n)
    {q : NDArray (Miss ℝ)} (hq : q.shape = [n, 3]) :
    ∃ A, helicalFn junk H t q = .ok A ∧ A.shape = [n, 3] := by
  unfold helicalFn
  simp only [hq, show ¬ (3 < 3) by omega, if_false]
  obtain ⟨m, hm⟩ : ∃ m, npMax (⟨[n], fun idx => magnitude (helicalRow H t (q.get [idx.getD 0 0, 0])
      (q.get [idx.getD 0 0, 1]) (q.get [idx.getD 0 0, 2]))⟩ : NDArray (Miss ℝ)) = .ok m := by
    unfold npMax
    rw [toList_one]
    obtain ⟨a, l, e⟩ := List.exists_cons_of_ne_nil (l := (List.range n).map fun r =>
      (fun idx : List ℕ => magnitude (helicalRow H t (q.get [idx.getD 0 0, 0])
      (q.get [idx.getD 0 0, 1]) (q.get [idx.getD 0 0, 2]))) [r]) (by simp; omega)
    rw [e]
    exact ⟨_, rfl⟩
  rw [hm]
  exact ⟨_, rfl, rfl⟩

/-- A position without a velocity: one on the axis, or one that is not known. -/
def OffRecord (H : Helix) (t : ℝ) (p : Fin 3 → Miss ℝ) : Prop :=
  (∃ c, p c = nan) ∨ ∃ y : Fin 3 → ℝ, (p = fun c => num (y c)) ∧ H.dist t y = 0

/-- **C119 is false of the code (1).**  One position on the axis, or one that is NaN, makes all
velocities NaN, also those of all other particles.  (Without such a position all of them are numbers.) -/
theorem C119_all_or_none_fails (hH : H.Proper) (junk : List ℕ → Miss ℝ) (t : ℝ) {n : ℕ} (hn : 0 < n)
    {q : NDArray (Miss ℝ)} (hq : q.shape = [n, 3]) :
    ∃ A, helicalFn junk H (num t) q = .ok A ∧ A.shape = [n, 3] ∧
      ((∃ r < n, OffRecord H t (rowOf q 3 r)) → ∀ r < n, ∀ c, rowOf A 3 r c = nan) ∧
      ((¬ ∃ r < n, OffRecord H t (rowOf q 3 r)) → ∀ r < n, ∀ c, rowOf A 3 r c ≠ nan) := by
  by_cases hb : ∃ r < n, OffRecord H t (rowOf q 3 r)
  · obtain ⟨r, hr, hoff⟩ := hb
    have hmag : magnitude (helicalRow H (num t) (q.get [r, 0]) (q.get [r, 1]) (q.get [r, 2])) = nan := by
      rcases hoff with ⟨c, hc⟩ | ⟨y, hy, h0⟩
      · have : helicalRow H (num t) (q.get [r, 0]) (q.get [r, 1]) (q.get [r, 2]) = (nan, nan, nan) := by
          have hc' : q.get [r, c.1] = nan := hc
          fin_cases c <;> simp only at hc' <;> rw [hc']
          · rfl
          · cases q.get [r, 0] <;> rfl
          · cases q.get [r, 0] <;> cases q.get [r, 1] <;> rfl
        rw [this]
        exact magnitude_nan (.inl rfl)
      · have e0 : q.get [r, 0] = num (y 0) := congrFun hy 0
        have e1 : q.get [r, 1] = num (y 1) := congrFun hy 1
        have e2 : q.get [r, 2] = num (y 2) := congrFun hy 2
        have ev : y = ![y 0, y 1, y 2] := by funext c; fin_cases c <;> rfl
        rw [ev] at h0
        rw [e0, e1, e2]
        exact magnitude_nan (.inl (Helix.at_on h0).1)
    have hm := npMax_nan hr (f := fun idx => magnitude (helicalRow H (num t)
      (q.get [idx.getD 0 0, 0]) (q.get [idx.getD 0 0, 1]) (q.get [idx.getD 0 0, 2])))
      (by simpa using hmag)
    unfold helicalFn
    simp only [hq, show ¬ (3 < 3) by omega, if_false, hm]
    refine ⟨_, rfl, rfl, fun _ r' _ c => ?_, fun h => absurd ⟨r, hr, hoff⟩ h⟩
    fin_cases c <;> simp [rowOf]
  · have hnum : ∀ r < n, ∃ y : Fin 3 → ℝ, rowOf q 3 r = fun c => num (y c) := by
      intro r hr
      refine ⟨fun c => (rowOf q 3 r c).get, funext fun c => ?_⟩
      simp only
      cases hc : rowOf q 3 r c with
      | num a => rfl
      | nan => exact absurd ⟨r, hr, .inl ⟨c, hc⟩⟩ hb
    choose! x hx using hnum
    obtain ⟨A, M, a1, a2, -, -, a4⟩ := C119_velocity_partial hH junk t hn x hq hx
      (fun r hr h0 => hb ⟨r, hr, .inr ⟨x r, hx r hr, h0⟩⟩)
    refine ⟨A, a1, a2, fun h => absurd h hb, fun _ r hr c => ?_⟩
    rw [a4 r hr]
    simp

/-- **C119** (scale).  No returned speed exceeds `1`, and one is `1`. -/
theorem C119_fastest (hH : H.Proper) (junk : List ℕ → Miss ℝ) (t : ℝ) {n : ℕ} (hn : 0 < n)
    (x : ℕ → Fin 3 → ℝ) {q : NDArray (Miss ℝ)} (hq : q.shape = [n, 3])
    (hx : ∀ r < n, rowOf q 3 r = fun c => num (x r c)) (hoff : ∀ r < n, H.dist t (x r) ≠ 0) :
    ∃ (A : NDArray (Miss ℝ)) (v : ℕ → Fin 3 → ℝ), helicalFn junk H (num t) q = .ok A ∧
      (∀ r < n, rowOf A 3 r = fun c => num (v r c)) ∧ (∀ r < n, speed (v r) ≤ 1) ∧
      ∃ r < n, speed (v r) = 1 := by
  obtain ⟨A, M, a1, -, hM, ⟨⟨r₀, hr₀, e⟩, a3⟩, a4⟩ := C119_velocity_partial hH junk t hn x hq hx hoff
  have hs : ∀ r, speed (fun c => H.velocity t (x r) c / M) = speed (H.velocity t (x r)) / M := by
    intro r
    have : (fun c => H.velocity t (x r) c / M) = fun c => M⁻¹ * H.velocity t (x r) c := by
      funext c; rw [div_eq_inv_mul]
    rw [this, speed_smul, abs_of_pos (inv_pos.2 hM), div_eq_inv_mul]
  refine ⟨A, fun r c => H.velocity t (x r) c / M, a1, a4, fun r hr => ?_, r₀, hr₀, ?_⟩
  · rw [hs, div_le_one hM]
    exact a3 ⟨r, hr, rfl⟩
  · rw [hs, ← e, div_self hM.ne']

/-- **C119 is false of the code (2).**  The velocity of a particle depends on its companions: for every
point off the axis, and every second point where the vortex is faster, the velocity returned for the
first point alone has length 1, and less than 1 if both are asked for together. -/
theorem C119_companions_fails (hH : H.Proper) (junk : List ℕ → Miss ℝ) (t : ℝ) {x y : Fin 3 → ℝ}
    (hx : H.dist t x ≠ 0) (hy : H.dist t y ≠ 0)
    (hxy : speed (H.velocity t x) < speed (H.velocity t y)) {q q' : NDArray (Miss ℝ)}
    (hq : q.shape = [1, 3]) (hq' : q'.shape = [2, 3]) (h0 : rowOf q 3 0 = fun c => num (x c))
    (h0' : rowOf q' 3 0 = fun c => num (x c)) (h1' : rowOf q' 3 1 = fun c => num (y c)) :
    ∃ (A A' : NDArray (Miss ℝ)) (v v' : Fin 3 → ℝ), helicalFn junk H (num t) q = .ok A ∧
      helicalFn junk H (num t) q' = .ok A' ∧ (rowOf A 3 0 = fun c => num (v c)) ∧
      (rowOf A' 3 0 = fun c => num (v' c)) ∧ speed v = 1 ∧ speed v' < 1 := by
  obtain ⟨A, v, a1, a2, a3, r, hr, a4⟩ := C119_fastest hH junk t (n := 1) (by omega) (fun _ => x) hq
    (fun r hr => by rw [show r = 0 by omega]; exact h0) (fun _ _ => hx)
  obtain rfl : r = 0 := by omega
  obtain ⟨A', M, b1, b2, hMp, ⟨-, b3⟩, b4⟩ := C119_velocity_partial hH junk t (n := 2) (by omega)
    (fun r => if r = 0 then x else y) hq'
    (fun r hr => by
      rcases (by omega : r = 0 ∨ r = 1) with rfl | rfl
      · simpa using h0'
      · simpa using h1')
    (fun r hr => by
      rcases (by omega : r = 0 ∨ r = 1) with rfl | rfl
      · simpa using hx
      · simpa using hy)
  have hM : speed (H.velocity t y) ≤ M := b3 ⟨1, by omega, by simp⟩
  refine ⟨A, A', v 0, fun c => H.velocity t x c / M, a1, b1, a2 0 (by omega), ?_, a4, ?_⟩
  · simpa using b4 0 (by omega)
  · have : (fun c => H.velocity t x c / M) = fun c => M⁻¹ * H.velocity t x c := by
      funext c; rw [div_eq_inv_mul]
    rw [this, speed_smul, abs_of_pos (inv_pos.2 hMp), ← div_eq_inv_mul, div_lt_one hMp]
    exact hxy.trans_le hM

/-! ## Runs -/

/-- Rows of the array of seeds and members of groups. -/
theorem row_group {N r : ℕ} (hr : r < 6 * N) : ∃ (i : ℕ) (b : Fin 6), i < N ∧ r = b * N + i := by
  have hN : 0 < N := by omega
  exact ⟨r % N, ⟨r / N, (Nat.div_lt_iff_lt_mul hN).2 (by omega)⟩, Nat.mod_lt _ hN,
    (Nat.div_add_mod' r N).symm⟩

theorem group_row {N i : ℕ} (hi : i < N) (b : Fin 6) : (b : ℕ) * N + i < 6 * N := by
  have h : (b : ℕ) * N ≤ 5 * N := Nat.mul_le_mul_right _ (by omega)
  omega

theorem group_index {N i : ℕ} (hi : i < N) (b : Fin 6) :
    ((b : ℕ) * N + i) % N = i ∧ ((b : ℕ) * N + i) / N = b := by
  refine ⟨by rw [Nat.mul_add_mod', Nat.mod_eq_of_lt hi], ?_⟩
  rw [mul_comm, Nat.mul_add_div (by omega), Nat.div_eq_of_lt hi, add_zero]

/-- **C119 is false of the code (3).**  If one seed lies on the axis there is no field: every run, with
every integrator, ends with `LinAlgError`, whatever the other groups are. -/
theorem C119_seed_on_axis_fails (hH : H.Proper) {env : Env (Miss ℝ) FVal} (he : MissEnv env)
    (junk : List ℕ → Miss ℝ) (k : Kind) {N : ℕ} {seed : NDArray (Miss ℝ)} {p : Particles (Miss ℝ)}
    (hs : seed.shape = [6 * N, 3]) (hp : mkParticles seed = .ok p) (x : ℕ → Fin 6 → Fin 3 → ℝ)
    (hx : ∀ i < N, groupOf seed 6 N 3 i = fun b c => num (x i b c)) (hsep : ∀ i < N, Separate3 (x i))
    (hax : ∃ i < N, ∃ b, H.dist 0 (x i b) = 0) (h : Miss ℝ) {times : List (Miss ℝ)} (ht : times ≠ [])
    (queue : Bool) :
    ((⟨.analytical ⟨p, h, times⟩, .analytical (.fresh (some (helicalFn junk H))), .fresh k⟩ :
      Solver (Miss ℝ)).run env queue none).result = .error .linAlgError := by
  obtain ⟨i, hi, b, h0⟩ := hax
  have hN : 0 < N := by omega
  have hvel : (AnalyticalState.fresh (some (helicalFn junk H))).interpolate =
      helicalFn junk H (num 0) := rfl
  rw [analytical_run env queue _ _ _ ht]
  have hpos := (mkParticles_groups (d := 3) (.inr rfl) hs hp).1
  obtain ⟨m, hm⟩ : ∃ m, times.length = m + 1 := ⟨times.length - 1, by
    have := List.length_pos_iff.2 ht; omega⟩
  obtain ⟨A, a1, a2, a3, -⟩ := C119_all_or_none_fails hH junk 0 (n := 6 * N) (by omega) hs
  obtain ⟨pos, p1, p2, p3⟩ := steps_lost env.junk h (vel := helicalFn junk H (num 0)) (R := 6 * N)
    (d := 3) (fun q hq hl => by
      obtain ⟨B, b1, b2, b3, -⟩ := C119_all_or_none_fails hH junk 0 (n := 6 * N) (by omega) hq
      exact ⟨B, b1, b2, b3 ⟨0, by omega, .inl ⟨0, hl 0 (by omega) 0⟩⟩⟩) m (.fresh k)
    (Integ.fits_fresh _ _ k) seed hs
    ⟨A, a1, a2, a3 ⟨b * N + i, group_row hi b, .inr ⟨x i b, congrFun (hx i hi) b, h0⟩⟩⟩
  simp only [hvel, hpos, hm, p1]
  rw [computeFtle_lost3 he hs p2 hp x hx hsep hN p3]
  rfl

/-- **C119** (runs).  If all seeds are farther from the axis than the particles can come, the run with
Euler's method ends normally, and its values are the exponents of the differences of the positions that
`ScaledPath` describes. -/
theorem C119_euler_partial (hH : H.Proper) {env : Env (Miss ℝ) FVal} (he : MissEnv env)
    (junk : List ℕ → Miss ℝ) {N : ℕ} {seed : NDArray (Miss ℝ)} {p : Particles (Miss ℝ)}
    (hs : seed.shape = [6 * N, 3]) (hp : mkParticles seed = .ok p) (x : ℕ → Fin 6 → Fin 3 → ℝ)
    (hx : ∀ i < N, groupOf seed 6 N 3 i = fun b c => num (x i b c)) (hsep : ∀ i < N, Separate3 (x i))
    (hN : 0 < N)
    {h : ℝ} (h0 : h ≠ 0) {times : List (Miss ℝ)} (ht : 2 ≤ times.length) (queue : Bool)
    (hfar : ∀ i < N, ∀ b, ((times.length : ℝ) - 1) * ((1 + H.R0 * |H.k|) * |h|) < H.dist 0 (x i b)) :
    ∃ X M L, ScaledPath H h N times.length x X M ∧
      ((⟨.analytical ⟨p, num h, times⟩, .analytical (.fresh (some (helicalFn junk H))), .fresh .euler⟩ :
        Solver (Miss ℝ)).run env queue none).result = .ok (some ((List.range N).map L)) ∧
      ∀ i < N, ∃ s, IsMaxStretch (diffs3 (X times.length i) (x i)) s ∧
        L i = ftleVal s (((times.length : ℝ) - 1) * |h|) := by
  classical
  set n := times.length with hnd
  -- greatest speed of a set of groups
  have hG : ∀ Y : ℕ → Fin 6 → Fin 3 → ℝ, ∃ g,
      IsGreatest {s | ∃ i < N, ∃ b, s = speed (H.velocity 0 (Y i b))} g := by
    intro Y
    obtain ⟨⟨i, b⟩, h1, h2⟩ := (Finset.range N ×ˢ (Finset.univ : Finset (Fin 6))).exists_max_image
      (fun ib => speed (H.velocity 0 (Y ib.1 ib.2))) ⟨(0, 0), by simp [hN]⟩
    refine ⟨speed (H.velocity 0 (Y i b)), ⟨i, by simpa using h1, b, rfl⟩, ?_⟩
    rintro s ⟨i', hi', b', rfl⟩
    exact h2 (i', b') (by simp [hi'])
  choose G hG using hG
  let X : ℕ → ℕ → Fin 6 → Fin 3 → ℝ := fun j => Nat.rec x
    (fun _ Y i b c => Y i b c + h * (H.velocity 0 (Y i b) c / G Y)) j
  have hXs : ∀ j i b c, X (j + 1) i b c =
      X j i b c + h * (H.velocity 0 (X j i b) c / G (X j)) := fun _ _ _ _ => rfl
  have hpath : ScaledPath H h N n x X fun j => G (X j) :=
    ⟨fun i _ => rfl, fun j _ => hG (X j), fun j _ i _ b c => rfl⟩
  have hGp : ∀ Y, 0 < G Y := by
    intro Y
    obtain ⟨i, -, b, e⟩ := (hG Y).1
    exact e ▸ Helix.speed_pos hH 0 _
  -- distances from the axis
  have hdist : ∀ j, ∀ i < N, ∀ b, H.dist 0 (x i b) - j * ((1 + H.R0 * |H.k|) * |h|) ≤
      H.dist 0 (X j i b) := by
    intro j
    induction j with
    | zero => intro i _ b; simp [X]
    | succ j ih =>
      intro i hi b
      have h1 := H.dist_move hH.R0.le 0 (X j i b) fun c => h / G (X j) * H.velocity 0 (X j i b) c
      have h2 : (fun c => X j i b c + h / G (X j) * H.velocity 0 (X j i b) c) = X (j + 1) i b := by
        funext c
        rw [hXs]
        ring
      have h3 : speed (fun c => h / G (X j) * H.velocity 0 (X j i b) c) ≤ |h| := by
        rw [speed_smul, abs_div, abs_of_pos (hGp _), div_mul_eq_mul_div, div_le_iff₀ (hGp _)]
        exact mul_le_mul_of_nonneg_left ((hG (X j)).2 ⟨i, hi, b, rfl⟩) (abs_nonneg h)
      have h4 : 0 ≤ 1 + H.R0 * |H.k| := by
        have := mul_nonneg hH.R0.le (abs_nonneg H.k)
        linarith
      have h5 := mul_le_mul_of_nonneg_left h3 h4
      rw [h2] at h1
      have h6 := ih i hi b
      push_cast
      linarith
  have hoff : ∀ j < n, ∀ i < N, ∀ b, H.dist 0 (X j i b) ≠ 0 := by
    intro j hj i hi b
    have h1 := hdist j i hi b
    have h2 := hfar i hi b
    have h3 : (j : ℝ) ≤ (n : ℝ) - 1 := by
      have : ((j + 1 : ℕ) : ℝ) ≤ n := by exact_mod_cast hj
      push_cast at this
      linarith
    have h4 : 0 ≤ (1 + H.R0 * |H.k|) * |h| := by
      have := mul_nonneg hH.R0.le (abs_nonneg H.k)
      exact mul_nonneg (by linarith) (abs_nonneg h)
    have h5 := mul_le_mul_of_nonneg_right h3 h4
    intro e
    linarith
  -- the steps
  let P : ℕ → ℕ → Fin 3 → ℝ := fun j r => X j (r % N) (Fin.ofNat 6 (r / N))
  have hPr : ∀ j, ∀ i < N, ∀ b : Fin 6, P j (b * N + i) = X j i b := by
    intro j i hi b
    obtain ⟨e1, e2⟩ := group_index hi b
    simp only [P, e1, e2]
    congr 1
    exact Fin.ext (by simp)
  have hne : times ≠ [] := by
    rintro rfl
    simp at hnd
    omega
  have hvel : (AnalyticalState.fresh (some (helicalFn junk H))).interpolate =
      helicalFn junk H (num 0) := rfl
  obtain ⟨pos, p1, p2, p3⟩ := euler_whole env.junk (vel := helicalFn junk H (num 0)) (R := 6 * N)
    (num h) (fun j r c => num (P j r c)) (fun j r c => num (H.velocity 0 (P j r) c / G (X j))) n
    (fun j hj q hq hrows => by
      obtain ⟨A, M, a1, a2, -, a3, a4⟩ := C119_velocity_partial hH junk 0 (n := 6 * N) (by omega) (P j)
        hq hrows (fun r hr => by
          obtain ⟨i, b, hi, rfl⟩ := row_group hr
          rw [hPr j i hi b]
          exact hoff j hj i hi b)
      have hset : {s | ∃ r < 6 * N, s = speed (H.velocity 0 (P j r))} =
          {s | ∃ i < N, ∃ b, s = speed (H.velocity 0 (X j i b))} := by
        ext s
        constructor
        · rintro ⟨r, hr, rfl⟩
          obtain ⟨i, b, hi, rfl⟩ := row_group hr
          exact ⟨i, hi, b, by rw [hPr j i hi b]⟩
        · rintro ⟨i, hi, b, rfl⟩
          exact ⟨b * N + i, group_row hi b, by rw [hPr j i hi b]⟩
      rw [hset] at a3
      rw [a3.unique (hG (X j))] at a4
      exact ⟨A, a1, a2, a4⟩)
    (fun j hj r hr => by
      funext c
      simp only [num_mul, num_add]
      rfl)
    none seed hs (fun r hr => by
      obtain ⟨i, b, hi, rfl⟩ := row_group hr
      rw [hPr 0 i hi b]
      exact congrFun (hx i hi) b)
  have hpos := (mkParticles_groups (d := 3) (.inr rfl) hs hp).1
  obtain ⟨L, l1, l2⟩ := computeFtle_num3 he hs p2 hp x (X n) hx (fun i hi => by
      funext b
      rw [← hPr n i hi b]
      exact p3 _ (group_row hi b)) hsep h0 (n := n) (by omega)
  refine ⟨X, _, L, hpath, ?_, l2⟩
  rw [analytical_run env queue _ _ _ hne]
  simp only [hvel, hpos, ← hnd, Integ.fresh, p1, l1]
  rfl

/-! ## The notebook -/

theorem helicalFn_respects (junk : List ℕ → Miss ℝ) (H : Helix) : (helicalFn junk H).Respects := by
  intro t q q' h
  obtain ⟨h1, h2⟩ := h
  unfold helicalFn
  rw [← h1]
  split
  · rename_i n d hs
    split
    · exact .error _
    · rename_i hd
      have hrow : ∀ r < n, helicalRow H t (q.get [r, 0]) (q.get [r, 1]) (q.get [r, 2]) =
          helicalRow H t (q'.get [r, 0]) (q'.get [r, 1]) (q'.get [r, 2]) := by
        intro r hr
        rw [h2 [r, 0] (by rw [hs]; simp [ValidIdx]; omega),
          h2 [r, 1] (by rw [hs]; simp [ValidIdx]; omega),
          h2 [r, 2] (by rw [hs]; simp [ValidIdx]; omega)]
      have hmax : npMax (⟨[n], fun idx => magnitude (helicalRow H t (q.get [idx.getD 0 0, 0])
          (q.get [idx.getD 0 0, 1]) (q.get [idx.getD 0 0, 2]))⟩ : NDArray (Miss ℝ)) =
          npMax (⟨[n], fun idx => magnitude (helicalRow H t (q'.get [idx.getD 0 0, 0])
          (q'.get [idx.getD 0 0, 1]) (q'.get [idx.getD 0 0, 2]))⟩ : NDArray (Miss ℝ)) := by
        unfold npMax
        rw [toList_one, toList_one]
        have : (List.range n).map (fun r => (fun idx : List ℕ => magnitude (helicalRow H t
            (q.get [idx.getD 0 0, 0]) (q.get [idx.getD 0 0, 1]) (q.get [idx.getD 0 0, 2]))) [r]) =
            (List.range n).map (fun r => (fun idx : List ℕ => magnitude (helicalRow H t
            (q'.get [idx.getD 0 0, 0]) (q'.get [idx.getD 0 0, 1]) (q'.get [idx.getD 0 0, 2]))) [r]) :=
          List.map_congr_left fun r hr => by
            simp only [List.getD_cons_zero]
            rw [hrow r (List.mem_range.1 hr)]
        rw [this]
      simp only [hmax]
      split
      · exact .error _
      · refine .ok ⟨rfl, fun idx hidx => ?_⟩
        simp only at hidx ⊢
        match idx, hidx with
        | [r, c], hidx =>
          have hr : r < n := by
            have := hidx
            simp [ValidIdx] at this
            exact this.1
          simp only [List.getD_cons_zero, hrow r hr]
  · exact .error _

/-- The rotation of the vortex does not matter at the time `0`. -/
theorem helicalFn_zero (junk : List ℕ → Miss ℝ) (H : Helix) (ω : ℝ) :
    helicalFn junk { H with ω := ω } 0 = helicalFn junk H 0 := by
  have : ∀ x y z, helicalRow { H with ω := ω } 0 x y z = helicalRow H 0 x y z := by
    intro x y z
    cases x <;> cases y <;> cases z <;> try rfl
    simp [helicalRow, helicalAt]
  funext q
  unfold helicalFn
  simp only [this]

theorem MissEnv.perMatrix {env : Env (Miss ℝ) FVal} (he : MissEnv env) : env.PerMatrix := by
  constructor
  · intro js T v hv
    rw [he.f2] at hv
    unfold ftle2M at hv
    split at hv
    · cases hv
    · cases hv
      simp
  · intro js T v hv
    rw [he.f3] at hv
    unfold ftle3M at hv
    split at hv
    · cases hv
    · rename_i eigs h1
      split at hv
      · cases hv
      · cases hv
        unfold maxEigs3M at h1
        split at h1
        · cases h1
        · have := pyMap_ok_length h1
          simpa using this

/-- The calls of 01_Closed-form_velocity_helical.ipynb:386-394 and :425-435: the solver for the seeds of
the notebook and its vortex, with `M` fields of `n` steps of `h`. -/
structure HelicalCall (H : Helix) (x y z : NDArray (Miss ℝ)) (s : Miss ℝ) (k : Kind) (n : ℕ) (h : Miss ℝ)
    (M : ℕ) (S : ApiSolver (Miss ℝ) FVal) : Prop where
  made : ∃ (dict : ArrayDict (Miss ℝ)) (seeds : NDArray (Miss ℝ)) (P : Particles (Miss ℝ))
    (junk : List ℕ → Miss ℝ) (lower : String → String) (name format : String) (processes : ℤ),
    crossDict3 x y z s = .ok dict ∧ crossPositions3 dict = .ok seeds ∧ mkParticles seeds = .ok P ∧
    lower "analytical" = "analytical" ∧ createIntegrator lower name = .ok k ∧
    ApiSolver.create lower (helicalFn junk H) P h (.ok n) M name processes false format = .ok S

theorem HelicalCall.parts {x y z : NDArray (Miss ℝ)} {s : Miss ℝ} {k : Kind} {n : ℕ} {h : Miss ℝ}
    {M : ℕ} {S : ApiSolver (Miss ℝ) FVal} (hS : HelicalCall H x y z s k n h M S) :
    ∃ dict seeds junk, crossDict3 x y z s = .ok dict ∧ crossPositions3 dict = .ok seeds ∧
      mkParticles seeds = .ok S.particles ∧ S.integ = Integ.fresh k ∧ S.writer = none ∧
      S.interp = .analytical (.fresh (some (helicalFn junk H))) ∧ S.timestep = h ∧
      S.numFtles = M ∧ S.numSnapshots = n := by
  obtain ⟨dict, seeds, P, junk, lower, name, format, processes, h1, h2, h3, h4, h5, h6⟩ := hS.made
  obtain ⟨c1, c2, c3, c4, c5, -, ⟨k', c6, c7⟩, c8, -⟩ := C65_constructor lower h4 _ _ _ _ _ _ _ _ _ _ h6
  rw [h5] at c6
  cases c6
  exact ⟨dict, seeds, junk, h1, h2, by rw [c2]; exact h3, c7, c8 rfl, c1, c3, c4, (Except.ok.inj c5).symm⟩

/-- Every choice of the parameters gives such a call. -/
theorem exists_helicalCall (H : Helix) {x y z : NDArray (Miss ℝ)} {nx ny nz : ℕ} (hx : x.shape = [nx])
    (hy : y.shape = [ny]) (hz : z.shape = [nz]) (s : Miss ℝ) (n : ℕ) (h : Miss ℝ) (M : ℕ) {p : ℤ} :
    ∃ S, HelicalCall H x y z s .euler n h M S ∧ S.processes = p := by
  obtain ⟨dict, seeds, P, g1, g2, g3, g4, g5⟩ := C110_seeds_3d hx hy hz s
  exact ⟨_, ⟨dict, seeds, P, fun _ => nan, id, "euler", "vtk", p, g1, g2, g4, rfl, rfl, rfl⟩, rfl⟩

/-- **C119 is false of the code (4).**  The four fields that the notebook asks for are one field: the
vortex does not turn. -/
theorem C119_panels_fails {env : Env (Miss ℝ) FVal} (he : MissEnv env) {x y z : NDArray (Miss ℝ)}
    {nx ny nz : ℕ} (hx : x.shape = [nx]) (hy : y.shape = [ny]) (hz : z.shape = [nz]) {s : Miss ℝ}
    {k : Kind} {n : ℕ} {h : Miss ℝ} {M : ℕ} (hM : 2 ≤ M) {S : ApiSolver (Miss ℝ) FVal}
    (hS : HelicalCall H x y z s k n h M S) (mem : ℕ → List ℕ → Miss ℝ)
    {s₀ st : HostState (Shared (Miss ℝ)) (Option (List FVal) × List (Event (Miss ℝ) FVal))}
    {as : List (Action (Option (List FVal) × List (Event (Miss ℝ) FVal)))}
    {rs : List (Option (Option (List FVal) × List (Event (Miss ℝ) FVal)))}
    (h₀ : (S.host env).init mem = .ok s₀) (hx' : HostState.Exec (S.host env) mem s₀ as st)
    (hr : st.pool.phase = .returned rs) :
    ∃ row, S.outcome st = some (.ok (.stack (List.replicate M row))) := by
  obtain ⟨dict, seeds, junk, h1, h2, h3, h4, h5, h6, h7, h8, h9⟩ := hS.parts
  obtain ⟨dict', seeds', P', g1, g2, g3, g4, g5⟩ := C110_seeds_3d hx hy hz s
  obtain rfl := Except.ok.inj (g1.symm.trans h1)
  obtain rfl := Except.ok.inj (g2.symm.trans h2)
  exact C38_api_rows_fails env he.perMatrix S k h4 h5 _ (helicalFn_respects junk H) h6
    (N := nx * ny * nz) (d := 3) (.inr rfl) g3 h3 M h8 hM mem h₀ hx' hr

/-- **C119 is false of the code (5).**  Runs for vortices that differ only in their rotation have the
same result. -/
theorem C119_rotation_fails (env : Env (Miss ℝ) FVal) (queue : Bool) (junk : List ℕ → Miss ℝ)
    (H : Helix) (ω : ℝ) (s : AnalyticalSource (Miss ℝ)) (G : Integ (Miss ℝ)) :
    ((⟨.analytical s, .analytical (.fresh (some (helicalFn junk { H with ω := ω }))), G⟩ :
      Solver (Miss ℝ)).run env queue none).result =
    ((⟨.analytical s, .analytical (.fresh (some (helicalFn junk H))), G⟩ :
      Solver (Miss ℝ)).run env queue none).result :=
  (C38_time_zero_fails env queue none s G _ _ (helicalFn_zero junk H ω)).1

/-- **C119 is false of the code (6).**  If a seed of the notebook's grid lies on the axis, the call
returns in no execution. -/
theorem C119_no_picture_fails (hH : H.Proper) {env : Env (Miss ℝ) FVal} (he : MissEnv env)
    {x y z : NDArray (Miss ℝ)} {nx ny nz : ℕ} (hx : x.shape = [nx]) (hy : y.shape = [ny])
    (hz : z.shape = [nz]) (xs ys zs : ℕ → ℝ) (hxs : ∀ i < nx, at1 x i = num (xs i))
    (hys : ∀ i < ny, at1 y i = num (ys i)) (hzs : ∀ i < nz, at1 z i = num (zs i)) {s : ℝ} (hs : s ≠ 0)
    {i j l : ℕ} (hi : i < nx) (hj : j < ny) (hl : l < nz)
    (hax : ∃ b, H.dist 0 (crossAround3 (xs i) (ys j) (zs l) s b) = 0)
    {k : Kind} {n : ℕ} (hn : n ≠ 0) {h : Miss ℝ} {M : ℕ} (hM : 1 ≤ M) {S : ApiSolver (Miss ℝ) FVal}
    (hS : HelicalCall H x y z (num s) k n h M S) (mem : ℕ → List ℕ → Miss ℝ)
    {s₀ st : HostState (Shared (Miss ℝ)) (Option (List FVal) × List (Event (Miss ℝ) FVal))}
    {as : List (Action (Option (List FVal) × List (Event (Miss ℝ) FVal)))}
    (h₀ : (S.host env).init mem = .ok s₀) (hx' : HostState.Exec (S.host env) mem s₀ as st)
    (rs : List (Option (Option (List FVal) × List (Event (Miss ℝ) FVal)))) :
    st.pool.phase ≠ .returned rs := by
  intro hr
  obtain ⟨dict, seeds, junk, h1, h2, h3, h4, h5, h6, h7, h8, h9⟩ := hS.parts
  obtain ⟨dict', seeds', P', g1, g2, g3, g4, g5⟩ := C110_seeds_3d hx hy hz (num s)
  obtain rfl := Except.ok.inj (g1.symm.trans h1)
  obtain rfl := Except.ok.inj (g2.symm.trans h2)
  let X : ℕ → Fin 6 → Fin 3 → ℝ := fun q =>
    crossAround3 (xs (q / nz / ny)) (ys (q / nz % ny)) (zs (q % nz)) s
  have hX : ∀ q < nx * ny * nz, groupOf seeds' 6 (nx * ny * nz) 3 q = fun b c => num (X q b c) := by
    intro q hq
    have hnz : 0 < nz := by omega
    have hny : 0 < ny := by omega
    have q1 : q / nz < nx * ny := (Nat.div_lt_iff_lt_mul hnz).2 hq
    have q2 : q / nz / ny < nx := (Nat.div_lt_iff_lt_mul hny).2 q1
    have q3 := Nat.mod_lt (q / nz) hny
    have q4 := Nat.mod_lt q hnz
    have e : (q / nz / ny * ny + q / nz % ny) * nz + q % nz = q := by
      rw [Nat.div_add_mod', Nat.div_add_mod']
    have := g5 _ q2 _ q3 _ q4
    rw [e, hxs _ q2, hys _ q3, hzs _ q4] at this
    rw [this]
    funext b c
    fin_cases b <;> fin_cases c <;> rfl
  have hidx := flat_lt hi hj hl
  have hXi : X ((i * ny + j) * nz + l) = crossAround3 (xs i) (ys j) (zs l) s := by
    have e1 : ((i * ny + j) * nz + l) / nz = i * ny + j := by
      rw [mul_comm, Nat.mul_add_div (by omega), Nat.div_eq_of_lt hl, add_zero]
    have e2 : ((i * ny + j) * nz + l) % nz = l := by
      rw [Nat.mul_add_mod', Nat.mod_eq_of_lt hl]
    have e3 : (i * ny + j) / ny = i := by
      rw [mul_comm, Nat.mul_add_div (by omega), Nat.div_eq_of_lt hj, add_zero]
    have e4 : (i * ny + j) % ny = j := by
      rw [Nat.mul_add_mod', Nat.mod_eq_of_lt hj]
    simp only [X, e1, e2, e3, e4]
  have herr : (aloneRun { env with junk := mem 0 } none (.analytical (startBatch S 0)) S.interp
      k).result = .error .linAlgError := by
    unfold aloneRun
    rw [h6]
    refine C119_seed_on_axis_fails hH (env := { env with junk := mem 0 }) ⟨he.abs, he.f2, he.f3⟩ junk k
      g3 h3 X hX (fun q _ => ?_) ?_ S.timestep (by simp [h9, hn]) true
    · refine ⟨?_, ?_, ?_⟩ <;> simp [X, crossAround3] <;> intro e <;> apply hs <;> linarith
    · obtain ⟨b, hb⟩ := hax
      exact ⟨_, hidx, b, by rw [hXi]; exact hb⟩
  rcases Nat.lt_or_ge 1 M with h10 | h10
  · obtain ⟨rows, -, -, r3⟩ := C65_stack env he.perMatrix S k h4 h5 (.inr rfl) g3 h3 M h8 h10 mem h₀
      hx' hr
    obtain ⟨row, -, -, r4⟩ := r3 0 (by omega)
    rw [herr] at r4
    cases r4
  · obtain rfl : M = 1 := by omega
    obtain ⟨row, -, -, r4⟩ := C65_single env he.perMatrix S k h4 h5 (.inr rfl) g3 h3 h8 mem h₀ hx' hr
    rw [herr] at r4
    cases r4

/-! ## Examples -/

theorem notebook_axis (z : ℝ) : notebookHelix.axis 0 z = ![Real.cos (Real.pi * z), Real.sin (Real.pi * z)] := by
  simp [Helix.axis, notebookHelix]

/-- A point at distance 1 from the axis of the notebook's vortex, and a faster one at distance `0.3`. -/
example : notebookHelix.Proper ∧ notebookHelix.dist 0 ![2, 0, 0] ≠ 0 ∧
    notebookHelix.dist 0 ![13 / 10, 0, 0] ≠ 0 ∧
    speed (notebookHelix.velocity 0 ![2, 0, 0]) < speed (notebookHelix.velocity 0 ![13 / 10, 0, 0]) := by
  have d1 : notebookHelix.dist 0 ![2, 0, 0] = 1 := by
    simp [Helix.dist, notebook_axis]; norm_num
  have d2 : notebookHelix.dist 0 ![13 / 10, 0, 0] = 3 / 10 := by
    simp only [Helix.dist, notebook_axis, Matrix.cons_val_zero, Matrix.cons_val_one, Matrix.cons_val,
      mul_zero, Real.cos_zero, Real.sin_zero]
    rw [show ((13 / 10 : ℝ) - 1) ^ 2 + (0 - 0) ^ 2 = (3 / 10) ^ 2 by norm_num]
    exact Real.sqrt_sq (by norm_num)
  refine ⟨notebookHelix_proper, by rw [d1]; norm_num, by rw [d2]; norm_num, ?_⟩
  set a := Real.exp (-(1 / (3 / 10)) ^ 2) with ha
  set b := Real.exp (-1) with hb
  have ha0 : 0 < a := Real.exp_pos _
  have ha1 : a < 1 := Real.exp_lt_one_iff.2 (by norm_num)
  have hb0 : 0 < b := Real.exp_pos _
  have hb1 : b < 1 / 2 := by
    rw [hb, Real.exp_neg, inv_lt_comm₀ (Real.exp_pos _) (by norm_num)]
    have := Real.add_one_lt_exp (x := 1) (by norm_num)
    norm_num
    linarith
  have e1 : speed (notebookHelix.velocity 0 ![2, 0, 0]) =
      √((5 / (2 * Real.pi)) ^ 2 * ((1 - a) ^ 2 + (a / 5) ^ 2)) := by
    have hp := Real.pi_ne_zero
    simp only [speed, Helix.velocity, Helix.spin, d1, notebook_axis]
    congr 1
    simp only [Matrix.cons_val_zero, Matrix.cons_val_one, Matrix.cons_val, mul_zero, Real.cos_zero,
      Real.sin_zero, notebookHelix, ← ha]
    field_simp
    ring
  have e2 : speed (notebookHelix.velocity 0 ![13 / 10, 0, 0]) =
      √((5 / (2 * Real.pi)) ^ 2 * (((1 - b) / (3 / 10)) ^ 2 + (b / 5) ^ 2)) := by
    have hp := Real.pi_ne_zero
    simp only [speed, Helix.velocity, Helix.spin, d2, notebook_axis]
    congr 1
    simp [notebookHelix, ← hb]
    field_simp
    ring
  rw [e1, e2]
  have hp := Real.pi_pos
  refine Real.sqrt_lt_sqrt (by positivity) (mul_lt_mul_of_pos_left ?_ (by positivity))
  have h1 : (1 - a) ^ 2 + (a / 5) ^ 2 ≤ 1 := by nlinarith
  have h2 : 1 < ((1 - b) / (3 / 10)) ^ 2 + (b / 5) ^ 2 := by nlinarith [sq_nonneg (b / 5)]
  linarith

/-- An array of seeds for given groups. -/
noncomputable def seedsOf (N : ℕ) (x : ℕ → Fin 6 → Fin 3 → ℝ) : NDArray (Miss ℝ) :=
  ⟨[6 * N, 3], fun idx => num (x (idx.getD 0 0 % N) (Fin.ofNat 6 (idx.getD 0 0 / N))
    (Fin.ofNat 3 (idx.getD 1 0)))⟩

theorem seedsOf_group (N : ℕ) (x : ℕ → Fin 6 → Fin 3 → ℝ) {i : ℕ} (hi : i < N) :
    groupOf (seedsOf N x) 6 N 3 i = fun b c => num (x i b c) := by
  funext b c
  obtain ⟨e1, e2⟩ := group_index hi b
  simp only [groupOf, rowOf, seedsOf, List.getD_cons_zero, List.getD_cons_succ, e1, e2]
  congr 2
  · congr 1; exact Fin.ext (by simp)
  · exact Fin.ext (by simp)

/-- The seeds around the origin, and those around `(0.99, 0, 0)`, one of which is on the axis. -/
noncomputable def twoGroups : ℕ → Fin 6 → Fin 3 → ℝ
  | 0 => cross3 ![0, 0, 0] (1 / 100)
  | _ => cross3 ![99 / 100, 0, 0] (1 / 100)

/-- Two steps of the notebook's length with its vortex: the first group has an exponent if it is alone,
and there is no field if the second one is added. -/
example (junk : List ℕ → Miss ℝ) : ∃ P P' L, mkParticles (seedsOf 1 twoGroups) = .ok P ∧
    mkParticles (seedsOf 2 twoGroups) = .ok P' ∧
    ((⟨.analytical ⟨P, num (-(1 / 100)), [0, num (-(1 / 100))]⟩,
      .analytical (.fresh (some (helicalFn junk notebookHelix))), .fresh .euler⟩ :
        Solver (Miss ℝ)).run missEnv false none).result = .ok (some [L]) ∧
    ((⟨.analytical ⟨P', num (-(1 / 100)), [0, num (-(1 / 100))]⟩,
      .analytical (.fresh (some (helicalFn junk notebookHelix))), .fresh .euler⟩ :
        Solver (Miss ℝ)).run missEnv false none).result = .error .linAlgError := by
  have hs1 : (seedsOf 1 twoGroups).shape = [6 * 1, 3] := rfl
  have hs2 : (seedsOf 2 twoGroups).shape = [6 * 2, 3] := rfl
  obtain ⟨P, hP, -⟩ := mkParticles_3d hs1
  obtain ⟨P', hP', -⟩ := mkParticles_3d hs2
  have hsep : ∀ i, Separate3 (twoGroups i) := by
    intro i
    rcases i with _ | i <;> refine ⟨?_, ?_, ?_⟩ <;> simp [twoGroups, cross3] <;> norm_num
  obtain ⟨X, M, L, -, h1, -⟩ := C119_euler_partial notebookHelix_proper missEnv_ok junk hs1 hP twoGroups
    (fun i hi => seedsOf_group 1 twoGroups hi) (fun i _ => hsep i) (by omega) (h := -(1 / 100))
    (by norm_num) (times := [0, num (-(1 / 100))]) (by simp) false (fun i hi b => by
      obtain rfl : i = 0 := by omega
      have hpi := Real.pi_le_four
      have hk : |notebookHelix.k| = Real.pi := by
        simp [notebookHelix, abs_of_pos Real.pi_pos]
      have hR : notebookHelix.R0 = 1 := rfl
      rw [hk, hR]
      have hd : (98 / 100 : ℝ) ≤ notebookHelix.dist 0 (twoGroups 0 b) := by
        refine Real.le_sqrt_of_sq_le ?_
        rw [notebook_axis]
        fin_cases b <;> simp [twoGroups, cross3] <;> norm_num
      norm_num
      linarith)
  have h2 := C119_seed_on_axis_fails notebookHelix_proper missEnv_ok junk .euler hs2 hP' twoGroups
    (fun i hi => seedsOf_group 2 twoGroups hi) (fun i _ => hsep i)
    ⟨1, by omega, 1, by
      simp [Helix.dist, notebook_axis, twoGroups, cross3]
      norm_num⟩ (num (-(1 / 100))) (times := [0, num (-(1 / 100))]) (by simp) false
  exact ⟨P, P', L 0, hP, hP', h1, h2⟩

/-- The notebook's call for a grid of one centre whose right neighbour is on the axis: it starts, and
returns in no execution. -/
example : ∃ (S : ApiSolver (Miss ℝ) FVal) (s₀ : HostState (Shared (Miss ℝ)) _),
    HelicalCall notebookHelix ⟨[1], fun _ => num (99 / 100)⟩ ⟨[1], fun _ => 0⟩ ⟨[1], fun _ => 0⟩
      (num (1 / 100)) .euler 2 (num (-(1 / 100))) 4 S ∧
    (S.host missEnv).init (fun _ _ => nan) = .ok s₀ ∧
    ∀ as st, HostState.Exec (S.host missEnv) (fun _ _ => nan) s₀ as st →
      ∀ rs, st.pool.phase ≠ .returned rs := by
  obtain ⟨S, hS, hp⟩ := exists_helicalCall notebookHelix (x := ⟨[1], fun _ => num (99 / 100)⟩)
    (y := ⟨[1], fun _ => 0⟩) (z := ⟨[1], fun _ => 0⟩) rfl rfl rfl (num (1 / 100)) 2 (num (-(1 / 100))) 4
    (p := 2)
  have hM : S.numFtles = 4 := by
    obtain ⟨_, _, _, -, -, -, -, -, -, -, h8, -⟩ := hS.parts
    exact h8
  obtain ⟨s₀, h₀⟩ := (C65_start missEnv S (fun _ _ => nan)).1 (by omega) (by omega)
  refine ⟨S, s₀, hS, h₀, fun as st hx rs => ?_⟩
  exact C119_no_picture_fails notebookHelix_proper missEnv_ok (nx := 1) (ny := 1) (nz := 1) rfl rfl rfl
    (fun _ => 99 / 100) (fun _ => 0) (fun _ => 0) (fun _ _ => rfl) (fun _ _ => rfl) (fun _ _ => rfl)
    (s := 1 / 100) (by norm_num) (i := 0) (j := 0) (l := 0) (by omega) (by omega) (by omega)
    ⟨1, by
      simp [Helix.dist, notebook_axis, crossAround3]
      norm_num⟩ (by omega) (by omega) hS _ h₀ hx rs

end Verif
