import Verif.Lemmas.Particles
import Mathlib.Algebra.Field.Basic
import Mathlib.Data.Matrix.Mul
import Mathlib.Tactic.FieldSimp

/-!
# Helper lemmas: closed forms of the Jacobian kernels
-/

namespace Verif

theorem pyMap_ok {α β : Type*} {f : α → Py β} {g : α → β} {l : List α}
    (h : ∀ a ∈ l, f a = .ok (g a)) : pyMap f l = .ok (l.map g) := by
  induction l with
  | nil => rfl
  | cons a l ih =>
    simp only [pyMap, h a (by simp), ih (fun x hx => h x (by simp [hx])), List.map_cons]

/-- If every call either succeeds or raises `e`, and some call raises, the loop raises `e`. -/
theorem pyMap_error {α β : Type*} {f : α → Py β} {e : PyErr} {l : List α}
    (h : ∀ a ∈ l, f a = .error e ∨ ∃ b, f a = .ok b) (hex : ∃ a ∈ l, f a = .error e) :
    pyMap f l = .error e := by
  induction l with
  | nil => obtain ⟨a, ha, -⟩ := hex; cases ha
  | cons a l ih =>
    rcases h a (by simp) with ha | ⟨b, ha⟩
    · simp only [pyMap, ha]
    · have : ∃ a ∈ l, f a = .error e := by
        obtain ⟨x, hx, hfx⟩ := hex
        rcases List.mem_cons.1 hx with rfl | hx
        · rw [ha] at hfx; cases hfx
        · exact ⟨x, hx, hfx⟩
      simp only [pyMap, ha, ih (fun x hx => h x (by simp [hx])) this]

theorem pyMap_congr {α β : Type*} {f g : α → Py β} {l : List α} (h : ∀ a ∈ l, f a = g a) :
    pyMap f l = pyMap g l := by
  induction l with
  | nil => rfl
  | cons a l ih =>
    simp only [pyMap, h a (by simp), ih (fun x hx => h x (by simp [hx]))]

theorem pyMap_ok_length {α β : Type*} {f : α → Py β} {l : List α} {r : List β}
    (h : pyMap f l = .ok r) : r.length = l.length := by
  induction l generalizing r with
  | nil => simp only [pyMap, Except.ok.injEq] at h; subst h; rfl
  | cons a l ih =>
    simp only [pyMap] at h
    split at h
    · cases h
    · split at h
      · cases h
      · rename_i bs hbs
        cases h
        simp [ih hbs]

theorem pyMap_ok_get {α β : Type*} {f : α → Py β} {l : List α} {r : List β}
    (h : pyMap f l = .ok r) (i : ℕ) (hi : i < l.length) :
    ∃ b, r[i]? = some b ∧ f l[i] = .ok b := by
  induction l generalizing r i with
  | nil => simp at hi
  | cons a l ih =>
    simp only [pyMap] at h
    split at h
    · cases h
    · rename_i b hb
      split at h
      · cases h
      · rename_i bs hbs
        cases h
        cases i with
        | zero => exact ⟨b, by simp, by simpa using hb⟩
        | succ i => simpa using ih hbs i (by simpa using hi)

variable {K : Type*} [Field K] [DecidableEq K]

theorem pyDiv_zero (a : K) : pyDiv a (0 : K) = .error .zeroDivisionError := by
  simp [pyDiv]

theorem pyDiv_ne {a b : K} (h : b ≠ 0) : pyDiv a b = .ok (a / b) := by
  simp [pyDiv, h]

theorem read_ok {α : Type*} {a : NDArray α} {n d i c : ℕ} (h : a.shape = [n, d]) (hi : i < n)
    (hc : c < d) : a.read [i, c] = .ok (a.get [i, c]) := by
  simp [NDArray.read, h, hi, hc]

theorem jacEntry_eq {d D : NDArray K} {n k l i r c : ℕ} (h : d.shape = [n, k])
    (H : D.shape = [n, l]) (hi : i < n) (hr : r < k) (hc : c < l) :
    jacEntry d D i r c = pyDiv (d.get [i, r]) (D.get [i, c]) := by
  simp only [jacEntry, read_ok h hi hr, read_ok H hi hc]

/-- The 2D loop body as a function of the numbers it reads. -/
def jac2Val (rl RL tb TB : ℕ → K) : Py (Matrix (Fin 2) (Fin 2) K) :=
  if RL 0 = 0 ∨ TB 1 = 0 then .error .zeroDivisionError
  else .ok !![rl 0 / RL 0, tb 0 / TB 1; rl 1 / RL 0, tb 1 / TB 1]

theorem jac2Body_eq {drl irl dtb itb : NDArray K} {n i : ℕ} (h1 : drl.shape = [n, 2])
    (h2 : irl.shape = [n, 2]) (h3 : dtb.shape = [n, 2]) (h4 : itb.shape = [n, 2]) (hi : i < n) :
    jac2Body drl irl dtb itb i =
      jac2Val (fun c => drl.get [i, c]) (fun c => irl.get [i, c]) (fun c => dtb.get [i, c])
        (fun c => itb.get [i, c]) := by
  simp only [jac2Body, jacEntry_eq h1 h2 hi (by omega : 0 < 2) (by omega : 0 < 2),
    jacEntry_eq h3 h4 hi (by omega : 0 < 2) (by omega : 1 < 2),
    jacEntry_eq h1 h2 hi (by omega : 1 < 2) (by omega : 0 < 2),
    jacEntry_eq h3 h4 hi (by omega : 1 < 2) (by omega : 1 < 2), jac2Val]
  by_cases hx : irl.get [i, 0] = 0
  · simp [hx, pyDiv_zero]
  · by_cases hy : itb.get [i, 1] = 0
    · simp [hy, pyDiv_ne hx, pyDiv_zero]
    · simp [hx, hy, pyDiv_ne hx, pyDiv_ne hy]

/-- The 3D loop body as a function of the numbers it reads. -/
def jac3Val (rl RL tb TB fb FB : ℕ → K) : Py (Matrix (Fin 3) (Fin 3) K) :=
  if RL 0 = 0 ∨ TB 1 = 0 ∨ FB 2 = 0 then .error .zeroDivisionError
  else .ok !![rl 0 / RL 0, tb 0 / TB 1, fb 0 / FB 2;
              rl 1 / RL 0, tb 1 / TB 1, fb 1 / FB 2;
              rl 2 / RL 0, tb 2 / TB 1, fb 2 / FB 2]

theorem jac3Body_eq {drl irl dtb itb dfb ifb : NDArray K} {n i : ℕ} (h1 : drl.shape = [n, 3])
    (h2 : irl.shape = [n, 3]) (h3 : dtb.shape = [n, 3]) (h4 : itb.shape = [n, 3])
    (h5 : dfb.shape = [n, 3]) (h6 : ifb.shape = [n, 3]) (hi : i < n) :
    jac3Body drl irl dtb itb dfb ifb i =
      jac3Val (fun c => drl.get [i, c]) (fun c => irl.get [i, c]) (fun c => dtb.get [i, c])
        (fun c => itb.get [i, c]) (fun c => dfb.get [i, c]) (fun c => ifb.get [i, c]) := by
  simp only [jac3Body, jacEntry_eq h1 h2 hi (by omega : 0 < 3) (by omega : 0 < 3),
    jacEntry_eq h3 h4 hi (by omega : 0 < 3) (by omega : 1 < 3),
    jacEntry_eq h5 h6 hi (by omega : 0 < 3) (by omega : 2 < 3),
    jacEntry_eq h1 h2 hi (by omega : 1 < 3) (by omega : 0 < 3),
    jacEntry_eq h3 h4 hi (by omega : 1 < 3) (by omega : 1 < 3),
    jacEntry_eq h5 h6 hi (by omega : 1 < 3) (by omega : 2 < 3),
    jacEntry_eq h1 h2 hi (by omega : 2 < 3) (by omega : 0 < 3),
    jacEntry_eq h3 h4 hi (by omega : 2 < 3) (by omega : 1 < 3),
    jacEntry_eq h5 h6 hi (by omega : 2 < 3) (by omega : 2 < 3), jac3Val, bind, Except.bind,
    pure, Except.pure]
  by_cases hx : irl.get [i, 0] = 0
  · simp [hx, pyDiv_zero]
  · by_cases hy : itb.get [i, 1] = 0
    · simp [hy, pyDiv_ne hx, pyDiv_zero]
    · by_cases hz : ifb.get [i, 2] = 0
      · simp [hz, pyDiv_ne hx, pyDiv_ne hy, pyDiv_zero]
      · simp [hx, hy, hz, pyDiv_ne hx, pyDiv_ne hy, pyDiv_ne hz]

/-- The 2D Jacobian of a particle set constructed from `seed` whose positions are now
`pos`, as a loop over plain numbers. -/
theorem jacobian2_eq {seed pos : NDArray K} {N : ℕ} {p : Particles K}
    (hs : seed.shape = [4 * N, 2]) (hp : pos.shape = [4 * N, 2]) (h : mkParticles seed = .ok p) :
    jacobian2 { p with positions := pos } =
      pyMap (fun i => jac2Val
        (fun c => pos.get [N + i, c] - pos.get [i, c])
        (fun c => seed.get [N + i, c] - seed.get [i, c])
        (fun c => pos.get [2 * N + i, c] - pos.get [3 * N + i, c])
        (fun c => seed.get [2 * N + i, c] - seed.get [3 * N + i, c])) (List.range N) := by
  obtain ⟨p', q1, q2, q3, q4, q5, -, -, q8, q9, -⟩ := mkParticles_2d hs
  rw [h] at q1; cases q1
  obtain ⟨rl, r1, r2, r3⟩ := deltaRL_eq (k := 4) (by omega) hp
  obtain ⟨tb, t1, t2, t3⟩ := deltaTB_eq (k := 4) (by omega) hp
  unfold jacobian2 Particles.deltaRL Particles.deltaTB
  simp only [q3, r1, t1, hp, List.headD_cons, Nat.mul_div_cancel_left N (by omega : 0 < 4)]
  apply pyMap_congr
  intro i hi
  rw [jac2Body_eq r2 q4 t2 q5 (List.mem_range.1 hi)]
  simp only [r3, t3, q8, q9]

/-- The 3D analogue of `jacobian2_eq`. -/
theorem jacobian3_eq {seed pos : NDArray K} {N : ℕ} {p : Particles K}
    (hs : seed.shape = [6 * N, 3]) (hp : pos.shape = [6 * N, 3]) (h : mkParticles seed = .ok p) :
    jacobian3 { p with positions := pos } =
      pyMap (fun i => jac3Val
        (fun c => pos.get [N + i, c] - pos.get [i, c])
        (fun c => seed.get [N + i, c] - seed.get [i, c])
        (fun c => pos.get [2 * N + i, c] - pos.get [3 * N + i, c])
        (fun c => seed.get [2 * N + i, c] - seed.get [3 * N + i, c])
        (fun c => pos.get [4 * N + i, c] - pos.get [5 * N + i, c])
        (fun c => seed.get [4 * N + i, c] - seed.get [5 * N + i, c])) (List.range N) := by
  obtain ⟨p', q1, q2, q3, q4, q5, q6, -, q8, q9, q10, -⟩ := mkParticles_3d hs
  rw [h] at q1; cases q1
  obtain ⟨rl, r1, r2, r3⟩ := deltaRL_eq (k := 6) (by omega) hp
  obtain ⟨tb, t1, t2, t3⟩ := deltaTB_eq (k := 6) (by omega) hp
  obtain ⟨fb, f1, f2, f3⟩ := deltaFB_eq (k := 4) hp
  unfold jacobian3 Particles.deltaRL Particles.deltaTB Particles.deltaFB
  simp only [q3, r1, t1, f1, hp, List.headD_cons, Nat.mul_div_cancel_left N (by omega : 0 < 6)]
  apply pyMap_congr
  intro i hi
  rw [jac3Body_eq r2 q4 t2 q5 f2 q6 (List.mem_range.1 hi)]
  simp only [r3, t3, f3, q8, q9, q10]

end Verif
