import Verif.Model.Examples
import Verif.Lemmas.Index
import Verif.Lemmas.Particles
import Verif.Spec.Groups

/-!
# The arrays of the example notebooks
-/

namespace Verif

variable {K : Type}

/-- Blocks stacked along a second axis and reshaped in Fortran order: row `b * N + i` is row `i` of
block `b`. -/
theorem stack1_reshapeRowsF {α : Type*} {N d : ℕ} (hd : 0 < d) (a : NDArray α)
    (rest : List (NDArray α)) (ha : a.shape = [N, d]) (h : ∀ b ∈ rest, b.shape = [N, d]) :
    ∃ A B, NDArray.stack1 a rest = .ok A ∧ A.reshapeRowsF d = .ok B ∧
      B.shape = [(rest.length + 1) * N, d] ∧
      ∀ b < rest.length + 1, ∀ i < N, ∀ c < d,
        B.get [b * N + i, c] = ((a :: rest).getD b a).get [i, c] := by
  obtain ⟨A, h1, h2, h3⟩ : ∃ A, NDArray.stack1 a rest = .ok A ∧ A.shape = [N, rest.length + 1, d] ∧
      ∀ i b c, A.get [i, b, c] = ((a :: rest).getD b a).get [i, c] := by
    unfold NDArray.stack1
    rw [ha]
    simp only [if_pos h]
    exact ⟨_, rfl, rfl, fun _ _ _ => rfl⟩
  set m := rest.length + 1
  have hs : A.size = m * N * d := by
    rw [NDArray.size, h2]
    simp only [List.prod_cons, List.prod_nil]
    ring
  have h4 : A.reshapeRowsF d =
      .ok ⟨[m * N, d], fun idx => A.get (decF A.shape (encF [m * N, d] idx))⟩ := by
    unfold NDArray.reshapeRowsF
    rw [hs, Nat.mul_mod_left, Nat.mul_div_cancel _ hd, if_neg (by simp [hd.ne'])]
    unfold NDArray.reshapeF
    rw [if_pos (by rw [h2]; simp only [List.prod_cons, List.prod_nil]; ring)]
  refine ⟨A, _, h1, h4, rfl, fun b hb i hi c hc => ?_⟩
  have e3 : encF [m * N, d] [b * N + i, c] = encF [N, m, d] [i, b, c] := by
    simp only [encF]
    ring
  simp only [h2, e3]
  rw [decF_encF (by simp [hi, hb, hc]), h3]

/-- Entry `i` of a 1-D array. -/
def at1 {α : Type*} (a : NDArray α) (i : ℕ) : α := a.get [i]

/-- Position `j * nx + i` of the flattened coordinates is the point `(x_i, y_j)`. -/
theorem meshgrid_ravel {α : Type*} {x y : NDArray α} {nx ny : ℕ} (hx : x.shape = [nx])
    (hy : y.shape = [ny]) :
    (NDArray.meshgrid x y).1.shape = [ny, nx] ∧ (NDArray.meshgrid x y).2.shape = [ny, nx] ∧
    (NDArray.meshgrid x y).1.ravelC.shape = [ny * nx] ∧
    (NDArray.meshgrid x y).2.ravelC.shape = [ny * nx] ∧
    ∀ j < ny, ∀ i < nx, (NDArray.meshgrid x y).1.ravelC.get [j * nx + i] = at1 x i ∧
      (NDArray.meshgrid x y).2.ravelC.get [j * nx + i] = at1 y j := by
  have sx : x.size = nx := by simp [NDArray.size, hx]
  have sy : y.size = ny := by simp [NDArray.size, hy]
  have s1 : (NDArray.meshgrid x y).1.shape = [ny, nx] := by simp [NDArray.meshgrid, sx, sy]
  have s2 : (NDArray.meshgrid x y).2.shape = [ny, nx] := by simp [NDArray.meshgrid, sx, sy]
  refine ⟨s1, s2, ?_, ?_, ?_⟩
  · simp [NDArray.ravelC, NDArray.ofFn1, NDArray.size, s1]
  · simp [NDArray.ravelC, NDArray.ofFn1, NDArray.size, s2]
  · intro j hj i hi
    have e : decC [ny, nx] (j * nx + i) = [j, i] := by
      have : encC [ny, nx] [j, i] = j * nx + i := by simp [encC]
      rw [← this, decC_encC]
      simp [hi, hj]
    simp only [NDArray.ravelC, NDArray.ofFn1, s1, s2, List.headD_cons, e]
    exact ⟨rfl, rfl⟩

theorem meshgridIJ_shape {α : Type*} {x y z : NDArray α} {nx ny nz : ℕ} (hx : x.shape = [nx])
    (hy : y.shape = [ny]) (hz : z.shape = [nz]) :
    (NDArray.meshgridIJ x y z).1 = ⟨[nx, ny, nz], fun idx => x.get [idx.getD 0 0]⟩ ∧
    (NDArray.meshgridIJ x y z).2.1 = ⟨[nx, ny, nz], fun idx => y.get [idx.getD 1 0]⟩ ∧
    (NDArray.meshgridIJ x y z).2.2 = ⟨[nx, ny, nz], fun idx => z.get [idx.getD 2 0]⟩ := by
  have sx : x.size = nx := by simp [NDArray.size, hx]
  have sy : y.size = ny := by simp [NDArray.size, hy]
  have sz : z.size = nz := by simp [NDArray.size, hz]
  simp only [NDArray.meshgridIJ, sx, sy, sz, and_self]

theorem decC_three {nx ny nz i j k : ℕ} (hi : i < nx) (hj : j < ny) (hk : k < nz) :
    decC [nx, ny, nz] ((i * ny + j) * nz + k) = [i, j, k] := by
  have : encC [nx, ny, nz] [i, j, k] = (i * ny + j) * nz + k := by simp [encC]; ring
  rw [← this, decC_encC]
  simp [hi, hj, hk]

theorem decF_three {nx ny nz i j k : ℕ} (hi : i < nx) (hj : j < ny) (hk : k < nz) :
    decF [nx, ny, nz] (i + nx * (j + ny * k)) = [i, j, k] := by
  have : encF [nx, ny, nz] [i, j, k] = i + nx * (j + ny * k) := by simp [encF]
  rw [← this, decF_encF]
  simp [hi, hj, hk]

theorem columnStack_two {α : Type*} {a b : NDArray α} {n : ℕ} (ha : a.shape = [n])
    (hb : b.shape = [n]) : ∃ A, NDArray.columnStack a [b] = .ok A ∧ A.shape = [n, 2] ∧
      ∀ r, A.get [r, 0] = a.get [r] ∧ A.get [r, 1] = b.get [r] := by
  unfold NDArray.columnStack
  rw [ha]
  simp only [List.mem_singleton, forall_eq, hb, if_true]
  exact ⟨_, rfl, rfl, fun r => ⟨rfl, rfl⟩⟩

theorem columnStack_three {α : Type*} {a b c : NDArray α} {n : ℕ} (ha : a.shape = [n])
    (hb : b.shape = [n]) (hc : c.shape = [n]) :
    ∃ A, NDArray.columnStack a [b, c] = .ok A ∧ A.shape = [n, 3] ∧
      ∀ r, A.get [r, 0] = a.get [r] ∧ A.get [r, 1] = b.get [r] ∧ A.get [r, 2] = c.get [r] := by
  have : ∀ e ∈ [b, c], e.shape = [n] := by simp [hb, hc]
  unfold NDArray.columnStack
  rw [ha]
  simp only [if_pos this]
  exact ⟨_, rfl, rfl, fun r => ⟨rfl, rfl, rfl⟩⟩

theorem withRow_two {α β : Type*} (f : α → β → α) {a : NDArray α} {n : ℕ} (ha : a.shape = [n, 2])
    (u v : β) : ∃ A, a.withRow f [u, v] = .ok A ∧ A.shape = [n, 2] ∧
      ∀ r, A.get [r, 0] = f (a.get [r, 0]) u ∧ A.get [r, 1] = f (a.get [r, 1]) v := by
  unfold NDArray.withRow
  rw [ha]
  simp only [List.length_cons, List.length_nil, dite_true]
  exact ⟨_, rfl, rfl, fun r => ⟨rfl, rfl⟩⟩

end Verif
