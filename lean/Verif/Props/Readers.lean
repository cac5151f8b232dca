import Verif.Model.FileReaders
import Verif.Lemmas.Index

/-!
# C64: velocity and coordinate files
-/

namespace Verif

variable {K : Type}

/-- The components of a vector quantity stored under the names `kx`, `ky` and, if present,
`kz`. -/
inductive Components (data : MatFile K) (kx ky kz : String) : List (NDArray K) → Prop
  | two {x y} : data kx = some x → data ky = some y → data kz = none →
      Components data kx ky kz [x, y]
  | three {x y z} : data kx = some x → data ky = some y → data kz = some z →
      Components data kx ky kz [x, y, z]

/-- The table of the components: row `c` lists the entries of component `c` in row-major order. -/
def TableOf (comps : List (NDArray K)) (v : NDArray K) : Prop :=
  ∃ N, v.shape = [comps.length, N] ∧ (∀ a ∈ comps, a.size = N) ∧
    ∀ c a, comps[c]? = some a → ∀ idx, ValidIdx a.shape idx →
      v.get [c, encC a.shape idx] = a.get idx

theorem ravelC_shape (a : NDArray K) : a.ravelC.shape = [a.size] := rfl

theorem ravelC_get (a : NDArray K) {idx : List ℕ} (h : ValidIdx a.shape idx) :
    a.ravelC.get [encC a.shape idx] = a.get idx := by
  simp [NDArray.ravelC, NDArray.ofFn1, decC_encC h]

theorem readComponents_iff (data : MatFile K) (kx ky kz : String) :
    (∀ v, readComponents data kx ky kz = .ok v →
      ∃ comps, Components data kx ky kz comps ∧ TableOf comps v) ∧
    (∀ comps N, Components data kx ky kz comps → (∀ a ∈ comps, a.size = N) →
      ∃ v, readComponents data kx ky kz = .ok v) ∧
    (∀ e, readComponents data kx ky kz = .error e → e = .valueError) := by
  refine ⟨?_, ?_, ?_⟩
  · intro v h
    unfold readComponents at h
    cases hx : data kx with
    | none => rw [hx] at h; simp at h
    | some x =>
      cases hy : data ky with
      | none => rw [hx, hy] at h; simp at h
      | some y =>
        rw [hx, hy] at h
        cases hz : data kz with
        | none =>
          rw [hz] at h
          simp only [NDArray.stack] at h
          split at h
          · rename_i hs
            simp only [List.mem_singleton, forall_eq, ravelC_shape, List.cons.injEq,
              and_true] at hs
            simp only [Except.ok.injEq] at h
            subst h
            refine ⟨_, .two hx hy hz, x.size, rfl, by simp [hs], ?_⟩
            intro c a hc idx hi
            match c with
            | 0 => simp at hc; subst hc; simpa using ravelC_get x hi
            | 1 => simp at hc; subst hc; simpa using ravelC_get y hi
            | c + 2 => simp at hc
          · simp at h
        | some z =>
          rw [hz] at h
          simp only [NDArray.stack] at h
          split at h
          · rename_i hs
            simp only [List.mem_cons, List.not_mem_nil, or_false, forall_eq_or_imp, forall_eq,
              ravelC_shape, List.cons.injEq, and_true] at hs
            simp only [Except.ok.injEq] at h
            subst h
            refine ⟨_, .three hx hy hz, x.size, rfl, by simp [hs], ?_⟩
            intro c a hc idx hi
            match c with
            | 0 => simp at hc; subst hc; simpa using ravelC_get x hi
            | 1 => simp at hc; subst hc; simpa using ravelC_get y hi
            | 2 => simp at hc; subst hc; simpa using ravelC_get z hi
            | c + 3 => simp at hc
          · simp at h
  · intro comps N h hN
    cases h with
    | two hx hy hz =>
      simp at hN
      exact ⟨_, by simp [readComponents, hx, hy, hz, NDArray.stack, ravelC_shape, hN]; rfl⟩
    | three hx hy hz =>
      simp at hN
      exact ⟨_, by simp [readComponents, hx, hy, hz, NDArray.stack, ravelC_shape, hN]; rfl⟩
  · intro e h
    unfold readComponents at h
    split at h
    · split at h <;>
      · simp only [NDArray.stack] at h
        split at h
        · simp at h
        · simpa [eq_comm] using h
    · simpa [eq_comm] using h

/-- The two readers and the names they look for. -/
inductive FieldReader (fs : MatFS K) : (String → Py (NDArray K)) → String → String → String → Prop
  | velocity : FieldReader fs (readVelocity fs) "velocity_x" "velocity_y" "velocity_z"
  | coordinate : FieldReader fs (readCoordinate fs) "coordinate_x" "coordinate_y" "coordinate_z"

theorem FieldReader.eq {fs : MatFS K} {reader : String → Py (NDArray K)} {kx ky kz : String}
    (hr : FieldReader fs reader kx ky kz) (path : String) {data : MatFile K}
    (hd : fs path = some data) : reader path = readComponents data kx ky kz := by
  cases hr <;> simp [readVelocity, readCoordinate, loadmat, hd]

/-- **C64** (acceptance).  An existing file is accepted exactly when it holds the components
(x and y, and z if present), all with the same number of entries. -/
theorem C64_accepts {fs : MatFS K} {reader : String → Py (NDArray K)} {kx ky kz : String}
    (hr : FieldReader fs reader kx ky kz) (path : String) (data : MatFile K)
    (hd : fs path = some data) :
    (∃ v, reader path = .ok v) ↔
      ∃ comps N, Components data kx ky kz comps ∧ ∀ a ∈ comps, a.size = N := by
  rw [hr.eq path hd]
  obtain ⟨h1, h2, -⟩ := readComponents_iff data kx ky kz
  constructor
  · rintro ⟨v, hv⟩
    obtain ⟨comps, hc, N, -, hN, -⟩ := h1 v hv
    exact ⟨comps, N, hc, hN⟩
  · rintro ⟨comps, N, hc, hN⟩
    exact h2 comps N hc hN

/-- **C64** (content).  The result has one row per component, in the order x, y, z, and row `c`
lists the entries of component `c` in row-major order. -/
theorem C64_content {fs : MatFS K} {reader : String → Py (NDArray K)} {kx ky kz : String}
    (hr : FieldReader fs reader kx ky kz) (path : String) (data : MatFile K)
    (hd : fs path = some data) (v : NDArray K) (hv : reader path = .ok v)
    (comps : List (NDArray K)) (hc : Components data kx ky kz comps) : TableOf comps v := by
  rw [hr.eq path hd] at hv
  obtain ⟨comps', hc', ht⟩ := (readComponents_iff data kx ky kz).1 v hv
  have : comps = comps' := by
    cases hc <;> cases hc' <;> simp_all
  rwa [this]

/-- **C64** (rejection).  Every other existing file raises `ValueError`, a missing file
`FileNotFoundError`. -/
theorem C64_rejects {fs : MatFS K} {reader : String → Py (NDArray K)} {kx ky kz : String}
    (hr : FieldReader fs reader kx ky kz) (path : String) :
    (∀ data e, fs path = some data → reader path = .error e → e = .valueError) ∧
    (fs path = none → reader path = .error .fileNotFoundError) := by
  constructor
  · intro data e hd h
    rw [hr.eq path hd] at h
    exact (readComponents_iff data kx ky kz).2.2 e h
  · intro hd
    cases hr <;> simp [readVelocity, readCoordinate, loadmat, hd]

/-- The row-major order is unchanged by the shape of the stored arrays: arrays with the same
row-major listing give the same table. -/
example : ∃ v, readVelocity (K := ℤ) (fun p => if p = "f" then some (fun k =>
      if k = "velocity_x" then some ⟨[2, 3], fun idx => encC [2, 3] idx⟩
      else if k = "velocity_y" then some ⟨[6], fun idx => encC [6] idx⟩ else none) else none)
      "f" = .ok v ∧ v.shape = [2, 6] ∧ v.get [0, 5] = 5 ∧ v.get [1, 4] = 4 := by
  refine ⟨_, rfl, rfl, ?_, ?_⟩ <;> decide

example : ∃ comps N, Components (K := ℤ) (fun k =>
      if k = "velocity_x" then some ⟨[2, 3], fun idx => encC [2, 3] idx⟩
      else if k = "velocity_y" then some ⟨[6], fun idx => encC [6] idx⟩ else none)
      "velocity_x" "velocity_y" "velocity_z" comps ∧ ∀ a ∈ comps, a.size = N :=
  ⟨_, 6, .two rfl rfl rfl, by simp [NDArray.size]⟩

end Verif
