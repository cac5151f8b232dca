import Verif.Model.GridInterp
import Verif.Lemmas.Index
import Verif.Spec.Interp
import Mathlib.Algebra.Order.Field.Basic
import Mathlib.Tactic.LinearCombination

/-!
# Evaluation lemmas for the structured-grid kernels
-/

set_option linter.unusedSectionVars false

namespace Verif

variable {K : Type}

theorem bind_ok {α β : Type} (a : α) (f : α → Py β) :
    (Except.ok a : Py α).bind f = f a := rfl

theorem wrap32_id {z : ℤ} (h : InInt32 z) : wrap32 z = z := by
  unfold InInt32 at h
  unfold wrap32
  rw [Int.emod_eq_of_lt] <;> omega

theorem wrap32_nat {n : ℕ} (h : (n : ℤ) < intLim) : wrap32 n = n :=
  wrap32_id ⟨by omega, h⟩

/-- The coordinate `p` is converted to `f` and `f + 1` without overflow, and a
non-negative `f` is the floor of a finite `p`. -/
structure Conv (m : CMachine K) (floor : K → ℤ) (p : Option K) (f : ℤ) : Prop where
  cast : m.castFloor p = .ok f
  succ : m.add f 1 = .ok (f + 1)
  fin : 0 ≤ f → ∃ q, p = some q ∧ floor q = f

theorem conv_iso {floor : K → ℤ} {ofInt : ℤ → K} {q : K} (h0 : -intLim ≤ floor q)
    (h1 : floor q < intLim - 1) : Conv (isoCpp floor ofInt) floor (some q) (floor q) := by
  refine ⟨?_, ?_, fun _ => ⟨q, rfl, rfl⟩⟩
  · have h : InInt32 (floor q) := ⟨h0, by omega⟩
    simp [isoCpp, h]
  · have h : InInt32 (floor q + 1) := ⟨by omega, by omega⟩
    simp [isoCpp, h]

/-- The integer an x86 conversion delivers. -/
def x86Floor (floor : K → ℤ) : Option K → ℤ
  | none => -intLim
  | some q => if InInt32 (floor q) then floor q else -intLim

theorem conv_x86 {floor : K → ℤ} {ofInt : ℤ → K} {p : Option K}
    (h : ∀ q, p = some q → floor q ≠ intLim - 1) :
    Conv (x86 floor ofInt) floor p (x86Floor floor p) := by
  have hr : InInt32 (x86Floor floor p + 1) := by
    cases p with
    | none => exact ⟨by simp [x86Floor], by simp [x86Floor]⟩
    | some q =>
      have h1 := h q rfl
      unfold x86Floor
      simp only
      split
      · rename_i hq
        unfold InInt32 at hq ⊢
        omega
      · exact ⟨by omega, by omega⟩
  refine ⟨?_, ?_, ?_⟩
  · cases p with
    | none => rfl
    | some q => simp only [x86, x86Floor]; split <;> rfl
  · simp only [x86, wrap32_id hr]
  · intro h0
    cases p with
    | none => simp [x86Floor] at h0
    | some q =>
      refine ⟨q, rfl, ?_⟩
      unfold x86Floor at h0 ⊢
      simp only at h0 ⊢
      split at h0
      · rename_i hq; simp [hq]
      · omega

theorem flatRead_2d {v : NDArray K} {nx ny i j : ℕ} (hs : v.shape = [nx, ny]) (hi : i < nx)
    (hj : j < ny) : flatRead v ((i : ℤ) * ny + j) = .ok (v.get [i, j]) := by
  have hv : ValidIdx [nx, ny] [i, j] := by simp [hi, hj]
  have hlt := encC_lt hv
  have he : ((i : ℤ) * ny + j) = ((encC [nx, ny] [i, j] : ℕ) : ℤ) := by simp [encC]
  rw [he]
  unfold flatRead
  rw [hs, if_pos ⟨by omega, by exact_mod_cast hlt⟩]
  simp only [Int.toNat_natCast]
  rw [decC_encC hv]

theorem flatRead_3d {v : NDArray K} {X Y Z i j k : ℕ} (hs : v.shape = [X, Y, Z]) (hi : i < X)
    (hj : j < Y) (hk : k < Z) :
    flatRead v ((i : ℤ) * ((Y : ℤ) * Z) + j * Z + k) = .ok (v.get [i, j, k]) := by
  have hv : ValidIdx [X, Y, Z] [i, j, k] := by simp [hi, hj, hk]
  have hlt := encC_lt hv
  have he : ((i : ℤ) * ((Y : ℤ) * Z) + j * Z + k) = ((encC [X, Y, Z] [i, j, k] : ℕ) : ℤ) := by
    simp [encC]; ring
  rw [he]
  unfold flatRead
  rw [hs, if_pos ⟨by omega, by exact_mod_cast hlt⟩]
  simp only [Int.toNat_natCast]
  rw [decC_encC hv]

section
variable [Zero K] [One K] [Add K] [Sub K] [Mul K]

/-- The bilinear combination evaluated by the 2-D kernel. -/
def bilin (v00 v10 v01 v11 xd yd : K) : K :=
  v00 * (1 - xd) * (1 - yd) + v10 * xd * (1 - yd) + v01 * (1 - xd) * yd + v11 * xd * yd

/-- The trilinear combination evaluated by the 3-D kernel. -/
def trilin (w : ℕ → ℕ → ℕ → K) (xd yd zd : K) : K :=
  ((w 0 0 0 * (1 - xd) + w 1 0 0 * xd) * (1 - yd) + (w 0 1 0 * (1 - xd) + w 1 1 0 * xd) * yd)
      * (1 - zd)
    + ((w 0 0 1 * (1 - xd) + w 1 0 1 * xd) * (1 - yd)
      + (w 0 1 1 * (1 - xd) + w 1 1 1 * xd) * yd) * zd

theorem interp2dAt_in {m : CMachine K} {floor : K → ℤ} {v : NDArray K} {nx ny i j : ℕ}
    {px py : K} (hs : v.shape = [nx, ny]) (hnx : (nx : ℤ) < intLim) (hny : (ny : ℤ) < intLim)
    (hx : Conv m floor (some px) i) (hy : Conv m floor (some py) j)
    (hi : i + 1 < nx) (hj : j + 1 < ny) :
    interp2dAt m v nx ny (some px) (some py) =
      .ok (bilin (v.get [i, j]) (v.get [i + 1, j]) (v.get [i, j + 1]) (v.get [i + 1, j + 1])
        (px - m.ofInt i) (py - m.ofInt j)) := by
  have r00 := flatRead_2d hs (i := i) (j := j) (by omega) (by omega)
  have r10 := flatRead_2d hs (i := i + 1) (j := j) (by omega) (by omega)
  have r01 := flatRead_2d hs (i := i) (j := j + 1) (by omega) (by omega)
  have r11 := flatRead_2d hs (i := i + 1) (j := j + 1) (by omega) (by omega)
  have hc : (0 : ℤ) ≤ i ∧ (i : ℤ) + 1 < nx ∧ (0 : ℤ) ≤ j ∧ (j : ℤ) + 1 < ny := by omega
  push_cast at r10 r01 r11
  unfold interp2dAt
  dsimp only [bind]
  rw [hx.cast, hy.cast, bind_ok, bind_ok, hx.succ, hy.succ, bind_ok, bind_ok, wrap32_nat hnx,
    wrap32_nat hny, if_pos hc, r00, r10, r01, r11]
  rfl

theorem interp2dAt_out {m : CMachine K} {floor : K → ℤ} {v : NDArray K} {nx ny : ℕ}
    {f g : ℤ} {px py : Option K} (hnx : (nx : ℤ) < intLim) (hny : (ny : ℤ) < intLim)
    (hx : Conv m floor px f) (hy : Conv m floor py g)
    (h : ¬ (0 ≤ f ∧ f + 1 < nx ∧ 0 ≤ g ∧ g + 1 < ny)) :
    interp2dAt m v nx ny px py = .ok 0 := by
  unfold interp2dAt
  dsimp only [bind]
  rw [hx.cast, hy.cast, bind_ok, bind_ok, hx.succ, hy.succ, bind_ok, bind_ok, wrap32_nat hnx,
    wrap32_nat hny, if_neg h]

theorem interp3dAt_in {m : CMachine K} {floor : K → ℤ} {v : NDArray K} {X Y Z i j k : ℕ}
    {px py pz : K} (hs : v.shape = [X, Y, Z]) (hX : (X : ℤ) < intLim) (hY : (Y : ℤ) < intLim)
    (hZ : (Z : ℤ) < intLim) (hYZ : m.mul Y Z = .ok ((Y : ℤ) * Z))
    (hx : Conv m floor (some px) i) (hy : Conv m floor (some py) j)
    (hz : Conv m floor (some pz) k) (hi : i + 1 < X) (hj : j + 1 < Y) (hk : k + 1 < Z) :
    interp3dAt m v X Y Z (some px) (some py) (some pz) =
      .ok (trilin (fun a b c => v.get [i + a, j + b, k + c])
        (px - m.ofInt i) (py - m.ofInt j) (pz - m.ofInt k)) := by
  have r : ∀ a b c : ℕ, a ≤ 1 → b ≤ 1 → c ≤ 1 →
      flatRead v (((i + a : ℕ) : ℤ) * ((Y : ℤ) * Z) + ((j + b : ℕ) : ℤ) * Z + ((k + c : ℕ) : ℤ))
        = .ok (v.get [i + a, j + b, k + c]) := fun a b c ha hb hc =>
    flatRead_3d hs (i := i + a) (j := j + b) (k := k + c) (by omega) (by omega) (by omega)
  have r000 := r 0 0 0 (by omega) (by omega) (by omega)
  have r100 := r 1 0 0 (by omega) (by omega) (by omega)
  have r010 := r 0 1 0 (by omega) (by omega) (by omega)
  have r110 := r 1 1 0 (by omega) (by omega) (by omega)
  have r001 := r 0 0 1 (by omega) (by omega) (by omega)
  have r101 := r 1 0 1 (by omega) (by omega) (by omega)
  have r011 := r 0 1 1 (by omega) (by omega) (by omega)
  have r111 := r 1 1 1 (by omega) (by omega) (by omega)
  have hc : (0 : ℤ) ≤ i ∧ (i : ℤ) + 1 < X ∧ (0 : ℤ) ≤ j ∧ (j : ℤ) + 1 < Y ∧ (0 : ℤ) ≤ k
    ∧ (k : ℤ) + 1 < Z := by omega
  push_cast at r000 r100 r010 r110 r001 r101 r011 r111
  simp only [add_zero] at r000 r100 r010 r110 r001 r101 r011 r111
  unfold interp3dAt
  dsimp only [bind]
  rw [wrap32_nat hX, wrap32_nat hY, wrap32_nat hZ, hYZ, bind_ok, hx.cast, hy.cast, hz.cast,
    bind_ok, bind_ok, bind_ok, hx.succ, hy.succ, hz.succ, bind_ok, bind_ok, bind_ok, if_pos hc,
    r000, r100, r010, r110, r001, r101, r011, r111]
  rfl

theorem interp3dAt_out {m : CMachine K} {floor : K → ℤ} {v : NDArray K} {X Y Z : ℕ}
    {f g h : ℤ} {px py pz : Option K} (hX : (X : ℤ) < intLim) (hY : (Y : ℤ) < intLim)
    (hZ : (Z : ℤ) < intLim) (hYZ : m.mul Y Z = .ok ((Y : ℤ) * Z))
    (hx : Conv m floor px f) (hy : Conv m floor py g) (hz : Conv m floor pz h)
    (hc : ¬ (0 ≤ f ∧ f + 1 < X ∧ 0 ≤ g ∧ g + 1 < Y ∧ 0 ≤ h ∧ h + 1 < Z)) :
    interp3dAt m v X Y Z px py pz = .ok 0 := by
  unfold interp3dAt
  dsimp only [bind]
  rw [wrap32_nat hX, wrap32_nat hY, wrap32_nat hZ, hYZ, bind_ok, hx.cast, hy.cast, hz.cast,
    bind_ok, bind_ok, bind_ok, hx.succ, hy.succ, hz.succ, bind_ok, bind_ok, bind_ok, if_neg hc]

end

theorem mul_iso {floor : K → ℤ} {ofInt : ℤ → K} {Y Z : ℕ} (h : (Y : ℤ) * Z < intLim) :
    (isoCpp floor ofInt).mul Y Z = .ok ((Y : ℤ) * Z) := by
  have h0 : (0 : ℤ) ≤ (Y : ℤ) * Z := by positivity
  have : InInt32 ((Y : ℤ) * Z) := ⟨by omega, h⟩
  simp [isoCpp, this]

theorem mul_x86 {floor : K → ℤ} {ofInt : ℤ → K} {Y Z : ℕ} (h : (Y : ℤ) * Z < intLim) :
    (x86 floor ofInt).mul Y Z = .ok ((Y : ℤ) * Z) := by
  have h0 : (0 : ℤ) ≤ (Y : ℤ) * Z := by positivity
  have : InInt32 ((Y : ℤ) * Z) := ⟨by omega, h⟩
  simp [x86, wrap32_id this]

/-- The two target machines: the C++ standard and x86-64. -/
def Target {K : Type} (floor : K → ℤ) (ofInt : ℤ → K) (m : CMachine K) : Prop :=
  m = isoCpp floor ofInt ∨ m = x86 floor ofInt

section exact
variable {K : Type} [Field K] [LinearOrder K] [IsStrictOrderedRing K] [FloorRing K]

/-- Exact arithmetic on one of the two machines. -/
abbrev ExactTarget (m : CMachine K) : Prop := Target (fun q : K => ⌊q⌋) (fun z : ℤ => (z : K)) m

theorem inCells_floor {n : ℕ} {q : K} (h : InCells n q) :
    ∃ i : ℕ, ⌊q⌋ = i ∧ i + 1 < n ∧ (i : K) ≤ q ∧ q < i + 1 := by
  obtain ⟨h0, h1⟩ := h
  have hf : 0 ≤ ⌊q⌋ := Int.floor_nonneg.2 h0
  obtain ⟨i, hi⟩ := Int.eq_ofNat_of_zero_le hf
  have hle : ((⌊q⌋ : ℤ) : K) ≤ q := Int.floor_le q
  have hlt : q < ((⌊q⌋ : ℤ) : K) + 1 := Int.lt_floor_add_one q
  rw [hi] at hle hlt
  push_cast at hle hlt
  refine ⟨i, hi, ?_, hle, hlt⟩
  have : ((i + 1 : ℕ) : K) < n := by push_cast; linarith
  exact_mod_cast this

theorem exact_conv {m : CMachine K} (hm : ExactTarget m) {n : ℕ} (hn : (n : ℤ) < intLim) {q : K}
    {i : ℕ} (hi : ⌊q⌋ = (i : ℤ)) (hin : i + 1 < n) : Conv m (fun q : K => ⌊q⌋) (some q) i := by
  rcases hm with rfl | rfl
  · have := conv_iso (floor := fun q : K => ⌊q⌋) (ofInt := fun z : ℤ => (z : K)) (q := q)
      (by simp only [hi]; omega) (by simp only [hi]; omega)
    simpa only [hi] using this
  · have := conv_x86 (floor := fun q : K => ⌊q⌋) (ofInt := fun z : ℤ => (z : K)) (p := some q)
      (by intro q' hq; cases hq; simp only [hi]; omega)
    have hf : x86Floor (fun q : K => ⌊q⌋) (some q) = i := by
      have hr : InInt32 (i : ℤ) := ⟨by omega, by omega⟩
      simp only [x86Floor, hi, hr, if_true]
    rwa [hf] at this

theorem exact_ofInt {m : CMachine K} (hm : ExactTarget m) (z : ℤ) : m.ofInt z = (z : K) := by
  rcases hm with rfl | rfl <;> rfl

theorem exact_mul {m : CMachine K} (hm : ExactTarget m) {Y Z : ℕ} (h : (Y : ℤ) * Z < intLim) :
    m.mul Y Z = .ok ((Y : ℤ) * Z) := by
  rcases hm with rfl | rfl
  · exact mul_iso h
  · exact mul_x86 h

end exact

end Verif
