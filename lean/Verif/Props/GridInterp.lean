import Verif.Lemmas.Jacobian
import Verif.Lemmas.GridInterp
import Mathlib.Algebra.Order.Field.Basic
import Mathlib.Tactic.NormNum
import Mathlib.Tactic.Positivity

/-!
# Structured-grid kernels: C24, C25, C26, C27

Exact-arithmetic statements are over an ordered field with a floor function; the statements
about memory safety and about the value 0 outside the grid hold for every scalar type and
every floor function, hence for binary64.
-/

set_option linter.unusedSectionVars false

namespace Verif

section exact
variable {K : Type} [Field K] [LinearOrder K] [IsStrictOrderedRing K] [FloorRing K]

/-! ## C24 -/

/-- **C24 (2-D).**  On either machine, for a field whose nodal values are those of a bilinear
function of the node indices, the kernel returns the exact value of that function at every
query in `[0, nx-1) × [0, ny-1)`. -/
theorem C24_bilinear_exact {m : CMachine K} (hm : ExactTarget m) (nx ny : ℕ)
    (hnx : (nx : ℤ) < intLim) (hny : (ny : ℤ) < intLim) (v : NDArray K)
    (hs : v.shape = [nx, ny]) (a b c d : K)
    (hv : ∀ i j : ℕ, i < nx → j < ny → v.get [i, j] = a + b * i + c * j + d * i * j)
    (px py : K) (hx : InCells nx px) (hy : InCells ny py) :
    interp2dAt m v nx ny (some px) (some py) = .ok (a + b * px + c * py + d * px * py) := by
  obtain ⟨i, hi, hi1, -, -⟩ := inCells_floor hx
  obtain ⟨j, hj, hj1, -, -⟩ := inCells_floor hy
  rw [interp2dAt_in hs hnx hny (exact_conv hm hnx hi hi1) (exact_conv hm hny hj hj1) hi1 hj1]
  rw [hv i j (by omega) (by omega), hv (i + 1) j hi1 (by omega), hv i (j + 1) (by omega) hj1,
    hv (i + 1) (j + 1) hi1 hj1, exact_ofInt hm, exact_ofInt hm]
  congr 1
  unfold bilin
  push_cast
  ring

/-- **C24 (3-D).**  The same for trilinear functions of the node indices. -/
theorem C24_trilinear_exact {m : CMachine K} (hm : ExactTarget m) (X Y Z : ℕ)
    (hX : (X : ℤ) < intLim) (hY : (Y : ℤ) < intLim) (hZ : (Z : ℤ) < intLim)
    (hYZ : (Y : ℤ) * Z < intLim) (v : NDArray K) (hs : v.shape = [X, Y, Z])
    (a b c d e f g h : K)
    (hv : ∀ i j k : ℕ, i < X → j < Y → k < Z → v.get [i, j, k] =
      a + b * i + c * j + d * k + e * i * j + f * j * k + g * i * k + h * i * j * k)
    (px py pz : K) (hx : InCells X px) (hy : InCells Y py) (hz : InCells Z pz) :
    interp3dAt m v X Y Z (some px) (some py) (some pz) =
      .ok (a + b * px + c * py + d * pz + e * px * py + f * py * pz + g * px * pz
        + h * px * py * pz) := by
  obtain ⟨i, hi, hi1, -, -⟩ := inCells_floor hx
  obtain ⟨j, hj, hj1, -, -⟩ := inCells_floor hy
  obtain ⟨k, hk, hk1, -, -⟩ := inCells_floor hz
  rw [interp3dAt_in hs hX hY hZ (exact_mul hm hYZ) (exact_conv hm hX hi hi1)
    (exact_conv hm hY hj hj1) (exact_conv hm hZ hk hk1) hi1 hj1 hk1]
  rw [exact_ofInt hm, exact_ofInt hm, exact_ofInt hm]
  congr 1
  unfold trilin
  simp only [hv (i + 0) (j + 0) (k + 0) (by omega) (by omega) (by omega),
    hv (i + 1) (j + 0) (k + 0) (by omega) (by omega) (by omega),
    hv (i + 0) (j + 1) (k + 0) (by omega) (by omega) (by omega),
    hv (i + 1) (j + 1) (k + 0) (by omega) (by omega) (by omega),
    hv (i + 0) (j + 0) (k + 1) (by omega) (by omega) (by omega),
    hv (i + 1) (j + 0) (k + 1) (by omega) (by omega) (by omega),
    hv (i + 0) (j + 1) (k + 1) (by omega) (by omega) (by omega),
    hv (i + 1) (j + 1) (k + 1) (by omega) (by omega) (by omega)]
  push_cast
  ring

/-- Nodal values are returned at nodes: at every node that is not on a last grid line the
2-D kernel returns the stored value, for an arbitrary field. -/
theorem C24_node_2d {m : CMachine K} (hm : ExactTarget m) (nx ny : ℕ)
    (hnx : (nx : ℤ) < intLim) (hny : (ny : ℤ) < intLim) (v : NDArray K)
    (hs : v.shape = [nx, ny]) (i j : ℕ) (hi : i + 1 < nx) (hj : j + 1 < ny) :
    interp2dAt m v nx ny (some (i : K)) (some (j : K)) = .ok (v.get [i, j]) := by
  rw [interp2dAt_in hs hnx hny (exact_conv hm hnx (Int.floor_natCast i) hi)
    (exact_conv hm hny (Int.floor_natCast j) hj) hi hj, exact_ofInt hm, exact_ofInt hm]
  congr 1
  unfold bilin
  push_cast
  ring

/-- The same for the 3-D kernel. -/
theorem C24_node_3d {m : CMachine K} (hm : ExactTarget m) (X Y Z : ℕ)
    (hX : (X : ℤ) < intLim) (hY : (Y : ℤ) < intLim) (hZ : (Z : ℤ) < intLim)
    (hYZ : (Y : ℤ) * Z < intLim) (v : NDArray K) (hs : v.shape = [X, Y, Z]) (i j k : ℕ)
    (hi : i + 1 < X) (hj : j + 1 < Y) (hk : k + 1 < Z) :
    interp3dAt m v X Y Z (some (i : K)) (some (j : K)) (some (k : K)) = .ok (v.get [i, j, k]) := by
  rw [interp3dAt_in hs hX hY hZ (exact_mul hm hYZ) (exact_conv hm hX (Int.floor_natCast i) hi)
    (exact_conv hm hY (Int.floor_natCast j) hj) (exact_conv hm hZ (Int.floor_natCast k) hk)
    hi hj hk, exact_ofInt hm, exact_ofInt hm, exact_ofInt hm]
  congr 1
  unfold trilin
  push_cast
  simp only [sub_self, sub_zero, mul_one, mul_zero, add_zero]

/-! ## C25 -/

theorem lerp_mem {lo hi a b t : K} (ha : lo ≤ a ∧ a ≤ hi) (hb : lo ≤ b ∧ b ≤ hi) (h0 : 0 ≤ t)
    (h1 : t ≤ 1) : lo ≤ a * (1 - t) + b * t ∧ a * (1 - t) + b * t ≤ hi := by
  have h1' : 0 ≤ 1 - t := by linarith
  constructor
  · nlinarith [mul_nonneg (sub_nonneg.2 ha.1) h1', mul_nonneg (sub_nonneg.2 hb.1) h0]
  · nlinarith [mul_nonneg (sub_nonneg.2 ha.2) h1', mul_nonneg (sub_nonneg.2 hb.2) h0]

/-- **C25 (2-D, in range).**  The interpolated value lies in every interval that contains
the values at the four surrounding nodes. -/
theorem C25_no_overshoot_2d {m : CMachine K} (hm : ExactTarget m) (nx ny : ℕ)
    (hnx : (nx : ℤ) < intLim) (hny : (ny : ℤ) < intLim) (v : NDArray K)
    (hs : v.shape = [nx, ny]) (px py : K) (hx : InCells nx px) (hy : InCells ny py)
    (lo hi : K)
    (hb : ∀ i j : ℕ, |(i : K) - px| ≤ 1 → |(j : K) - py| ≤ 1 → i < nx → j < ny →
      lo ≤ v.get [i, j] ∧ v.get [i, j] ≤ hi) :
    ∃ r, interp2dAt m v nx ny (some px) (some py) = .ok r ∧ lo ≤ r ∧ r ≤ hi := by
  obtain ⟨i, hi', hi1, hil, hiu⟩ := inCells_floor hx
  obtain ⟨j, hj, hj1, hjl, hju⟩ := inCells_floor hy
  refine ⟨_, interp2dAt_in hs hnx hny (exact_conv hm hnx hi' hi1) (exact_conv hm hny hj hj1)
    hi1 hj1, ?_⟩
  have ax : ∀ a : ℕ, a ≤ 1 → |((i + a : ℕ) : K) - px| ≤ 1 := by
    intro a ha
    have h0 : (0 : K) ≤ (a : K) := Nat.cast_nonneg a
    have h1 : (a : K) ≤ 1 := by exact_mod_cast ha
    rw [abs_le]; push_cast; constructor <;> linarith
  have ay : ∀ a : ℕ, a ≤ 1 → |((j + a : ℕ) : K) - py| ≤ 1 := by
    intro a ha
    have h0 : (0 : K) ≤ (a : K) := Nat.cast_nonneg a
    have h1 : (a : K) ≤ 1 := by exact_mod_cast ha
    rw [abs_le]; push_cast; constructor <;> linarith
  have b00 := hb (i + 0) (j + 0) (ax 0 (by omega)) (ay 0 (by omega)) (by omega) (by omega)
  have b10 := hb (i + 1) (j + 0) (ax 1 (by omega)) (ay 0 (by omega)) (by omega) (by omega)
  have b01 := hb (i + 0) (j + 1) (ax 0 (by omega)) (ay 1 (by omega)) (by omega) (by omega)
  have b11 := hb (i + 1) (j + 1) (ax 1 (by omega)) (ay 1 (by omega)) (by omega) (by omega)
  simp only [Nat.add_zero] at b00 b10 b01
  have e : ∀ p q r s x y : K, bilin p q r s x y =
      (p * (1 - x) + q * x) * (1 - y) + (r * (1 - x) + s * x) * y := by
    intro p q r s x y; unfold bilin; ring
  rw [e, exact_ofInt hm, exact_ofInt hm]
  push_cast
  exact lerp_mem (lerp_mem b00 b10 (by linarith) (by linarith))
    (lerp_mem b01 b11 (by linarith) (by linarith)) (by linarith) (by linarith)

/-- **C25 (3-D, in range).** -/
theorem C25_no_overshoot_3d {m : CMachine K} (hm : ExactTarget m) (X Y Z : ℕ)
    (hX : (X : ℤ) < intLim) (hY : (Y : ℤ) < intLim) (hZ : (Z : ℤ) < intLim)
    (hYZ : (Y : ℤ) * Z < intLim) (v : NDArray K) (hs : v.shape = [X, Y, Z]) (px py pz : K)
    (hx : InCells X px) (hy : InCells Y py) (hz : InCells Z pz) (lo hi : K)
    (hb : ∀ i j k : ℕ, |(i : K) - px| ≤ 1 → |(j : K) - py| ≤ 1 → |(k : K) - pz| ≤ 1 →
      i < X → j < Y → k < Z → lo ≤ v.get [i, j, k] ∧ v.get [i, j, k] ≤ hi) :
    ∃ r, interp3dAt m v X Y Z (some px) (some py) (some pz) = .ok r ∧ lo ≤ r ∧ r ≤ hi := by
  obtain ⟨i, hi', hi1, hil, hiu⟩ := inCells_floor hx
  obtain ⟨j, hj, hj1, hjl, hju⟩ := inCells_floor hy
  obtain ⟨k, hk, hk1, hkl, hku⟩ := inCells_floor hz
  refine ⟨_, interp3dAt_in hs hX hY hZ (exact_mul hm hYZ) (exact_conv hm hX hi' hi1)
    (exact_conv hm hY hj hj1) (exact_conv hm hZ hk hk1) hi1 hj1 hk1, ?_⟩
  have ax : ∀ (n : ℕ) (q : K), (n : K) ≤ q → q < n + 1 → ∀ a : ℕ, a ≤ 1 →
      |((n + a : ℕ) : K) - q| ≤ 1 := by
    intro n q hl hu a ha
    have h0 : (0 : K) ≤ (a : K) := Nat.cast_nonneg a
    have h1 : (a : K) ≤ 1 := by exact_mod_cast ha
    rw [abs_le]; push_cast; constructor <;> linarith
  have b : ∀ a b c : ℕ, a ≤ 1 → b ≤ 1 → c ≤ 1 →
      lo ≤ v.get [i + a, j + b, k + c] ∧ v.get [i + a, j + b, k + c] ≤ hi :=
    fun a b c ha hb' hc => hb _ _ _ (ax i px hil hiu a ha) (ax j py hjl hju b hb')
      (ax k pz hkl hku c hc) (by omega) (by omega) (by omega)
  unfold trilin
  rw [exact_ofInt hm, exact_ofInt hm, exact_ofInt hm]
  push_cast
  have x0 : (0 : K) ≤ px - i := by linarith
  have x1 : px - i ≤ 1 := by linarith
  have y0 : (0 : K) ≤ py - j := by linarith
  have y1 : py - j ≤ 1 := by linarith
  have z0 : (0 : K) ≤ pz - k := by linarith
  have z1 : pz - k ≤ 1 := by linarith
  exact lerp_mem
    (lerp_mem (lerp_mem (b 0 0 0 (by omega) (by omega) (by omega))
        (b 1 0 0 (by omega) (by omega) (by omega)) x0 x1)
      (lerp_mem (b 0 1 0 (by omega) (by omega) (by omega))
        (b 1 1 0 (by omega) (by omega) (by omega)) x0 x1) y0 y1)
    (lerp_mem (lerp_mem (b 0 0 1 (by omega) (by omega) (by omega))
        (b 1 0 1 (by omega) (by omega) (by omega)) x0 x1)
      (lerp_mem (b 0 1 1 (by omega) (by omega) (by omega))
        (b 1 1 1 (by omega) (by omega) (by omega)) x0 x1) y0 y1) z0 z1

end exact

/-! ## The value outside the grid and memory safety, for every scalar type -/

section structural
variable {K : Type} [Zero K] [One K] [Add K] [Sub K] [Mul K]

/-- Queries the machine can convert: on x86 everything except a floor of exactly
`2^31 - 1`; for the C++ standard finite numbers whose floor lies in `[-2^31, 2^31 - 1)`. -/
def Convertible (floor : K → ℤ) (ofInt : ℤ → K) (m : CMachine K) (p : Option K) : Prop :=
  (m = x86 floor ofInt ∧ ∀ q, p = some q → floor q ≠ intLim - 1) ∨
  (m = isoCpp floor ofInt ∧ ∃ q, p = some q ∧ -intLim ≤ floor q ∧ floor q < intLim - 1)

/-- The query coordinate has its floor in `{0, ..., n - 2}`. -/
def FloorIn (floor : K → ℤ) (n : ℕ) (p : Option K) : Prop :=
  ∃ q, p = some q ∧ 0 ≤ floor q ∧ floor q + 1 < n

theorem convertible_conv {floor : K → ℤ} {ofInt : ℤ → K} {m : CMachine K} {p : Option K}
    (h : Convertible floor ofInt m p) :
    ∃ f, Conv m floor p f ∧ ∀ n : ℕ, (n : ℤ) < intLim → (0 ≤ f ∧ f + 1 < n ↔ FloorIn floor n p) := by
  rcases h with ⟨rfl, h⟩ | ⟨rfl, q, rfl, h0, h1⟩
  · refine ⟨_, conv_x86 h, fun n hn => ?_⟩
    cases p with
    | none =>
      constructor
      · intro hc; simp [x86Floor] at hc
      · rintro ⟨q, hq, -⟩; cases hq
    | some q =>
      have hr := h q rfl
      constructor
      · rintro ⟨h0, h1⟩
        refine ⟨q, rfl, ?_⟩
        unfold x86Floor at h0 h1
        simp only at h0 h1
        split at h0
        · rename_i hq
          rw [if_pos hq] at h1
          exact ⟨h0, h1⟩
        · omega
      · rintro ⟨q', hq, h0, h1⟩
        cases hq
        have hq : InInt32 (floor q) := ⟨by omega, by omega⟩
        simp only [x86Floor, if_pos hq]
        exact ⟨h0, h1⟩
  · refine ⟨_, conv_iso h0 h1, fun n hn => ?_⟩
    constructor
    · intro hc; exact ⟨q, rfl, hc⟩
    · rintro ⟨q', hq, hc⟩; cases hq; exact hc

/-- **C25 (2-D, out of range).**  A convertible query with a coordinate outside the cells
yields exactly 0.  Missing: floor `2^31 - 1` (see `C26_int_max_fails`), and, for the C++
standard, every query whose floor is not an `int` (undefined behaviour). -/
theorem C25_zero_outside_2d_partial {floor : K → ℤ} {ofInt : ℤ → K} {m : CMachine K}
    (nx ny : ℕ) (hnx : (nx : ℤ) < intLim) (hny : (ny : ℤ) < intLim) (v : NDArray K)
    (px py : Option K) (hx : Convertible floor ofInt m px) (hy : Convertible floor ofInt m py)
    (h : ¬ (FloorIn floor nx px ∧ FloorIn floor ny py)) :
    interp2dAt m v nx ny px py = .ok 0 := by
  obtain ⟨f, hf, hfi⟩ := convertible_conv hx
  obtain ⟨g, hg, hgi⟩ := convertible_conv hy
  refine interp2dAt_out hnx hny hf hg ?_
  rw [← hfi nx hnx, ← hgi ny hny] at h
  exact fun c => h ⟨⟨c.1, c.2.1⟩, c.2.2⟩

/-- **C25 (3-D, out of range).** -/
theorem C25_zero_outside_3d_partial {floor : K → ℤ} {ofInt : ℤ → K} {m : CMachine K}
    (hm : Target floor ofInt m)
    (X Y Z : ℕ) (hX : (X : ℤ) < intLim) (hY : (Y : ℤ) < intLim) (hZ : (Z : ℤ) < intLim)
    (hYZ : (Y : ℤ) * Z < intLim) (v : NDArray K) (px py pz : Option K)
    (hx : Convertible floor ofInt m px) (hy : Convertible floor ofInt m py)
    (hz : Convertible floor ofInt m pz)
    (h : ¬ (FloorIn floor X px ∧ FloorIn floor Y py ∧ FloorIn floor Z pz)) :
    interp3dAt m v X Y Z px py pz = .ok 0 := by
  obtain ⟨f, hf, hfi⟩ := convertible_conv hx
  obtain ⟨g, hg, hgi⟩ := convertible_conv hy
  obtain ⟨k, hk, hki⟩ := convertible_conv hz
  have hmul : m.mul Y Z = .ok ((Y : ℤ) * Z) := by
    rcases hm with rfl | rfl
    · exact mul_iso hYZ
    · exact mul_x86 hYZ
  refine interp3dAt_out hX hY hZ hmul hf hg hk ?_
  rw [← hfi X hX, ← hgi Y hY, ← hki Z hZ] at h
  exact fun c => h ⟨⟨c.1, c.2.1⟩, ⟨c.2.2.1, c.2.2.2.1⟩, c.2.2.2.2⟩

theorem floorIn_nat {floor : K → ℤ} {m : CMachine K} {p : Option K} {f : ℤ} {n : ℕ}
    (hf : Conv m floor p f) (h : 0 ≤ f ∧ f + 1 < n) : ∃ (q : K) (i : ℕ), p = some q ∧ f = i ∧
      i + 1 < n := by
  obtain ⟨q, hq, -⟩ := hf.fin h.1
  obtain ⟨i, hi⟩ := Int.eq_ofNat_of_zero_le h.1
  exact ⟨q, i, hq, hi, by omega⟩

/-- **C26 (2-D), for all convertible queries.**  No undefined behaviour: the kernel returns a
value, so every read was inside the array.  Missing: a floor of exactly `2^31 - 1`
(`C26_int_max_fails`); grids with an axis of `2^31` or more nodes. -/
theorem C26_in_bounds_2d_partial {floor : K → ℤ} {ofInt : ℤ → K} {m : CMachine K}
    (nx ny : ℕ) (hnx : (nx : ℤ) < intLim) (hny : (ny : ℤ) < intLim) (v : NDArray K)
    (hs : v.shape = [nx, ny]) (px py : Option K) (hx : Convertible floor ofInt m px)
    (hy : Convertible floor ofInt m py) : ∃ r, interp2dAt m v nx ny px py = .ok r := by
  obtain ⟨f, hf, -⟩ := convertible_conv hx
  obtain ⟨g, hg, -⟩ := convertible_conv hy
  by_cases h : (0 ≤ f ∧ f + 1 < nx) ∧ (0 ≤ g ∧ g + 1 < ny)
  · obtain ⟨qx, i, rfl, rfl, hi⟩ := floorIn_nat hf h.1
    obtain ⟨qy, j, rfl, rfl, hj⟩ := floorIn_nat hg h.2
    exact ⟨_, interp2dAt_in hs hnx hny hf hg hi hj⟩
  · exact ⟨0, interp2dAt_out hnx hny hf hg fun c => h ⟨⟨c.1, c.2.1⟩, c.2.2⟩⟩

/-- **C26 (3-D), for all convertible queries** and grids with `Y * Z < 2^31`.  Missing:
`2^31 - 1` as above, and larger planes (`C26_plane_overflow_fails`). -/
theorem C26_in_bounds_3d_partial {floor : K → ℤ} {ofInt : ℤ → K} {m : CMachine K}
    (hm : Target floor ofInt m)
    (X Y Z : ℕ) (hX : (X : ℤ) < intLim) (hY : (Y : ℤ) < intLim) (hZ : (Z : ℤ) < intLim)
    (hYZ : (Y : ℤ) * Z < intLim) (v : NDArray K) (hs : v.shape = [X, Y, Z])
    (px py pz : Option K)
    (hx : Convertible floor ofInt m px) (hy : Convertible floor ofInt m py)
    (hz : Convertible floor ofInt m pz) : ∃ r, interp3dAt m v X Y Z px py pz = .ok r := by
  obtain ⟨f, hf, -⟩ := convertible_conv hx
  obtain ⟨g, hg, -⟩ := convertible_conv hy
  obtain ⟨k, hk, -⟩ := convertible_conv hz
  have hmul : m.mul Y Z = .ok ((Y : ℤ) * Z) := by
    rcases hm with rfl | rfl
    · exact mul_iso hYZ
    · exact mul_x86 hYZ
  by_cases h : (0 ≤ f ∧ f + 1 < X) ∧ (0 ≤ g ∧ g + 1 < Y) ∧ (0 ≤ k ∧ k + 1 < Z)
  · obtain ⟨qx, i, rfl, rfl, hi⟩ := floorIn_nat hf h.1
    obtain ⟨qy, j, rfl, rfl, hj⟩ := floorIn_nat hg h.2.1
    obtain ⟨qz, l, rfl, rfl, hl⟩ := floorIn_nat hk h.2.2
    exact ⟨_, interp3dAt_in hs hX hY hZ hmul hf hg hk hi hj hl⟩
  · exact ⟨0, interp3dAt_out hX hY hZ hmul hf hg hk fun c =>
      h ⟨⟨c.1, c.2.1⟩, ⟨c.2.2.1, c.2.2.2.1⟩, c.2.2.2.2⟩⟩

/-- **C26, the arguments (2-D).** The kernel returns only if the field is two-dimensional, the
query points have two columns and the output has one entry per point, and then it fills exactly
the output; a missing output is a `TypeError` and every other mismatch a `RuntimeError`, raised
before any memory is touched. -/
theorem C26_arguments_2d (m : CMachine K) (v : NDArray K) (cols : ℕ)
    (pts : List (List (Option K))) (out : Option ℕ) :
    (∀ l, interp2dVec m v cols pts out = .ok l →
      v.shape.length = 2 ∧ cols = 2 ∧ out = some pts.length ∧ l.length = pts.length) ∧
    (out = none → interp2dVec m v cols pts out = .error .typeError) ∧
    (∀ n, out = some n → (v.shape.length ≠ 2 ∨ cols ≠ 2 ∨ n ≠ pts.length) →
      interp2dVec m v cols pts out = .error .runtimeError) := by
  refine ⟨fun l h => ?_, fun h => by subst h; rfl, fun n hn h => ?_⟩
  · unfold interp2dVec at h
    split at h
    · cases h
    · split at h
      · rename_i hs
        split at h
        · cases h
        · rename_i hc
          split at h
          · cases h
          · rename_i hn
            exact ⟨by rw [hs]; rfl, not_not.1 hc, by rw [not_not.1 hn],
              pyMap_ok_length h⟩
      · cases h
  · subst hn
    unfold interp2dVec
    dsimp only
    split
    · rename_i hs
      by_cases hc : cols = 2
      · rw [if_neg (not_not.2 hc), if_pos]
        rcases h with h | h | h
        · exact absurd (by rw [hs]; rfl) h
        · exact absurd hc h
        · exact h
      · rw [if_pos hc]
    · rfl

/-- **C26, the arguments (3-D).** -/
theorem C26_arguments_3d (m : CMachine K) (v : NDArray K) (cols : ℕ)
    (pts : List (List (Option K))) (out : Option ℕ) :
    (∀ l, interp3dVec m v cols pts out = .ok l →
      v.shape.length = 3 ∧ cols = 3 ∧ out = some pts.length ∧ l.length = pts.length) ∧
    (out = none → interp3dVec m v cols pts out = .error .typeError) ∧
    (∀ n, out = some n → (v.shape.length ≠ 3 ∨ cols ≠ 3 ∨ n ≠ pts.length) →
      interp3dVec m v cols pts out = .error .runtimeError) := by
  refine ⟨fun l h => ?_, fun h => by subst h; rfl, fun n hn h => ?_⟩
  · unfold interp3dVec at h
    split at h
    · cases h
    · split at h
      · rename_i hs
        split at h
        · cases h
        · rename_i hc
          split at h
          · cases h
          · rename_i hn
            exact ⟨by rw [hs]; rfl, not_not.1 hc, by rw [not_not.1 hn],
              pyMap_ok_length h⟩
      · cases h
  · subst hn
    unfold interp3dVec
    dsimp only
    split
    · rename_i hs
      by_cases hc : cols = 3
      · rw [if_neg (not_not.2 hc), if_pos]
        rcases h with h | h | h
        · exact absurd (by rw [hs]; rfl) h
        · exact absurd hc h
        · exact h
      · rw [if_pos hc]
    · rfl

/-- An output one entry too short is refused. -/
example (m : CMachine ℚ) (v : NDArray ℚ) :
    interp2dVec m v 2 [[some 0, some 1], [some 1, none]] (some 1) = .error .runtimeError :=
  (C26_arguments_2d m v 2 _ _).2.2 1 rfl (.inr (.inr (by decide)))

/-- **C26 fails** at a single column of queries: if the floor of the x coordinate is
`2^31 - 1` and the y coordinate is inside, then on x86 the incremented index wraps to
`-2^31`, passes the test `x1 < nx`, and the kernel reads outside the array — for every
grid with at least one cell in y and every scalar type. -/
theorem C26_int_max_fails {floor : K → ℤ} {ofInt : ℤ → K} (nx ny : ℕ)
    (hnx : (nx : ℤ) < intLim) (hny : (ny : ℤ) < intLim)
    (v : NDArray K) (hs : v.shape = [nx, ny]) (qx qy : K) (hx : floor qx = intLim - 1)
    (hy : FloorIn floor ny (some qy)) :
    interp2dAt (x86 floor ofInt) v nx ny (some qx) (some qy) = .error .undefinedBehaviour := by
  obtain ⟨q, hq, h0, h1⟩ := hy
  cases hq
  have hcy : Conv (x86 floor ofInt) floor (some qy) (floor qy) := by
    have := conv_x86 (floor := floor) (ofInt := ofInt) (p := some qy)
      (by intro q hq; cases hq; omega)
    have hr : InInt32 (floor qy) := ⟨by omega, by omega⟩
    simpa only [x86Floor, if_pos hr] using this
  have hcast : (x86 floor ofInt).castFloor (some qx) = .ok 2147483647 := by
    have hr : InInt32 (floor qx) := ⟨by omega, by omega⟩
    have hr' : floor qx = 2147483647 := by omega
    simp only [x86, if_pos hr]
    rw [hr']
  have hadd : (x86 floor ofInt).add 2147483647 1 = .ok (-2147483648) := rfl
  unfold interp2dAt
  dsimp only [bind]
  have hc : (0 : ℤ) ≤ 2147483647 ∧ (-2147483648 : ℤ) < nx ∧ 0 ≤ floor qy ∧ floor qy + 1 < ny :=
    ⟨by norm_num, by omega, h0, h1⟩
  have hu : flatRead v (2147483647 * (ny : ℤ) + floor qy) = .error .undefinedBehaviour := by
    unfold flatRead
    rw [if_neg]
    rintro ⟨-, hlt⟩
    rw [hs] at hlt
    simp only [List.prod_cons, List.prod_nil, mul_one] at hlt
    push_cast at hlt
    have : (nx : ℤ) * ny ≤ 2147483647 * ny :=
      mul_le_mul_of_nonneg_right (by omega) (by omega)
    omega
  rw [hcast, bind_ok, hcy.cast, bind_ok, hadd, bind_ok, hcy.succ, bind_ok, wrap32_nat hnx,
    wrap32_nat hny, if_pos hc, hu]
  rfl

/-- The C++ standard gives no meaning to the same query either, and to no query whose floor
is not representable as `int`. -/
theorem C26_standard_fails {floor : K → ℤ} {ofInt : ℤ → K} (nx ny : ℕ) (v : NDArray K)
    (qx : K) (py : Option K) (h : ¬ (-intLim ≤ floor qx ∧ floor qx < intLim - 1)) :
    interp2dAt (isoCpp floor ofInt) v nx ny (some qx) py = .error .undefinedBehaviour := by
  unfold interp2dAt
  dsimp only [bind]
  by_cases hr : InInt32 (floor qx)
  · have hx : (isoCpp floor ofInt).castFloor (some qx) = .ok (floor qx) := by
      simp only [isoCpp, if_pos hr]
    have ha : (isoCpp floor ofInt).add (floor qx) 1 = .error .undefinedBehaviour := by
      have : ¬ InInt32 (floor qx + 1) := by unfold InInt32 at hr ⊢; omega
      simp only [isoCpp, if_neg this]
    rw [hx, bind_ok]
    cases hy : (isoCpp floor ofInt).castFloor py with
    | error e =>
      have : e = .undefinedBehaviour := by
        cases py with
        | none => simp only [isoCpp] at hy; cases hy; rfl
        | some q =>
          simp only [isoCpp] at hy
          split at hy
          · cases hy
          · cases hy; rfl
      subst this; rfl
    | ok y0 => rw [bind_ok, ha]; rfl
  · have hx : (isoCpp floor ofInt).castFloor (some qx) = .error .undefinedBehaviour := by
      simp only [isoCpp, if_neg hr]
    rw [hx]; rfl

/-- **C26 fails for large 3-D grids**: `Y * Z` is computed as a 32-bit product.  For
`Y = Z = 46341` (so `Y * Z = 2^31 + 4633`) the C++ standard gives no meaning to any query, and on x86
the product wraps to a negative number: the query at node `(1, 0, 0)` reads before the
start of the array. -/
theorem C26_plane_overflow_fails {floor : K → ℤ} {ofInt : ℤ → K} (v : NDArray K) (X : ℕ)
    (hX : 2 < X) (hX' : (X : ℤ) < intLim) (px py pz : Option K) (q0 q1 : K) (h0 : floor q0 = 0) (h1 : floor q1 = 1) :
    interp3dAt (isoCpp floor ofInt) v X 46341 46341 px py pz = .error .undefinedBehaviour ∧
    interp3dAt (x86 floor ofInt) v X 46341 46341 (some q1) (some q0) (some q0)
      = .error .undefinedBehaviour := by
  constructor
  · unfold interp3dAt
    dsimp only [bind]
    have : (isoCpp floor ofInt).mul (wrap32 ((46341 : ℕ) : ℤ)) (wrap32 ((46341 : ℕ) : ℤ))
        = .error .undefinedBehaviour := rfl
    rw [this]; rfl
  · have c1 : Conv (x86 floor ofInt) floor (some q1) 1 := by
      have := conv_x86 (floor := floor) (ofInt := ofInt) (p := some q1)
        (by intro q hq; cases hq; omega)
      have hf : x86Floor floor (some q1) = 1 := by simp only [x86Floor, h1]; rfl
      rwa [hf] at this
    have c0 : Conv (x86 floor ofInt) floor (some q0) 0 := by
      have := conv_x86 (floor := floor) (ofInt := ofInt) (p := some q0)
        (by intro q hq; cases hq; omega)
      have hf : x86Floor floor (some q0) = 0 := by simp only [x86Floor, h0]; rfl
      rwa [hf] at this
    have hm : (x86 floor ofInt).mul (wrap32 ((46341 : ℕ) : ℤ)) (wrap32 ((46341 : ℕ) : ℤ))
        = .ok (-2147479015) := rfl
    have hw : wrap32 ((46341 : ℕ) : ℤ) = 46341 := rfl
    have hc : (0 : ℤ) ≤ 1 ∧ (1 : ℤ) + 1 < X ∧ (0 : ℤ) ≤ 0 ∧ (0 : ℤ) + 1 < 46341 ∧ (0 : ℤ) ≤ 0 ∧
      (0 : ℤ) + 1 < 46341 := by omega
    have hu : flatRead v (1 * (-2147479015) + 0 * 46341 + 0) = .error .undefinedBehaviour := by
      unfold flatRead
      rw [if_neg]
      omega
    unfold interp3dAt
    dsimp only [bind]
    rw [hm, bind_ok, c1.cast, bind_ok, c0.cast, bind_ok, bind_ok, c1.succ, bind_ok, c0.succ,
      bind_ok, bind_ok, wrap32_nat hX', hw, if_pos hc, hu]
    rfl

end structural

/-- A 3 × 46341 × 46341 grid. -/
example := C26_plane_overflow_fails (floor := fun q : ℚ => ⌊q⌋) (ofInt := fun z => (z : ℚ))
  ⟨[3, 46341, 46341], fun _ => 0⟩ 3 (by omega) (by norm_num) none (some 5) none 0 1 (by simp) (by simp)

/-! ## C27 -/

section exact
variable {K : Type} [Field K] [LinearOrder K] [IsStrictOrderedRing K] [FloorRing K]

/-- **C27 fails on every last grid line.**  A node on the last line of either axis yields 0
whatever value is stored there. -/
theorem C27_last_line_fails {m : CMachine K} (hm : ExactTarget m) (nx ny : ℕ)
    (hnx : (nx : ℤ) < intLim) (hny : (ny : ℤ) < intLim) (v : NDArray K) (i j : ℕ)
    (hi : i < nx) (hj : j < ny) (h : i + 1 = nx ∨ j + 1 = ny) :
    interp2dAt m v nx ny (some (i : K)) (some (j : K)) = .ok 0 := by
  have conv : ∀ k n : ℕ, k < n → (n : ℤ) < intLim →
      Conv m (fun q : K => ⌊q⌋) (some (k : K)) k := by
    intro k n hk hn
    have hfl : ⌊(k : K)⌋ = (k : ℤ) := Int.floor_natCast k
    rcases hm with rfl | rfl
    · have := conv_iso (floor := fun q : K => ⌊q⌋) (ofInt := fun z : ℤ => (z : K)) (q := (k : K))
        (by simp only [hfl]; omega) (by simp only [hfl]; omega)
      simpa only [hfl] using this
    · have := conv_x86 (floor := fun q : K => ⌊q⌋) (ofInt := fun z : ℤ => (z : K))
        (p := some (k : K)) (by intro q' hq; cases hq; simp only [hfl]; omega)
      have hf : x86Floor (fun q : K => ⌊q⌋) (some (k : K)) = k := by
        have hr : InInt32 (k : ℤ) := ⟨by omega, by omega⟩
        simp only [x86Floor, hfl, hr, if_true]
      rwa [hf] at this
  exact interp2dAt_out hnx hny (conv i nx hi hnx) (conv j ny hj hny) (by omega)

/-- **C27, nodes off the last grid lines** (`_partial`: the last line of each axis is missing,
where the statement is false by `C27_last_line_fails`). -/
theorem C27_interior_nodes_partial {m : CMachine K} (hm : ExactTarget m) (nx ny : ℕ)
    (hnx : (nx : ℤ) < intLim) (hny : (ny : ℤ) < intLim) (v : NDArray K)
    (hs : v.shape = [nx, ny]) (i j : ℕ) (hi : i < nx) (hj : j < ny) (hl : i + 1 ≠ nx ∧ j + 1 ≠ ny) :
    interp2dAt m v nx ny (some (i : K)) (some (j : K)) = .ok (v.get [i, j]) :=
  C24_node_2d hm nx ny hnx hny v hs i j (by omega) (by omega)

end exact

/-! ## Non-vacuity -/

/-- A 3 by 3 field, bilinear in the node indices. -/
def exField : NDArray ℚ := ⟨[3, 3], fun idx => 1 + 2 * idx.headD 0 + 3 * idx.getD 1 0⟩

/-- A 3 by 3 by 3 field. -/
def exField3 : NDArray ℚ := ⟨[3, 3, 3], fun idx => 1 + idx.headD 0 + 5 * idx.getD 2 0⟩

/-- Exact x86 machine over ℚ. -/
def exMachine : CMachine ℚ := x86 (fun q => ⌊q⌋) (fun z => (z : ℚ))

theorem exMachine_target : ExactTarget exMachine := Or.inr rfl

example : interp2dAt exMachine exField 3 3 (some (1 / 2)) (some (3 / 2)) = .ok (13 / 2) := by
  have := C24_bilinear_exact exMachine_target 3 3 (by norm_num) (by norm_num) exField rfl 1 2 3 0
    (by intro i j _ _; simp [exField]) (1 / 2) (3 / 2) (by constructor <;> norm_num)
    (by constructor <;> norm_num)
  rw [this]; norm_num

example : interp3dAt exMachine exField3 3 3 3 (some (1 / 2)) (some 1) (some (3 / 2)) =
    .ok (1 + 1 / 2 + 15 / 2) := by
  have := C24_trilinear_exact exMachine_target 3 3 3 (by norm_num) (by norm_num) (by norm_num)
    (by norm_num) exField3 rfl 1 1 0 5 0 0 0 0
    (by intro i j k _ _ _; simp [exField3]) (1 / 2) 1 (3 / 2) (by constructor <;> norm_num)
    (by constructor <;> norm_num) (by constructor <;> norm_num)
  rw [this]; norm_num

example : interp2dAt exMachine exField 3 3 (some ((1 : ℕ) : ℚ)) (some ((0 : ℕ) : ℚ)) = .ok 3 := by
  rw [C24_node_2d exMachine_target 3 3 (by norm_num) (by norm_num) exField rfl 1 0 (by norm_num)
    (by norm_num)]
  simp [exField]; norm_num

example : interp3dAt exMachine exField3 3 3 3 (some ((1 : ℕ) : ℚ)) (some ((0 : ℕ) : ℚ))
    (some ((1 : ℕ) : ℚ)) = .ok 7 := by
  rw [C24_node_3d exMachine_target 3 3 3 (by norm_num) (by norm_num) (by norm_num) (by norm_num)
    exField3 rfl 1 0 1 (by norm_num) (by norm_num) (by norm_num)]
  simp [exField3]; norm_num

/-- The hypotheses of C25 are met by the field above with bounds 1 and 11. -/
example : ∃ r, interp2dAt exMachine exField 3 3 (some (1 / 2)) (some (3 / 2)) = .ok r ∧ 1 ≤ r ∧
    r ≤ 11 :=
  C25_no_overshoot_2d exMachine_target 3 3 (by norm_num) (by norm_num) exField rfl _ _
    (by constructor <;> norm_num) (by constructor <;> norm_num) 1 11 (by
      intro i j _ _ hi hj
      have h1 : (0 : ℚ) ≤ i := Nat.cast_nonneg i
      have h2 : (0 : ℚ) ≤ j := Nat.cast_nonneg j
      have h3 : (i : ℚ) ≤ 2 := by exact_mod_cast (by omega : i ≤ 2)
      have h4 : (j : ℚ) ≤ 2 := by exact_mod_cast (by omega : j ≤ 2)
      simp only [exField, List.headD_cons, List.getD_cons_succ, List.getD_cons_zero]
      constructor <;> linarith)

example : ∃ r, interp3dAt exMachine exField3 3 3 3 (some (1 / 2)) (some 1) (some (3 / 2)) = .ok r ∧
    1 ≤ r ∧ r ≤ 13 :=
  C25_no_overshoot_3d exMachine_target 3 3 3 (by norm_num) (by norm_num) (by norm_num)
    (by norm_num) exField3 rfl _ _ _
    (by constructor <;> norm_num) (by constructor <;> norm_num) (by constructor <;> norm_num) 1 13
    (by
      intro i j k _ _ _ hi hj hk
      have h1 : (0 : ℚ) ≤ i := Nat.cast_nonneg i
      have h2 : (0 : ℚ) ≤ k := Nat.cast_nonneg k
      have h3 : (i : ℚ) ≤ 2 := by exact_mod_cast (by omega : i ≤ 2)
      have h4 : (k : ℚ) ≤ 2 := by exact_mod_cast (by omega : k ≤ 2)
      simp only [exField3, List.headD_cons, List.getD_cons_succ, List.getD_cons_zero]
      constructor <;> linarith)

/-- A query to the left of the grid, and a non-finite one. -/
example : interp2dAt exMachine exField 3 3 (some (-1 / 2)) none = .ok 0 :=
  C25_zero_outside_2d_partial 3 3 (by norm_num) (by norm_num) exField _ _
    (Or.inl ⟨rfl, by intro q hq; cases hq; norm_num⟩) (Or.inl ⟨rfl, by intro q hq; cases hq⟩)
    (by rintro ⟨-, q, hq, -⟩; cases hq)

example : interp3dAt exMachine exField3 3 3 3 (some 1) (some 2) none = .ok 0 :=
  C25_zero_outside_3d_partial (Or.inr rfl) 3 3 3 (by norm_num) (by norm_num) (by norm_num)
    (by norm_num) exField3 _ _ _
    (Or.inl ⟨rfl, by intro q hq; cases hq; norm_num⟩)
    (Or.inl ⟨rfl, by intro q hq; cases hq; norm_num⟩) (Or.inl ⟨rfl, by intro q hq; cases hq⟩)
    (by rintro ⟨-, -, q, hq, -⟩; cases hq)

/-- Far-away queries are safe on x86: 10^30 is converted to `INT_MIN`. -/
example : ∃ r, interp2dAt exMachine exField 3 3 (some (10 ^ 30)) (some (1 / 2)) = .ok r :=
  C26_in_bounds_2d_partial 3 3 (by norm_num) (by norm_num) exField rfl _ _
    (Or.inl ⟨rfl, by
      intro q hq; cases hq
      have : ⌊((10 : ℚ) ^ 30)⌋ = 10 ^ 30 := by
        have h : ((10 : ℚ) ^ 30) = (((10 : ℤ) ^ 30 : ℤ) : ℚ) := by norm_num
        rw [h, Int.floor_intCast]
      rw [this]; norm_num⟩)
    (Or.inl ⟨rfl, by intro q hq; cases hq; norm_num⟩)

example : ∃ r, interp3dAt exMachine exField3 3 3 3 (some 1) (some (1 / 2)) none = .ok r :=
  C26_in_bounds_3d_partial (Or.inr rfl) 3 3 3 (by norm_num) (by norm_num) (by norm_num)
    (by norm_num) exField3 rfl _ _ _
    (Or.inl ⟨rfl, by intro q hq; cases hq; norm_num⟩)
    (Or.inl ⟨rfl, by intro q hq; cases hq; norm_num⟩) (Or.inl ⟨rfl, by intro q hq; cases hq⟩)

/-- The bad query: x index coordinate 2147483647, y index coordinate 1/2, on a 3 by 3 grid. -/
example : interp2dAt exMachine exField 3 3 (some 2147483647) (some (1 / 2))
    = .error .undefinedBehaviour :=
  C26_int_max_fails 3 3 (by norm_num) (by norm_num) exField rfl _ _
    (by
      have h : (2147483647 : ℚ) = ((2147483647 : ℤ) : ℚ) := by norm_num
      rw [h, Int.floor_intCast]; norm_num)
    ⟨1 / 2, rfl, by norm_num, by norm_num⟩

example : interp2dAt exMachine exField 3 3 (some ((2 : ℕ) : ℚ)) (some ((0 : ℕ) : ℚ)) = .ok 0 ∧
    exField.get [2, 0] = 5 :=
  ⟨C27_last_line_fails exMachine_target 3 3 (by norm_num) (by norm_num) exField 2 0 (by norm_num)
    (by norm_num) (Or.inl rfl), by simp [exField]; norm_num⟩

end Verif
