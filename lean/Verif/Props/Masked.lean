import Verif.Props.Missing
import Verif.Props.GridError
import Verif.Lemmas.Grid64
import Mathlib.Algebra.BigOperators.Intervals

/-!
# C90, C91: masked grids

C90: a missing sample should matter only where interpolation gives it weight.  The kernels add
`0 * NaN` on the lower sides of the cells, so that a sample also matters at the nodes before it.
C91: runs on masked 2-D grids.
-/

set_option linter.unusedSectionVars false

namespace Verif

open Miss

/-! ## Vocabulary -/

section spec
variable {K : Type} [Field K] [LinearOrder K]

/-- Weight of node `i` at index coordinate `q` in linear interpolation. -/
def hat (q : K) (i : ℕ) : K := max 0 (1 - |q - i|)

/-- The index coordinate lies strictly between nodes. -/
def BetweenNodes (q : K) : Prop := ∀ i : ℕ, q ≠ i

/-- Node `i` is an end of the cell of `q`, cells being closed on the left and open on the right. -/
def Touches (q : K) (i : ℕ) : Prop := (i : K) - 1 ≤ q ∧ q < i + 1

end spec

section kernel
variable {K : Type} [Field K] [LinearOrder K] [IsStrictOrderedRing K] [FloorRing K]

theorem miss_conv {m : CMachine K} {q : K} {f : ℤ} (h : Conv m (fun q : K => ⌊q⌋) (some q) f) :
    Conv (Miss.machine m) (fun a => ⌊a.get⌋) (some (num q)) f :=
  ⟨h.cast, h.succ, fun h0 => by
    obtain ⟨q', e, hf⟩ := h.fin h0
    cases e
    exact ⟨_, rfl, hf⟩⟩

theorem bilin_nan {a b c d : Miss K} (x y : Miss K) (h : a = nan ∨ b = nan ∨ c = nan ∨ d = nan) :
    bilin a b c d x y = nan := by
  unfold bilin
  rcases h with rfl | rfl | rfl | rfl <;> simp

theorem bilin_num (a b c d x y : K) :
    bilin (num a) (num b) (num c) (num d) (num x) (num y) = num (bilin a b c d x y) := rfl

theorem trilin_nan {w : ℕ → ℕ → ℕ → Miss K} (x y z : Miss K)
    (h : ∃ a ≤ 1, ∃ b ≤ 1, ∃ c ≤ 1, w a b c = nan) : trilin w x y z = nan := by
  obtain ⟨a, ha, b, hb, c, hc, h⟩ := h
  unfold trilin
  interval_cases a <;> interval_cases b <;> interval_cases c <;> simp [h]

theorem trilin_num (w : ℕ → ℕ → ℕ → K) (x y z : K) :
    trilin (fun a b c => num (w a b c)) (num x) (num y) (num z) = num (trilin w x y z) := rfl

/-! ## C90 -/

/-- The 2-D kernel on data with gaps. -/
theorem masked_2d {m : CMachine K} (hm : ExactTarget m) {nx ny : ℕ} (hnx : (nx : ℤ) < intLim)
    (hny : (ny : ℤ) < intLim) {v : NDArray (Miss K)} (hs : v.shape = [nx, ny]) {X Y : K}
    (hX : InCells nx X) (hY : InCells ny Y) :
    interp2dAt (Miss.machine m) v nx ny (some (num X)) (some (num Y)) =
      .ok (if v.get [cellOf X, cellOf Y] = nan ∨ v.get [cellOf X + 1, cellOf Y] = nan ∨
          v.get [cellOf X, cellOf Y + 1] = nan ∨ v.get [cellOf X + 1, cellOf Y + 1] = nan then nan
        else num (cellValue2 nx ny (fun i j => (v.get [i, j]).get) X Y)) := by
  obtain ⟨hi, hi1⟩ := inCells_cell hX
  obtain ⟨hj, hj1⟩ := inCells_cell hY
  rw [interp2dAt_in hs hnx hny (miss_conv (exact_conv hm hnx hi hi1))
    (miss_conv (exact_conv hm hny hj hj1)) hi1 hj1]
  congr 1
  split
  · rename_i h
    exact bilin_nan _ _ h
  · rename_i h
    simp only [not_or] at h
    have e : ∀ a : Miss K, a ≠ nan → a = num a.get := by
      intro a ha
      cases a
      · rfl
      · exact absurd rfl ha
    rw [e _ h.1, e _ h.2.1, e _ h.2.2.1, e _ h.2.2.2]
    change bilin _ _ _ _ (num (X - m.ofInt _)) (num (Y - m.ofInt _)) = _
    rw [bilin_num, exact_ofInt hm, exact_ofInt hm]
    unfold cellValue2
    rw [if_pos ⟨hX, hY⟩]
    congr 1
    unfold bilin lerp
    push_cast
    ring

/-- The 3-D kernel on data with gaps. -/
theorem masked_3d {m : CMachine K} (hm : ExactTarget m) {nx ny nz : ℕ} (hnx : (nx : ℤ) < intLim)
    (hny : (ny : ℤ) < intLim) (hnz : (nz : ℤ) < intLim) (hyz : (ny : ℤ) * nz < intLim)
    {v : NDArray (Miss K)} (hs : v.shape = [nx, ny, nz]) {X Y Z : K} (hX : InCells nx X)
    (hY : InCells ny Y) (hZ : InCells nz Z) :
    ((∃ a ≤ 1, ∃ b ≤ 1, ∃ c ≤ 1, v.get [cellOf X + a, cellOf Y + b, cellOf Z + c] = nan) →
      interp3dAt (Miss.machine m) v nx ny nz (some (num X)) (some (num Y)) (some (num Z)) =
        .ok nan) ∧
    ((∀ a ≤ 1, ∀ b ≤ 1, ∀ c ≤ 1, v.get [cellOf X + a, cellOf Y + b, cellOf Z + c] ≠ nan) →
      interp3dAt (Miss.machine m) v nx ny nz (some (num X)) (some (num Y)) (some (num Z)) =
        .ok (num (cellValue3 nx ny nz (fun i j k => (v.get [i, j, k]).get) X Y Z))) := by
  obtain ⟨hi, hi1⟩ := inCells_cell hX
  obtain ⟨hj, hj1⟩ := inCells_cell hY
  obtain ⟨hk, hk1⟩ := inCells_cell hZ
  rw [interp3dAt_in (m := Miss.machine m) hs hnx hny hnz (exact_mul hm hyz)
    (miss_conv (exact_conv hm hnx hi hi1)) (miss_conv (exact_conv hm hny hj hj1))
    (miss_conv (exact_conv hm hnz hk hk1)) hi1 hj1 hk1]
  refine ⟨fun h => by rw [trilin_nan _ _ _ h], fun h => ?_⟩
  have e : ∀ a ≤ 1, ∀ b ≤ 1, ∀ c ≤ 1, v.get [cellOf X + a, cellOf Y + b, cellOf Z + c] =
      num (v.get [cellOf X + a, cellOf Y + b, cellOf Z + c]).get := by
    intro a ha b hb c hc
    have := h a ha b hb c hc
    cases e : v.get [cellOf X + a, cellOf Y + b, cellOf Z + c]
    · rfl
    · exact absurd e this
  have ht : trilin (fun a b c => v.get [cellOf X + a, cellOf Y + b, cellOf Z + c])
      (num X - (Miss.machine m).ofInt (cellOf X)) (num Y - (Miss.machine m).ofInt (cellOf Y))
      (num Z - (Miss.machine m).ofInt (cellOf Z)) =
      num (trilin (fun a b c => (v.get [cellOf X + a, cellOf Y + b, cellOf Z + c]).get)
        (X - m.ofInt (cellOf X)) (Y - m.ofInt (cellOf Y)) (Z - m.ofInt (cellOf Z))) := by
    rw [← trilin_num]
    unfold trilin
    simp only [← e 0 zero_le_one 0 zero_le_one 0 zero_le_one, ← e 0 zero_le_one 0 zero_le_one 1 le_rfl,
      ← e 0 zero_le_one 1 le_rfl 0 zero_le_one, ← e 0 zero_le_one 1 le_rfl 1 le_rfl,
      ← e 1 le_rfl 0 zero_le_one 0 zero_le_one, ← e 1 le_rfl 0 zero_le_one 1 le_rfl,
      ← e 1 le_rfl 1 le_rfl 0 zero_le_one, ← e 1 le_rfl 1 le_rfl 1 le_rfl]
    rfl
  rw [ht, exact_ofInt hm, exact_ofInt hm, exact_ofInt hm]
  unfold cellValue3
  rw [if_pos ⟨hX, hY, hZ⟩]
  congr 2
  unfold trilin lerp
  simp only [Nat.add_zero]
  push_cast
  ring

theorem hat_pos {n : ℕ} {q : K} (h : InCells n q) (a : ℕ) :
    0 < hat q a ↔ a = cellOf q ∨ a = cellOf q + 1 ∧ q ≠ cellOf q := by
  obtain ⟨i, hi, hi1, h0, h1⟩ := inCells_floor h
  have hc : cellOf q = i := by unfold cellOf; rw [hi]; rfl
  rw [hc]
  unfold hat
  rw [lt_max_iff]
  simp only [lt_irrefl, false_or, sub_pos, abs_lt]
  constructor
  · rintro ⟨h2, h3⟩
    have h4 : a < i + 2 := by
      have : (a : K) < ((i + 2 : ℕ) : K) := by push_cast; linarith
      exact_mod_cast this
    have h5 : i < a + 1 := by
      have : (i : K) < ((a + 1 : ℕ) : K) := by push_cast; linarith
      exact_mod_cast this
    rcases (show a = i ∨ a = i + 1 by omega) with rfl | rfl
    · exact .inl rfl
    · refine .inr ⟨rfl, fun e => ?_⟩
      push_cast at h2
      linarith
  · rintro (rfl | ⟨rfl, hq⟩)
    · constructor <;> linarith
    · have : (i : K) < q := lt_of_le_of_ne h0 (Ne.symm hq)
      push_cast
      constructor <;> linarith

theorem hat_values {n : ℕ} {q : K} (h : InCells n q) :
    hat q (cellOf q) = 1 - (q - cellOf q) ∧ hat q (cellOf q + 1) = q - cellOf q := by
  obtain ⟨i, hi, hi1, h0, h1⟩ := inCells_floor h
  have hc : cellOf q = i := by unfold cellOf; rw [hi]; rfl
  rw [hc]
  unfold hat
  constructor
  · rw [abs_of_nonneg (by linarith), max_eq_right (by linarith)]
  · rw [abs_of_nonpos (by push_cast; linarith), max_eq_right (by push_cast; linarith)]
    push_cast
    ring

theorem hat_sum {n : ℕ} {q : K} (h : InCells n q) (F : ℕ → K) :
    ∑ a ∈ Finset.range n, hat q a * F a = lerp (F (cellOf q)) (F (cellOf q + 1)) (q - cellOf q) := by
  obtain ⟨-, hi⟩ := inCells_cell h
  have hsub : ({cellOf q, cellOf q + 1} : Finset ℕ) ⊆ Finset.range n := by
    intro a ha
    simp only [Finset.mem_insert, Finset.mem_singleton] at ha
    rw [Finset.mem_range]
    omega
  rw [← Finset.sum_subset hsub fun a _ ha => ?_]
  · rw [Finset.sum_pair (by omega), (hat_values h).1, (hat_values h).2]
    rfl
  · simp only [Finset.mem_insert, Finset.mem_singleton, not_or] at ha
    have : ¬ 0 < hat q a := by
      rw [hat_pos h]
      rintro (e | ⟨e, -⟩)
      · exact ha.1 e
      · exact ha.2 e
    rw [le_antisymm (not_lt.1 this) (le_max_left _ _), zero_mul]

theorem hat_nonneg (q : K) (a : ℕ) : 0 ≤ hat q a := le_max_left _ _

/-- **C90 (2-D), what holds:** at points strictly between the nodes of both axes a missing sample
matters exactly if it has weight, and if none does the result is the weighted sum of the samples.
Missing: points on grid lines. -/
theorem C90_between_2d_partial {m : CMachine K} (hm : ExactTarget m) {nx ny : ℕ}
    (hnx : (nx : ℤ) < intLim) (hny : (ny : ℤ) < intLim) {v : NDArray (Miss K)}
    (hs : v.shape = [nx, ny]) {X Y : K} (hX : InCells nx X) (hY : InCells ny Y)
    (bX : BetweenNodes X) (bY : BetweenNodes Y) :
    ∃ r, interp2dAt (Miss.machine m) v nx ny (some (num X)) (some (num Y)) = .ok r ∧
      (r = nan ↔ ∃ i < nx, ∃ j < ny, 0 < hat X i * hat Y j ∧ v.get [i, j] = nan) ∧
      (r ≠ nan → r = num (∑ i ∈ Finset.range nx, hat X i *
        ∑ j ∈ Finset.range ny, hat Y j * (v.get [i, j]).get)) := by
  refine ⟨_, masked_2d hm hnx hny hs hX hY, ?_, ?_⟩
  · obtain ⟨-, hi⟩ := inCells_cell hX
    obtain ⟨-, hj⟩ := inCells_cell hY
    have pX := hat_pos hX
    have pY := hat_pos hY
    simp only [bX (cellOf X), bY (cellOf Y), ne_eq, not_false_eq_true, and_true] at pX pY
    constructor
    · intro h
      split at h
      · rename_i hc
        rcases hc with h | h | h | h
        · exact ⟨_, by omega, _, by omega, mul_pos ((pX _).2 (.inl rfl)) ((pY _).2 (.inl rfl)), h⟩
        · exact ⟨_, by omega, _, by omega, mul_pos ((pX _).2 (.inr rfl)) ((pY _).2 (.inl rfl)), h⟩
        · exact ⟨_, by omega, _, by omega, mul_pos ((pX _).2 (.inl rfl)) ((pY _).2 (.inr rfl)), h⟩
        · exact ⟨_, by omega, _, by omega, mul_pos ((pX _).2 (.inr rfl)) ((pY _).2 (.inr rfl)), h⟩
      · cases h
    · rintro ⟨i, -, j, -, hw, hv⟩
      have h1 : 0 < hat X i := pos_of_mul_pos_left hw (hat_nonneg _ _)
      have h2 : 0 < hat Y j := pos_of_mul_pos_right hw (hat_nonneg _ _)
      rw [if_pos]
      rcases (pX i).1 h1 with rfl | rfl <;> rcases (pY j).1 h2 with rfl | rfl <;> simp [hv]
  · intro h
    split at h
    · exact absurd rfl h
    · rename_i h'
      rw [if_neg h']
      congr 1
      rw [hat_sum hX]
      simp only [hat_sum hY]
      unfold cellValue2
      rw [if_pos ⟨hX, hY⟩]
      simp only [lerp]
      ring

/-- **C90 (2-D), one half:** at every point of the cells a missing sample with weight makes the
result NaN. -/
theorem C90_used_2d_partial {m : CMachine K} (hm : ExactTarget m) {nx ny : ℕ}
    (hnx : (nx : ℤ) < intLim) (hny : (ny : ℤ) < intLim) {v : NDArray (Miss K)}
    (hs : v.shape = [nx, ny]) {X Y : K} (hX : InCells nx X) (hY : InCells ny Y) {i j : ℕ}
    (hw : 0 < hat X i * hat Y j) (hv : v.get [i, j] = nan) :
    interp2dAt (Miss.machine m) v nx ny (some (num X)) (some (num Y)) = .ok nan := by
  rw [masked_2d hm hnx hny hs hX hY, if_pos]
  rcases (hat_pos hX i).1 (pos_of_mul_pos_left hw (hat_nonneg _ _)) with rfl | ⟨rfl, -⟩ <;>
    rcases (hat_pos hY j).1 (pos_of_mul_pos_right hw (hat_nonneg _ _)) with rfl | ⟨rfl, -⟩ <;>
    simp [hv]

/-- **C90 (2-D): false of the code on grid lines.**  On the line of nodes `i` a missing sample of line
`i + 1` makes the result NaN, although none of these samples has weight. -/
theorem C90_line_2d_fails {m : CMachine K} (hm : ExactTarget m) {nx ny : ℕ}
    (hnx : (nx : ℤ) < intLim) (hny : (ny : ℤ) < intLim) {v : NDArray (Miss K)}
    (hs : v.shape = [nx, ny]) {i : ℕ} (hi : i + 1 < nx) {Y : K} (hY : InCells ny Y)
    (hv : v.get [i + 1, cellOf Y] = nan) :
    interp2dAt (Miss.machine m) v nx ny (some (num (i : K))) (some (num Y)) = .ok nan ∧
      ∀ j, hat (i : K) (i + 1) * hat Y j = 0 := by
  have hX : InCells nx (i : K) := ⟨Nat.cast_nonneg i, by exact_mod_cast hi⟩
  have hc : cellOf (i : K) = i := by simp [cellOf]
  refine ⟨?_, fun j => ?_⟩
  · rw [masked_2d hm hnx hny hs hX hY, if_pos (.inr (.inl (by rw [hc]; exact hv)))]
  · have := (hat_values hX).2
    rw [hc] at this
    rw [this, sub_self, zero_mul]

/-- **C90 (3-D), what holds.** -/
theorem C90_between_3d_partial {m : CMachine K} (hm : ExactTarget m) {nx ny nz : ℕ}
    (hnx : (nx : ℤ) < intLim) (hny : (ny : ℤ) < intLim) (hnz : (nz : ℤ) < intLim)
    (hyz : (ny : ℤ) * nz < intLim) {v : NDArray (Miss K)} (hs : v.shape = [nx, ny, nz]) {X Y Z : K}
    (hX : InCells nx X) (hY : InCells ny Y) (hZ : InCells nz Z) (bX : BetweenNodes X)
    (bY : BetweenNodes Y) (bZ : BetweenNodes Z) :
    ∃ r, interp3dAt (Miss.machine m) v nx ny nz (some (num X)) (some (num Y)) (some (num Z)) = .ok r ∧
      (r = nan ↔ ∃ i < nx, ∃ j < ny, ∃ k < nz, 0 < hat X i * hat Y j * hat Z k ∧
        v.get [i, j, k] = nan) ∧
      (r ≠ nan → r = num (∑ i ∈ Finset.range nx, hat X i * ∑ j ∈ Finset.range ny, hat Y j *
        ∑ k ∈ Finset.range nz, hat Z k * (v.get [i, j, k]).get)) := by
  obtain ⟨-, hi⟩ := inCells_cell hX
  obtain ⟨-, hj⟩ := inCells_cell hY
  obtain ⟨-, hk⟩ := inCells_cell hZ
  have pX := hat_pos hX
  have pY := hat_pos hY
  have pZ := hat_pos hZ
  simp only [bX (cellOf X), bY (cellOf Y), bZ (cellOf Z), ne_eq, not_false_eq_true, and_true]
    at pX pY pZ
  obtain ⟨h1, h2⟩ := masked_3d hm hnx hny hnz hyz hs hX hY hZ
  have two : ∀ {q : K} {n a : ℕ}, a ≤ 1 → (∀ a, 0 < hat q a ↔ a = cellOf q ∨ a = cellOf q + 1) →
      0 < hat q (cellOf q + a) := by
    intro q n a ha p
    rw [p]
    omega
  by_cases h : ∃ a ≤ 1, ∃ b ≤ 1, ∃ c ≤ 1, v.get [cellOf X + a, cellOf Y + b, cellOf Z + c] = nan
  · refine ⟨nan, h1 h, ⟨fun _ => ?_, fun _ => rfl⟩, fun h => absurd rfl h⟩
    obtain ⟨a, ha, b, hb, c, hc, hv⟩ := h
    exact ⟨_, by omega, _, by omega, _, by omega, mul_pos (mul_pos (two (n := nx) ha pX)
      (two (n := nx) hb pY)) (two (n := nx) hc pZ), hv⟩
  · have h' : ∀ a ≤ 1, ∀ b ≤ 1, ∀ c ≤ 1,
        v.get [cellOf X + a, cellOf Y + b, cellOf Z + c] ≠ nan :=
      fun a ha b hb c hc e => h ⟨a, ha, b, hb, c, hc, e⟩
    refine ⟨_, h2 h', ⟨fun e => (by cases e), ?_⟩, fun _ => ?_⟩
    · rintro ⟨i, -, j, -, k, -, hw, hv⟩
      have w1 : 0 < hat X i * hat Y j := pos_of_mul_pos_left hw (hat_nonneg _ _)
      have ex : ∀ {q : K} {a : ℕ}, a = cellOf q ∨ a = cellOf q + 1 → ∃ b ≤ 1, a = cellOf q + b := by
        rintro q a (rfl | rfl)
        · exact ⟨0, by omega, rfl⟩
        · exact ⟨1, by omega, rfl⟩
      obtain ⟨a, ha, rfl⟩ := ex ((pX i).1 (pos_of_mul_pos_left w1 (hat_nonneg _ _)))
      obtain ⟨b, hb, rfl⟩ := ex ((pY j).1 (pos_of_mul_pos_right w1 (hat_nonneg _ _)))
      obtain ⟨c, hc, rfl⟩ := ex ((pZ k).1 (pos_of_mul_pos_right hw (by positivity)))
      exact absurd hv (h' a ha b hb c hc)
    · congr 1
      rw [hat_sum hX]
      simp only [hat_sum hY, hat_sum hZ]
      unfold cellValue3
      rw [if_pos ⟨hX, hY, hZ⟩]
      simp only [lerp]
      ring

/-- **C90 (3-D): false of the code on grid planes.** -/
theorem C90_plane_3d_fails {m : CMachine K} (hm : ExactTarget m) {nx ny nz : ℕ}
    (hnx : (nx : ℤ) < intLim) (hny : (ny : ℤ) < intLim) (hnz : (nz : ℤ) < intLim)
    (hyz : (ny : ℤ) * nz < intLim) {v : NDArray (Miss K)} (hs : v.shape = [nx, ny, nz]) {i : ℕ}
    (hi : i + 1 < nx) {Y Z : K} (hY : InCells ny Y) (hZ : InCells nz Z)
    (hv : v.get [i + 1, cellOf Y, cellOf Z] = nan) :
    interp3dAt (Miss.machine m) v nx ny nz (some (num (i : K))) (some (num Y)) (some (num Z)) =
        .ok nan ∧ ∀ j k, hat (i : K) (i + 1) * hat Y j * hat Z k = 0 := by
  have hX : InCells nx (i : K) := ⟨Nat.cast_nonneg i, by exact_mod_cast hi⟩
  have hc : cellOf (i : K) = i := by simp [cellOf]
  refine ⟨?_, fun j k => ?_⟩
  · exact (masked_3d hm hnx hny hnz hyz hs hX hY hZ).1
      ⟨1, le_rfl, 0, zero_le_one, 0, zero_le_one, by rw [hc]; exact hv⟩
  · have := (hat_values hX).2
    rw [hc] at this
    rw [this, sub_self, zero_mul, zero_mul]

theorem touches_iff {n : ℕ} {q : K} (h : InCells n q) (i : ℕ) :
    Touches q i ↔ i = cellOf q ∨ i = cellOf q + 1 := by
  obtain ⟨k, hk, hk1, h0, h1⟩ := inCells_floor h
  have hc : cellOf q = k := by unfold cellOf; rw [hk]; rfl
  rw [hc]
  unfold Touches
  constructor
  · rintro ⟨h2, h3⟩
    have h4 : i < k + 2 := by
      have : (i : K) < ((k + 2 : ℕ) : K) := by push_cast; linarith
      exact_mod_cast this
    have h5 : k < i + 1 := by
      have : (k : K) < ((i + 1 : ℕ) : K) := by push_cast; linarith
      exact_mod_cast this
    omega
  · rintro (rfl | rfl)
    · constructor <;> linarith
    · push_cast
      constructor <;> linarith

/-- **C90 (2-D), exactly:** at every point of the cells the result is NaN iff a sample is missing at
a corner of the cell, the cells being closed on the left and open on the right; otherwise the result
is the weighted sum of the samples. -/
theorem C90_exact_2d {m : CMachine K} (hm : ExactTarget m) {nx ny : ℕ}
    (hnx : (nx : ℤ) < intLim) (hny : (ny : ℤ) < intLim) {v : NDArray (Miss K)}
    (hs : v.shape = [nx, ny]) {X Y : K} (hX : InCells nx X) (hY : InCells ny Y) :
    ∃ r, interp2dAt (Miss.machine m) v nx ny (some (num X)) (some (num Y)) = .ok r ∧
      (r = nan ↔ ∃ i < nx, ∃ j < ny, Touches X i ∧ Touches Y j ∧ v.get [i, j] = nan) ∧
      (r ≠ nan → r = num (∑ i ∈ Finset.range nx, hat X i *
        ∑ j ∈ Finset.range ny, hat Y j * (v.get [i, j]).get)) := by
  refine ⟨_, masked_2d hm hnx hny hs hX hY, ?_, ?_⟩
  · obtain ⟨-, hi⟩ := inCells_cell hX
    obtain ⟨-, hj⟩ := inCells_cell hY
    simp only [touches_iff hX, touches_iff hY]
    constructor
    · intro h
      split at h
      · rename_i hc
        rcases hc with h | h | h | h
        · exact ⟨_, by omega, _, by omega, .inl rfl, .inl rfl, h⟩
        · exact ⟨_, by omega, _, by omega, .inr rfl, .inl rfl, h⟩
        · exact ⟨_, by omega, _, by omega, .inl rfl, .inr rfl, h⟩
        · exact ⟨_, by omega, _, by omega, .inr rfl, .inr rfl, h⟩
      · cases h
    · rintro ⟨i, -, j, -, h1, h2, hv⟩
      rw [if_pos]
      rcases h1 with rfl | rfl <;> rcases h2 with rfl | rfl <;> simp [hv]
  · intro h
    split at h
    · exact absurd rfl h
    · rename_i h'
      rw [if_neg h']
      congr 1
      rw [hat_sum hX]
      simp only [hat_sum hY]
      unfold cellValue2
      rw [if_pos ⟨hX, hY⟩]
      simp only [lerp]
      ring

/-- **C90 (3-D), exactly.** -/
theorem C90_exact_3d {m : CMachine K} (hm : ExactTarget m) {nx ny nz : ℕ}
    (hnx : (nx : ℤ) < intLim) (hny : (ny : ℤ) < intLim) (hnz : (nz : ℤ) < intLim)
    (hyz : (ny : ℤ) * nz < intLim) {v : NDArray (Miss K)} (hs : v.shape = [nx, ny, nz]) {X Y Z : K}
    (hX : InCells nx X) (hY : InCells ny Y) (hZ : InCells nz Z) :
    ∃ r, interp3dAt (Miss.machine m) v nx ny nz (some (num X)) (some (num Y)) (some (num Z)) = .ok r ∧
      (r = nan ↔ ∃ i < nx, ∃ j < ny, ∃ k < nz, Touches X i ∧ Touches Y j ∧ Touches Z k ∧
        v.get [i, j, k] = nan) ∧
      (r ≠ nan → r = num (∑ i ∈ Finset.range nx, hat X i * ∑ j ∈ Finset.range ny, hat Y j *
        ∑ k ∈ Finset.range nz, hat Z k * (v.get [i, j, k]).get)) := by
  obtain ⟨-, hi⟩ := inCells_cell hX
  obtain ⟨-, hj⟩ := inCells_cell hY
  obtain ⟨-, hk⟩ := inCells_cell hZ
  obtain ⟨h1, h2⟩ := masked_3d hm hnx hny hnz hyz hs hX hY hZ
  simp only [touches_iff hX, touches_iff hY, touches_iff hZ]
  have ex : ∀ {q : K} {a : ℕ}, a = cellOf q ∨ a = cellOf q + 1 → ∃ b ≤ 1, a = cellOf q + b := by
    rintro q a (rfl | rfl)
    · exact ⟨0, by omega, rfl⟩
    · exact ⟨1, by omega, rfl⟩
  by_cases h : ∃ a ≤ 1, ∃ b ≤ 1, ∃ c ≤ 1, v.get [cellOf X + a, cellOf Y + b, cellOf Z + c] = nan
  · refine ⟨nan, h1 h, ⟨fun _ => ?_, fun _ => rfl⟩, fun h => absurd rfl h⟩
    obtain ⟨a, ha, b, hb, c, hc, hv⟩ := h
    exact ⟨_, by omega, _, by omega, _, by omega, by omega, by omega, by omega, hv⟩
  · have h' : ∀ a ≤ 1, ∀ b ≤ 1, ∀ c ≤ 1,
        v.get [cellOf X + a, cellOf Y + b, cellOf Z + c] ≠ nan :=
      fun a ha b hb c hc e => h ⟨a, ha, b, hb, c, hc, e⟩
    refine ⟨_, h2 h', ⟨fun e => (by cases e), ?_⟩, fun _ => ?_⟩
    · rintro ⟨i, -, j, -, k, -, w1, w2, w3, hv⟩
      obtain ⟨a, ha, rfl⟩ := ex w1
      obtain ⟨b, hb, rfl⟩ := ex w2
      obtain ⟨c, hc, rfl⟩ := ex w3
      exact absurd hv (h' a ha b hb c hc)
    · congr 1
      rw [hat_sum hX]
      simp only [hat_sum hY, hat_sum hZ]
      unfold cellValue3
      rw [if_pos ⟨hX, hY, hZ⟩]
      simp only [lerp]
      ring

end kernel

/-! ## C91 -/

section spec
open Classical in
/-- Bilinear interpolation on a grid with gaps, `X`, `Y` index coordinates: NaN in the cells with a
missing corner, zero outside the cells. -/
noncomputable def maskedValue (nx ny : ℕ) (f : ℕ → ℕ → Miss ℝ) (X Y : ℝ) : Miss ℝ :=
  if InCells nx X ∧ InCells ny Y then
    if f (cellOf X) (cellOf Y) = nan ∨ f (cellOf X + 1) (cellOf Y) = nan ∨
      f (cellOf X) (cellOf Y + 1) = nan ∨ f (cellOf X + 1) (cellOf Y + 1) = nan then nan
    else num (cellValue2 nx ny (fun i j => (f i j).get) X Y)
  else num 0

/-- The velocity at a position, zero for particles that are lost (`cvttsd2si` of NaN is negative). -/
noncomputable def maskedFlow (nx ny : ℕ) (x0 dx y0 dy : ℝ) (f : ℕ → ℕ → ℕ → Miss ℝ)
    (z : Fin 2 → Miss ℝ) (c : Fin 2) : Miss ℝ :=
  match z 0, z 1 with
  | num x, num y => maskedValue nx ny (f c) ((x - x0) / dx) ((y - y0) / dy)
  | _, _ => num 0

/-- Snapshots of velocities with gaps, `f j c a b` component `c` at node `(a, b)` in snapshot `j`,
listed with `x` varying fastest; the coordinates are complete and handed out in every step. -/
structure MaskedGrid (fs : MatFS (Miss ℝ)) (s : FileSource (Miss ℝ)) (nx ny : ℕ)
    (x0 dx y0 dy : ℝ) (f : ℕ → ℕ → ℕ → ℕ → Miss ℝ) : Prop where
  fresh : s.reuseCoordinates = false
  hnx : 2 ≤ nx
  hny : 2 ≤ ny
  lnx : (nx : ℤ) < intLim
  lny : (ny : ℤ) < intLim
  hdx : 0 < dx
  hdy : 0 < dy
  data : ∀ j < s.snapshotFiles.length, ∃ V P, s.Listed fs j V P ∧
    V.shape = [2, nx * ny] ∧ P.shape = [2, nx * ny] ∧
    (∀ a < nx, ∀ b < ny, P.get [0, a + nx * b] = num (x0 + a * dx) ∧
      P.get [1, a + nx * b] = num (y0 + b * dy)) ∧
    ∀ a < nx, ∀ b < ny, ∀ c < 2, V.get [c, a + nx * b] = f j c a b

/-- Coordinates whose cell number is not the largest `int` (its successor wraps). -/
def NoWrap (x0 dx : ℝ) (z : Miss ℝ) : Prop := ∀ x, z = num x → ⌊(x - x0) / dx⌋ ≠ intLim - 1

end spec

/-- The x86 machine on numbers with NaNs. -/
noncomputable def x86Miss : CMachine (Miss ℝ) :=
  Miss.machine (x86 (fun q : ℝ => ⌊q⌋) (fun z : ℤ => (z : ℝ)))

theorem x86Miss_conv {p : Miss ℝ} (h : ∀ x, p = num x → ⌊x⌋ ≠ intLim - 1) :
    ∃ f : ℤ, Conv x86Miss (fun a => ⌊a.get⌋) (some p) f ∧
      (0 ≤ f → ∃ x, p = num x ∧ ⌊x⌋ = f) ∧
      (∀ x, p = num x → ∀ n : ℕ, (n : ℤ) < intLim → InCells n x → f = ⌊x⌋) := by
  cases p with
  | num q =>
    have h1 := conv_x86 (floor := fun q : ℝ => ⌊q⌋) (ofInt := fun z : ℤ => (z : ℝ)) (p := some q)
      (by intro q' e; cases e; exact h q rfl)
    refine ⟨_, miss_conv h1, fun h0 => ?_, ?_⟩
    · obtain ⟨q', e, hf⟩ := h1.fin h0
      cases e
      exact ⟨q, rfl, hf⟩
    · intro x e n hn hx
      cases e
      have := (inCells_iff.1 hx)
      have hr : InInt32 ⌊q⌋ := ⟨by omega, by omega⟩
      simp only [x86Floor, hr, if_true]
  | nan =>
    have h1 := conv_x86 (floor := fun q : ℝ => ⌊q⌋) (ofInt := fun z : ℤ => (z : ℝ)) (p := none)
      (by intro q' e; cases e)
    refine ⟨_, ⟨h1.cast, h1.succ, fun h0 => ?_⟩, fun h0 => ?_, fun x e => by cases e⟩
    · obtain ⟨q', e, -⟩ := h1.fin h0
      cases e
    · obtain ⟨q', e, -⟩ := h1.fin h0
      cases e

/-- The 2-D kernel at any position. -/
theorem masked_anywhere {nx ny : ℕ} (hnx : (nx : ℤ) < intLim) (hny : (ny : ℤ) < intLim)
    {v : NDArray (Miss ℝ)} (hs : v.shape = [nx, ny]) {p q : Miss ℝ}
    (hp : ∀ x, p = num x → ⌊x⌋ ≠ intLim - 1) (hq : ∀ y, q = num y → ⌊y⌋ ≠ intLim - 1) :
    interp2dAt x86Miss v nx ny (some p) (some q) = .ok (match (generalizing := false) p, q with
      | num X, num Y => maskedValue nx ny (fun i j => v.get [i, j]) X Y
      | _, _ => num 0) := by
  obtain ⟨f, hf, f1, f2⟩ := x86Miss_conv hp
  obtain ⟨g, hg, g1, g2⟩ := x86Miss_conv hq
  by_cases hc : 0 ≤ f ∧ f + 1 < nx ∧ 0 ≤ g ∧ g + 1 < ny
  · obtain ⟨X, rfl, hX⟩ := f1 hc.1
    obtain ⟨Y, rfl, hY⟩ := g1 hc.2.2.1
    have cX : InCells nx X := inCells_iff.2 (by omega)
    have cY : InCells ny Y := inCells_iff.2 (by omega)
    have := masked_2d (m := x86 (fun q : ℝ => ⌊q⌋) (fun z : ℤ => (z : ℝ))) (.inr rfl) hnx hny hs cX cY
    simp only [maskedValue, cX, cY, and_self, if_true]
    refine this.trans ?_
    congr
  · rw [interp2dAt_out hnx hny hf hg hc]
    cases p with
    | nan => rfl
    | num X =>
      cases q with
      | nan => rfl
      | num Y =>
        have : ¬ (InCells nx X ∧ InCells ny Y) := by
          rintro ⟨cX, cY⟩
          have e1 := f2 X rfl nx hnx cX
          have e2 := g2 Y rfl ny hny cY
          have c1 := inCells_iff.1 cX
          have c2 := inCells_iff.1 cY
          exact hc (by omega)
        simp only [maskedValue, this, if_false]
        rfl

theorem axisOf_miss {a : NDArray (Miss ℝ)} {b : NDArray ℝ} {n : ℕ}
    (h : a.toList = b.toList.map num) {x0 dx : ℝ} (hb : axisOf b n = .ok ⟨x0, some dx⟩) :
    axisOf a n = .ok ⟨num x0, some (num dx)⟩ := by
  have fmin : ∀ (l : List ℝ) (x : ℝ), (l.map num).foldl min (num x) = num (l.foldl min x) := by
    intro l
    induction l with
    | nil => exact fun x => rfl
    | cons y l ih => exact fun x => ih (min x y)
  have fmax : ∀ (l : List ℝ) (x : ℝ), (l.map num).foldl max (num x) = num (l.foldl max x) := by
    intro l
    induction l with
    | nil => exact fun x => rfl
    | cons y l ih => exact fun x => ih (max x y)
  unfold axisOf npMin npMax at hb ⊢
  rw [h]
  cases hl : b.toList with
  | nil => rw [hl] at hb; cases hb
  | cons x l =>
    rw [hl] at hb
    simp only [List.map_cons, fmin, fmax]
    simp only [Except.ok.injEq, Axis.linspace, Axis.mk.injEq] at hb ⊢
    obtain ⟨h1, h2⟩ := hb
    refine ⟨congrArg num h1, ?_⟩
    split at h2
    · cases h2
    · rename_i hn
      injection h2 with h2
      rw [if_neg hn, ← h2]
      rfl

theorem MaskedGrid.axis {n N c : ℕ} {x0 dx : ℝ} (hn : 2 ≤ n) (hdx : 0 < dx) {p : NDArray (Miss ℝ)}
    (h1 : ∀ q < N, ∃ a < n, p.get [c, q] = num (x0 + a * dx))
    (h2 : ∀ a < n, ∃ q < N, p.get [c, q] = num (x0 + a * dx)) (A : NDArray (Miss ℝ))
    (hA : A.toList = ((List.range N).map fun q => p.get [c, q])) :
    axisOf A n = .ok ⟨num x0, some (num dx)⟩ := by
  have hv : AxisValues (⟨p.shape, fun i => (p.get i).get⟩ : NDArray ℝ) N c n x0 dx := by
    constructor
    · intro q hq
      obtain ⟨a, ha, e⟩ := h1 q hq
      exact ⟨a, ha, by simp only [e]; rfl⟩
    · intro a ha
      obtain ⟨q, hq, e⟩ := h2 a ha
      exact ⟨q, hq, by simp only [e]; rfl⟩
  have hl : (⟨A.shape, fun i => (A.get i).get⟩ : NDArray ℝ).toList = A.toList.map Miss.get := by
    unfold NDArray.toList
    rw [List.map_map]
    rfl
  refine axisOf_miss (b := ⟨A.shape, fun i => (A.get i).get⟩) ?_ (axisOf_uniform hn hdx
    (p := ⟨p.shape, fun i => (p.get i).get⟩) (N := N) (c := c) ?_ hv)
  · rw [hl, hA, List.map_map, List.map_map]
    refine List.map_congr_left fun q hq => ?_
    obtain ⟨a, -, e⟩ := h1 q (List.mem_range.1 hq)
    simp only [Function.comp_apply, e]
    rfl
  · rw [hl, hA, List.map_map]
    rfl

theorem masked_index {x0 dx : ℝ} (hdx : 0 < dx) (z : Miss ℝ) :
    (⟨num x0, some (num dx)⟩ : Axis (Miss ℝ)).index z = some ((z - num x0) / num dx) := by
  unfold Axis.index
  simp only
  rw [if_neg]
  intro e
  have e : (num dx : Miss ℝ) = num 0 := e
  injection e with e
  exact hdx.ne' e

theorem NoWrap.index {x0 dx : ℝ} {z : Miss ℝ} (h : NoWrap x0 dx z) :
    ∀ q, (z - num x0) / num dx = num q → ⌊q⌋ ≠ intLim - 1 := by
  intro q e
  cases z with
  | num x =>
    simp only [num_sub, num_div] at e
    injection e with e
    rw [← e]
    exact h x rfl
  | nan => simp at e

/-- The interpolator after the update of step `j`. -/
theorem masked_updated {env : Env (Miss ℝ) FVal} (hm : env.m = x86Miss) {s : FileSource (Miss ℝ)}
    {nx ny : ℕ} {x0 dx y0 dy : ℝ} {f : ℕ → ℕ → ℕ → ℕ → Miss ℝ}
    (hd : MaskedGrid env.fs s nx ny x0 dx y0 dy f) (j : ℕ) (hj : j < s.snapshotFiles.length) (R : ℕ) :
    ((Source.file s).updated env (.highPerf (HighPerf.fresh [nx, ny])) (j + 1)).2 = none ∧
      PointwiseOn {z | NoWrap x0 dx (z 0) ∧ NoWrap y0 dy (z 1)} R
        (((Source.file s).updated env (.highPerf (HighPerf.fresh [nx, ny])) (j + 1)).1.velocity env)
        (maskedFlow nx ny x0 dx y0 dy (f j)) := by
  have hnx := hd.hnx
  have hny := hd.hny
  have upd : ∀ (s' : HighPerf (Miss ℝ)) (V P : NDArray (Miss ℝ)), s'.gridShape = [nx, ny] →
      V.shape = [2, nx * ny] → P.shape = [2, nx * ny] →
      (∀ a < nx, ∀ b < ny, P.get [0, a + nx * b] = num (x0 + a * dx) ∧
        P.get [1, a + nx * b] = num (y0 + b * dy)) →
      ∃ s2 x y, s'.update V (some P) = (s2, none) ∧ s2.gridShape = [nx, ny] ∧ s2.ix = some x ∧
        s2.iy = some y ∧
        (x.axes = [⟨num x0, some (num dx)⟩, ⟨num y0, some (num dy)⟩] ∧
          x.v.shape = [nx, ny] ∧ ∀ i j, i < nx → j < ny → x.v.get [i, j] = V.get [0, i + nx * j]) ∧
        y.axes = [⟨num x0, some (num dx)⟩, ⟨num y0, some (num dy)⟩] ∧
          y.v.shape = [nx, ny] ∧ ∀ i j, i < nx → j < ny → y.v.get [i, j] = V.get [1, i + nx * j] := by
    intro s' V P hg hV hP hlist
    have lt : ∀ a < nx, ∀ b < ny, a + nx * b < nx * ny := by
      intro a ha b hb
      nlinarith
    have split : ∀ q < nx * ny, q % nx < nx ∧ q / nx < ny ∧ q % nx + nx * (q / nx) = q := fun q hq =>
      ⟨Nat.mod_lt _ (by omega), Nat.div_lt_of_lt_mul hq, Nat.mod_add_div q nx⟩
    obtain ⟨x, y, b1, b2, b3⟩ := build_axes_2d hP hV
      (MaskedGrid.axis hnx hd.hdx (fun q hq => by
          obtain ⟨h1, h2, h3⟩ := split q hq
          exact ⟨_, h1, by rw [← (hlist _ h1 _ h2).1, h3]⟩)
        fun a ha => ⟨_, lt a ha 0 (by omega), (hlist a ha 0 (by omega)).1⟩)
      (MaskedGrid.axis hny hd.hdy (fun q hq => by
          obtain ⟨h1, h2, h3⟩ := split q hq
          exact ⟨_, h2, by rw [← (hlist _ h1 _ h2).2, h3]⟩)
        fun b hb => ⟨_, lt 0 (by omega) b hb, (hlist 0 (by omega) b hb).2⟩)
    unfold HighPerf.update HighPerf.initialize
    simp only [hg, b1]
    exact ⟨_, x, y, rfl, rfl, rfl, rfl, b2, b3⟩
  have dataOf : ∀ i V P, s.Listed env.fs i V P → s.dataForStep env.fs i = .ok (V, some P) := by
    rintro i V P ⟨⟨f, f1, f2⟩, ⟨g, g1, g2⟩⟩
    unfold FileSource.dataForStep
    simp [f1, f2, g1, g2, hd.fresh]
  have shape : ∀ i ≤ s.snapshotFiles.length, ∃ s' : HighPerf (Miss ℝ), s'.gridShape = [nx, ny] ∧
      (Source.file s).updated env (.highPerf (HighPerf.fresh [nx, ny])) i = (.highPerf s', none) := by
    intro i
    induction i with
    | zero => exact fun _ => ⟨_, rfl, rfl⟩
    | succ i ih =>
      intro hi
      obtain ⟨s', h1, h2⟩ := ih (by omega)
      obtain ⟨V, P, a1, a2, a3, a4, -⟩ := hd.data i (by omega)
      obtain ⟨s2, x, y, b1, b2, -⟩ := upd s' V P h1 a2 a3 a4
      refine ⟨s2, b2, ?_⟩
      simp only [Source.updated, h2, Source.updateInterp, dataOf i V P a1, AnyInterp.update, b1]
  obtain ⟨V, P, a1, a2, a3, a4, a5⟩ := hd.data j hj
  obtain ⟨s', h1, h2⟩ := shape j hj.le
  obtain ⟨s2, x, y, b1, -, b3, b4, ⟨x1, x2, x3⟩, y1, y2, y3⟩ := upd s' V P h1 a2 a3 a4
  have hu : (Source.file s).updated env (.highPerf (HighPerf.fresh [nx, ny])) (j + 1) =
      (.highPerf s2, none) := by
    simp only [Source.updated, h2, Source.updateInterp, dataOf j _ _ a1, AnyInterp.update, b1]
  rw [hu]
  refine ⟨rfl, fun pos hp hS => ?_⟩
  have call : ∀ (it : Interp (Miss ℝ)) (c : Fin 2),
      it.axes = [⟨num x0, some (num dx)⟩, ⟨num y0, some (num dy)⟩] →
      it.v.shape = [nx, ny] →
      (∀ i k, i < nx → k < ny → it.v.get [i, k] = V.get [c, i + nx * k]) →
      it.call env.m R 2 (fun r c => pos.get [r, c]) (some R) = .ok ((List.range R).map fun r =>
        maskedFlow nx ny x0 dx y0 dy (f j) (rowOf pos 2 r) c) := by
    intro it c i1 i2 i3
    refine interp_call_2d i1 i2 fun r hr => ?_
    have hr0 : NoWrap x0 dx (pos.get [r, 0]) := (hS r hr).1
    have hr1 : NoWrap y0 dy (pos.get [r, 1]) := (hS r hr).2
    rw [hm, masked_index hd.hdx, masked_index hd.hdy,
      masked_anywhere hd.lnx hd.lny i2 hr0.index hr1.index]
    congr 1
    have e0 : rowOf pos 2 r 0 = pos.get [r, 0] := rfl
    have e1 : rowOf pos 2 r 1 = pos.get [r, 1] := rfl
    unfold maskedFlow
    rw [e0, e1]
    cases pos.get [r, 0] with
    | nan => rfl
    | num X =>
      cases pos.get [r, 1] with
      | nan => rfl
      | num Y =>
        simp only [num_sub, num_div]
        unfold maskedValue
        split
        · rename_i hc
          obtain ⟨-, k1⟩ := inCells_cell hc.1
          obtain ⟨-, k2⟩ := inCells_cell hc.2
          have v : ∀ a b, a < nx → b < ny → it.v.get [a, b] = f j c a b := fun a b ha hb => by
            rw [i3 a b ha hb, a5 a ha b hb c c.2]
          beta_reduce
          rw [v _ _ (by omega) (by omega), v _ _ (by omega) (by omega), v _ _ (by omega) (by omega),
            v _ _ (by omega) (by omega)]
          congr 2
          exact cellValue2_congr (fun a b ha hb => by rw [v a b ha hb]) _ _
        · rfl
  obtain ⟨out, o1, o2, o3⟩ := highPerf_calls_2d env.junk b3 b4 hp
    (call x 0 x1 x2 x3) (call y 1 y1 y2 y3)
  refine ⟨out, o1, o2, fun r hr => ?_⟩
  funext c
  fin_cases c
  · exact (o3 r hr).1
  · exact (o3 r hr).2

/-- `z` lies in a cell one of whose corners has no velocity. -/
def InGap (nx ny : ℕ) (x0 dx y0 dy : ℝ) (f : ℕ → ℕ → ℕ → Miss ℝ) (z : Fin 2 → ℝ) : Prop :=
  InCells nx ((z 0 - x0) / dx) ∧ InCells ny ((z 1 - y0) / dy) ∧ ∃ c < 2, ∃ a ≤ 1, ∃ b ≤ 1,
    f c (cellOf ((z 0 - x0) / dx) + a) (cellOf ((z 1 - y0) / dy) + b) = nan

theorem maskedFlow_nan {nx ny : ℕ} {x0 dx y0 dy : ℝ} {f : ℕ → ℕ → ℕ → Miss ℝ} {z : Fin 2 → Miss ℝ} :
    (∃ c, maskedFlow nx ny x0 dx y0 dy f z c = nan) ↔
      ∃ y : Fin 2 → ℝ, z = (fun c => num (y c)) ∧ InGap nx ny x0 dx y0 dy f y := by
  constructor
  · rintro ⟨c, hc⟩
    unfold maskedFlow at hc
    cases e0 : z 0 with
    | nan => rw [e0] at hc; cases hc
    | num x =>
      cases e1 : z 1 with
      | nan => rw [e0, e1] at hc; cases hc
      | num y =>
        rw [e0, e1] at hc
        simp only [maskedValue] at hc
        split at hc
        · rename_i hin
          split at hc
          · rename_i hcor
            refine ⟨![x, y], ?_, hin.1, hin.2, c, c.2, ?_⟩
            · funext c
              fin_cases c
              · exact e0
              · exact e1
            · rcases hcor with h | h | h | h
              · exact ⟨0, by omega, 0, by omega, h⟩
              · exact ⟨1, by omega, 0, by omega, h⟩
              · exact ⟨0, by omega, 1, by omega, h⟩
              · exact ⟨1, by omega, 1, by omega, h⟩
          · cases hc
        · cases hc
  · rintro ⟨y, rfl, h1, h2, c, hc, a, ha, b, hb, hn⟩
    refine ⟨⟨c, hc⟩, ?_⟩
    simp only [maskedFlow, maskedValue]
    rw [if_pos ⟨h1, h2⟩, if_pos]
    interval_cases a <;> interval_cases b
    · exact .inl hn
    · exact .inr (.inr (.inl hn))
    · exact .inr (.inl hn)
    · exact .inr (.inr (.inr hn))

/-- **C91: runs on masked grids.**  For all grids with gaps, integrators, numbers of snapshots and of
groups, on x86-64, as long as no particle reaches cell number `2^31 - 1`: the run ends normally; a
group gets NaN exactly if one of its particles is evaluated in a cell with a missing corner; and the
value of every other group is the exponent of the flow interpolated from any completion of the data:
whatever stands in the gaps does not matter. -/
theorem C91_masked_run {env : Env (Miss ℝ) FVal} (he : MissEnv env) (hm : env.m = x86Miss)
    {s : FileSource (Miss ℝ)} {nx ny : ℕ} {x0 dx y0 dy : ℝ} {f : ℕ → ℕ → ℕ → ℕ → Miss ℝ}
    (hd : MaskedGrid env.fs s nx ny x0 dx y0 dy f) (k : Kind) (queue : Bool) {N : ℕ}
    {seed : NDArray (Miss ℝ)} {p : Particles (Miss ℝ)} (hs : seed.shape = [4 * N, 2])
    (hp : mkParticles seed = .ok p) (hg : (Source.file s).getParticles env.fs = .ok p)
    (x : ℕ → Fin 4 → Fin 2 → ℝ) (hx : ∀ i < N, groupOf seed 4 N 2 i = fun b c => num (x i b c))
    (hsep : ∀ i < N, Separate2 (x i)) {h : ℝ} (hh : s.timestep = num h) (h0 : h ≠ 0)
    (hn : s.snapshotFiles.length ≠ 1)
    (hS : ∀ i < N, ∀ b, ∀ j < s.snapshotFiles.length,
      ∀ z ∈ stages k (maskedFlow nx ny x0 dx y0 dy (f j)) (num h)
        (flowMap k (fun j => maskedFlow nx ny x0 dx y0 dy (f j)) (num h) j fun c => num (x i b c)),
      NoWrap x0 dx (z 0) ∧ NoWrap y0 dy (z 1)) :
    ∃ L : ℕ → FVal,
      ((⟨.file s, .highPerf (HighPerf.fresh [nx, ny]), .fresh k⟩ : Solver (Miss ℝ)).run env queue
        none).result = .ok (some ((List.range N).map L)) ∧
      ∀ i < N,
        (L i = .nan ↔ ∃ b, ∃ j < s.snapshotFiles.length, ∃ y : Fin 2 → ℝ,
          (fun c => num (y c)) ∈ stages k (maskedFlow nx ny x0 dx y0 dy (f j)) (num h)
            (flowMap k (fun j => maskedFlow nx ny x0 dx y0 dy (f j)) (num h) j
              fun c => num (x i b c)) ∧
          InGap nx ny x0 dx y0 dy (f j) y) ∧
        ∀ F : ℕ → ℕ → ℕ → ℕ → ℝ, (∀ j c a b, f j c a b = nan ∨ f j c a b = num (F j c a b)) →
          L i ≠ .nan → ∃ σ, IsMaxStretch (diffs2 (fun b => flowMap k
            (fun j z c => cellValue2 nx ny (F j c) ((z 0 - x0) / dx) ((z 1 - y0) / dy)) h
            s.snapshotFiles.length (x i b)) (x i)) σ ∧
            L i = ftleVal σ (((s.snapshotFiles.length : ℝ) - 1) * |h|) := by
  set g : ℕ → (Fin 2 → Miss ℝ) → Fin 2 → Miss ℝ := fun j => maskedFlow nx ny x0 dx y0 dy (f j) with hgd
  have hnum : (Source.file s).numSteps = s.snapshotFiles.length := rfl
  have hts : (Source.file s).timestep = num h := hh
  obtain ⟨L, h1, h2⟩ := missing_core_2d he (.file s) k g N seed
    (res := ((⟨.file s, .highPerf (HighPerf.fresh [nx, ny]), .fresh k⟩ : Solver (Miss ℝ)).run env queue
        none).result) (fun js hjs => by rw [run_flow_on_2d env (.file s) (I0 := .highPerf (HighPerf.fresh [nx, ny]))
      rfl k g (fun _ => {z | NoWrap x0 dx (z 0) ∧ NoWrap y0 dy (z 1)})
      (fun i hi => (masked_updated hm hd i hi (4 * N)).1) N
      (fun i hi => (masked_updated hm hd i hi (4 * N)).2) rfl seed p queue hs hp hg
      (fun i hi b j hj z hz => by
        rw [hts, hx i hi] at hz
        exact hS i hi b j hj z hz), hjs]) x hx hsep hts h0 hn
  refine ⟨L, h1, fun i hi => ⟨?_, fun F hF hL => ?_⟩⟩
  · rw [(h2 i hi).1]
    constructor
    · rintro ⟨b, j, hj, z, hz, hc⟩
      obtain ⟨y, rfl, hy⟩ := maskedFlow_nan.1 hc
      exact ⟨b, j, hj, y, hz, hy⟩
    · rintro ⟨b, j, hj, y, hz, hy⟩
      exact ⟨b, j, hj, _, hz, maskedFlow_nan.2 ⟨y, rfl, hy⟩⟩
  · have hno : ∀ b, ¬ Meets k g (num h) s.snapshotFiles.length fun c => num (x i b c) := fun b hb =>
      hL ((h2 i hi).1.2 ⟨b, hb⟩)
    refine (h2 i hi).2 _ fun b => known_of_agree (fun j z hz => ?_) (hno b)
    funext c
    have hz := hz c
    simp only [hgd, maskedFlow, maskedValue] at hz ⊢
    split
    · rename_i hin
      rw [if_pos hin] at hz
      split
      · rename_i hcor
        exact absurd (if_pos hcor) hz
      · rename_i hcor
        simp only [not_or] at hcor
        congr 1
        unfold cellValue2
        rw [if_pos hin, if_pos hin]
        have v : ∀ a b, f j c a b ≠ nan → (f j c a b).get = F j c a b := by
          intro a b hab
          rcases hF j c a b with e | e
          · exact absurd e hab
          · rw [e]; rfl
        simp only [v _ _ hcor.1, v _ _ hcor.2.1, v _ _ hcor.2.2.1, v _ _ hcor.2.2.2]
    · rename_i hin
      unfold cellValue2
      rw [if_neg hin]

end Verif
