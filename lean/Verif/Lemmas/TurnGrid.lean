import Verif.Lemmas.Turn
import Verif.Lemmas.Frames
import Mathlib.Data.Fintype.Pi
import Mathlib.Algebra.BigOperators.Fin
import Mathlib.Algebra.BigOperators.Field

/-!
# Multilinear interpolation on a turned grid

The interpolant as a sum over all nodes, weighted by tent functions: in this form a turn only permutes
the terms.
-/

set_option linter.unusedSectionVars false

namespace Verif

open Finset

section
variable {K : Type} [Field K] [LinearOrder K] [IsStrictOrderedRing K] [FloorRing K]

/-- The tent function: 1 at 0, 0 from distance 1 on. -/
def tent (t : K) : K := max 0 (1 - |t|)

theorem tent_neg (t : K) : tent (-t) = tent t := by rw [tent, tent, abs_neg]

theorem lerp_tent {n : ℕ} {X : K} (h : InCells n X) (f : ℕ → K) :
    lerp (f (cellOf X)) (f (cellOf X + 1)) (X - cellOf X) = ∑ a ∈ range n, tent (X - a) * f a := by
  obtain ⟨i, hi, h1, h2, h3⟩ := inCells_floor h
  have hc : cellOf X = i := by rw [cellOf, hi]; rfl
  rw [hc]
  have zero : ∀ a ∈ range n, a ∉ ({i, i + 1} : Finset ℕ) → tent (X - a) * f a = 0 := by
    intro a _ ha
    simp only [mem_insert, mem_singleton, not_or] at ha
    have far : 1 ≤ |X - a| := by
      rcases lt_or_ge a i with h' | h'
      · have : ((a + 1 : ℕ) : K) ≤ i := by exact_mod_cast h'
        push_cast at this
        exact le_trans (by linarith) (le_abs_self _)
      · have : ((i + 2 : ℕ) : K) ≤ a := by exact_mod_cast (by omega : i + 2 ≤ a)
        push_cast at this
        exact le_trans (by linarith) (neg_le_abs _)
    rw [tent, max_eq_left (by linarith), zero_mul]
  rw [← sum_subset (fun a ha => ?_) zero, sum_pair (by omega)]
  · have e1 : tent (X - i) = 1 - (X - i) := by
      rw [tent, abs_of_nonneg (by linarith), max_eq_right (by linarith)]
    have e2 : tent (X - (i + 1 : ℕ)) = X - i := by
      push_cast
      rw [tent, abs_of_nonpos (by linarith), max_eq_right (by linarith)]
      ring
    rw [e1, e2, lerp]
  · simp only [mem_insert, mem_singleton] at ha
    rw [mem_range]
    omega

/-- The sum over all nodes. -/
def tentSum {d : ℕ} (n : Fin d → ℕ) (f : (Fin d → ℕ) → K) (X : Fin d → K) : K :=
  ∑ A ∈ Fintype.piFinset (fun i => range (n i)), (∏ i, tent (X i - A i)) * f A

theorem cellValue2_tent {n : Fin 2 → ℕ} {f : (Fin 2 → ℕ) → K} {X : Fin 2 → K}
    (h : ∀ i, InCells (n i) (X i)) :
    cellValue2 (n 0) (n 1) (fun a b => f ![a, b]) (X 0) (X 1) = tentSum n f X := by
  have h2 : cellValue2 (n 0) (n 1) (fun a b => f ![a, b]) (X 0) (X 1) =
      ∑ b ∈ range (n 1), tent (X 1 - b) * ∑ a ∈ range (n 0), tent (X 0 - a) * f ![a, b] := by
    unfold cellValue2
    rw [if_pos ⟨h 0, h 1⟩]
    dsimp only
    rw [lerp_tent (h 0) (fun a => f ![a, cellOf (X 1)]),
      lerp_tent (h 0) (fun a => f ![a, cellOf (X 1) + 1]),
      lerp_tent (h 1) (fun b => ∑ a ∈ range (n 0), tent (X 0 - a) * f ![a, b])]
  rw [h2]
  simp only [mul_sum]
  rw [← sum_product', tentSum]
  refine sum_nbij' (fun p => ![p.2, p.1]) (fun A => (A 1, A 0)) ?_ ?_ ?_ ?_ ?_
  · intro p hp
    rw [mem_product] at hp
    rw [Fintype.mem_piFinset]
    intro i
    fin_cases i
    · exact hp.2
    · exact hp.1
  · intro A hA
    rw [Fintype.mem_piFinset] at hA
    exact mem_product.2 ⟨hA 1, hA 0⟩
  · intro p _
    rfl
  · intro A _
    funext i
    fin_cases i <;> rfl
  · intro p _
    rw [Fin.prod_univ_two]
    simp only [Matrix.cons_val_zero, Matrix.cons_val_one]
    ring

theorem cellValue3_tent {n : Fin 3 → ℕ} {f : (Fin 3 → ℕ) → K} {X : Fin 3 → K}
    (h : ∀ i, InCells (n i) (X i)) :
    cellValue3 (n 0) (n 1) (n 2) (fun a b e => f ![a, b, e]) (X 0) (X 1) (X 2) = tentSum n f X := by
  have h2 : cellValue3 (n 0) (n 1) (n 2) (fun a b e => f ![a, b, e]) (X 0) (X 1) (X 2) =
      ∑ e ∈ range (n 2), tent (X 2 - e) * ∑ b ∈ range (n 1), tent (X 1 - b) *
        ∑ a ∈ range (n 0), tent (X 0 - a) * f ![a, b, e] := by
    unfold cellValue3
    rw [if_pos ⟨h 0, h 1, h 2⟩]
    dsimp only
    rw [lerp_tent (h 0) (fun a => f ![a, cellOf (X 1), cellOf (X 2)]),
      lerp_tent (h 0) (fun a => f ![a, cellOf (X 1) + 1, cellOf (X 2)]),
      lerp_tent (h 0) (fun a => f ![a, cellOf (X 1), cellOf (X 2) + 1]),
      lerp_tent (h 0) (fun a => f ![a, cellOf (X 1) + 1, cellOf (X 2) + 1]),
      lerp_tent (h 1) (fun b => ∑ a ∈ range (n 0), tent (X 0 - a) * f ![a, b, cellOf (X 2)]),
      lerp_tent (h 1) (fun b => ∑ a ∈ range (n 0), tent (X 0 - a) * f ![a, b, cellOf (X 2) + 1]),
      lerp_tent (h 2) (fun e => ∑ b ∈ range (n 1), tent (X 1 - b) *
        ∑ a ∈ range (n 0), tent (X 0 - a) * f ![a, b, e])]
  rw [h2]
  simp only [mul_sum]
  rw [sum_congr rfl fun (e : ℕ) _ => (sum_product' (range (n 1)) (range (n 0)) fun b a =>
    tent (X 2 - e) * (tent (X 1 - b) * (tent (X 0 - a) * f ![a, b, e]))).symm]
  rw [← sum_product' (range (n 2)) (range (n 1) ×ˢ range (n 0)) fun (e : ℕ) p =>
    tent (X 2 - e) * (tent (X 1 - p.1) * (tent (X 0 - p.2) * f ![p.2, p.1, e])), tentSum]
  refine sum_nbij' (fun p => ![p.2.2, p.2.1, p.1]) (fun A => (A 2, A 1, A 0)) ?_ ?_ ?_ ?_ ?_
  · intro p hp
    rw [mem_product, mem_product] at hp
    rw [Fintype.mem_piFinset]
    intro i
    fin_cases i
    · exact hp.2.2
    · exact hp.2.1
    · exact hp.1
  · intro A hA
    rw [Fintype.mem_piFinset] at hA
    exact mem_product.2 ⟨hA 2, mem_product.2 ⟨hA 1, hA 0⟩⟩
  · intro p _
    rfl
  · intro A _
    funext i
    fin_cases i <;> rfl
  · intro p _
    rw [Fin.prod_univ_three]
    simp only [Matrix.cons_val_zero, Matrix.cons_val_one, Matrix.cons_val_two, Matrix.tail_cons,
      Matrix.head_cons]
    ring

theorem tentSum_neg {d : ℕ} (n : Fin d → ℕ) (f : (Fin d → ℕ) → K) (X : Fin d → K) (b : Bool) :
    tentSum n (fun A => signed b (f A)) X = signed b (tentSum n f X) := by
  cases b
  · rfl
  · simp only [tentSum, signed, if_true, mul_neg, sum_neg_distrib]

/-- The place of a point on the turned grid, in units of the spacing. -/
def Turn.place {d : ℕ} (t : Turn d) (n : Fin d → ℕ) (X : Fin d → K) : Fin d → K := fun q =>
  if t.flip q then ((n (t.perm q) - 1 : ℕ) : K) - X (t.perm q) else X (t.perm q)

theorem tentSum_turn {d : ℕ} (t : Turn d) (n : Fin d → ℕ) (f : (Fin d → ℕ) → K) (X : Fin d → K) :
    tentSum (t.along n) (fun A => f (t.node n A)) (t.place n X) = tentSum n f X := by
  unfold tentSum
  refine sum_nbij' (fun A => t.node n A)
    (fun B q => if t.flip q then n (t.perm q) - 1 - B (t.perm q) else B (t.perm q)) ?_ ?_ ?_ ?_ ?_
  · intro A hA
    rw [Fintype.mem_piFinset] at hA ⊢
    intro p
    have h := hA (t.perm.symm p)
    rw [Turn.along, Equiv.apply_symm_apply, mem_range] at h
    rw [mem_range, Turn.node]
    split_ifs
    · omega
    · exact h
  · intro B hB
    rw [Fintype.mem_piFinset] at hB ⊢
    intro q
    have h := hB (t.perm q)
    rw [mem_range] at h
    rw [mem_range, Turn.along]
    split_ifs
    · omega
    · exact h
  · intro A hA
    rw [Fintype.mem_piFinset] at hA
    funext q
    have h := hA q
    rw [Turn.along, mem_range] at h
    simp only [Turn.node, Equiv.symm_apply_apply]
    split_ifs
    · omega
    · rfl
  · intro B hB
    rw [Fintype.mem_piFinset] at hB
    funext p
    have h := hB p
    rw [mem_range] at h
    simp only [Turn.node, Equiv.apply_symm_apply]
    split_ifs
    · omega
    · rfl
  · intro A hA
    rw [Fintype.mem_piFinset] at hA
    congr 1
    rw [← Equiv.prod_comp t.perm fun p => tent (X p - t.node n A p)]
    refine prod_congr rfl fun q _ => ?_
    have h := hA q
    rw [Turn.along, mem_range] at h
    simp only [Turn.node, Turn.place, Equiv.symm_apply_apply]
    split_ifs
    · rw [← tent_neg]
      congr 1
      rw [Nat.cast_sub (by omega : A q ≤ n (t.perm q) - 1)]
      ring
    · rfl

theorem place_inCells {d : ℕ} (t : Turn d) {n : Fin d → ℕ} {X : Fin d → K}
    (h : ∀ i, InCells (n i) (X i)) (hf : ∀ q, t.flip q = true → 0 < X (t.perm q)) (q : Fin d) :
    InCells (t.along n q) (t.place n X q) := by
  unfold Turn.place Turn.along
  have h1 := h (t.perm q)
  obtain ⟨a, b⟩ := h1
  have hn : 1 ≤ n (t.perm q) := by
    have : (0 : K) < n (t.perm q) := by linarith
    exact_mod_cast this
  split_ifs with hq
  · have := hf q hq
    constructor
    · rw [Nat.cast_sub hn, Nat.cast_one]
      linarith
    · rw [Nat.cast_sub hn, Nat.cast_one]
      linarith
  · exact ⟨a, b⟩

/-- Coordinates on the turned grid. -/
theorem place_eq {d : ℕ} (t : Turn d) (n : Fin d → ℕ) {δ : Fin d → K} (hδ : ∀ i, δ i ≠ 0)
    (o z : Fin d → K) (q : Fin d) :
    (t.point z q - t.origin n δ o q) / t.along δ q =
      t.place n (fun i => (z i - o i) / δ i) q := by
  have := hδ (t.perm q)
  simp only [Turn.point, Turn.origin, Turn.place, Turn.along, signed]
  split_ifs
  · field_simp
    ring
  · rfl

/-- The interpolated velocity of the turned snapshots. -/
theorem field2_turn (t : Turn 2) {n : Fin 2 → ℕ} {δ : Fin 2 → K} (hδ : ∀ i, δ i ≠ 0)
    {o : ℕ → Fin 2 → K} {f : ℕ → Fin 2 → (Fin 2 → ℕ) → K} {j : ℕ} {z : Fin 2 → K}
    (h : ∀ i, InCells (n i) ((z i - o j i) / δ i))
    (hf : ∀ q, t.flip q = true → 0 < (z (t.perm q) - o j (t.perm q)) / δ (t.perm q)) :
    field2 (t.along n 0) (t.along n 1) (t.along δ 0) (t.along δ 1) (fun j => t.origin n δ (o j))
      (fun j c a b => t.data n (f j) c ![a, b]) j (t.point z) =
    t.point (field2 (n 0) (n 1) (δ 0) (δ 1) o (fun j c a b => f j c ![a, b]) j z) := by
  funext c
  have h' := place_inCells t h hf
  unfold field2
  rw [place_eq t n hδ, place_eq t n hδ]
  rw [cellValue2_tent (f := t.data n (f j) c) h']
  simp only [Turn.point]
  rw [cellValue2_tent (X := fun i => (z i - o j i) / δ i) h]
  unfold Turn.data
  rw [tentSum_neg, tentSum_turn t n (f j (t.perm c))]

theorem field3_turn (t : Turn 3) {n : Fin 3 → ℕ} {δ : Fin 3 → K} (hδ : ∀ i, δ i ≠ 0)
    (hn : n 1 = n 0) (hn' : t.along n 1 = t.along n 0)
    {o : ℕ → Fin 3 → K} {f : ℕ → Fin 3 → (Fin 3 → ℕ) → K} {j : ℕ} {z : Fin 3 → K}
    (h : ∀ i, InCells (n i) ((z i - o j i) / δ i))
    (hf : ∀ q, t.flip q = true → 0 < (z (t.perm q) - o j (t.perm q)) / δ (t.perm q)) :
    field3 (t.along n 0) (t.along n 2) (t.along δ 0) (t.along δ 1) (t.along δ 2)
      (fun j => t.origin n δ (o j))
      (fun j c a b e => t.data n (f j) c ![a, b, e]) j (t.point z) =
    t.point (field3 (n 0) (n 2) (δ 0) (δ 1) (δ 2) o (fun j c a b e => f j c ![a, b, e]) j z) := by
  funext c
  have h' := place_inCells t h hf
  unfold field3
  rw [place_eq t n hδ, place_eq t n hδ, place_eq t n hδ]
  have e := cellValue3_tent (f := t.data n (f j) c) h'
  rw [hn'] at e
  rw [e]
  simp only [Turn.point]
  have e := cellValue3_tent (f := f j (t.perm c)) (X := fun i => (z i - o j i) / δ i) h
  rw [hn] at e
  rw [e]
  unfold Turn.data
  rw [tentSum_neg, tentSum_turn t n (f j (t.perm c))]

end

end Verif
