import Verif.Py.NDArray
import Mathlib.Tactic.Linarith

/-!
# Index arithmetic: the C- and F-order numberings are bijections
-/

namespace Verif

theorem ValidIdx.length_eq {sh idx : List ℕ} (h : ValidIdx sh idx) : idx.length = sh.length :=
  List.Forall₂.length_eq h

@[simp] theorem validIdx_nil : ValidIdx [] [] := List.Forall₂.nil

@[simp] theorem validIdx_cons {n i : ℕ} {ns is : List ℕ} :
    ValidIdx (n :: ns) (i :: is) ↔ i < n ∧ ValidIdx ns is := by
  simp [ValidIdx]

@[simp] theorem not_validIdx_nil_cons {i : ℕ} {is : List ℕ} : ¬ ValidIdx [] (i :: is) := by
  intro h; cases h

@[simp] theorem not_validIdx_cons_nil {n : ℕ} {ns : List ℕ} : ¬ ValidIdx (n :: ns) [] := by
  intro h; cases h

theorem encC_lt {sh idx : List ℕ} (h : ValidIdx sh idx) : encC sh idx < sh.prod := by
  induction sh generalizing idx with
  | nil => cases h; simp [encC]
  | cons n ns ih =>
    cases idx with
    | nil => simp at h
    | cons i is =>
      simp only [validIdx_cons] at h
      have h2 := ih h.2
      simp only [encC, List.prod_cons]
      calc i * ns.prod + encC ns is < i * ns.prod + ns.prod := by omega
        _ = (i + 1) * ns.prod := by ring
        _ ≤ n * ns.prod := Nat.mul_le_mul_right _ h.1

theorem decC_encC {sh idx : List ℕ} (h : ValidIdx sh idx) : decC sh (encC sh idx) = idx := by
  induction sh generalizing idx with
  | nil => cases h; simp [decC]
  | cons n ns ih =>
    cases idx with
    | nil => simp at h
    | cons i is =>
      simp only [validIdx_cons] at h
      have hlt := encC_lt h.2
      have hpos : 0 < ns.prod := by omega
      simp only [encC, decC]
      rw [Nat.mul_comm i, Nat.mul_add_div hpos, Nat.mul_add_mod, Nat.div_eq_of_lt hlt,
        Nat.mod_eq_of_lt hlt, ih h.2]
      simp

theorem validIdx_decC {sh : List ℕ} {k : ℕ} (h : k < sh.prod) : ValidIdx sh (decC sh k) := by
  induction sh generalizing k with
  | nil => simp [decC]
  | cons n ns ih =>
    simp only [List.prod_cons] at h
    have hpos : 0 < ns.prod := by
      rcases Nat.eq_zero_or_pos ns.prod with h0 | h0
      · rw [h0] at h; simp at h
      · exact h0
    simp only [decC, validIdx_cons]
    exact ⟨(Nat.div_lt_iff_lt_mul hpos).2 h, ih (Nat.mod_lt _ hpos)⟩

theorem encC_decC {sh : List ℕ} {k : ℕ} (h : k < sh.prod) : encC sh (decC sh k) = k := by
  induction sh generalizing k with
  | nil => simp [encC] at *; omega
  | cons n ns ih =>
    simp only [List.prod_cons] at h
    have hpos : 0 < ns.prod := by
      rcases Nat.eq_zero_or_pos ns.prod with h0 | h0
      · rw [h0] at h; simp at h
      · exact h0
    simp only [decC, encC]
    rw [ih (Nat.mod_lt _ hpos)]
    exact Nat.div_add_mod' k _

theorem encF_lt {sh idx : List ℕ} (h : ValidIdx sh idx) : encF sh idx < sh.prod := by
  induction sh generalizing idx with
  | nil => cases h; simp [encF]
  | cons n ns ih =>
    cases idx with
    | nil => simp at h
    | cons i is =>
      simp only [validIdx_cons] at h
      have h2 := ih h.2
      simp only [encF, List.prod_cons]
      calc i + n * encF ns is < n + n * encF ns is := by omega
        _ = n * (encF ns is + 1) := by ring
        _ ≤ n * ns.prod := Nat.mul_le_mul_left _ h2

theorem decF_encF {sh idx : List ℕ} (h : ValidIdx sh idx) : decF sh (encF sh idx) = idx := by
  induction sh generalizing idx with
  | nil => cases h; simp [decF]
  | cons n ns ih =>
    cases idx with
    | nil => simp at h
    | cons i is =>
      simp only [validIdx_cons] at h
      have hpos : 0 < n := by omega
      simp only [encF, decF]
      rw [Nat.add_mul_mod_self_left, Nat.mod_eq_of_lt h.1, Nat.add_mul_div_left _ _ hpos,
        Nat.div_eq_of_lt h.1, Nat.zero_add, ih h.2]

theorem validIdx_decF {sh : List ℕ} {k : ℕ} (h : k < sh.prod) : ValidIdx sh (decF sh k) := by
  induction sh generalizing k with
  | nil => simp [decF]
  | cons n ns ih =>
    simp only [List.prod_cons] at h
    have hpos : 0 < n := by
      rcases Nat.eq_zero_or_pos n with h0 | h0
      · rw [h0] at h; simp at h
      · exact h0
    simp only [decF, validIdx_cons]
    exact ⟨Nat.mod_lt _ hpos, ih ((Nat.div_lt_iff_lt_mul hpos).2 (by rwa [Nat.mul_comm] at h))⟩

theorem encF_decF {sh : List ℕ} {k : ℕ} (h : k < sh.prod) : encF sh (decF sh k) = k := by
  induction sh generalizing k with
  | nil => simp [encF] at *; omega
  | cons n ns ih =>
    simp only [List.prod_cons] at h
    have hpos : 0 < n := by
      rcases Nat.eq_zero_or_pos n with h0 | h0
      · rw [h0] at h; simp at h
      · exact h0
    simp only [decF, encF]
    rw [ih ((Nat.div_lt_iff_lt_mul hpos).2 (by rwa [Nat.mul_comm] at h))]
    exact Nat.mod_add_div k n

end Verif
