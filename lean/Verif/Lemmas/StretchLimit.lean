import Verif.Lemmas.EndToEnd
import Mathlib.Analysis.InnerProductSpace.PiL2

/-!
# Continuity of the maximal stretching, limits of FTLE fields
-/

namespace Verif

open Matrix Filter Topology

variable {d : ℕ}

theorem len_eq_norm (v : Fin d → ℝ) : len v = ‖WithLp.toLp 2 v‖ := by
  rw [EuclideanSpace.norm_eq, len]
  congr 1
  simp [dotProduct, sq]

theorem len_add_le (u v : Fin d → ℝ) : len (u + v) ≤ len u + len v := by
  rw [len_eq_norm, len_eq_norm, len_eq_norm]
  exact norm_add_le (WithLp.toLp 2 u) (WithLp.toLp 2 v)

theorem abs_le_len (v : Fin d → ℝ) (i : Fin d) : |v i| ≤ len v := by
  rw [len_eq_norm]
  exact PiLp.norm_apply_le (WithLp.toLp 2 v) i

theorem len_le_sum (v : Fin d → ℝ) : len v ≤ ∑ i, |v i| := by
  unfold len
  rw [Real.sqrt_le_left (Finset.sum_nonneg fun i _ => abs_nonneg _)]
  calc v ⬝ᵥ v = ∑ i, |v i| ^ 2 := by simp [dotProduct, sq]
    _ ≤ (∑ i, |v i|) ^ 2 := Finset.sum_sq_le_sq_sum_of_nonneg fun i _ => abs_nonneg _

theorem maxStretch_le_add {A B : Matrix (Fin d) (Fin d) ℝ} {s t : ℝ} (hs : IsMaxStretch A s)
    (ht : IsMaxStretch B t) : s ≤ t + ∑ i, ∑ j, |A i j - B i j| := by
  obtain ⟨⟨u, hu, rfl⟩, -⟩ := hs
  have e : A *ᵥ u = B *ᵥ u + (A - B) *ᵥ u := by rw [sub_mulVec]; abel
  rw [e]
  refine (len_add_le _ _).trans (add_le_add (ht.2 ⟨u, hu, rfl⟩) ?_)
  refine (len_le_sum _).trans (Finset.sum_le_sum fun i _ => ?_)
  have e2 : ((A - B) *ᵥ u) i = ∑ j, (A i j - B i j) * u j := rfl
  rw [e2]
  refine (Finset.abs_sum_le_sum_abs (fun j => (A i j - B i j) * u j) Finset.univ).trans
    (Finset.sum_le_sum fun j _ => ?_)
  rw [abs_mul]
  have := abs_le_len u j
  rw [hu] at this
  exact mul_le_of_le_one_right (abs_nonneg _) this

/-- The maximal stretching is continuous. -/
theorem maxStretch_tendsto {ι : Type*} {l : Filter ι} {A : ι → Matrix (Fin d) (Fin d) ℝ}
    {B : Matrix (Fin d) (Fin d) ℝ} (hA : ∀ i j, Tendsto (fun p => A p i j) l (𝓝 (B i j)))
    {s : ι → ℝ} {t : ℝ} (hs : ∀ p, IsMaxStretch (A p) (s p)) (ht : IsMaxStretch B t) :
    Tendsto s l (𝓝 t) := by
  have hsum : Tendsto (fun p => ∑ i, ∑ j, |A p i j - B i j|) l (𝓝 0) := by
    have : (0 : ℝ) = ∑ i : Fin d, ∑ j : Fin d, |B i j - B i j| := by simp
    rw [this]
    exact tendsto_finsetSum _ fun i _ => tendsto_finsetSum _ fun j _ =>
      ((hA i j).sub tendsto_const_nhds).abs
  have h1 := tendsto_const_nhds (x := t) (f := l) |>.sub hsum
  have h2 := tendsto_const_nhds (x := t) (f := l) |>.add hsum
  rw [sub_zero] at h1
  rw [add_zero] at h2
  refine tendsto_of_tendsto_of_tendsto_of_le_of_le h1 h2 (fun p => ?_) (fun p => ?_)
  · have := maxStretch_le_add ht (hs p)
    simp only [abs_sub_comm (B _ _)] at this
    show t - _ ≤ s p
    linarith
  · exact maxStretch_le_add (hs p) ht

theorem ComputesFtle.exists_stretch {f : List (Matrix (Fin d) (Fin d) ℝ) → ℝ → Py (List FVal)}
    (hf : ComputesFtle f) (M : Matrix (Fin d) (Fin d) ℝ) : ∃ s, IsMaxStretch M s := by
  obtain ⟨s, hs, -⟩ := field_replicate hf M 1 one_ne_zero
  exact ⟨s, hs⟩

/-- FTLE fields of convergent Jacobians. -/
theorem field_tendsto {f : List (Matrix (Fin d) (Fin d) ℝ) → ℝ → Py (List FVal)}
    (hf : ComputesFtle f) {ι : Type*} {l : Filter ι} {N : ℕ} {T : ℝ} (hT : T ≠ 0)
    (J : ι → ℕ → Matrix (Fin d) (Fin d) ℝ) (D : ℕ → Matrix (Fin d) (Fin d) ℝ)
    (hJ : ∀ i < N, ∀ a b, Tendsto (fun p => J p i a b) l (𝓝 (D i a b))) (σ : ℕ → ℝ)
    (hσ : ∀ i < N, IsMaxStretch (D i) (σ i) ∧ 0 < σ i) :
    ∃ L : ι → ℕ → ℝ,
      (∀ᶠ p in l, f ((List.range N).map (J p)) T =
        .ok ((List.range N).map fun i => .fin (L p i))) ∧
      ∀ i < N, Tendsto (fun p => L p i) l (𝓝 (1 / T * Real.log (σ i))) := by
  choose S hS using hf.exists_stretch
  have ht : ∀ i < N, Tendsto (fun p => S (J p i)) l (𝓝 (σ i)) := fun i hi =>
    maxStretch_tendsto (hJ i hi) (fun p => hS (J p i)) (hσ i hi).1
  refine ⟨fun p i => 1 / T * Real.log (S (J p i)), ?_, fun i hi =>
    ((ht i hi).log (hσ i hi).2.ne').const_mul _⟩
  have hpos : ∀ᶠ p in l, ∀ i ∈ Finset.range N, 0 < S (J p i) := by
    rw [eventually_all_finset]
    intro i hi
    have hi := Finset.mem_range.1 hi
    exact (ht i hi).eventually (lt_mem_nhds (hσ i hi).2)
  filter_upwards [hpos] with p hp
  obtain ⟨vs, h1, h2⟩ := hf.value ((List.range N).map (J p)) T hT
  rw [h1]
  congr 1
  have h3 : List.Forall₂ (fun F v => v = .fin (1 / T * Real.log (S F)) ∨ S F ≤ 0)
      ((List.range N).map (J p)) vs := by
    refine h2.imp fun F v h => ?_
    obtain ⟨s, hs, rfl⟩ := h
    rw [maxStretch_unique hs (hS F)]
    rcases lt_or_ge 0 (S F) with h | h
    · exact .inl (ftleVal_pos h)
    · exact .inr h
  have hl := h3.length_eq
  apply List.ext_getElem
  · rw [← hl]; simp
  · intro i hi hi'
    have hiN : i < N := by simpa using hi'
    have h4 := h3.get (i := i) (by simpa using hiN) hi
    simp only [List.get_eq_getElem, List.getElem_map, List.getElem_range] at h4 ⊢
    rcases h4 with h4 | h4
    · exact h4
    · have := hp i (Finset.mem_range.2 hiN)
      linarith

end Verif
