import Verif.Props.GridInterp

/-!
# C27 in three dimensions
-/

namespace Verif

variable {K : Type} [Field K] [LinearOrder K] [IsStrictOrderedRing K] [FloorRing K]

/-- **C27 fails on every last grid plane.**  A node on the last plane of one of the axes yields 0
whatever value is stored there. -/
theorem C27_last_plane_fails {m : CMachine K} (hm : ExactTarget m) (X Y Z : ℕ)
    (hX : (X : ℤ) < intLim) (hY : (Y : ℤ) < intLim) (hZ : (Z : ℤ) < intLim)
    (hYZ : (Y : ℤ) * Z < intLim) (v : NDArray K) (i j k : ℕ) (hi : i < X) (hj : j < Y) (hk : k < Z)
    (h : i + 1 = X ∨ j + 1 = Y ∨ k + 1 = Z) :
    interp3dAt m v X Y Z (some (i : K)) (some (j : K)) (some (k : K)) = .ok 0 := by
  have conv : ∀ a n : ℕ, a < n → (n : ℤ) < intLim →
      Convertible (fun q : K => ⌊q⌋) (fun z : ℤ => (z : K)) m (some (a : K)) := by
    intro a n ha hn
    have hfl : ⌊(a : K)⌋ = (a : ℤ) := Int.floor_natCast a
    rcases hm with rfl | rfl
    · exact .inr ⟨rfl, _, rfl, by simp only [hfl]; omega, by simp only [hfl]; omega⟩
    · refine .inl ⟨rfl, fun q hq => ?_⟩
      cases hq
      simp only [hfl]
      omega
  refine C25_zero_outside_3d_partial (floor := fun q : K => ⌊q⌋) (ofInt := fun z : ℤ => (z : K)) hm
    X Y Z hX hY hZ hYZ v _ _ _ (conv i X hi hX) (conv j Y hj hY) (conv k Z hk hZ) ?_
  rintro ⟨⟨_, h1, -, h2⟩, ⟨_, h3, -, h4⟩, _, h5, -, h6⟩
  cases h1
  cases h3
  cases h5
  simp only [Int.floor_natCast] at h2 h4 h6
  omega

/-- **C27, nodes off the last grid planes** (`_partial`: the last plane of each axis is missing, where the
statement is false by `C27_last_plane_fails`). -/
theorem C27_interior_nodes_3d_partial {m : CMachine K} (hm : ExactTarget m) (X Y Z : ℕ)
    (hX : (X : ℤ) < intLim) (hY : (Y : ℤ) < intLim) (hZ : (Z : ℤ) < intLim)
    (hYZ : (Y : ℤ) * Z < intLim) (v : NDArray K) (hs : v.shape = [X, Y, Z]) (i j k : ℕ) (hi : i < X)
    (hj : j < Y) (hk : k < Z) (hl : i + 1 ≠ X ∧ j + 1 ≠ Y ∧ k + 1 ≠ Z) :
    interp3dAt m v X Y Z (some (i : K)) (some (j : K)) (some (k : K)) = .ok (v.get [i, j, k]) :=
  C24_node_3d hm X Y Z hX hY hZ hYZ v hs i j k (by omega) (by omega) (by omega)

example : interp3dAt exMachine exField3 3 3 3 (some ((1 : ℕ) : ℚ)) (some ((1 : ℕ) : ℚ)) (some ((2 : ℕ) : ℚ))
      = .ok 0 ∧ exField3.get [1, 1, 2] = 12 ∧
    interp3dAt exMachine exField3 3 3 3 (some ((1 : ℕ) : ℚ)) (some ((1 : ℕ) : ℚ)) (some ((1 : ℕ) : ℚ))
      = .ok (exField3.get [1, 1, 1]) :=
  ⟨C27_last_plane_fails exMachine_target 3 3 3 (by decide) (by decide) (by decide) (by decide) _ 1 1 2
    (by decide) (by decide) (by decide) (.inr (.inr rfl)), by norm_num [exField3],
   C27_interior_nodes_3d_partial exMachine_target 3 3 3 (by decide) (by decide) (by decide) (by decide) _
    rfl 1 1 1 (by decide) (by decide) (by decide) (by decide)⟩

end Verif
