import Verif.Model.FileReaders
import Verif.Model.CauchyGreen
import Verif.Lemmas.Index

/-!
# Helper lemmas about blocks of rows and the particle constructor
-/

namespace Verif

variable {K : Type*}

/-- Rows `b*m, ..., b*m + m - 1` of an array with trailing shape `rest`. -/
def NDArray.block (a : NDArray K) (m : ℕ) (rest : List ℕ) (b : ℕ) : NDArray K :=
  ⟨m :: rest, fun idx =>
    match idx with
    | r :: is => a.get ((b * m + r) :: is)
    | [] => a.get []⟩

theorem split_eq {a : NDArray K} {k m : ℕ} {rest : List ℕ} (hk : 0 < k)
    (h : a.shape = (k * m) :: rest) :
    a.split k = .ok ((List.range k).map (a.block m rest)) := by
  unfold NDArray.split
  rw [h]
  simp only [Nat.mul_mod_right, ne_eq, not_true_eq_false, if_false, Nat.mul_div_cancel_left m hk]
  rw [if_neg (by omega)]
  rfl

theorem split_bad {a : NDArray K} {k n : ℕ} {rest : List ℕ} (hk : 0 < k)
    (h : a.shape = n :: rest) (hn : n % k ≠ 0) : a.split k = .error .valueError := by
  unfold NDArray.split
  rw [h]
  simp only [if_neg (show ¬ k = 0 by omega), if_pos hn]

theorem deltaRL_eq [Sub K] {a : NDArray K} {k m : ℕ} {rest : List ℕ} (hk : 2 ≤ k)
    (h : a.shape = (k * m) :: rest) :
    ∃ A, computeDeltaRL a k = .ok A ∧ A.shape = m :: rest ∧
      ∀ i is, A.get (i :: is) = a.get ((m + i) :: is) - a.get (i :: is) := by
  unfold computeDeltaRL
  rw [split_eq (by omega) h]
  obtain ⟨k, rfl⟩ : ∃ j, k = j + 2 := ⟨k - 2, by omega⟩
  simp only [List.range_succ_eq_map, List.map_cons, List.map_map]
  refine ⟨_, by simp [NDArray.zipWith, NDArray.block]; rfl, rfl, ?_⟩
  intro i is
  simp

theorem deltaTB_eq [Sub K] {a : NDArray K} {k m : ℕ} {rest : List ℕ} (hk : 4 ≤ k)
    (h : a.shape = (k * m) :: rest) :
    ∃ A, computeDeltaTB a k = .ok A ∧ A.shape = m :: rest ∧
      ∀ i is, A.get (i :: is) = a.get ((2 * m + i) :: is) - a.get ((3 * m + i) :: is) := by
  unfold computeDeltaTB
  rw [split_eq (by omega) h]
  obtain ⟨k, rfl⟩ : ∃ j, k = j + 4 := ⟨k - 4, by omega⟩
  simp only [List.range_succ_eq_map, List.map_cons, List.map_map]
  refine ⟨_, by simp [NDArray.zipWith, NDArray.block]; rfl, rfl, ?_⟩
  intro i is
  simp

theorem deltaFB_eq [Sub K] {a : NDArray K} {k m : ℕ} {rest : List ℕ}
    (h : a.shape = ((k + 2) * m) :: rest) :
    ∃ A, computeDeltaFB a (k + 2) = .ok A ∧ A.shape = m :: rest ∧
      ∀ i is, A.get (i :: is) = a.get ((k * m + i) :: is) - a.get (((k + 1) * m + i) :: is) := by
  unfold computeDeltaFB
  rw [split_eq (by omega) h]
  simp only [List.range_succ, List.map_append, List.map_cons, List.map_nil, List.reverse_append,
    List.reverse_cons, List.reverse_nil, List.nil_append, List.cons_append]
  refine ⟨_, by simp [NDArray.zipWith, NDArray.block]; rfl, rfl, ?_⟩
  intro i is
  simp

/-- Left-to-right sum of the values of the blocks at one index. -/
def blockSum [Add K] (a : NDArray K) (m i : ℕ) (is : List ℕ) (x : K) (bs : List ℕ) : K :=
  bs.foldl (fun acc b => acc + a.get ((b * m + i) :: is)) x

theorem sumParts_eq [Add K] {a : NDArray K} {m : ℕ} {rest : List ℕ} (bs : List ℕ) :
    ∀ (p : NDArray K), p.shape = m :: rest →
    ∃ A, sumParts p (bs.map (a.block m rest)) = .ok A ∧ A.shape = m :: rest ∧
      ∀ i is, A.get (i :: is) = blockSum a m i is (p.get (i :: is)) bs := by
  induction bs with
  | nil => intro p hp; exact ⟨p, rfl, hp, fun i is => rfl⟩
  | cons b bs ih =>
    intro p hp
    have hz : NDArray.zipWith (· + ·) p (a.block m rest b) =
        .ok ⟨p.shape, fun idx => p.get idx + (a.block m rest b).get idx⟩ := by
      simp [NDArray.zipWith, NDArray.block, hp]
    obtain ⟨A, h1, h2, h3⟩ := ih ⟨p.shape, fun idx => p.get idx + (a.block m rest b).get idx⟩ hp
    refine ⟨A, ?_, h2, ?_⟩
    · simp only [List.map_cons, sumParts, hz, h1]
    · intro i is
      rw [h3]
      rfl

theorem centroid_eq [Add K] [Div K] [NatCast K] {a : NDArray K} {k m : ℕ} {rest : List ℕ}
    (h : a.shape = ((k + 1) * m) :: rest) :
    ∃ A, computeCentroid a (k + 1) = .ok A ∧ A.shape = m :: rest ∧
      ∀ i is, A.get (i :: is) =
        blockSum a m i is (a.get (i :: is)) ((List.range k).map (· + 1)) / ((k + 1 : ℕ) : K) := by
  unfold computeCentroid
  rw [split_eq (by omega) h]
  have hr : (List.range (k + 1)).map (a.block m rest) =
      a.block m rest 0 :: ((List.range k).map (· + 1)).map (a.block m rest) := by
    rw [List.range_succ_eq_map]; simp
  rw [hr]
  obtain ⟨A, h1, h2, h3⟩ := sumParts_eq (a := a) (m := m) (rest := rest)
    ((List.range k).map (· + 1)) (a.block m rest 0) rfl
  simp only [h1]
  refine ⟨_, rfl, h2, ?_⟩
  intro i is
  simp only [NDArray.map, h3]
  simp [NDArray.block]

/-- Closed form of a successful 2D construction. -/
theorem mkParticles_2d [Add K] [Sub K] [Div K] [NatCast K] {a : NDArray K} {m : ℕ}
    (h : a.shape = [4 * m, 2]) :
    ∃ p : Particles K, mkParticles a = .ok p ∧ p.positions = a ∧ p.numNeighbors = 4 ∧
      p.initialDeltaRL.shape = [m, 2] ∧ p.initialDeltaTB.shape = [m, 2] ∧
      p.initialCentroid.shape = [m, 2] ∧
      p.initialDeltaFB.shape = [0] ∧
      (∀ i is, p.initialDeltaRL.get (i :: is) = a.get ((m + i) :: is) - a.get (i :: is)) ∧
      (∀ i is, p.initialDeltaTB.get (i :: is) =
        a.get ((2 * m + i) :: is) - a.get ((3 * m + i) :: is)) ∧
      (∀ i is, p.initialCentroid.get (i :: is) =
        (a.get (i :: is) + a.get ((m + i) :: is) + a.get ((2 * m + i) :: is) +
          a.get ((3 * m + i) :: is)) / ((4 : ℕ) : K)) := by
  obtain ⟨rl, r1, r2, r3⟩ := deltaRL_eq (k := 4) (by omega) h
  obtain ⟨tb, t1, t2, t3⟩ := deltaTB_eq (k := 4) (by omega) h
  obtain ⟨c, c1, c2, c3⟩ := centroid_eq (K := K) (k := 3) h
  refine ⟨⟨a, tb, rl, emptyArray a, c, 4⟩, ?_, rfl, rfl, r2, t2, c2, rfl, r3, t3, ?_⟩
  · unfold mkParticles
    rw [h]
    simp only [Nat.mul_mod_right, true_or, not_true_eq_false, if_false]
    simp only [show 2 * 2 = 4 from rfl, t1, r1, c1]
    rfl
  · intro i is
    rw [c3]
    simp [blockSum, List.range_succ]

/-- Closed form of a successful 3D construction. -/
theorem mkParticles_3d [Add K] [Sub K] [Div K] [NatCast K] {a : NDArray K} {m : ℕ}
    (h : a.shape = [6 * m, 3]) :
    ∃ p : Particles K, mkParticles a = .ok p ∧ p.positions = a ∧ p.numNeighbors = 6 ∧
      p.initialDeltaRL.shape = [m, 3] ∧ p.initialDeltaTB.shape = [m, 3] ∧
      p.initialDeltaFB.shape = [m, 3] ∧ p.initialCentroid.shape = [m, 3] ∧
      (∀ i is, p.initialDeltaRL.get (i :: is) = a.get ((m + i) :: is) - a.get (i :: is)) ∧
      (∀ i is, p.initialDeltaTB.get (i :: is) =
        a.get ((2 * m + i) :: is) - a.get ((3 * m + i) :: is)) ∧
      (∀ i is, p.initialDeltaFB.get (i :: is) =
        a.get ((4 * m + i) :: is) - a.get ((5 * m + i) :: is)) ∧
      (∀ i is, p.initialCentroid.get (i :: is) =
        (a.get (i :: is) + a.get ((m + i) :: is) + a.get ((2 * m + i) :: is) +
          a.get ((3 * m + i) :: is) + a.get ((4 * m + i) :: is) +
          a.get ((5 * m + i) :: is)) / ((6 : ℕ) : K)) := by
  obtain ⟨rl, r1, r2, r3⟩ := deltaRL_eq (k := 6) (by omega) h
  obtain ⟨tb, t1, t2, t3⟩ := deltaTB_eq (k := 6) (by omega) h
  obtain ⟨fb, f1, f2, f3⟩ := deltaFB_eq (k := 4) h
  obtain ⟨c, c1, c2, c3⟩ := centroid_eq (K := K) (k := 5) h
  refine ⟨⟨a, tb, rl, fb, c, 6⟩, ?_, rfl, rfl, r2, t2, f2, c2, r3, t3, f3, ?_⟩
  · unfold mkParticles
    rw [h]
    simp only [Nat.mul_mod_right, or_true, not_true_eq_false, if_false]
    simp only [show 3 * 2 = 6 from rfl, t1, r1, if_true, f1, c1]
  · intro i is
    rw [c3]
    simp [blockSum, List.range_succ]

end Verif

namespace Verif

variable {K : Type*}

theorem append0_eq {a b : NDArray K} {n m : ℕ} {rest : List ℕ} (ha : a.shape = n :: rest)
    (hb : b.shape = m :: rest) :
    ∃ A, NDArray.append0 a b = .ok A ∧ A.shape = (n + m) :: rest ∧
      (∀ i is, i < n → A.get (i :: is) = a.get (i :: is)) ∧
      (∀ i is, A.get ((n + i) :: is) = b.get (i :: is)) := by
  unfold NDArray.append0
  rw [ha, hb]
  simp only [if_true]
  refine ⟨_, rfl, rfl, ?_, ?_⟩
  · intro i is hi; simp [hi]
  · intro i is; simp

theorem concat0_one {a : NDArray K} {n : ℕ} {rest : List ℕ} (ha : a.shape = n :: rest) :
    NDArray.concat0 [a] = .ok a := by
  unfold NDArray.concat0; rw [ha]

/-- Concatenating blocks of `m` rows each: row `b*m + i` is row `i` of block `b`. -/
theorem concat0_eq {m : ℕ} {rest : List ℕ} (as : List (NDArray K)) (hne : as ≠ [])
    (h : ∀ a ∈ as, a.shape = m :: rest) :
    ∃ A, NDArray.concat0 as = .ok A ∧ A.shape = (as.length * m) :: rest ∧
      ∀ b (hb : b < as.length) i is, i < m → A.get ((b * m + i) :: is) = (as[b]).get (i :: is) := by
  induction as with
  | nil => exact absurd rfl hne
  | cons a as ih =>
    cases as with
    | nil =>
      refine ⟨a, concat0_one (h a (by simp)), by simp [h a (by simp)], ?_⟩
      intro b hb i is _
      have : b = 0 := by simpa using hb
      subst this; simp
    | cons a' as =>
      obtain ⟨T, t1, t2, t3⟩ := ih (by simp) (fun x hx => h x (by simp [hx]))
      obtain ⟨A, a1, a2, a3, a4⟩ := append0_eq (h a (by simp)) t2
      refine ⟨A, ?_, ?_, ?_⟩
      · simp only [NDArray.concat0, t1]; exact a1
      · rw [a2]; simp only [List.length_cons, List.cons.injEq, and_true]; ring
      · intro b hb i is hi
        cases b with
        | zero => simpa using a3 i is hi
        | succ b =>
          have hb' : b < (a' :: as).length := by simpa using hb
          have e : (b + 1) * m + i = m + (b * m + i) := by ring
          rw [e, a4, t3 b hb' i is hi]
          simp

/-- Concatenating four blocks of arbitrary lengths. -/
theorem concat0_four {a b c d : NDArray K} {na nb nc nd : ℕ} {rest : List ℕ}
    (ha : a.shape = na :: rest) (hb : b.shape = nb :: rest) (hc : c.shape = nc :: rest)
    (hd : d.shape = nd :: rest) :
    ∃ A, NDArray.concat0 [a, b, c, d] = .ok A ∧ A.shape = (na + (nb + (nc + nd))) :: rest ∧
      (∀ i is, i < na → A.get (i :: is) = a.get (i :: is)) ∧
      (∀ i is, i < nb → A.get ((na + i) :: is) = b.get (i :: is)) ∧
      (∀ i is, i < nc → A.get ((na + (nb + i)) :: is) = c.get (i :: is)) ∧
      (∀ i is, i < nd → A.get ((na + (nb + (nc + i))) :: is) = d.get (i :: is)) := by
  obtain ⟨A1, p1, p2, p3, p4⟩ := append0_eq hc hd
  obtain ⟨A2, q1, q2, q3, q4⟩ := append0_eq hb p2
  obtain ⟨A3, r1, r2, r3, r4⟩ := append0_eq ha q2
  refine ⟨A3, ?_, r2, r3, ?_, ?_, ?_⟩
  · simp only [NDArray.concat0, hd, p1, q1, r1]
  · intro i is hi; rw [r4, q3 i is hi]
  · intro i is hi; rw [r4, q4, p3 i is hi]
  · intro i is hi; rw [r4, q4, p4]

theorem mkParticles_reject [Add K] [Sub K] [Div K] [NatCast K] {a : NDArray K} {n d : ℕ}
    {rest : List ℕ} (h : a.shape = n :: d :: rest) (hd : 0 < d) (hn : n % (d * 2) ≠ 0) :
    mkParticles a =
      .error (if n % 4 = 0 ∨ n % 6 = 0 then PyErr.valueError else PyErr.assertionError) := by
  unfold mkParticles
  rw [h]
  by_cases hg : n % 4 = 0 ∨ n % 6 = 0
  · simp only [hg, not_true_eq_false, if_false, if_true]
    have : computeDeltaTB a (d * 2) = .error .valueError := by
      unfold computeDeltaTB
      rw [split_bad (by omega) h hn]
    simp only [this]
  · simp only [hg, not_false_eq_true, if_true, if_false]

end Verif

namespace Verif

variable {K : Type*}

/-- The fields of a constructed particle set are those computed from its positions. -/
theorem mkParticles_fields [Add K] [Sub K] [Div K] [NatCast K] {a : NDArray K} {p : Particles K}
    (h : mkParticles a = .ok p) :
    ∃ n d rest, a.shape = n :: d :: rest ∧ (n % 4 = 0 ∨ n % 6 = 0) ∧ p.positions = a ∧
      p.numNeighbors = d * 2 ∧
      computeDeltaRL a (d * 2) = .ok p.initialDeltaRL ∧
      computeDeltaTB a (d * 2) = .ok p.initialDeltaTB ∧
      (d = 3 → computeDeltaFB a (d * 2) = .ok p.initialDeltaFB) ∧
      (d ≠ 3 → p.initialDeltaFB.shape = [0]) ∧
      computeCentroid a (d * 2) = .ok p.initialCentroid := by
  unfold mkParticles at h
  split at h
  · cases h
  · rename_i n rest hs
    split at h
    · cases h
    · rename_i hg
      split at h
      · cases h
      · rename_i d rest'
        refine ⟨n, d, rest', hs, not_not.mp hg, ?_⟩
        simp only at h
        split at h
        · cases h
        · rename_i tb htb
          split at h
          · cases h
          · rename_i rl hrl
            split at h
            · cases h
            · rename_i fb hfb
              split at h
              · cases h
              · rename_i c hc
                cases h
                refine ⟨rfl, rfl, hrl, htb, ?_, ?_, hc⟩
                · intro h3; simpa [h3] using hfb
                · intro h3
                  simp only [h3, if_false, Except.ok.injEq] at hfb
                  rw [← hfb]; rfl

theorem mkParticles_current [Add K] [Sub K] [Div K] [NatCast K] {a : NDArray K} {p : Particles K}
    (h : mkParticles a = .ok p) :
    p.deltaRL = .ok p.initialDeltaRL ∧ p.deltaTB = .ok p.initialDeltaTB ∧
      p.centroid = .ok p.initialCentroid ∧
      (p.numNeighbors = 6 → p.deltaFB = .ok p.initialDeltaFB) := by
  obtain ⟨n, d, rest, _, _, h2, h3, h4, h5, h6, _, h8⟩ := mkParticles_fields h
  simp only [Particles.deltaRL, Particles.deltaTB, Particles.centroid, Particles.deltaFB, h2, h3]
  exact ⟨h4, h5, h8, fun h => h6 (by omega)⟩

end Verif
