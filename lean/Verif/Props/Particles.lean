import Verif.Lemmas.Particles
import Mathlib.Algebra.Field.Rat
import Mathlib.Tactic.NormNum

/-!
# C01, C02, C04, C05: seeds, grouping, accepted inputs

All theorems hold for an arbitrary scalar type (no algebraic laws are used), hence
for rounded arithmetic as well.
-/

namespace Verif

variable {K : Type*} [Add K] [Sub K] [Div K] [NatCast K]

/-- What the user expects from a 2D particle set built from `N` groups of points:
group `i` consists of `left i`, `right i`, `top i`, `bottom i` (component `c`). -/
def Describes2 (p : Particles K) (N : ℕ) (left right top bottom : ℕ → ℕ → K) : Prop :=
  p.len = N ∧ p.numNeighbors = 4 ∧ p.positions.shape = [4 * N, 2] ∧
  p.initialDeltaRL.shape = [N, 2] ∧ p.initialDeltaTB.shape = [N, 2] ∧
  p.initialCentroid.shape = [N, 2] ∧
  ∀ i < N, ∀ c < 2,
    p.initialDeltaRL.get [i, c] = right i c - left i c ∧
    p.initialDeltaTB.get [i, c] = top i c - bottom i c ∧
    p.initialCentroid.get [i, c] =
      (left i c + right i c + top i c + bottom i c) / ((4 : ℕ) : K)

/-- The 3D analogue of `Describes2`. -/
def Describes3 (p : Particles K) (N : ℕ) (left right top bottom front back : ℕ → ℕ → K) :
    Prop :=
  p.len = N ∧ p.numNeighbors = 6 ∧ p.positions.shape = [6 * N, 3] ∧
  p.initialDeltaRL.shape = [N, 3] ∧ p.initialDeltaTB.shape = [N, 3] ∧
  p.initialDeltaFB.shape = [N, 3] ∧ p.initialCentroid.shape = [N, 3] ∧
  ∀ i < N, ∀ c < 3,
    p.initialDeltaRL.get [i, c] = right i c - left i c ∧
    p.initialDeltaTB.get [i, c] = top i c - bottom i c ∧
    p.initialDeltaFB.get [i, c] = front i c - back i c ∧
    p.initialCentroid.get [i, c] =
      (left i c + right i c + top i c + bottom i c + front i c + back i c) / ((6 : ℕ) : K)

/-- Entry `(i, c)` of a two-dimensional array. -/
def at2 {α : Type*} (a : NDArray α) (i c : ℕ) : α := a.get [i, c]

/-- **C01 (2D, seed file).**  Four `N × 2` blocks give `N` groups with the expected
differences and centroids; the current differences, read before any advection,
coincide with the recorded ones. -/
theorem C01_seed_file_2d (fs : MatFS K) (path : String) (f : MatFile K) (N : ℕ)
    (left right top bottom : NDArray K) (hf : fs path = some f)
    (hl : f "left" = some left) (hr : f "right" = some right) (ht : f "top" = some top)
    (hb : f "bottom" = some bottom) (h2 : f "front" = none ∨ f "back" = none)
    (sl : left.shape = [N, 2]) (sr : right.shape = [N, 2]) (st : top.shape = [N, 2])
    (sb : bottom.shape = [N, 2]) :
    ∃ p, readSeedParticles fs path = .ok p ∧
      Describes2 p N (at2 left) (at2 right) (at2 top) (at2 bottom) ∧
      p.deltaRL = .ok p.initialDeltaRL ∧ p.deltaTB = .ok p.initialDeltaTB ∧
      p.centroid = .ok p.initialCentroid ∧
      ∀ i < N, ∀ c < 2, p.positions.get [i, c] = left.get [i, c] ∧
        p.positions.get [N + i, c] = right.get [i, c] ∧
        p.positions.get [2 * N + i, c] = top.get [i, c] ∧
        p.positions.get [3 * N + i, c] = bottom.get [i, c] := by
  obtain ⟨A, a1, a2, a3⟩ := concat0_eq (m := N) (rest := [2]) [left, right, top, bottom]
    (by simp) (by simp [sl, sr, st, sb])
  have a2' : A.shape = [4 * N, 2] := by simpa using a2
  obtain ⟨p, p1, p2, p3, p4, p5, p6, _, p8, p9, p10⟩ := mkParticles_2d a2'
  have g0 := a3 0 (by simp)
  have g1 := a3 1 (by simp)
  have g2 := a3 2 (by simp)
  have g3 := a3 3 (by simp)
  simp only [Nat.zero_mul, Nat.zero_add, Nat.one_mul] at g0 g1
  obtain ⟨q1, q2, q3, _⟩ := mkParticles_current p1
  refine ⟨p, ?_, ?_, q1, q2, q3, ?_⟩
  · unfold readSeedParticles loadmat
    simp only [hf, hl, hr, ht, hb]
    rcases h2 with h2 | h2
    · simp only [h2, a1, p1]
    · cases f "front" <;> simp only [h2, a1, p1]
  · refine ⟨?_, p3, by rw [p2, a2'], p4, p5, p6, ?_⟩
    · simp [Particles.len, p2, p3, a2']
    · intro i hi c _
      rw [p8, p9, p10, g1 i _ hi, g2 i _ hi, g3 i _ hi, g0 i _ hi]
      exact ⟨rfl, rfl, rfl⟩
  · intro i hi c _
    rw [p2, g1 i _ hi, g2 i _ hi, g3 i _ hi, g0 i _ hi]
    exact ⟨rfl, rfl, rfl, rfl⟩

/-- **C01 (3D, seed file).**  Six `N × 3` blocks. -/
theorem C01_seed_file_3d (fs : MatFS K) (path : String) (f : MatFile K) (N : ℕ)
    (left right top bottom front back : NDArray K) (hf : fs path = some f)
    (hl : f "left" = some left) (hr : f "right" = some right) (ht : f "top" = some top)
    (hb : f "bottom" = some bottom) (hfr : f "front" = some front) (hbk : f "back" = some back)
    (sl : left.shape = [N, 3]) (sr : right.shape = [N, 3]) (st : top.shape = [N, 3])
    (sb : bottom.shape = [N, 3]) (sf : front.shape = [N, 3]) (sk : back.shape = [N, 3]) :
    ∃ p, readSeedParticles fs path = .ok p ∧
      Describes3 p N (at2 left) (at2 right) (at2 top) (at2 bottom) (at2 front) (at2 back) ∧
      p.deltaRL = .ok p.initialDeltaRL ∧ p.deltaTB = .ok p.initialDeltaTB ∧
      p.deltaFB = .ok p.initialDeltaFB ∧ p.centroid = .ok p.initialCentroid ∧
      ∀ i < N, ∀ c < 3, p.positions.get [i, c] = left.get [i, c] ∧
        p.positions.get [N + i, c] = right.get [i, c] ∧
        p.positions.get [2 * N + i, c] = top.get [i, c] ∧
        p.positions.get [3 * N + i, c] = bottom.get [i, c] ∧
        p.positions.get [4 * N + i, c] = front.get [i, c] ∧
        p.positions.get [5 * N + i, c] = back.get [i, c] := by
  obtain ⟨A, a1, a2, a3⟩ := concat0_eq (m := N) (rest := [3])
    [left, right, top, bottom, front, back] (by simp) (by simp [sl, sr, st, sb, sf, sk])
  have a2' : A.shape = [6 * N, 3] := by simpa using a2
  obtain ⟨p, p1, p2, p3, p4, p5, p6, p7, p8, p9, p10, p11⟩ := mkParticles_3d a2'
  have g0 := a3 0 (by simp)
  have g1 := a3 1 (by simp)
  have g2 := a3 2 (by simp)
  have g3 := a3 3 (by simp)
  have g4 := a3 4 (by simp)
  have g5 := a3 5 (by simp)
  simp only [Nat.zero_mul, Nat.zero_add, Nat.one_mul] at g0 g1
  obtain ⟨q1, q2, q3, q4⟩ := mkParticles_current p1
  refine ⟨p, ?_, ?_, q1, q2, q4 p3, q3, ?_⟩
  · unfold readSeedParticles loadmat
    simp only [hf, hl, hr, ht, hb, hfr, hbk, a1, p1]
  · refine ⟨?_, p3, by rw [p2, a2'], p4, p5, p6, p7, ?_⟩
    · simp [Particles.len, p2, p3, a2']
    · intro i hi c _
      rw [p8, p9, p10, p11, g1 i _ hi, g2 i _ hi, g3 i _ hi, g4 i _ hi, g5 i _ hi, g0 i _ hi]
      exact ⟨rfl, rfl, rfl, rfl⟩
  · intro i hi c _
    rw [p2, g1 i _ hi, g2 i _ hi, g3 i _ hi, g4 i _ hi, g5 i _ hi, g0 i _ hi]
    exact ⟨rfl, rfl, rfl, rfl, rfl, rfl⟩

/-- Non-vacuity of `C01_seed_file_2d`: two groups around `(0,0)` and `(5,1)`. -/
def exSeeds2 : MatFile ℚ := fun k =>
  if k = "left" then some ⟨[2, 2], fun idx => if idx.getD 1 0 = 0 then 5 * idx.getD 0 0 - 1
    else idx.getD 0 0⟩
  else if k = "right" then some ⟨[2, 2], fun idx => if idx.getD 1 0 = 0 then 5 * idx.getD 0 0 + 1
    else idx.getD 0 0⟩
  else if k = "top" then some ⟨[2, 2], fun idx => if idx.getD 1 0 = 0 then 5 * idx.getD 0 0
    else idx.getD 0 0 + 2⟩
  else if k = "bottom" then some ⟨[2, 2], fun idx => if idx.getD 1 0 = 0 then 5 * idx.getD 0 0
    else idx.getD 0 0 - 2⟩
  else none

example : ∃ p, readSeedParticles (fun _ => some exSeeds2) "seed.mat" = .ok p ∧
    p.len = 2 ∧ p.initialDeltaRL.get [1, 0] = 2 ∧ p.initialDeltaTB.get [0, 1] = 4 ∧
    p.initialCentroid.get [1, 0] = 5 ∧ p.initialCentroid.get [1, 1] = 1 := by
  obtain ⟨p, h1, h2, -⟩ := C01_seed_file_2d (fun _ => some exSeeds2) "seed.mat" exSeeds2 2 _ _ _ _
    rfl rfl rfl rfl rfl (Or.inl rfl) rfl rfl rfl rfl
  obtain ⟨e1, -, -, -, -, -, e2⟩ := h2
  refine ⟨p, h1, e1, ?_, ?_, ?_, ?_⟩
  · rw [(e2 1 (by omega) 0 (by omega)).1]; norm_num [at2]
  · rw [(e2 0 (by omega) 1 (by omega)).2.1]; norm_num [at2]
  · rw [(e2 1 (by omega) 0 (by omega)).2.2]; norm_num [at2]
  · rw [(e2 1 (by omega) 1 (by omega)).2.2]; norm_num [at2]

/-- Non-vacuity of `C01_seed_file_3d`. -/
example : ∃ p, readSeedParticles (K := ℚ) (fun _ => some fun k =>
      if k ∈ ["left", "right", "top", "bottom", "front", "back"] then
        some ⟨[7, 3], fun idx => k.length + idx.getD 0 0⟩ else none) "seed.mat" = .ok p ∧
    p.len = 7 ∧ p.initialDeltaFB.get [6, 2] = 1 := by
  obtain ⟨p, h1, h2, -⟩ := C01_seed_file_3d (K := ℚ) (fun _ => some fun k =>
      if k ∈ ["left", "right", "top", "bottom", "front", "back"] then
        some ⟨[7, 3], fun idx => k.length + idx.getD 0 0⟩ else none) "seed.mat" _ 7 _ _ _ _ _ _
    rfl rfl rfl rfl rfl rfl rfl rfl rfl rfl rfl rfl rfl
  obtain ⟨e1, -, -, -, -, -, -, e2⟩ := h2
  refine ⟨p, h1, e1, ?_⟩
  rw [(e2 6 (by omega) 2 (by omega)).2.2.1]
  simp only [at2, show "front".length = 5 from rfl, show "back".length = 4 from rfl]
  norm_num

/-- **C02 (2D).**  A two-column array is accepted iff the row count is a multiple of
four; otherwise construction raises `ValueError` (row count a multiple of six) or
`AssertionError`. -/
theorem C02_accept_iff_2d (a : NDArray K) (n : ℕ) (h : a.shape = [n, 2]) :
    ((∃ p, mkParticles a = .ok p) ↔ n % 4 = 0) ∧
    (n % 4 ≠ 0 → n % 6 = 0 → mkParticles a = .error .valueError) ∧
    (n % 4 ≠ 0 → n % 6 ≠ 0 → mkParticles a = .error .assertionError) := by
  refine ⟨⟨?_, ?_⟩, ?_, ?_⟩
  · rintro ⟨p, hp⟩
    by_contra hn
    rw [mkParticles_reject h (by omega) hn] at hp
    cases hp
  · intro hn
    obtain ⟨p, hp, -⟩ := mkParticles_2d (a := a) (m := n / 4)
      (by rw [h, Nat.mul_div_cancel' (Nat.dvd_of_mod_eq_zero hn)])
    exact ⟨p, hp⟩
  · intro h4 h6
    rw [mkParticles_reject h (by omega) h4]; simp [h6]
  · intro h4 h6
    rw [mkParticles_reject h (by omega) h4]; simp [h4, h6]

/-- **C02 (3D).** -/
theorem C02_accept_iff_3d (a : NDArray K) (n : ℕ) (h : a.shape = [n, 3]) :
    ((∃ p, mkParticles a = .ok p) ↔ n % 6 = 0) ∧
    (n % 6 ≠ 0 → n % 4 = 0 → mkParticles a = .error .valueError) ∧
    (n % 6 ≠ 0 → n % 4 ≠ 0 → mkParticles a = .error .assertionError) := by
  refine ⟨⟨?_, ?_⟩, ?_, ?_⟩
  · rintro ⟨p, hp⟩
    by_contra hn
    rw [mkParticles_reject h (by omega) hn] at hp
    cases hp
  · intro hn
    obtain ⟨p, hp, -⟩ := mkParticles_3d (a := a) (m := n / 6)
      (by rw [h, Nat.mul_div_cancel' (Nat.dvd_of_mod_eq_zero hn)])
    exact ⟨p, hp⟩
  · intro h6 h4
    rw [mkParticles_reject h (by omega) h6]; simp [h4]
  · intro h6 h4
    rw [mkParticles_reject h (by omega) h6]; simp [h4, h6]

/-- Non-vacuity of C02: 8 rows are accepted in 2D and rejected in 3D, 6 rows the
other way round, 7 rows never. -/
example : (∃ p, mkParticles (K := ℚ) ⟨[8, 2], fun _ => 0⟩ = .ok p) ∧
    mkParticles (K := ℚ) ⟨[6, 2], fun _ => 0⟩ = .error .valueError ∧
    mkParticles (K := ℚ) ⟨[7, 2], fun _ => 0⟩ = .error .assertionError ∧
    (∃ p, mkParticles (K := ℚ) ⟨[6, 3], fun _ => 0⟩ = .ok p) ∧
    mkParticles (K := ℚ) ⟨[8, 3], fun _ => 0⟩ = .error .valueError :=
  ⟨(C02_accept_iff_2d _ 8 rfl).1.2 rfl, (C02_accept_iff_2d _ 6 rfl).2.1 (by omega) rfl,
   (C02_accept_iff_2d _ 7 rfl).2.2 (by omega) (by omega), (C02_accept_iff_3d _ 6 rfl).1.2 rfl,
   (C02_accept_iff_3d _ 8 rfl).2.1 (by omega) rfl⟩

/-- **C04 (missing keys).**  A seed file lacking one of the four mandatory blocks is
rejected with `ValueError`; a missing file with `FileNotFoundError`. -/
theorem C04_missing_keys (fs : MatFS K) (path : String) :
    (fs path = none → readSeedParticles fs path = .error .fileNotFoundError) ∧
    ∀ f, fs path = some f →
      (f "left" = none ∨ f "right" = none ∨ f "top" = none ∨ f "bottom" = none) →
      readSeedParticles fs path = .error .valueError := by
  refine ⟨?_, ?_⟩
  · intro h; unfold readSeedParticles loadmat; simp [h]
  · intro f hf h
    unfold readSeedParticles loadmat
    simp only [hf]
    cases hl : f "left" <;> cases hr : f "right" <;> cases ht : f "top" <;>
      cases hb : f "bottom" <;> simp_all

example : readSeedParticles (K := ℚ) (fun _ => some fun k =>
    if k = "left" then some ⟨[4, 2], fun _ => 0⟩ else none) "p.mat" = .error .valueError :=
  (C04_missing_keys _ _).2 _ rfl (by simp)

/-- **C04 (incomplete 3D file), exact condition.**  A file with three-column blocks of
`N` points in which `front` or `back` is missing is accepted exactly when `3 ∣ N`. -/
theorem C04_incomplete_3d_accepted_iff (fs : MatFS K) (path : String) (f : MatFile K) (N : ℕ)
    (left right top bottom : NDArray K) (hf : fs path = some f)
    (hl : f "left" = some left) (hr : f "right" = some right) (ht : f "top" = some top)
    (hb : f "bottom" = some bottom) (h3 : f "front" = none ∨ f "back" = none)
    (sl : left.shape = [N, 3]) (sr : right.shape = [N, 3]) (st : top.shape = [N, 3])
    (sb : bottom.shape = [N, 3]) :
    (∃ p, readSeedParticles fs path = .ok p) ↔ 3 ∣ N := by
  obtain ⟨A, a1, a2, a3⟩ := concat0_eq (m := N) (rest := [3]) [left, right, top, bottom]
    (by simp) (by simp [sl, sr, st, sb])
  have a2' : A.shape = [4 * N, 3] := by simpa using a2
  have e : readSeedParticles fs path = mkParticles A := by
    unfold readSeedParticles loadmat
    simp only [hf, hl, hr, ht, hb]
    rcases h3 with h3 | h3
    · simp only [h3, a1]
    · cases f "front" <;> simp only [h3, a1]
  rw [e, (C02_accept_iff_3d A _ a2').1]
  omega

/-- **C04, the part that holds.**  When `N` is not a multiple of three, an incomplete
3D seed file is rejected (`ValueError`, since `4N` rows cannot be split in six).
Missing for the full property: the case `3 ∣ N`, where it is false, see
`C04_incomplete_3d_fails`. -/
theorem C04_incomplete_3d_rejected_partial (fs : MatFS K) (path : String) (f : MatFile K) (N : ℕ)
    (left right top bottom : NDArray K) (hf : fs path = some f)
    (hl : f "left" = some left) (hr : f "right" = some right) (ht : f "top" = some top)
    (hb : f "bottom" = some bottom) (h3 : f "front" = none ∨ f "back" = none)
    (sl : left.shape = [N, 3]) (sr : right.shape = [N, 3]) (st : top.shape = [N, 3])
    (sb : bottom.shape = [N, 3]) (hN : ¬ 3 ∣ N) :
    readSeedParticles fs path = .error .valueError := by
  obtain ⟨A, a1, a2, a3⟩ := concat0_eq (m := N) (rest := [3]) [left, right, top, bottom]
    (by simp) (by simp [sl, sr, st, sb])
  have a2' : A.shape = [4 * N, 3] := by simpa using a2
  have e : readSeedParticles fs path = mkParticles A := by
    unfold readSeedParticles loadmat
    simp only [hf, hl, hr, ht, hb]
    rcases h3 with h3 | h3
    · simp only [h3, a1]
    · cases f "front" <;> simp only [h3, a1]
  rw [e]
  exact (C02_accept_iff_3d A _ a2').2.1 (by omega) (by omega)

/-- **C04 is false of the code.**  With `N = 3k` the incomplete file is accepted and
silently regrouped into `2k` groups of six, pairing points of different groups: the
"right minus left" of group 0 is taken between rows `2k` and `0` of `left` itself. -/
theorem C04_incomplete_3d_fails (fs : MatFS K) (path : String) (f : MatFile K) (k : ℕ)
    (hk : 0 < k) (left right top bottom : NDArray K) (hf : fs path = some f)
    (hl : f "left" = some left) (hr : f "right" = some right) (ht : f "top" = some top)
    (hb : f "bottom" = some bottom) (h3 : f "front" = none ∨ f "back" = none)
    (sl : left.shape = [3 * k, 3]) (sr : right.shape = [3 * k, 3]) (st : top.shape = [3 * k, 3])
    (sb : bottom.shape = [3 * k, 3]) :
    ∃ p, readSeedParticles fs path = .ok p ∧ p.len = 2 * k ∧
      ∀ c < 3, p.initialDeltaRL.get [0, c] = left.get [2 * k, c] - left.get [0, c] := by
  obtain ⟨A, a1, a2, a3⟩ := concat0_eq (m := 3 * k) (rest := [3]) [left, right, top, bottom]
    (by simp) (by simp [sl, sr, st, sb])
  have a2' : A.shape = [6 * (2 * k), 3] := by
    rw [a2]; simp only [List.length_cons, List.length_nil, List.cons.injEq, and_true]; ring
  have e : readSeedParticles fs path = mkParticles A := by
    unfold readSeedParticles loadmat
    simp only [hf, hl, hr, ht, hb]
    rcases h3 with h3 | h3
    · simp only [h3, a1]
    · cases f "front" <;> simp only [h3, a1]
  obtain ⟨p, p1, p2, p3, -, -, -, -, p8, -⟩ := mkParticles_3d a2'
  refine ⟨p, by rw [e, p1], ?_, ?_⟩
  · simp [Particles.len, p2, p3, a2']
  · intro c _
    have g0 := a3 0 (by simp)
    simp only [Nat.zero_mul, Nat.zero_add] at g0
    rw [p8, Nat.add_zero, g0 _ _ (by omega), g0 _ _ (by omega)]
    rfl

/-- Non-vacuity of the three C04 theorems: a 3D file without `back` and with `N`
points per block satisfies their hypotheses for every `N` (here 3 and 4). -/
example : (∃ p, readSeedParticles (K := ℚ) (fun _ => some fun k =>
      if k = "back" then none else some ⟨[3, 3], fun idx => k.length + idx.getD 0 0⟩) "s.mat"
        = .ok p ∧ p.len = 2) ∧
    readSeedParticles (K := ℚ) (fun _ => some fun k =>
      if k = "back" then none else some ⟨[4, 3], fun idx => k.length + idx.getD 0 0⟩) "s.mat"
        = .error .valueError := by
  refine ⟨?_, ?_⟩
  · obtain ⟨p, h, h', -⟩ := C04_incomplete_3d_fails (K := ℚ) (fun _ => some fun k =>
      if k = "back" then none else some ⟨[3, 3], fun idx => k.length + idx.getD 0 0⟩) "s.mat" _ 1
      (by omega) _ _ _ _ rfl rfl rfl rfl rfl (Or.inr rfl) rfl rfl rfl rfl
    exact ⟨p, h, h'⟩
  · exact C04_incomplete_3d_rejected_partial (K := ℚ) _ "s.mat" _ 4 _ _ _ _ rfl rfl rfl rfl rfl
      (Or.inr rfl) rfl rfl rfl rfl (by omega)

/-- **C05, exact condition.**  Blocks of lengths `nl, nr, nt, nb` are accepted iff the
total number of rows is a multiple of four. -/
theorem C05_blocks_accepted_iff (fs : MatFS K) (path : String) (f : MatFile K)
    (nl nr nt nb : ℕ) (left right top bottom : NDArray K) (hf : fs path = some f)
    (hl : f "left" = some left) (hr : f "right" = some right) (ht : f "top" = some top)
    (hb : f "bottom" = some bottom) (h2 : f "front" = none ∨ f "back" = none)
    (sl : left.shape = [nl, 2]) (sr : right.shape = [nr, 2]) (st : top.shape = [nt, 2])
    (sb : bottom.shape = [nb, 2]) :
    (∃ p, readSeedParticles fs path = .ok p) ↔ 4 ∣ nl + nr + nt + nb := by
  obtain ⟨A, a1, a2, -⟩ := concat0_four sl sr st sb
  have e : readSeedParticles fs path = mkParticles A := by
    unfold readSeedParticles loadmat
    simp only [hf, hl, hr, ht, hb]
    rcases h2 with h2 | h2
    · simp only [h2, a1]
    · cases f "front" <;> simp only [h2, a1]
  rw [e, (C02_accept_iff_2d A _ a2).1]
  omega

/-- **C05, the part that holds.**  Unequal blocks are rejected when the total number of
rows is not a multiple of four.  Missing: the other totals, where the property is
false, see `C05_unequal_blocks_fails`. -/
theorem C05_unequal_blocks_rejected_partial (fs : MatFS K) (path : String) (f : MatFile K)
    (nl nr nt nb : ℕ) (left right top bottom : NDArray K) (hf : fs path = some f)
    (hl : f "left" = some left) (hr : f "right" = some right) (ht : f "top" = some top)
    (hb : f "bottom" = some bottom) (h2 : f "front" = none ∨ f "back" = none)
    (sl : left.shape = [nl, 2]) (sr : right.shape = [nr, 2]) (st : top.shape = [nt, 2])
    (sb : bottom.shape = [nb, 2]) (hn : ¬ 4 ∣ nl + nr + nt + nb) :
    readSeedParticles fs path = .error .valueError ∨
      readSeedParticles fs path = .error .assertionError := by
  obtain ⟨A, a1, a2, -⟩ := concat0_four sl sr st sb
  have e : readSeedParticles fs path = mkParticles A := by
    unfold readSeedParticles loadmat
    simp only [hf, hl, hr, ht, hb]
    rcases h2 with h2 | h2
    · simp only [h2, a1]
    · cases f "front" <;> simp only [h2, a1]
  rw [e]
  have h4 : (nl + (nr + (nt + nb))) % 4 ≠ 0 := by omega
  by_cases h6 : (nl + (nr + (nt + nb))) % 6 = 0
  · exact Or.inl ((C02_accept_iff_2d A _ a2).2.1 h4 h6)
  · exact Or.inr ((C02_accept_iff_2d A _ a2).2.2 h4 h6)

/-- **C05 is false of the code.**  Block lengths 1, 3, 2, 2 are accepted as two groups,
and the left point of group 0 is paired with the *second* right point. -/
theorem C05_unequal_blocks_fails (fs : MatFS K) (path : String) (f : MatFile K)
    (left right top bottom : NDArray K) (hf : fs path = some f)
    (hl : f "left" = some left) (hr : f "right" = some right) (ht : f "top" = some top)
    (hb : f "bottom" = some bottom) (h2 : f "front" = none ∨ f "back" = none)
    (sl : left.shape = [1, 2]) (sr : right.shape = [3, 2]) (st : top.shape = [2, 2])
    (sb : bottom.shape = [2, 2]) :
    ∃ p, readSeedParticles fs path = .ok p ∧ p.len = 2 ∧
      ∀ c < 2, p.initialDeltaRL.get [0, c] = right.get [1, c] - left.get [0, c] := by
  obtain ⟨A, a1, a2, a3, a4, -⟩ := concat0_four sl sr st sb
  have a2' : A.shape = [4 * 2, 2] := a2
  have e : readSeedParticles fs path = mkParticles A := by
    unfold readSeedParticles loadmat
    simp only [hf, hl, hr, ht, hb]
    rcases h2 with h2 | h2
    · simp only [h2, a1]
    · cases f "front" <;> simp only [h2, a1]
  obtain ⟨p, p1, p2, p3, -, -, -, -, p8, -⟩ := mkParticles_2d a2'
  refine ⟨p, by rw [e, p1], ?_, ?_⟩
  · simp [Particles.len, p2, p3, a2']
  · intro c _
    rw [p8, a3 0 _ (by omega), show 2 + 0 = 1 + 1 from rfl, a4 1 _ (by omega)]

/-- Non-vacuity of the C05 theorems: a file with the required block lengths. -/
example : ∃ f : MatFile ℚ, (∃ p, readSeedParticles (fun _ => some f) "s.mat" = .ok p) ∧
    ∃ l r, f "left" = some l ∧ f "right" = some r ∧ l.shape ≠ r.shape := by
  refine ⟨fun k => if k = "left" then some ⟨[1, 2], fun _ => 0⟩
    else if k = "right" then some ⟨[3, 2], fun _ => 1⟩
    else if k = "top" ∨ k = "bottom" then some ⟨[2, 2], fun _ => 2⟩ else none, ?_,
    _, _, rfl, rfl, by simp⟩
  obtain ⟨p, h, -⟩ := C05_unequal_blocks_fails (K := ℚ) (fun _ => some fun k =>
    if k = "left" then some ⟨[1, 2], fun _ => 0⟩
    else if k = "right" then some ⟨[3, 2], fun _ => 1⟩
    else if k = "top" ∨ k = "bottom" then some ⟨[2, 2], fun _ => 2⟩ else none) "s.mat" _ _ _ _ _
    rfl rfl rfl rfl rfl (Or.inl rfl) rfl rfl rfl rfl
  exact ⟨p, h⟩

end Verif
