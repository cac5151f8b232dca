import Verif.Props.Particles

/-!
# Which seed files are read: C04 and C05 for all shapes of the blocks
-/

namespace Verif

variable {K : Type} [Add K] [Sub K] [Div K] [NatCast K]

/-- The blocks of a seed file, in their order: six if `front` and `back` are both there, else four. -/
inductive SeedBlocks (f : MatFile K) : List (NDArray K) → Prop
  | four {l r t b : NDArray K} (hl : f "left" = some l) (hr : f "right" = some r)
      (ht : f "top" = some t) (hb : f "bottom" = some b) (h : f "front" = none ∨ f "back" = none) :
      SeedBlocks f [l, r, t, b]
  | six {l r t b fr bk : NDArray K} (hl : f "left" = some l) (hr : f "right" = some r)
      (ht : f "top" = some t) (hb : f "bottom" = some b) (hf : f "front" = some fr)
      (hk : f "back" = some bk) : SeedBlocks f [l, r, t, b, fr, bk]

omit [Add K] [Sub K] [Div K] [NatCast K] in
theorem SeedBlocks.ne {f : MatFile K} {bs : List (NDArray K)} (h : SeedBlocks f bs) : bs ≠ [] := by
  cases h <;> simp

theorem SeedBlocks.read {fs : MatFS K} {path : String} {f : MatFile K} {bs : List (NDArray K)}
    (hf : fs path = some f) (h : SeedBlocks f bs) :
    readSeedParticles fs path = match NDArray.concat0 bs with
      | .error e => .error e
      | .ok pos => mkParticles pos := by
  unfold readSeedParticles loadmat
  cases h with
  | four hl hr ht hb h =>
    simp only [hf, hl, hr, ht, hb]
    rcases h with h | h
    · simp only [h]; rfl
    · cases f "front" <;> simp only [h] <;> rfl
  | six hl hr ht hb hfr hk => simp only [hf, hl, hr, ht, hb, hfr, hk]; rfl

omit [Add K] [Sub K] [Div K] [NatCast K] in
/-- Blocks can be stacked iff they have as many columns. -/
theorem concat0_matrices (bs : List (NDArray K)) (hne : bs ≠ [])
    (n c : NDArray K → ℕ) (h : ∀ a ∈ bs, a.shape = [n a, c a]) :
    (∀ d, (∀ a ∈ bs, c a = d) → ∃ A, NDArray.concat0 bs = .ok A ∧ A.shape = [(bs.map n).sum, d]) ∧
    ((¬ ∃ d, ∀ a ∈ bs, c a = d) → NDArray.concat0 bs = .error .valueError) := by
  induction bs with
  | nil => exact absurd rfl hne
  | cons a as ih =>
    cases as with
    | nil =>
      refine ⟨fun d hd => ⟨a, concat0_one (h a (by simp)), ?_⟩, fun hn => (hn ⟨c a, by simp⟩).elim⟩
      simp [h a (by simp), hd a (by simp)]
    | cons a' as =>
      obtain ⟨i1, i2⟩ := ih (by simp) (fun x hx => h x (by simp [hx]))
      refine ⟨fun d hd => ?_, fun hn => ?_⟩
      · obtain ⟨T, t1, t2⟩ := i1 d (fun x hx => hd x (by simp [hx]))
        have ha := h a (by simp)
        rw [hd a (by simp)] at ha
        obtain ⟨A, a1, a2, -⟩ := append0_eq ha t2
        refine ⟨A, ?_, by rw [a2]; simp⟩
        rw [NDArray.concat0, t1]
        exact a1
      · rw [NDArray.concat0]
        by_cases hd : ∃ d, ∀ x ∈ a' :: as, c x = d
        · obtain ⟨d, hd⟩ := hd
          obtain ⟨T, t1, t2⟩ := i1 d hd
          have hne : c a ≠ d := by
            intro e
            refine hn ⟨d, fun x hx => ?_⟩
            rcases List.mem_cons.1 hx with rfl | hx
            · exact e
            · exact hd x hx
          rw [t1]
          simp only [NDArray.append0, h a (by simp), t2]
          rw [if_neg (by simpa using hne)]
        · rw [i2 hd]

/-- Which matrices are accepted. -/
theorem mkParticles_accepts (a : NDArray K) (n c : ℕ) (h : a.shape = [n, c]) :
    (∃ p, mkParticles a = .ok p) ↔ 2 ≤ c ∧ 2 * c ∣ n ∧ (4 ∣ n ∨ 6 ∣ n) := by
  constructor
  · rintro ⟨p, hp⟩
    unfold mkParticles at hp
    simp only [h] at hp
    split at hp
    · cases hp
    · rename_i h1
      split at hp
      · cases hp
      · rename_i tb htb
        unfold computeDeltaTB NDArray.split at htb
        simp only [h] at htb
        split at htb
        · cases htb
        · rename_i x1 x2 x3 x4 x5 hsp
          split at hsp
          · cases hsp
          · split at hsp
            · cases hsp
            · rename_i g1 g2
              have hlen := congrArg List.length (Except.ok.inj hsp)
              simp only [List.length_map, List.length_range, List.length_cons] at hlen
              refine ⟨by omega, ?_, by omega⟩
              rw [Nat.mul_comm]
              exact Nat.dvd_of_mod_eq_zero (by omega)
        · cases htb
  · rintro ⟨h2, ⟨m, hm⟩, h4⟩
    have hs : a.shape = (2 * c * m) :: [c] := by rw [h, hm]
    obtain ⟨rl, r1, -⟩ := deltaRL_eq (K := K) (k := 2 * c) (by omega) hs
    obtain ⟨tb, t1, -⟩ := deltaTB_eq (K := K) (k := 2 * c) (by omega) hs
    obtain ⟨k, hk⟩ : ∃ k, 2 * c = k + 2 := ⟨2 * c - 2, by omega⟩
    obtain ⟨fb, f1, -⟩ := deltaFB_eq (K := K) (k := k) (hk ▸ hs)
    obtain ⟨ce, c1, -⟩ := centroid_eq (K := K) (k := k + 1) (a := a) (m := m) (rest := [c]) (by
      rw [hs, hk])
    rw [← hk] at f1
    rw [show k + 1 + 1 = 2 * c by omega] at c1
    have hn : n % 4 = 0 ∨ n % 6 = 0 := by omega
    unfold mkParticles
    simp only [h, hn, not_true_eq_false, if_false, Nat.mul_comm c 2, t1, r1, f1, c1]
    split_ifs <;> exact ⟨_, rfl⟩

/-- **C04, C05, exact condition for all files.**  A seed file whose blocks are matrices is accepted iff
all blocks have the same number `c ≥ 2` of columns and the number of rows in all is a multiple of `2c`
and of 4 or 6; whether the blocks are equally long, or as many as `2c`, is not looked at. -/
theorem C04_accepts_iff (fs : MatFS K) (path : String) (f : MatFile K) (bs : List (NDArray K))
    (hf : fs path = some f) (hb : SeedBlocks f bs) (n c : NDArray K → ℕ)
    (hs : ∀ a ∈ bs, a.shape = [n a, c a]) :
    (∃ p, readSeedParticles fs path = .ok p) ↔
      ∃ d, 2 ≤ d ∧ (∀ a ∈ bs, c a = d) ∧ 2 * d ∣ (bs.map n).sum ∧
        (4 ∣ (bs.map n).sum ∨ 6 ∣ (bs.map n).sum) := by
  obtain ⟨h1, h2⟩ := concat0_matrices bs hb.ne n c hs
  rw [hb.read hf]
  by_cases hd : ∃ d, ∀ a ∈ bs, c a = d
  · obtain ⟨d, hd⟩ := hd
    obtain ⟨A, a1, a2⟩ := h1 d hd
    rw [a1]
    simp only
    rw [mkParticles_accepts A _ d a2]
    constructor
    · rintro ⟨g1, g2, g3⟩
      exact ⟨d, g1, hd, g2, g3⟩
    · rintro ⟨d', g1, g2, g3, g4⟩
      obtain ⟨a, ha⟩ := List.exists_mem_of_ne_nil bs hb.ne
      obtain rfl : d = d' := (hd a ha).symm.trans (g2 a ha)
      exact ⟨g1, g3, g4⟩
  · rw [h2 hd]
    constructor
    · rintro ⟨p, hp⟩
      cases hp
    · rintro ⟨d, -, g, -⟩
      exact absurd ⟨d, g⟩ hd

/-- **C04.** Blocks with different numbers of columns are rejected. -/
theorem C04_columns_rejected (fs : MatFS K) (path : String) (f : MatFile K) (bs : List (NDArray K))
    (hf : fs path = some f) (hb : SeedBlocks f bs) (n c : NDArray K → ℕ)
    (hs : ∀ a ∈ bs, a.shape = [n a, c a]) (hne : ∃ a ∈ bs, ∃ b ∈ bs, c a ≠ c b) :
    readSeedParticles fs path = .error .valueError := by
  rw [hb.read hf, (concat0_matrices bs hb.ne n c hs).2]
  rintro ⟨d, hd⟩
  obtain ⟨a, ha, b, hb', h⟩ := hne
  exact h ((hd a ha).trans (hd b hb').symm)

/-- **C05 (3-D), exact condition.**  Six blocks of three columns are accepted iff the total number of
rows is a multiple of six. -/
theorem C05_blocks_accepted_iff_3d (fs : MatFS K) (path : String) (f : MatFile K)
    (bs : List (NDArray K)) (hf : fs path = some f) (hb : SeedBlocks f bs) (n : NDArray K → ℕ)
    (hs : ∀ a ∈ bs, a.shape = [n a, 3]) :
    (∃ p, readSeedParticles fs path = .ok p) ↔ 6 ∣ (bs.map n).sum := by
  rw [C04_accepts_iff fs path f bs hf hb n (fun _ => 3) hs]
  constructor
  · rintro ⟨d, -, h, h', -⟩
    obtain ⟨a, ha⟩ := List.exists_mem_of_ne_nil bs hb.ne
    have := h a ha
    subst this
    exact h'
  · intro h
    exact ⟨3, by omega, fun _ _ => rfl, h, .inr h⟩

/-- **C05 is false of the code in 3-D.**  Blocks of 1, 3, 2, 2, 2, 2 points are accepted as two groups,
and the left point of group 0 is paired with the second right point. -/
theorem C05_unequal_blocks_3d_fails (fs : MatFS K) (path : String) (f : MatFile K)
    {l r t b fr bk : NDArray K} (hf : fs path = some f) (hl : f "left" = some l)
    (hr : f "right" = some r) (ht : f "top" = some t) (hb : f "bottom" = some b)
    (hfr : f "front" = some fr) (hk : f "back" = some bk) (sl : l.shape = [1, 3])
    (sr : r.shape = [3, 3]) (st : t.shape = [2, 3]) (sb : b.shape = [2, 3]) (sf : fr.shape = [2, 3])
    (sk : bk.shape = [2, 3]) :
    ∃ p, readSeedParticles fs path = .ok p ∧ p.len = 2 ∧
      ∀ c < 3, p.initialDeltaRL.get [0, c] = r.get [1, c] - l.get [0, c] := by
  obtain ⟨A1, p1, p2, -⟩ := append0_eq sf sk
  obtain ⟨A2, q1, q2, q3, q4, -, -⟩ : ∃ A, NDArray.concat0 [r, t, b, fr, bk] = .ok A ∧
      A.shape = [11, 3] ∧ (∀ i is, i < 3 → A.get (i :: is) = r.get (i :: is)) ∧ True ∧ True ∧ True := by
    obtain ⟨B1, b1, b2, -⟩ := append0_eq sb p2
    obtain ⟨B2, c1, c2, -⟩ := append0_eq st b2
    obtain ⟨B3, d1, d2, d3, -⟩ := append0_eq sr c2
    exact ⟨B3, by simp only [NDArray.concat0, sk, p1, b1, c1, d1], d2, d3, trivial, trivial, trivial⟩
  obtain ⟨A, a1, a2, a3, a4⟩ := append0_eq sl q2
  have hA : NDArray.concat0 [l, r, t, b, fr, bk] = .ok A := by
    rw [NDArray.concat0, q1]
    exact a1
  have a2' : A.shape = [6 * 2, 3] := a2
  obtain ⟨p, e1, e2, e3, -, -, -, -, e8, -⟩ := mkParticles_3d a2'
  refine ⟨p, ?_, ?_, ?_⟩
  · rw [(SeedBlocks.six hl hr ht hb hfr hk).read hf, hA]
    exact e1
  · simp [Particles.len, e2, e3, a2']
  · intro c _
    rw [e8, a3 0 _ (by omega), show 2 + 0 = 1 + 1 from rfl, a4 1, q3 1 _ (by omega)]

/-- **C04 is false of the code for six blocks of two columns.**  The file is accepted whenever its
blocks have an even number `2k` of points, and read as `3k` groups of four: the "right minus left" of
group 0 is taken between the left point 0 and the right point `k`. -/
theorem C04_flat_six_blocks_fails (fs : MatFS K) (path : String) (f : MatFile K) (k : ℕ) (hk0 : 0 < k)
    {l r t b fr bk : NDArray K} (hf : fs path = some f) (hl : f "left" = some l)
    (hr : f "right" = some r) (ht : f "top" = some t) (hb : f "bottom" = some b)
    (hfr : f "front" = some fr) (hk : f "back" = some bk)
    (hs : ∀ a ∈ [l, r, t, b, fr, bk], a.shape = [2 * k, 2]) :
    ∃ p, readSeedParticles fs path = .ok p ∧ p.len = 3 * k ∧ p.numNeighbors = 4 ∧
      ∀ c < 2, p.initialDeltaRL.get [0, c] = r.get [k, c] - l.get [0, c] := by
  obtain ⟨A, a1, a2, a3⟩ := concat0_eq (m := 2 * k) (rest := [2]) [l, r, t, b, fr, bk] (by simp) hs
  have a2' : A.shape = [4 * (3 * k), 2] := by
    rw [a2]
    simp only [List.length_cons, List.length_nil, List.cons.injEq, and_true]
    ring
  obtain ⟨p, e1, e2, e3, -, -, -, -, e8, -⟩ := mkParticles_2d a2'
  refine ⟨p, ?_, ?_, e3, ?_⟩
  · rw [(SeedBlocks.six hl hr ht hb hfr hk).read hf, a1]
    exact e1
  · simp [Particles.len, e2, e3, a2']
  · intro c _
    have g0 := a3 0 (by simp) 0 [c] (by omega)
    have g1 := a3 1 (by simp) k [c] (by omega)
    simp only [Nat.zero_mul, Nat.zero_add] at g0
    rw [e8, Nat.add_zero, g0, show 3 * k = 1 * (2 * k) + k by ring, g1]
    rfl

/-! ### Examples -/

/-- A seed file with blocks of the given numbers of rows and columns. -/
def seedFileOf (rows : String → Option ℕ) (c : ℕ) : MatFile ℚ := fun k =>
  (rows k).map fun n => ⟨[n, c], fun idx => k.length + idx.getD 0 0⟩

/-- Blocks of 2 points with four columns and six blocks: twelve rows are not a multiple of eight; with 4
points they are. -/
example : (∃ p, readSeedParticles (fun _ => some (seedFileOf (fun _ => some 4) 4)) "s" = .ok p) ∧
    ¬ ∃ p, readSeedParticles (fun _ => some (seedFileOf (fun _ => some 2) 4)) "s" = .ok p := by
  constructor
  · rw [C04_accepts_iff _ "s" _ _ rfl (.six rfl rfl rfl rfl rfl rfl) (fun a => a.shape.headD 0)
      (fun a => a.shape.getD 1 0) (by decide)]
    exact ⟨4, by decide, by decide, by decide, by decide⟩
  · rw [C04_accepts_iff _ "s" _ _ rfl (.six rfl rfl rfl rfl rfl rfl) (fun a => a.shape.headD 0)
      (fun a => a.shape.getD 1 0) (by decide)]
    rintro ⟨d, -, h, h', -⟩
    have := h _ (List.mem_cons_self)
    subst this
    revert h'
    decide

example : readSeedParticles (fun _ => some fun k => if k = "left" then
      some (⟨[2, 3], fun _ => 0⟩ : NDArray ℚ) else if k = "back" then none else
      some ⟨[2, 2], fun _ => 1⟩) "s" = .error .valueError :=
  C04_columns_rejected _ "s" _ _ rfl (.four rfl rfl rfl rfl (.inr rfl)) (fun a => a.shape.headD 0)
    (fun a => a.shape.getD 1 0) (by decide) (by decide)

example : ∃ p, readSeedParticles (fun _ => some (seedFileOf (fun k => some (if k = "left" then 1 else
    if k = "right" then 3 else 2)) 3)) "s" = .ok p ∧ p.len = 2 := by
  obtain ⟨p, h1, h2, -⟩ := C05_unequal_blocks_3d_fails (fun _ => some (seedFileOf (fun k =>
    some (if k = "left" then 1 else if k = "right" then 3 else 2)) 3)) "s" _ rfl rfl rfl rfl rfl rfl rfl
    rfl rfl rfl rfl rfl rfl
  exact ⟨p, h1, h2⟩

example : ∃ p, readSeedParticles (fun _ => some (seedFileOf (fun _ => some 2) 2)) "s" = .ok p ∧
    p.len = 3 := by
  obtain ⟨p, h1, h2, -⟩ := C04_flat_six_blocks_fails (fun _ => some (seedFileOf (fun _ => some 2) 2))
    "s" _ 1 (by decide) rfl rfl rfl rfl rfl rfl rfl (by decide)
  exact ⟨p, h1, h2⟩

end Verif
