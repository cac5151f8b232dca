import Verif.Lemmas.Examples
import Verif.Props.Particles
import Verif.Spec.Trajectory
import Verif.Lemmas.Swap
import Mathlib.Tactic.IntervalCases

/-!
# C110: the seeds and the pictures of the example notebooks

Nothing here depends on the arithmetic, except that adding zero to a coordinate and subtracting it have
no effect (true of real numbers and of binary64 numbers).
-/

namespace Verif

section seeds
variable {K : Type} [Zero K] [Add K] [Sub K]

/-- The four points around `(x, y)` in the order left, right, top, bottom. -/
def crossAround2 (x y s : K) : Fin 4 → Fin 2 → K :=
  ![![x - s, y], ![x + s, y], ![x, y + s], ![x, y - s]]

/-- The six points around `(x, y, z)` in the order left, right, top, bottom, front, back. -/
def crossAround3 (x y z s : K) : Fin 6 → Fin 3 → K :=
  ![![x - s, y, z], ![x + s, y, z], ![x, y + s, z], ![x, y - s, z], ![x, y, z + s], ![x, y, z - s]]

/-- **C110** (seeds of the plane notebooks).  The four arrays have one row for every centre. -/
theorem crossDict2_ok {x y : NDArray K} {nx ny : ℕ}
    (hx : x.shape = [nx]) (hy : y.shape = [ny])
    (hzx : ∀ i < nx, at1 x i + 0 = at1 x i ∧ at1 x i - 0 = at1 x i)
    (hzy : ∀ j < ny, at1 y j + 0 = at1 y j ∧ at1 y j - 0 = at1 y j) (s : K) :
    ∃ top bottom left right, crossDict2 x y s =
        .ok [("top", top), ("bottom", bottom), ("left", left), ("right", right)] ∧
      (∀ a ∈ [top, bottom, left, right], a.shape = [ny * nx, 2]) ∧
      ∀ j < ny, ∀ i < nx, ∀ b, ![rowOf left 2 (j * nx + i), rowOf right 2 (j * nx + i),
        rowOf top 2 (j * nx + i), rowOf bottom 2 (j * nx + i)] b =
          crossAround2 (at1 x i) (at1 y j) s b := by
  obtain ⟨-, -, m3, m4, m5⟩ := meshgrid_ravel hx hy
  obtain ⟨c, c1, c2, c3⟩ := columnStack_two m3 m4
  obtain ⟨top, t1, t2, t3⟩ := withRow_two (· + ·) c2 0 s
  obtain ⟨bot, b1, b2, b3⟩ := withRow_two (· - ·) c2 0 s
  obtain ⟨left, l1, l2, l3⟩ := withRow_two (· - ·) c2 s 0
  obtain ⟨right, r1, r2, r3⟩ := withRow_two (· + ·) c2 s 0
  refine ⟨top, bot, left, right, ?_, ?_, ?_⟩
  · unfold crossDict2
    simp only [c1, t1, b1, l1, r1]
  · simp [t2, b2, l2, r2]
  · intro j hj i hi b
    obtain ⟨e1, e2⟩ := m5 j hj i hi
    have f1 := (c3 (j * nx + i)).1
    have f2 := (c3 (j * nx + i)).2
    rw [e1] at f1
    rw [e2] at f2
    funext d
    fin_cases b <;> fin_cases d <;>
      simp [crossAround2, rowOf, t3, b3, l3, r3, f1, f2, hzx i hi, hzy j hj]

/-- **C110** (seeds, plane).  The array of the notebook is accepted, and group `j * nx + i` consists of
the four points at distance `spacing` around `(x_i, y_j)`. -/
theorem C110_seeds_2d [Div K] [NatCast K] {x y : NDArray K}
    {nx ny : ℕ} (hx : x.shape = [nx]) (hy : y.shape = [ny])
    (hzx : ∀ i < nx, at1 x i + 0 = at1 x i ∧ at1 x i - 0 = at1 x i)
    (hzy : ∀ j < ny, at1 y j + 0 = at1 y j ∧ at1 y j - 0 = at1 y j) (s : K) :
    ∃ p seeds P, crossDict2 x y s = .ok p ∧ crossPositions2 p = .ok seeds ∧
      seeds.shape = [4 * (ny * nx), 2] ∧ mkParticles seeds = .ok P ∧
      ∀ j < ny, ∀ i < nx, groupOf seeds 4 (ny * nx) 2 (j * nx + i) =
        crossAround2 (at1 x i) (at1 y j) s := by
  obtain ⟨top, bot, left, right, h1, h2, h3⟩ := crossDict2_ok hx hy hzx hzy s
  obtain ⟨A, B, g1, g2, g3, g4⟩ := stack1_reshapeRowsF (N := ny * nx) (d := 2) (by omega) left
    [right, top, bot] (h2 _ (by simp)) (by
      intro b hb
      exact h2 b (by simp only [List.mem_cons, List.not_mem_nil, or_false] at hb ⊢; tauto))
  have g3' : B.shape = [4 * (ny * nx), 2] := g3
  obtain ⟨P, hP, -⟩ := mkParticles_2d g3'
  refine ⟨_, B, P, h1, ?_, g3', hP, ?_⟩
  · unfold crossPositions2
    simp only [ArrayDict.item, List.lookup, show ("left" == "top") = false from rfl,
      show ("left" == "bottom") = false from rfl, show ("left" == "left") = true from rfl,
      show ("right" == "top") = false from rfl, show ("right" == "bottom") = false from rfl,
      show ("right" == "left") = false from rfl, show ("right" == "right") = true from rfl,
      show ("top" == "top") = true from rfl, show ("bottom" == "top") = false from rfl,
      show ("bottom" == "bottom") = true from rfl, g1, g2]
  · intro j hj i hi
    have hr : j * nx + i < ny * nx := by
      have : (j + 1) * nx ≤ ny * nx := Nat.mul_le_mul_right _ hj
      have e : (j + 1) * nx = j * nx + nx := by ring
      omega
    funext b
    rw [← h3 j hj i hi b]
    funext c
    have := g4 b (by simp) (j * nx + i) hr c c.2
    rw [groupOf, rowOf, this]
    fin_cases b <;> rfl

/-- Binary64 numbers. -/
theorem fl_add_zero {a : Fl} (h : IsB64 a.val) : a + 0 = a ∧ a - 0 = a := by
  have e : (0 : Fl).val = 0 := rfl
  constructor
  · show (⟨rne (a.val + (0 : Fl).val)⟩ : Fl) = a
    rw [e, add_zero, rne_self h]
  · show (⟨rne (a.val - (0 : Fl).val)⟩ : Fl) = a
    rw [e, sub_zero, rne_self h]

/-- Two centres with a spacing, in binary64: the hypotheses hold. -/
example : ∃ x y : NDArray Fl, x.shape = [2] ∧ y.shape = [1] ∧
    (∀ i < 2, at1 x i + 0 = at1 x i ∧ at1 x i - 0 = at1 x i) ∧
    (∀ j < 1, at1 y j + 0 = at1 y j ∧ at1 y j - 0 = at1 y j) ∧
    at1 x 0 = ⟨1 / 4⟩ ∧ at1 x 1 = ⟨3⟩ := by
  have h1 : IsB64 (1 / 4) := ⟨1, -2, by norm_num, by norm_num, by norm_num, by norm_num⟩
  have h3 : IsB64 3 := ⟨3, 0, by norm_num, by norm_num, by norm_num, by norm_num⟩
  refine ⟨⟨[2], fun idx => if idx.headD 0 = 0 then ⟨1 / 4⟩ else ⟨3⟩⟩, ⟨[1], fun _ => ⟨3⟩⟩, rfl, rfl,
    fun i hi => ?_, fun j hj => fl_add_zero h3, rfl, rfl⟩
  interval_cases i
  · exact fl_add_zero h1
  · exact fl_add_zero h3

/-- Real numbers: the hypotheses always hold. -/
example (x y : NDArray ℝ) (nx ny : ℕ) :
    (∀ i < nx, at1 x i + 0 = at1 x i ∧ at1 x i - 0 = at1 x i) ∧
    (∀ j < ny, at1 y j + 0 = at1 y j ∧ at1 y j - 0 = at1 y j) :=
  ⟨fun _ _ => ⟨add_zero _, sub_zero _⟩, fun _ _ => ⟨add_zero _, sub_zero _⟩⟩

/-- Position of the centre `(x_i, y_j, z_k)` in C order. -/
theorem flat_lt {nx ny nz i j k : ℕ} (hi : i < nx) (hj : j < ny) (hk : k < nz) :
    (i * ny + j) * nz + k < nx * ny * nz := by
  have h1 : (i + 1) * ny ≤ nx * ny := Nat.mul_le_mul_right _ hi
  have h2 : (i * ny + j + 1) * nz ≤ nx * ny * nz :=
    Nat.mul_le_mul_right _ (by have : (i + 1) * ny = i * ny + ny := by ring
                               omega)
  have e : (i * ny + j + 1) * nz = (i * ny + j) * nz + nz := by ring
  omega

/-- **C110** (seeds, space).  Group `(i * ny + j) * nz + k` consists of the six points at distance
`delta` around `(x_i, y_j, z_k)`. -/
theorem C110_seeds_3d {K : Type} [Add K] [Sub K] [Div K] [NatCast K] {x y z : NDArray K}
    {nx ny nz : ℕ} (hx : x.shape = [nx]) (hy : y.shape = [ny]) (hz : z.shape = [nz]) (s : K) :
    ∃ p seeds P, crossDict3 x y z s = .ok p ∧ crossPositions3 p = .ok seeds ∧
      seeds.shape = [6 * (nx * ny * nz), 3] ∧ mkParticles seeds = .ok P ∧
      ∀ i < nx, ∀ j < ny, ∀ k < nz, groupOf seeds 6 (nx * ny * nz) 3 ((i * ny + j) * nz + k) =
        crossAround3 (at1 x i) (at1 y j) (at1 z k) s := by
  obtain ⟨m1, m2, m3⟩ := meshgridIJ_shape hx hy hz
  have sz : ∀ f : List ℕ → K, (⟨[nx, ny, nz], f⟩ : NDArray K).ravelC.shape = [nx * ny * nz] := by
    intro f
    simp only [NDArray.ravelC, NDArray.ofFn1, NDArray.size, List.prod_cons, List.prod_nil]
    ring_nf
  obtain ⟨top, t1, t2, t3⟩ := columnStack_three (sz fun idx => x.get [idx.getD 0 0])
    (sz fun idx => y.get [idx.getD 1 0] + s) (sz fun idx => z.get [idx.getD 2 0])
  obtain ⟨bot, b1, b2, b3⟩ := columnStack_three (sz fun idx => x.get [idx.getD 0 0])
    (sz fun idx => y.get [idx.getD 1 0] - s) (sz fun idx => z.get [idx.getD 2 0])
  obtain ⟨left, l1, l2, l3⟩ := columnStack_three (sz fun idx => x.get [idx.getD 0 0] - s)
    (sz fun idx => y.get [idx.getD 1 0]) (sz fun idx => z.get [idx.getD 2 0])
  obtain ⟨right, r1, r2, r3⟩ := columnStack_three (sz fun idx => x.get [idx.getD 0 0] + s)
    (sz fun idx => y.get [idx.getD 1 0]) (sz fun idx => z.get [idx.getD 2 0])
  obtain ⟨front, f1, f2, f3⟩ := columnStack_three (sz fun idx => x.get [idx.getD 0 0])
    (sz fun idx => y.get [idx.getD 1 0]) (sz fun idx => z.get [idx.getD 2 0] + s)
  obtain ⟨back, k1, k2, k3⟩ := columnStack_three (sz fun idx => x.get [idx.getD 0 0])
    (sz fun idx => y.get [idx.getD 1 0]) (sz fun idx => z.get [idx.getD 2 0] - s)
  have h1 : crossDict3 x y z s = .ok [("top", top), ("bottom", bot), ("left", left),
      ("right", right), ("front", front), ("back", back)] := by
    unfold crossDict3
    simp only [m1, m2, m3, NDArray.map, t1, b1, l1, r1, f1, k1]
  obtain ⟨A, B, g1, g2, g3, g4⟩ := stack1_reshapeRowsF (N := nx * ny * nz) (d := 3) (by omega) left
    [right, top, bot, front, back] l2 (by
      intro b hb
      simp only [List.mem_cons, List.not_mem_nil, or_false] at hb
      rcases hb with rfl | rfl | rfl | rfl | rfl <;> assumption)
  have g3' : B.shape = [6 * (nx * ny * nz), 3] := g3
  obtain ⟨P, hP, -⟩ := mkParticles_3d g3'
  refine ⟨_, B, P, h1, ?_, g3', hP, ?_⟩
  · unfold crossPositions3
    simp only [ArrayDict.item, List.lookup, show ("left" == "top") = false from rfl,
      show ("left" == "bottom") = false from rfl, show ("left" == "left") = true from rfl,
      show ("right" == "top") = false from rfl, show ("right" == "bottom") = false from rfl,
      show ("right" == "left") = false from rfl, show ("right" == "right") = true from rfl,
      show ("top" == "top") = true from rfl, show ("bottom" == "top") = false from rfl,
      show ("bottom" == "bottom") = true from rfl, show ("front" == "top") = false from rfl,
      show ("front" == "bottom") = false from rfl, show ("front" == "left") = false from rfl,
      show ("front" == "right") = false from rfl, show ("front" == "front") = true from rfl,
      show ("back" == "top") = false from rfl, show ("back" == "bottom") = false from rfl,
      show ("back" == "left") = false from rfl, show ("back" == "right") = false from rfl,
      show ("back" == "front") = false from rfl, show ("back" == "back") = true from rfl, g1, g2]
  · intro i hi j hj k hk
    funext b c
    have := g4 b (by simp) ((i * ny + j) * nz + k) (flat_lt hi hj hk) c c.2
    rw [groupOf, rowOf, this]
    fin_cases b <;> fin_cases c <;>
      simp [crossAround3, at1, t3, b3, l3, r3, f3, k3, NDArray.ravelC, NDArray.ofFn1,
        decC_three hi hj hk]

/-- Two particle sets with the same number of groups, positions, differences and centroids. -/
structure SameParticles (m N d : ℕ) (P P' : Particles K) : Prop where
  neighbours : P.numNeighbors = P'.numNeighbors
  shapes : P.positions.shape = P'.positions.shape ∧
    P.initialDeltaRL.shape = P'.initialDeltaRL.shape ∧
    P.initialDeltaTB.shape = P'.initialDeltaTB.shape ∧
    P.initialDeltaFB.shape = P'.initialDeltaFB.shape ∧
    P.initialCentroid.shape = P'.initialCentroid.shape
  positions : ∀ r < m * N, ∀ c < d, P.positions.get [r, c] = P'.positions.get [r, c]
  right_left : ∀ i < N, ∀ c < d, P.initialDeltaRL.get [i, c] = P'.initialDeltaRL.get [i, c]
  top_bottom : ∀ i < N, ∀ c < d, P.initialDeltaTB.get [i, c] = P'.initialDeltaTB.get [i, c]
  front_back : d = 3 → ∀ i < N, ∀ c < d, P.initialDeltaFB.get [i, c] = P'.initialDeltaFB.get [i, c]
  centroid : ∀ i < N, ∀ c < d, P.initialCentroid.get [i, c] = P'.initialCentroid.get [i, c]

theorem blocks_cover {m N r : ℕ} (h : r < m * N) : ∃ b < m, ∃ i < N, r = b * N + i := by
  have hN : 0 < N := by
    rcases Nat.eq_zero_or_pos N with rfl | h0
    · simp at h
    · exact h0
  exact ⟨r / N, (Nat.div_lt_iff_lt_mul hN).2 h, r % N, Nat.mod_lt _ hN, (Nat.div_add_mod' r N).symm⟩

omit [Zero K] in
theorem sameParticles_of_seeds_2d [Div K] [NatCast K] {a a' : NDArray K} {N : ℕ} {P P' : Particles K}
    (ha : a.shape = [4 * N, 2]) (ha' : a'.shape = [4 * N, 2]) (hP : mkParticles a = .ok P)
    (hP' : mkParticles a' = .ok P')
    (h : ∀ b < 4, ∀ i < N, ∀ c < 2, a.get [b * N + i, c] = a'.get [b * N + i, c]) :
    SameParticles 4 N 2 P P' := by
  obtain ⟨Q, p1, p2, p3, p4, p5, p6, p7, p8, p9, p10⟩ := mkParticles_2d ha
  obtain rfl := Except.ok.inj (p1.symm.trans hP)
  obtain ⟨Q', q1, q2, q3, q4, q5, q6, q7, q8, q9, q10⟩ := mkParticles_2d ha'
  obtain rfl := Except.ok.inj (q1.symm.trans hP')
  have h0 := h 0 (by omega)
  have h1 := h 1 (by omega)
  have h2 := h 2 (by omega)
  have h3 := h 3 (by omega)
  simp only [Nat.zero_mul, Nat.zero_add, Nat.one_mul] at h0 h1
  refine ⟨by rw [p3, q3], ⟨by rw [p2, q2, ha, ha'], by rw [p4, q4], by rw [p5, q5], by rw [p7, q7],
    by rw [p6, q6]⟩, ?_, ?_, ?_, fun h => by omega, ?_⟩
  · intro r hr c hc
    obtain ⟨b, hb, i, hi, rfl⟩ := blocks_cover hr
    rw [p2, q2, h b hb i hi c hc]
  · intro i hi c hc
    rw [p8, q8, h0 i hi c hc, h1 i hi c hc]
  · intro i hi c hc
    rw [p9, q9, h2 i hi c hc, h3 i hi c hc]
  · intro i hi c hc
    rw [p10, q10, h0 i hi c hc, h1 i hi c hc, h2 i hi c hc, h3 i hi c hc]

omit [Zero K] in
theorem sameParticles_of_seeds_3d [Div K] [NatCast K] {a a' : NDArray K} {N : ℕ} {P P' : Particles K}
    (ha : a.shape = [6 * N, 3]) (ha' : a'.shape = [6 * N, 3]) (hP : mkParticles a = .ok P)
    (hP' : mkParticles a' = .ok P')
    (h : ∀ b < 6, ∀ i < N, ∀ c < 3, a.get [b * N + i, c] = a'.get [b * N + i, c]) :
    SameParticles 6 N 3 P P' := by
  obtain ⟨Q, p1, p2, p3, p4, p5, p6, p7, p8, p9, p10, p11⟩ := mkParticles_3d ha
  obtain rfl := Except.ok.inj (p1.symm.trans hP)
  obtain ⟨Q', q1, q2, q3, q4, q5, q6, q7, q8, q9, q10, q11⟩ := mkParticles_3d ha'
  obtain rfl := Except.ok.inj (q1.symm.trans hP')
  have h0 := h 0 (by omega)
  have h1 := h 1 (by omega)
  have h2 := h 2 (by omega)
  have h3 := h 3 (by omega)
  have h4 := h 4 (by omega)
  have h5 := h 5 (by omega)
  simp only [Nat.zero_mul, Nat.zero_add, Nat.one_mul] at h0 h1
  refine ⟨by rw [p3, q3], ⟨by rw [p2, q2, ha, ha'], by rw [p4, q4], by rw [p5, q5], by rw [p6, q6],
    by rw [p7, q7]⟩, ?_, ?_, ?_, fun _ => ?_, ?_⟩
  · intro r hr c hc
    obtain ⟨b, hb, i, hi, rfl⟩ := blocks_cover hr
    rw [p2, q2, h b hb i hi c hc]
  · intro i hi c hc
    rw [p8, q8, h0 i hi c hc, h1 i hi c hc]
  · intro i hi c hc
    rw [p9, q9, h2 i hi c hc, h3 i hi c hc]
  · intro i hi c hc
    rw [p10, q10, h4 i hi c hc, h5 i hi c hc]
  · intro i hi c hc
    rw [p11, q11, h0 i hi c hc, h1 i hi c hc, h2 i hi c hc, h3 i hi c hc, h4 i hi c hc, h5 i hi c hc]

omit [Zero K] [Add K] [Sub K] in
theorem savedMat_block {p : ArrayDict K} {key : String} {a : NDArray K} {N d : ℕ}
    (h : p.lookup key = some a) (ha : a.shape = [N, d]) : savedMat p key = some a := by
  unfold savedMat
  rw [h]
  simp only [Option.map_some, ha]

omit [Zero K] in
/-- What a seed file gives is what `NeighboringParticles` makes of its positions. -/
theorem mkParticles_of_read [Div K] [NatCast K] {fs : MatFS K} {path : String} {P : Particles K}
    (h : readSeedParticles fs path = .ok P) : mkParticles P.positions = .ok P := by
  unfold readSeedParticles at h
  split at h
  · cases h
  · split at h
    · simp only at h
      split at h
      · cases h
      · obtain ⟨-, -, -, -, -, e, -⟩ := mkParticles_fields h
        rw [e]
        exact h
    · cases h

omit [Zero K] in
/-- **C110** (saved seeds, plane).  A file in which the dictionary has been saved gives the same
particles as the array that the notebook builds from it. -/
theorem C110_saved_seeds_2d [Div K] [NatCast K] {p : ArrayDict K} {left right top bottom : NDArray K}
    {N : ℕ} (hl : p.lookup "left" = some left) (hr : p.lookup "right" = some right)
    (ht : p.lookup "top" = some top) (hb : p.lookup "bottom" = some bottom)
    (h2 : p.lookup "front" = none ∨ p.lookup "back" = none)
    (hs : ∀ a ∈ [left, right, top, bottom], a.shape = [N, 2]) (fs : MatFS K) (path : String)
    (hf : fs path = some (savedMat p)) :
    ∃ seeds P P', crossPositions2 p = .ok seeds ∧ mkParticles seeds = .ok P ∧
      readSeedParticles fs path = .ok P' ∧ SameParticles 4 N 2 P P' := by
  simp only [List.mem_cons, List.not_mem_nil, or_false, forall_eq_or_imp, forall_eq] at hs
  obtain ⟨s1, s2, s3, s4⟩ := hs
  obtain ⟨A, B, g1, g2, g3, g4⟩ := stack1_reshapeRowsF (N := N) (d := 2) (by omega) left
    [right, top, bottom] s1 (by simp [s2, s3, s4])
  have g3' : B.shape = [4 * N, 2] := g3
  obtain ⟨P, hP, -⟩ := mkParticles_2d g3'
  obtain ⟨P', r1, r2, r3, r4, r5, r6⟩ := C01_seed_file_2d fs path (savedMat p) N left right top bottom hf
    (savedMat_block hl s1) (savedMat_block hr s2) (savedMat_block ht s3) (savedMat_block hb s4)
    (by rcases h2 with h | h <;> simp [savedMat, h]) s1 s2 s3 s4
  have c1 := mkParticles_of_read r1
  refine ⟨B, P, P', ?_, hP, r1, sameParticles_of_seeds_2d g3' r2.2.2.1 hP c1 ?_⟩
  · unfold crossPositions2
    simp only [ArrayDict.item, hl, hr, ht, hb, g1, g2]
  · intro b hb i hi c hc
    rw [g4 b hb i hi c hc]
    have := r6 i hi c hc
    interval_cases b
    · simpa using this.1.symm
    · simpa using this.2.1.symm
    · simpa using this.2.2.1.symm
    · simpa using this.2.2.2.symm

omit [Zero K] in
/-- **C110** (saved seeds, space). -/
theorem C110_saved_seeds_3d [Div K] [NatCast K] {p : ArrayDict K}
    {left right top bottom front back : NDArray K}
    {N : ℕ} (hl : p.lookup "left" = some left) (hr : p.lookup "right" = some right)
    (ht : p.lookup "top" = some top) (hb : p.lookup "bottom" = some bottom)
    (hfr : p.lookup "front" = some front) (hbk : p.lookup "back" = some back)
    (hs : ∀ a ∈ [left, right, top, bottom, front, back], a.shape = [N, 3]) (fs : MatFS K)
    (path : String) (hf : fs path = some (savedMat p)) :
    ∃ seeds P P', crossPositions3 p = .ok seeds ∧ mkParticles seeds = .ok P ∧
      readSeedParticles fs path = .ok P' ∧ SameParticles 6 N 3 P P' := by
  simp only [List.mem_cons, List.not_mem_nil, or_false, forall_eq_or_imp, forall_eq] at hs
  obtain ⟨s1, s2, s3, s4, s5, s6⟩ := hs
  obtain ⟨A, B, g1, g2, g3, g4⟩ := stack1_reshapeRowsF (N := N) (d := 3) (by omega) left
    [right, top, bottom, front, back] s1 (by simp [s2, s3, s4, s5, s6])
  have g3' : B.shape = [6 * N, 3] := g3
  obtain ⟨P, hP, -⟩ := mkParticles_3d g3'
  obtain ⟨P', r1, r2, r3, r4, r5, r6, r7⟩ := C01_seed_file_3d fs path (savedMat p) N left right top
    bottom front back hf (savedMat_block hl s1) (savedMat_block hr s2) (savedMat_block ht s3)
    (savedMat_block hb s4) (savedMat_block hfr s5) (savedMat_block hbk s6) s1 s2 s3 s4 s5 s6
  have c1 := mkParticles_of_read r1
  refine ⟨B, P, P', ?_, hP, r1, sameParticles_of_seeds_3d g3' r2.2.2.1 hP c1 ?_⟩
  · unfold crossPositions3
    simp only [ArrayDict.item, hl, hr, ht, hb, hfr, hbk, g1, g2]
  · intro b hb i hi c hc
    rw [g4 b hb i hi c hc]
    have := r7 i hi c hc
    interval_cases b
    · simpa using this.1.symm
    · simpa using this.2.1.symm
    · simpa using this.2.2.1.symm
    · simpa using this.2.2.2.1.symm
    · simpa using this.2.2.2.2.1.symm
    · simpa using this.2.2.2.2.2.symm

/-- The dictionary of the notebook meets the hypotheses: what it saves is read as the particles that it
uses. -/
example (x y : NDArray ℝ) (hx : x.shape = [3]) (hy : y.shape = [2]) :
    ∃ p left right top bottom, crossDict2 x y (1 / 100 : ℝ) = .ok p ∧ p.lookup "left" = some left ∧
      p.lookup "right" = some right ∧ p.lookup "top" = some top ∧ p.lookup "bottom" = some bottom ∧
      p.lookup "front" = none ∧ ∀ a ∈ [left, right, top, bottom], a.shape = [2 * 3, 2] := by
  obtain ⟨top, bottom, left, right, h1, h2, -⟩ := crossDict2_ok hx hy
    (fun _ _ => ⟨add_zero _, sub_zero _⟩) (fun _ _ => ⟨add_zero _, sub_zero _⟩) (1 / 100 : ℝ)
  refine ⟨_, left, right, top, bottom, h1, rfl, rfl, rfl, rfl, rfl, fun a ha => h2 a ?_⟩
  simp only [List.mem_cons, List.not_mem_nil, or_false] at ha ⊢
  tauto

end seeds

section pictures
variable {K F : Type} [Inhabited F]

/-- **C110** (picture).  Row `j` and column `i` of the picture hold the value of group `j * nx + i`,
whose centre is `(x_i, y_j)`. -/
theorem C110_picture {x y : NDArray K} {nx ny : ℕ} (hx : x.shape = [nx]) (hy : y.shape = [ny])
    {field : List F} (hf : field.length = ny * nx) :
    ∃ a, picture x y field = .ok a ∧ a.shape = [ny, nx] ∧
      ∀ j < ny, ∀ i < nx, field[j * nx + i]? = some (a.get [j, i]) := by
  obtain ⟨m1, -⟩ := meshgrid_ravel hx hy
  have hs : (arrayOfList field).shape = [ny * nx] := by simp [arrayOfList, hf]
  refine ⟨⟨[ny, nx], fun idx => (arrayOfList field).get (decC [ny * nx] (encC [ny, nx] idx))⟩, ?_, rfl,
    ?_⟩
  · unfold picture NDArray.reshapeC
    rw [m1, hs, if_pos (by simp)]
  · intro j hj i hi
    have hr : j * nx + i < field.length := by
      have : (j + 1) * nx ≤ ny * nx := Nat.mul_le_mul_right _ hj
      have e : (j + 1) * nx = j * nx + nx := by ring
      omega
    simp [encC, decC, arrayOfList, hr]

/-- **C110** (grid of the helical notebook).  Every point of the grid is the centre of one group and
has its value: the point with number `i + nx * (j + ny * k)` is `(x_i, y_j, z_k)` and has the value of
group `(i * ny + j) * nz + k`. -/
theorem C110_grid_points {x y z : NDArray K} {nx ny nz : ℕ} (hx : x.shape = [nx])
    (hy : y.shape = [ny]) (hz : z.shape = [nz]) {field : List F} (hf : field.length = nx * ny * nz) :
    ∃ l, notebookPoints x y z field = .ok l ∧ l.length = nx * ny * nz ∧
      ∀ i < nx, ∀ j < ny, ∀ k < nz, ∃ v, field[(i * ny + j) * nz + k]? = some v ∧
        l[i + nx * (j + ny * k)]? = some (v, [at1 x i, at1 y j, at1 z k]) := by
  obtain ⟨m1, m2, m3⟩ := meshgridIJ_shape hx hy hz
  have hs : (arrayOfList field).shape = [nx * ny * nz] := by simp [arrayOfList, hf]
  have hsize : [nx, ny, nz].prod = nx * ny * nz := by simp [List.prod_cons, mul_assoc]
  have hr : (arrayOfList field).reshapeC [nx, ny, nz] = .ok ⟨[nx, ny, nz], fun idx =>
      (arrayOfList field).get (decC [nx * ny * nz] (encC [nx, ny, nz] idx))⟩ := by
    unfold NDArray.reshapeC
    rw [hs, if_pos (by rw [hsize]; simp)]
  refine ⟨(List.range (nx * ny * nz)).map fun n =>
      ((arrayOfList field).get (decC [nx * ny * nz] (encC [nx, ny, nz] (decF [nx, ny, nz] n))),
        [x.get [(decF [nx, ny, nz] n).getD 0 0], y.get [(decF [nx, ny, nz] n).getD 1 0],
          z.get [(decF [nx, ny, nz] n).getD 2 0]]), ?_, ?_, ?_⟩
  · unfold notebookPoints
    simp only [m1, m2, m3, hr, NDArray.size, hsize, ne_eq, not_true_eq_false, if_false,
      NDArray.ravelF, NDArray.ofFn1, List.headD_cons]
  · simp
  · intro i hi j hj k hk
    have h1 := flat_lt hi hj hk
    have h2 : i + nx * (j + ny * k) < nx * ny * nz := by
      have := encF_lt (sh := [nx, ny, nz]) (idx := [i, j, k]) (by simp [hi, hj, hk])
      rw [hsize] at this
      simpa [encF] using this
    refine ⟨field[(i * ny + j) * nz + k], List.getElem?_eq_getElem (by omega), ?_⟩
    rw [List.getElem?_map, List.getElem?_range h2]
    have e : encC [nx, ny, nz] [i, j, k] = (i * ny + j) * nz + k := by simp [encC]; ring
    simp only [Option.map_some, decF_three hi hj hk, e]
    simp [decC, arrayOfList, hf ▸ h1, at1]

/-- A picture of three columns and two rows. -/
example : ∃ (x y : NDArray ℚ) (field : List ℕ), x.shape = [3] ∧ y.shape = [2] ∧
    field.length = 2 * 3 ∧ ∃ a, picture x y field = .ok a ∧ a.get [1, 0] = 13 ∧ a.get [0, 2] = 12 :=
  ⟨⟨[3], fun _ => 0⟩, ⟨[2], fun _ => 0⟩, [10, 11, 12, 13, 14, 15], rfl, rfl, rfl, _, rfl, rfl, rfl⟩

/-- A grid of `2 × 1 × 2` points. -/
example : ∃ (x y z : NDArray ℕ) (field : List ℕ), x.shape = [2] ∧ y.shape = [1] ∧ z.shape = [2] ∧
    field.length = 2 * 1 * 2 ∧ ∃ l, notebookPoints x y z field = .ok l ∧
      l = [(10, [0, 5, 0]), (12, [1, 5, 0]), (11, [0, 5, 1]), (13, [1, 5, 1])] :=
  ⟨⟨[2], fun idx => idx.headD 0⟩, ⟨[1], fun _ => 5⟩, ⟨[2], fun idx => idx.headD 0⟩, [10, 11, 12, 13],
    rfl, rfl, rfl, rfl, _, rfl, rfl⟩

end pictures

end Verif
