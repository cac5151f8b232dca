import Verif.Props.Extent

/-!
# C96 in three dimensions: which nodes keep their velocity
-/

set_option linter.unusedSectionVars false

namespace Verif

variable {K : Type} [Field K] [LinearOrder K] [IsStrictOrderedRing K] [FloorRing K]

/-- A grid with the numbers of nodes and the extent of the data. -/
def assumed3 (nx ny nz : ℕ) (x0 dx y0 dy z0 dz : K) : NDArray K :=
  ⟨[3, nx * ny * nz], fun idx =>
    if idx.getD 0 0 = 0 then x0 + ((idx.getD 1 0 % nx : ℕ) : K) * dx
    else if idx.getD 0 0 = 1 then y0 + ((idx.getD 1 0 / nx % ny : ℕ) : K) * dy
    else z0 + ((idx.getD 1 0 / (nx * ny) : ℕ) : K) * dz⟩

/-- Coordinates of an `nx × ny × nz` grid that reach from `(x0, y0, z0)` over `nx - 1`, `ny - 1` and
`nz - 1` spacings `dx`, `dy`, `dz`. -/
structure Listed3 (nx ny nz : ℕ) (x0 dx y0 dy z0 dz : K) (p : NDArray K) : Prop where
  hnx : 2 ≤ nx
  hny : 2 ≤ ny
  hnz : 2 ≤ nz
  lnx : (nx : ℤ) < intLim
  lny : (ny : ℤ) < intLim
  lnz : (nz : ℤ) < intLim
  lxz : (nx : ℤ) * nz < intLim
  hdx : 0 < dx
  hdy : 0 < dy
  hdz : 0 < dz
  hp : p.shape = [3, nx * ny * nz]
  hx : Reaches p (nx * ny * nz) 0 x0 (x0 + ((nx - 1 : ℕ) : K) * dx)
  hy : Reaches p (nx * ny * nz) 1 y0 (y0 + ((ny - 1 : ℕ) : K) * dy)
  hz : Reaches p (nx * ny * nz) 2 z0 (z0 + ((nz - 1 : ℕ) : K) * dz)

theorem assumed3_grid {nx ny nz : ℕ} {x0 dx y0 dy z0 dz : K} {p : NDArray K}
    (g : Listed3 nx ny nz x0 dx y0 dy z0 dz p) {v : NDArray K} (hv : v.shape = [3, nx * ny * nz]) :
    Grid3 nx ny nz x0 dx y0 dy z0 dz v (assumed3 nx ny nz x0 dx y0 dy z0 dz) := by
  have hnx := g.hnx
  have hny := g.hny
  have hnz := g.hnz
  have hxy : 0 < nx * ny := Nat.mul_pos (by omega) (by omega)
  refine ⟨g.hnx, g.hny, g.hnz, g.lnx, g.lny, g.lnz, g.lxz, g.hdx, g.hdy, g.hdz, rfl, hv, ⟨?_, ?_⟩,
    ⟨?_, ?_⟩, ⟨?_, ?_⟩⟩
  · exact fun k hk => ⟨k % nx, Nat.mod_lt _ (by omega), rfl⟩
  · refine fun i hi => ⟨i, ?_, ?_⟩
    · calc i < nx := hi
        _ ≤ nx * ny := Nat.le_mul_of_pos_right _ (by omega)
        _ ≤ nx * ny * nz := Nat.le_mul_of_pos_right _ (by omega)
    · simp [assumed3, Nat.mod_eq_of_lt hi]
  · exact fun k hk => ⟨k / nx % ny, Nat.mod_lt _ (by omega), rfl⟩
  · refine fun j hj => ⟨nx * j, ?_, ?_⟩
    · calc nx * j < nx * ny := Nat.mul_lt_mul_of_pos_left hj (by omega)
        _ ≤ nx * ny * nz := Nat.le_mul_of_pos_right _ (by omega)
    · simp [assumed3, Nat.mul_div_cancel_left j (by omega : 0 < nx), Nat.mod_eq_of_lt hj]
  · exact fun k hk => ⟨k / (nx * ny), Nat.div_lt_of_lt_mul hk, rfl⟩
  · refine fun l hl => ⟨nx * ny * l, Nat.mul_lt_mul_of_pos_left hl hxy, ?_⟩
    simp [assumed3, Nat.mul_div_cancel_left l hxy]

/-- `update(v, p)` followed by a query: only the extent of the coordinates matters. -/
theorem listed3_value {m : CMachine K} (hm : ExactTarget m) (junk : List ℕ → K) {nx ny nz : ℕ}
    {x0 dx y0 dy z0 dz : K} {p : NDArray K} (g : Listed3 nx ny nz x0 dx y0 dy z0 dz p)
    {v : NDArray K} (hv : v.shape = [3, nx * ny * nz]) {s : HighPerf K}
    (hs : s.gridShape = [nx, ny, nz]) {q : NDArray K} {n : ℕ} (hq : q.shape = [n, 3])
    (hb : s.BufOk n) (hsafe : SafeQueries3 q n x0 dx y0 dy z0 dz) :
    ∃ s' out, s.update v (some p) = (s', none) ∧ (s'.interpolate m junk q).2 = .ok out ∧
      ∀ r < n, ∀ c < 3, out.get [r, c] =
        cellValue3 ny nx nz (fun i j k => v.get [c, (j * ny + i) * nz + k])
          ((q.get [r, 0] - x0) / dx) ((q.get [r, 1] - y0) / dy) ((q.get [r, 2] - z0) / dz) := by
  have g' := assumed3_grid g hv
  obtain ⟨s1, x, y, z, hu, -, hx, hy, hz, hul, hwl, fx, fy, fz⟩ := highPerf_update_3d g' hs
  have hse : SameExtent (assumed3 nx ny nz x0 dx y0 dy z0 dz) p :=
    sameExtent_of_reaches (N := nx * ny * nz)
      (lo := fun c => if c = 0 then x0 else if c = 1 then y0 else z0)
      (hi := fun c => if c = 0 then x0 + ((nx - 1 : ℕ) : K) * dx else
        if c = 1 then y0 + ((ny - 1 : ℕ) : K) * dy else z0 + ((nz - 1 : ℕ) : K) * dz)
      rfl g.hp
      (fun c hc => by
        obtain rfl | rfl | rfl : c = 0 ∨ c = 1 ∨ c = 2 := by omega
        · exact reaches_of_axis g.hnx g.hdx g'.hx
        · exact reaches_of_axis g.hny g.hdy g'.hy
        · exact reaches_of_axis g.hnz g.hdz g'.hz)
      (fun c hc => by
        obtain rfl | rfl | rfl : c = 0 ∨ c = 1 ∨ c = 2 := by omega
        · exact g.hx
        · exact g.hy
        · exact g.hz)
  obtain ⟨h1, h2⟩ := highPerf_update_extent (s := s) s.points v
    (p := some (assumed3 nx ny nz x0 dx y0 dy z0 dz))
    (p' := some p) hse (fun z hz => by cases hz; exact ⟨_, by rw [hs]; rfl⟩)
  rw [hu] at h1 h2
  have hb' : (s.update v (some p)).1.BufOk n := by
    have e : (s.update v (some p)).1.uLen = s.uLen ∧ (s.update v (some p)).1.wLen = s.wLen := by
      rw [h2]
      exact ⟨hul, hwl⟩
    unfold HighPerf.BufOk at hb ⊢
    rw [e.1, e.2]
    exact hb
  obtain ⟨out, ho, -, hval⟩ := highPerf_interpolate_3d (s := (s.update v (some p)).1) hm junk
    (f := fun c i j k => v.get [c, (j * ny + i) * nz + k]) (by rw [h2]; exact hx)
    (by rw [h2]; exact hy) (by rw [h2]; exact hz) fx fy fz g.hdx.ne' g.hdy.ne' g.hdz.ne' g.lny g.lnx
    g.lnz g.lxz hq hb' hsafe
  exact ⟨(s.update v (some p)).1, out, Prod.ext rfl h1, ho, hval⟩

theorem safeCoord_within {n : ℕ} {z0 dz z : K} (hn : 2 ≤ n) (hl : (n : ℤ) < intLim) (hd : 0 < dz)
    (h0 : z0 ≤ z) (h1 : z ≤ z0 + ((n - 1 : ℕ) : K) * dz) : SafeCoord ((z - z0) / dz) := by
  have a0 : 0 ≤ (z - z0) / dz := div_nonneg (by linarith) hd.le
  have a1 : (z - z0) / dz ≤ ((n - 1 : ℕ) : K) := by
    rw [div_le_iff₀ hd]
    linarith
  have f0 : 0 ≤ ⌊(z - z0) / dz⌋ := Int.floor_nonneg.2 a0
  have f1 : ⌊(z - z0) / dz⌋ ≤ ((n - 1 : ℕ) : ℤ) := by
    have := Int.floor_le ((z - z0) / dz)
    have : ((⌊(z - z0) / dz⌋ : ℤ) : K) ≤ (((n - 1 : ℕ) : ℤ) : K) := by
      push_cast
      linarith
    exact_mod_cast this
  have : 0 < intLim := by decide
  constructor <;> omega

theorem listed3_safe {nx ny nz : ℕ} {x0 dx y0 dy z0 dz : K} {p : NDArray K}
    (g : Listed3 nx ny nz x0 dx y0 dy z0 dz p) {k : ℕ} (hk : k < nx * ny * nz) :
    SafeQueries3 (pointOf p 3 k) 1 x0 dx y0 dy z0 dz := fun _ _ =>
  ⟨safeCoord_within g.hnx g.lnx g.hdx (g.hx.1 k hk).1 (g.hx.1 k hk).2,
    safeCoord_within g.hny g.lny g.hdy (g.hy.1 k hk).1 (g.hy.1 k hk).2,
    safeCoord_within g.hnz g.lnz g.hdz (g.hz.1 k hk).1 (g.hz.1 k hk).2⟩

/-- A mean of numbers up to 1 is 1 only if those of positive weight are. -/
theorem lerp_eq_one {a b t : K} (ha : a ≤ 1) (hb : b ≤ 1) (h0 : 0 ≤ t) (h1 : t < 1)
    (h : lerp a b t = 1) : a = 1 ∧ (0 < t → b = 1) := by
  unfold lerp at h
  have h2 : (1 - t) * (1 - a) + t * (1 - b) = 0 := by linear_combination -h
  have p1 : 0 ≤ (1 - t) * (1 - a) := mul_nonneg (by linarith) (by linarith)
  have p2 : 0 ≤ t * (1 - b) := mul_nonneg h0 (by linarith)
  have e1 : (1 - t) * (1 - a) = 0 := by linarith
  have e2 : t * (1 - b) = 0 := by linarith
  refine ⟨?_, fun ht => ?_⟩
  · rcases mul_eq_zero.1 e1 with h | h <;> linarith
  · rcases mul_eq_zero.1 e2 with h | h <;> linarith

theorem lerp_le_one {a b t : K} (ha : a ≤ 1) (hb : b ≤ 1) (h0 : 0 ≤ t) (h1 : t < 1) :
    lerp a b t ≤ 1 := by
  unfold lerp
  have p1 : 0 ≤ (1 - t) * (1 - a) := mul_nonneg (by linarith) (by linarith)
  have p2 : 0 ≤ t * (1 - b) := mul_nonneg h0 (by linarith)
  linarith

/-- The interpolated indicator of an index is 1 only at the node of the index. -/
theorem cellValue3_indicator {X Y Z : ℕ} {f : ℕ → ℕ → ℕ → ℕ} {k : ℕ} {x y z : K}
    (hf1 : ∀ i j l, i + 1 < X → j + 1 < Y → l + 1 < Z → f (i + 1) j l ≠ f i j l)
    (hf2 : ∀ i j l, i + 1 < X → j + 1 < Y → l + 1 < Z → f i (j + 1) l ≠ f i j l)
    (hf3 : ∀ i j l, i + 1 < X → j + 1 < Y → l + 1 < Z → f i j (l + 1) ≠ f i j l)
    (h : cellValue3 X Y Z (fun i j l => if f i j l = k then (1 : K) else 0) x y z = 1) :
    ∃ i j l : ℕ, i + 1 < X ∧ j + 1 < Y ∧ l + 1 < Z ∧ f i j l = k ∧ x = i ∧ y = j ∧ z = l := by
  unfold cellValue3 at h
  by_cases hin : InCells X x ∧ InCells Y y ∧ InCells Z z
  swap
  · rw [if_neg hin] at h
    exact (zero_ne_one h).elim
  rw [if_pos hin] at h
  obtain ⟨iX, iY, iZ⟩ := hin
  obtain ⟨fX, aX⟩ := inCells_cell iX
  obtain ⟨fY, aY⟩ := inCells_cell iY
  obtain ⟨fZ, aZ⟩ := inCells_cell iZ
  have ex := Int.floor_le x
  have ex' := Int.lt_floor_add_one x
  have ey := Int.floor_le y
  have ey' := Int.lt_floor_add_one y
  have ez := Int.floor_le z
  have ez' := Int.lt_floor_add_one z
  rw [fX] at ex ex'
  rw [fY] at ey ey'
  rw [fZ] at ez ez'
  simp only [Int.cast_natCast] at ex ex' ey ey' ez ez'
  simp only at h
  generalize cellOf x = i at *
  generalize cellOf y = j at *
  generalize cellOf z = l at *
  have b : ∀ n : ℕ, (if n = k then (1 : K) else 0) ≤ 1 := fun n => by split <;> norm_num
  have tx : 0 ≤ x - i ∧ x - i < 1 := ⟨by linarith, by linarith⟩
  have ty : 0 ≤ y - j ∧ y - j < 1 := ⟨by linarith, by linarith⟩
  have tz : 0 ≤ z - l ∧ z - l < 1 := ⟨by linarith, by linarith⟩
  have b1 : ∀ n n' : ℕ, lerp (if n = k then (1 : K) else 0) (if n' = k then 1 else 0) (x - i) ≤ 1 :=
    fun n n' => lerp_le_one (b n) (b n') tx.1 tx.2
  obtain ⟨h1, h1'⟩ := lerp_eq_one (lerp_le_one (b1 _ _) (b1 _ _) ty.1 ty.2)
    (lerp_le_one (b1 _ _) (b1 _ _) ty.1 ty.2) tz.1 tz.2 h
  obtain ⟨h2, h2'⟩ := lerp_eq_one (b1 _ _) (b1 _ _) ty.1 ty.2 h1
  obtain ⟨h3, h3'⟩ := lerp_eq_one (b _) (b _) tx.1 tx.2 h2
  have ind : ∀ n : ℕ, (if n = k then (1 : K) else 0) = 1 → n = k := fun n hn => by
    by_contra hne
    rw [if_neg hne] at hn
    exact zero_ne_one hn
  have e := ind _ h3
  refine ⟨i, j, l, aX, aY, aZ, e, ?_, ?_, ?_⟩
  · by_contra hne
    exact hf1 i j l aX aY aZ ((ind _ (h3' (lt_of_le_of_ne tx.1 fun h => hne (by linarith)))).trans e.symm)
  · by_contra hne
    have := h2' (lt_of_le_of_ne ty.1 fun h => hne (by linarith))
    exact hf2 i j l aX aY aZ ((ind _ (lerp_eq_one (b _) (b _) tx.1 tx.2 this).1).trans e.symm)
  · by_contra hne
    have := h1' (lt_of_le_of_ne tz.1 fun h => hne (by linarith))
    exact hf3 i j l aX aY aZ ((ind _ (lerp_eq_one (b _) (b _) tx.1 tx.2
      (lerp_eq_one (b1 _ _) (b1 _ _) ty.1 ty.2 this).1).1).trans e.symm)

/-- **C96, which nodes keep their velocity, 3-D.**  Data point `k` of a grid.  The fast interpolator
returns at its position the velocity listed for it, for all velocities, if and only if `k` is
`(j * ny + i) * nz + l`, the position is node `(i, j, l)` of the uniform grid with ascending axes, and
`i + 1 < ny`, `j + 1 < nx`, `l + 1 < nz` (the bounds on `i` and `j` are exchanged, see C30). -/
theorem C96_node_iff_3d {m : CMachine K} (hm : ExactTarget m) (junk : List ℕ → K) {nx ny nz : ℕ}
    {x0 dx y0 dy z0 dz : K} {p : NDArray K} (g : Listed3 nx ny nz x0 dx y0 dy z0 dz p) (s : HighPerf K)
    (hs : s.gridShape = [nx, ny, nz]) (hb : s.BufOk 1) {k : ℕ} (hk : k < nx * ny * nz) :
    (∀ v : NDArray K, v.shape = [3, nx * ny * nz] → ∃ s' out, s.update v (some p) = (s', none) ∧
      (s'.interpolate m junk (pointOf p 3 k)).2 = .ok out ∧ ∀ c < 3, out.get [0, c] = v.get [c, k]) ↔
    ∃ i j l : ℕ, i + 1 < ny ∧ j + 1 < nx ∧ l + 1 < nz ∧ k = (j * ny + i) * nz + l ∧
      p.get [0, k] = x0 + (i : K) * dx ∧ p.get [1, k] = y0 + (j : K) * dy ∧
      p.get [2, k] = z0 + (l : K) * dz := by
  have hnx := g.hnx
  have hny := g.hny
  have hnz := g.hnz
  constructor
  · intro h
    obtain ⟨v, hvd⟩ : ∃ v : NDArray K,
        v = ⟨[3, nx * ny * nz], fun idx => if idx.getD 1 0 = k then 1 else 0⟩ := ⟨_, rfl⟩
    have hv : v.shape = [3, nx * ny * nz] := by rw [hvd]
    obtain ⟨s1, o1, u1, q1, h1⟩ := h v hv
    obtain ⟨s2, o2, u2, q2, h2⟩ := listed3_value hm junk g hv hs (q := pointOf p 3 k) rfl hb
      (listed3_safe g hk)
    rw [u1] at u2
    cases u2
    rw [q1] at q2
    cases q2
    have e := h2 0 (by omega) 0 (by omega)
    rw [h1 0 (by omega)] at e
    have hg : ∀ c i, v.get [c, i] = if i = k then 1 else 0 := by
      intro c i
      rw [hvd]
      simp
    simp only [hg, if_true, pointOf, List.getD_cons_succ, List.getD_cons_zero] at e
    obtain ⟨i, j, l, hi, hj, hl, hkk, eX, eY, eZ⟩ := cellValue3_indicator
      (f := fun i j l => (j * ny + i) * nz + l)
      (fun i j l _ _ _ h => by
        have : (j * ny + (i + 1)) * nz = (j * ny + i) * nz + nz := by ring
        omega)
      (fun i j l _ _ _ h => by
        have : ((j + 1) * ny + i) * nz = (j * ny + i) * nz + ny * nz := by ring
        have : 0 < ny * nz := Nat.mul_pos (by omega) (by omega)
        omega)
      (fun i j l _ _ _ h => by omega) e.symm
    have at' : ∀ {z0 dz z : K} {n : ℕ}, 0 < dz → (z - z0) / dz = n → z = z0 + n * dz := by
      intro z0 dz z n hd h
      rw [← h, div_mul_cancel₀ _ hd.ne']
      ring
    exact ⟨i, j, l, hi, hj, hl, hkk.symm, at' g.hdx eX, at' g.hdy eY, at' g.hdz eZ⟩
  · rintro ⟨i, j, l, hi, hj, hl, hkk, e0, e1, e2⟩ v hv
    obtain ⟨s', out, hu, ho, hval⟩ := listed3_value hm junk g hv hs (q := pointOf p 3 k) rfl hb
      (listed3_safe g hk)
    refine ⟨s', out, hu, ho, fun c hc => ?_⟩
    rw [hval 0 (by omega) c hc]
    simp only [pointOf, List.getD_cons_succ, List.getD_cons_zero]
    rw [e0, e1, e2, node_index g.hdx, node_index g.hdy, node_index g.hdz, cellValue3_node hi hj hl, hkk]

/-! ## Examples -/

/-- A 3 × 2 × 2 grid listed with `z` fastest, then `y`, then `x` (the order of `indexing="ij"`). -/
def exBrick : NDArray ℚ := ⟨[3, 12], fun idx =>
  if idx.getD 0 0 = 0 then ((idx.getD 1 0 / 4 : ℕ) : ℚ)
  else if idx.getD 0 0 = 1 then ((idx.getD 1 0 / 2 % 2 : ℕ) : ℚ)
  else ((idx.getD 1 0 % 2 : ℕ) : ℚ)⟩

theorem exBrick_listed : Listed3 3 2 2 0 1 0 1 0 1 exBrick := by
  refine ⟨by norm_num, by norm_num, by norm_num, by decide, by decide, by decide, by decide,
    by norm_num, by norm_num, by norm_num, rfl, ⟨?_, ?_, ?_⟩, ⟨?_, ?_, ?_⟩, ⟨?_, ?_, ?_⟩⟩ <;>
    decide +kernel

/-- `C96_node_iff_3d` is not vacuous: data point 0 keeps its velocity, … -/
example : ∀ v : NDArray ℚ, v.shape = [3, 3 * 2 * 2] → ∃ s' out,
    (HighPerf.fresh [3, 2, 2]).update v (some exBrick) = (s', none) ∧
    (s'.interpolate (isoCpp Int.floor Int.cast) (fun _ => 0) (pointOf exBrick 3 0)).2 = .ok out ∧
    ∀ c < 3, out.get [0, c] = v.get [c, 0] :=
  (C96_node_iff_3d (Or.inl rfl) _ exBrick_listed _ rfl (by intro h; cases h) (by norm_num)).2
    ⟨0, 0, 0, by norm_num, by norm_num, by norm_num, rfl, by decide +kernel, by decide +kernel,
      by decide +kernel⟩

/-- … data point 4, at `(1, 0, 0)`, does not. -/
example : ¬ ∀ v : NDArray ℚ, v.shape = [3, 3 * 2 * 2] → ∃ s' out,
    (HighPerf.fresh [3, 2, 2]).update v (some exBrick) = (s', none) ∧
    (s'.interpolate (isoCpp Int.floor Int.cast) (fun _ => 0) (pointOf exBrick 3 4)).2 = .ok out ∧
    ∀ c < 3, out.get [0, c] = v.get [c, 4] := by
  rw [C96_node_iff_3d (Or.inl rfl) _ exBrick_listed _ rfl (by intro h; cases h) (by norm_num)]
  rintro ⟨i, j, l, hi, -, -, -, e, -⟩
  obtain rfl : i = 0 := by omega
  revert e
  decide +kernel

end Verif
