import Verif.Spec.Frames
import Verif.Props.GridError

/-!
# Moving observers: flow maps, and the fast interpolator on moving grids
-/

set_option linter.unusedSectionVars false

namespace Verif

/-! ## Flow maps -/

section
variable {K : Type} [Field K] {d : ℕ}

/-- In a moving frame the particles of Euler's method follow the same trajectories; so do those of
the Adams-Bashforth method if the velocity of the frame is constant. -/
theorem flow_frame (k : Kind) {h : K} {c w : ℕ → Fin d → K} (hc : Moves h c w)
    (hk : k = .euler ∨ k = .ab2 ∧ ∀ j, w j = w 0) [CharZero K] {g g' : ℕ → (Fin d → K) → Fin d → K}
    {x : Fin d → K} (n : ℕ)
    (hg : ∀ j < n, g' j (fun i => flowMap k g h j x i + c j i) =
      fun i => g j (flowMap k g h j x) i + w j i) :
    flowMap k g' h n (fun i => x i + c 0 i) = fun i => flowMap k g h n x i + c n i := by
  induction n using Nat.strong_induction_on with
  | _ n ih =>
  cases n with
  | zero => rfl
  | succ n =>
    have ihn := ih n (by omega) fun j hj => hg j (by omega)
    rw [flowMap_succ, flowMap_succ, ihn]
    have hgn := hg n (by omega)
    rcases hk with rfl | ⟨rfl, hw⟩
    · simp only [rowStep, hgn]
      funext i
      rw [hc n i]
      ring
    · cases n with
      | zero =>
        simp only [flowPrev, rowStep, hgn]
        funext i
        rw [hc 0 i]
        ring
      | succ n =>
        simp only [flowPrev, nextPrev, rowStep, hgn, ih n (by omega) fun j hj => hg j (by omega),
          hg n (by omega)]
        funext i
        rw [hc (n + 1) i, hw n, hw (n + 1)]
        simp only [NumLits.onePointFive, NumLits.half]
        ring

end

/-! ## The cells -/

section
variable {K : Type} [Field K] [LinearOrder K] [IsStrictOrderedRing K] [FloorRing K]

theorem cellValue2_add {nx ny : ℕ} {f : ℕ → ℕ → K} {w X Y : K} (h : InCells nx X ∧ InCells ny Y) :
    cellValue2 nx ny (fun a b => f a b + w) X Y = cellValue2 nx ny f X Y + w := by
  unfold cellValue2
  rw [if_pos h, if_pos h]
  simp only [lerp]
  ring

theorem cellValue3_add {nx ny nz : ℕ} {f : ℕ → ℕ → ℕ → K} {w X Y Z : K}
    (h : InCells nx X ∧ InCells ny Y ∧ InCells nz Z) :
    cellValue3 nx ny nz (fun a b e => f a b e + w) X Y Z = cellValue3 nx ny nz f X Y Z + w := by
  unfold cellValue3
  rw [if_pos h, if_pos h]
  simp only [lerp]
  ring

theorem field2_moved {nx ny : ℕ} {dx dy : K} {o : ℕ → Fin 2 → K} {f : ℕ → Fin 2 → ℕ → ℕ → K} {j : ℕ}
    {z : Fin 2 → K} (hz : Within2 nx ny dx dy o j z) (c w : ℕ → Fin 2 → K) :
    field2 nx ny dx dy (fun j i => o j i + c j i) (fun j k a b => f j k a b + w j k) j
      (fun i => z i + c j i) = fun i => field2 nx ny dx dy o f j z i + w j i := by
  funext i
  simp only [field2, add_sub_add_right_eq_sub]
  exact cellValue2_add hz

theorem field3_moved {m nz : ℕ} {dx dy dz : K} {o : ℕ → Fin 3 → K}
    {f : ℕ → Fin 3 → ℕ → ℕ → ℕ → K} {j : ℕ} {z : Fin 3 → K} (hz : Within3 m nz dx dy dz o j z)
    (c w : ℕ → Fin 3 → K) :
    field3 m nz dx dy dz (fun j i => o j i + c j i) (fun j k a b e => f j k a b e + w j k) j
      (fun i => z i + c j i) = fun i => field3 m nz dx dy dz o f j z i + w j i := by
  funext i
  simp only [field3, add_sub_add_right_eq_sub]
  exact cellValue3_add hz

theorem within2_moved {nx ny : ℕ} {dx dy : K} {o : ℕ → Fin 2 → K} {j : ℕ} {z : Fin 2 → K}
    (hz : Within2 nx ny dx dy o j z) (c : ℕ → Fin 2 → K) :
    Within2 nx ny dx dy (fun j i => o j i + c j i) j (fun i => z i + c j i) := by
  simpa only [Within2, add_sub_add_right_eq_sub] using hz

theorem within3_moved {m nz : ℕ} {dx dy dz : K} {o : ℕ → Fin 3 → K} {j : ℕ} {z : Fin 3 → K}
    (hz : Within3 m nz dx dy dz o j z) (c : ℕ → Fin 3 → K) :
    Within3 m nz dx dy dz (fun j i => o j i + c j i) j (fun i => z i + c j i) := by
  simpa only [Within3, add_sub_add_right_eq_sub] using hz

theorem inCells_safeCoord {n : ℕ} {q : K} (hn : (n : ℤ) < intLim) (h : InCells n q) :
    SafeCoord q := by
  obtain ⟨h1, h2⟩ := inCells_iff.1 h
  exact ⟨by omega, by omega⟩

/-! ## The interpolator on moving grids -/

theorem nodes_grid2 {nx ny : ℕ} {x0 dx y0 dy : K} {V P : NDArray K} (hnx : 2 ≤ nx) (hny : 2 ≤ ny)
    (lnx : (nx : ℤ) < intLim) (lny : (ny : ℤ) < intLim) (hdx : 0 < dx) (hdy : 0 < dy)
    (hV : V.shape = [2, nx * ny]) (hP : P.shape = [2, nx * ny])
    (h : ∀ a < nx, ∀ b < ny, P.get [0, a + nx * b] = x0 + a * dx ∧
      P.get [1, a + nx * b] = y0 + b * dy) : Grid2 nx ny x0 dx y0 dy V P := by
  have split : ∀ q < nx * ny, q % nx < nx ∧ q / nx < ny ∧ q = q % nx + nx * (q / nx) := by
    intro q hq
    exact ⟨Nat.mod_lt _ (by omega), Nat.div_lt_of_lt_mul hq, (Nat.mod_add_div q nx).symm⟩
  have lt : ∀ a < nx, ∀ b < ny, a + nx * b < nx * ny := by
    intro a ha b hb
    nlinarith
  refine ⟨hnx, hny, lnx, lny, hdx, hdy, hP, hV, ⟨fun q hq => ?_, fun a ha => ?_⟩,
    ⟨fun q hq => ?_, fun b hb => ?_⟩⟩
  · obtain ⟨h1, h2, h3⟩ := split q hq
    exact ⟨_, h1, by rw [h3]; simpa using (h _ h1 _ h2).1⟩
  · exact ⟨_, lt a ha 0 (by omega), (h a ha 0 (by omega)).1⟩
  · obtain ⟨h1, h2, h3⟩ := split q hq
    refine ⟨_, h2, ?_⟩
    conv_lhs => rw [h3]
    exact (h _ h1 _ h2).2
  · exact ⟨_, lt 0 (by omega) b hb, (h 0 (by omega) b hb).2⟩

theorem nodes_grid3 {m nz : ℕ} {x0 dx y0 dy z0 dz : K} {V P : NDArray K} (hm : 2 ≤ m)
    (hnz : 2 ≤ nz) (lm : (m : ℤ) < intLim) (lnz : (nz : ℤ) < intLim) (lmz : (m : ℤ) * nz < intLim)
    (hdx : 0 < dx) (hdy : 0 < dy) (hdz : 0 < dz)
    (hV : V.shape = [3, m * m * nz]) (hP : P.shape = [3, m * m * nz])
    (h : ∀ a < m, ∀ b < m, ∀ c < nz, P.get [0, (b * m + a) * nz + c] = x0 + a * dx ∧
      P.get [1, (b * m + a) * nz + c] = y0 + b * dy ∧
      P.get [2, (b * m + a) * nz + c] = z0 + c * dz) :
    Grid3 m m nz x0 dx y0 dy z0 dz V P := by
  have split : ∀ q < m * m * nz, ∃ a < m, ∃ b < m, ∃ c < nz, q = (b * m + a) * nz + c := by
    intro q hq
    have hz : 0 < nz := by omega
    have h1 : q / nz < m * m := (Nat.div_lt_iff_lt_mul hz).2 hq
    refine ⟨q / nz % m, Nat.mod_lt _ (by omega), q / nz / m, Nat.div_lt_of_lt_mul h1, q % nz,
      Nat.mod_lt _ hz, ?_⟩
    rw [Nat.div_add_mod', Nat.div_add_mod']
  refine ⟨hm, hm, hnz, lm, lm, lnz, lmz, hdx, hdy, hdz, hP, hV, ⟨fun q hq => ?_, fun a ha => ?_⟩,
    ⟨fun q hq => ?_, fun b hb => ?_⟩, ⟨fun q hq => ?_, fun c hc => ?_⟩⟩
  · obtain ⟨a, ha, b, hb, c, hc, rfl⟩ := split q hq
    exact ⟨a, ha, (h a ha b hb c hc).1⟩
  · exact ⟨_, flat_lt3 ha (b := 0) (by omega) (c := 0) (by omega),
      (h a ha 0 (by omega) 0 (by omega)).1⟩
  · obtain ⟨a, ha, b, hb, c, hc, rfl⟩ := split q hq
    exact ⟨b, hb, (h a ha b hb c hc).2.1⟩
  · exact ⟨_, flat_lt3 (a := 0) (by omega) hb (c := 0) (by omega),
      (h 0 (by omega) b hb 0 (by omega)).2.1⟩
  · obtain ⟨a, ha, b, hb, c, hc, rfl⟩ := split q hq
    exact ⟨c, hc, (h a ha b hb c hc).2.2⟩
  · exact ⟨_, flat_lt3 (a := 0) (by omega) (b := 0) (by omega) hc,
      (h 0 (by omega) 0 (by omega) c hc).2.2⟩

theorem listed_step {fs : MatFS K} {s : FileSource K} (hr : s.reuseCoordinates = false) {j : ℕ}
    {V P : NDArray K} (h : s.Listed fs j V P) : s.dataForStep fs j = .ok (V, some P) := by
  obtain ⟨⟨f, f1, f2⟩, ⟨g, g1, g2⟩⟩ := h
  unfold FileSource.dataForStep
  simp [f1, f2, g1, g2, hr]

variable {F : Type}

/-- The interpolator after the update of step `j` evaluates the field of snapshot `j`. -/
theorem snaps_updated_2d {env : Env K F} (hm : ExactTarget env.m) {s : FileSource K} {nx ny : ℕ}
    {dx dy : K} {o : ℕ → Fin 2 → K} {f : ℕ → Fin 2 → ℕ → ℕ → K}
    (hd : Snaps2 env.fs s nx ny dx dy o f) (j : ℕ) (hj : j < s.snapshotFiles.length) (R : ℕ) :
    ((Source.file s).updated env (.highPerf (HighPerf.fresh [nx, ny])) (j + 1)).2 = none ∧
    PointwiseOn {z | Within2 nx ny dx dy o j z} R
      (((Source.file s).updated env (.highPerf (HighPerf.fresh [nx, ny])) (j + 1)).1.velocity env)
      (field2 nx ny dx dy o f j) := by
  have shape : ∀ i ≤ s.snapshotFiles.length, ∃ s' : HighPerf K, s'.gridShape = [nx, ny] ∧
      (Source.file s).updated env (.highPerf (HighPerf.fresh [nx, ny])) i = (.highPerf s', none) := by
    intro i
    induction i with
    | zero => exact fun _ => ⟨_, rfl, rfl⟩
    | succ i ih =>
      intro hi
      obtain ⟨s', h1, h2⟩ := ih (by omega)
      obtain ⟨V, P, a1, a2, a3, a4, -⟩ := hd.data i (by omega)
      obtain ⟨s2, x, y, b1, b2, -⟩ := highPerf_update_2d
        (nodes_grid2 hd.hnx hd.hny hd.lnx hd.lny hd.hdx hd.hdy a2 a3 a4) h1
      refine ⟨s2, b2, ?_⟩
      simp only [Source.updated, h2, Source.updateInterp, listed_step hd.fresh a1,
        AnyInterp.update, b1]
  obtain ⟨s', h1, h2⟩ := shape j hj.le
  obtain ⟨V, P, a1, a2, a3, a4, a5⟩ := hd.data j hj
  obtain ⟨s2, x, y, b1, b2, b3, b4, -, -, -, fx, fy⟩ := highPerf_update_2d
    (nodes_grid2 hd.hnx hd.hny hd.lnx hd.lny hd.hdx hd.hdy a2 a3 a4) h1
  have hu : (Source.file s).updated env (.highPerf (HighPerf.fresh [nx, ny])) (j + 1) =
      (.highPerf s2, none) := by
    simp only [Source.updated, h2, Source.updateInterp, listed_step hd.fresh a1,
      AnyInterp.update, b1]
  rw [hu]
  refine ⟨rfl, fun pos hp hS => ?_⟩
  obtain ⟨out, o1, o2, o3⟩ := highPerf_interpolate_2d hm env.junk
    (f := fun c i j => V.get [c, i + nx * j]) b3 b4 fx fy
    hd.hdx.ne' hd.hdy.ne' hd.lnx hd.lny hp (fun r hr =>
      ⟨inCells_safeCoord hd.lnx (hS r hr).1, inCells_safeCoord hd.lny (hS r hr).2⟩)
  refine ⟨out, o1, o2, fun r hr => ?_⟩
  funext c
  show out.get [r, c.1] = _
  rw [o3 r hr c.1 c.2]
  exact cellValue2_congr (fun a b ha hb => a5 a ha b hb c) _ _

theorem snaps_updated_3d {env : Env K F} (hm : ExactTarget env.m) {s : FileSource K} {m nz : ℕ}
    {dx dy dz : K} {o : ℕ → Fin 3 → K} {f : ℕ → Fin 3 → ℕ → ℕ → ℕ → K}
    (hd : Snaps3 env.fs s m nz dx dy dz o f) (j : ℕ) (hj : j < s.snapshotFiles.length) (R : ℕ) :
    ((Source.file s).updated env (.highPerf (HighPerf.fresh [m, m, nz])) (j + 1)).2 = none ∧
    PointwiseOn {z | Within3 m nz dx dy dz o j z} R
      (((Source.file s).updated env (.highPerf (HighPerf.fresh [m, m, nz])) (j + 1)).1.velocity env)
      (field3 m nz dx dy dz o f j) := by
  have shape : ∀ i ≤ s.snapshotFiles.length, ∃ s' : HighPerf K, s'.gridShape = [m, m, nz] ∧
      s'.uLen = none ∧ (Source.file s).updated env (.highPerf (HighPerf.fresh [m, m, nz])) i =
        (.highPerf s', none) := by
    intro i
    induction i with
    | zero => exact fun _ => ⟨_, rfl, rfl, rfl⟩
    | succ i ih =>
      intro hi
      obtain ⟨s', h1, h3, h2⟩ := ih (by omega)
      obtain ⟨V, P, a1, a2, a3, a4, -⟩ := hd.data i (by omega)
      obtain ⟨s2, x, y, z, b1, b2, -, -, -, b3, -⟩ := highPerf_update_3d
        (nodes_grid3 hd.hm hd.hnz hd.lm hd.lnz hd.lmz hd.hdx hd.hdy hd.hdz a2 a3 a4) h1
      refine ⟨s2, b2, b3.trans h3, ?_⟩
      simp only [Source.updated, h2, Source.updateInterp, listed_step hd.fresh a1,
        AnyInterp.update, b1]
  obtain ⟨s', h1, h3, h2⟩ := shape j hj.le
  obtain ⟨V, P, a1, a2, a3, a4, a5⟩ := hd.data j hj
  obtain ⟨s2, x, y, z, b1, b2, b3, b4, b5, b6, -, fx, fy, fz⟩ := highPerf_update_3d
    (nodes_grid3 hd.hm hd.hnz hd.lm hd.lnz hd.lmz hd.hdx hd.hdy hd.hdz a2 a3 a4) h1
  have hu : (Source.file s).updated env (.highPerf (HighPerf.fresh [m, m, nz])) (j + 1) =
      (.highPerf s2, none) := by
    simp only [Source.updated, h2, Source.updateInterp, listed_step hd.fresh a1,
      AnyInterp.update, b1]
  rw [hu]
  refine ⟨rfl, fun pos hp hS => ?_⟩
  obtain ⟨out, o1, o2, o3⟩ := highPerf_interpolate_3d hm env.junk
    (f := fun c i j k => V.get [c, (j * m + i) * nz + k]) b3 b4 b5 fx fy fz
    hd.hdx.ne' hd.hdy.ne' hd.hdz.ne' hd.lm hd.lm hd.lnz hd.lmz hp
    (by intro h; rw [b6, h3] at h; cases h) (fun r hr =>
      ⟨inCells_safeCoord hd.lm (hS r hr).1, inCells_safeCoord hd.lm (hS r hr).2.1,
        inCells_safeCoord hd.lnz (hS r hr).2.2⟩)
  refine ⟨out, o1, o2, fun r hr => ?_⟩
  funext c
  show out.get [r, c.1] = _
  rw [o3 r hr c.1 c.2]
  exact cellValue3_congr (fun a b e ha hb he => a5 a ha b hb e he c) _ _ _

end

end Verif
