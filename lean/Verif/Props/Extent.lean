import Verif.Lemmas.Extent
import Verif.Props.Interpolate
import Verif.Props.Rerun

/-!
# C96: grid data are located by the extent of their coordinates only
-/

set_option linter.unusedSectionVars false

namespace Verif

open Verif.Units (OptRel)

section
variable {K F : Type} [Zero K] [One K] [Add K] [Sub K] [Mul K] [Div K] [NatCast K] [IntCast K]
  [LinearOrder K] [NumLits K]

theorem fitsGrid_update (sp : SciPy K) (v : NDArray K) (p : Option (NDArray K)) {I : AnyInterp K}
    {x : NDArray K} (h : FitsGrid I x) : FitsGrid (I.update sp v p).1 x := by
  cases I with
  | highPerf s =>
    obtain ⟨N, h⟩ := h
    have : (s.update v p).1.gridShape = s.gridShape := by
      unfold HighPerf.update HighPerf.initialize
      simp only
      repeat' split
      all_goals rfl
    exact ⟨N, h.trans (congrArg (fun g : List ℕ => [g.length, N]) this.symm)⟩
  | _ => trivial

theorem fitsGrid_interpolate (sp : SciPy K) (m : CMachine K) (junk : List ℕ → K) (q : NDArray K)
    {I : AnyInterp K} {x : NDArray K} (h : FitsGrid I x) :
    FitsGrid (I.interpolate sp m junk q).1 x := by
  cases I with
  | highPerf s =>
    obtain ⟨N, h⟩ := h
    have : (s.interpolate m junk q).1.gridShape = s.gridShape := by
      have he : ∀ n d, (s.ensureBuffers n d).gridShape = s.gridShape := by
        intro n d
        unfold HighPerf.ensureBuffers
        repeat' split
        all_goals rfl
      unfold HighPerf.interpolate
      simp only
      repeat' split
      all_goals first | rfl | exact he _ _
    exact ⟨N, h.trans (congrArg (fun g : List ℕ => [g.length, N]) this.symm)⟩
  | _ => trivial

/-- **C96 (what the code does).**  Replace the coordinate files of a run on grid data by any other
files whose rows reach from the same minimum to the same maximum: nothing changes, neither the field,
nor the exception, nor any event.  The interpolators on a grid look at nothing else of the
coordinates, in particular not at the order or the spacing of the nodes.  (`FitsGrid`: for the fast
interpolator one row of coordinates per grid dimension.) -/
theorem C96_extent_only (env : Env K F) (fs' : MatFS K) (s : FileSource K) {I : AnyInterp K}
    (hI : GridBased I)
    (hv : ∀ path, readVelocity fs' path = readVelocity env.fs path)
    (hp : readSeedParticles fs' s.particleFile = readSeedParticles env.fs s.particleFile)
    (hc : ∀ path ∈ s.coordinateFiles,
      Py.Rel SameExtent (readCoordinate env.fs path) (readCoordinate fs' path))
    (hf : ∀ path ∈ s.coordinateFiles, ∀ p, readCoordinate env.fs path = .ok p → FitsGrid I p)
    (G : Integ K) (queue : Bool) (w : Option (WriteFn K F)) :
    let S : Solver K := ⟨.file s, I, G⟩
    (S.run { env with fs := fs' } queue w).result = (S.run env queue w).result ∧
    (S.run { env with fs := fs' } queue w).trace = (S.run env queue w).trace := by
  have refl : ∀ p : NDArray K, SameExtent p p := fun p => ⟨rfl, fun _ _ => Iff.rfl, fun _ _ => Iff.rfl⟩
  refine Mimics.run (env := env) (env' := { env with fs := fs' }) (src := .file s) (R := fun I I' => ExtentRel I I' ∧ ∀ path ∈ s.coordinateFiles, ∀ p,
    readCoordinate env.fs path = .ok p → FitsGrid I p) ⟨?_, ?_⟩ rfl rfl rfl rfl rfl hp G queue w
    ⟨?_, hf⟩
  · rintro I I' i ⟨hR, hF⟩
    have hd : Py.Rel (fun x y => y.1 = x.1 ∧ OptRel SameExtent x.2 y.2 ∧
        ∀ c, x.2 = some c → FitsGrid I c) (s.dataForStep env.fs i) (s.dataForStep fs' i) := by
      unfold FileSource.dataForStep
      cases s.snapshotFiles[i]? with
      | none => exact .error _
      | some vf =>
        cases hcf : s.coordinateFiles[i]? with
        | none => exact .error _
        | some cf =>
          have hmem : cf ∈ s.coordinateFiles := List.mem_of_getElem? hcf
          simp only [hv]
          cases readVelocity env.fs vf with
          | error e => exact .error e
          | ok v =>
            simp only
            split
            · rcases (hc cf hmem).cases with ⟨e, e1, e2⟩ | ⟨c, c', e1, e2, h⟩ <;> rw [e1, e2]
              · exact .error e
              · refine .ok ⟨rfl, h, fun x hx => ?_⟩
                cases hx
                exact hF cf hmem c e1
            · exact .ok ⟨rfl, trivial, fun x hx => by cases hx⟩
    unfold Source.updateInterp
    simp only
    rcases hd.cases with ⟨e, e1, e2⟩ | ⟨⟨v, c⟩, ⟨v', c'⟩, e1, e2, h1, h2, h3⟩ <;> rw [e1, e2]
    · exact ⟨rfl, hR, hF⟩
    · simp only at h1 h2 h3 ⊢
      subst h1
      obtain ⟨a, b⟩ := hR.update (sp := env.sp) v' h2 h3
      exact ⟨a, b, fun path hpath x hx => fitsGrid_update _ _ _ (hF path hpath x hx)⟩
  · rintro I I' q ⟨hR, hF⟩
    obtain ⟨a, b⟩ := hR.interpolate (sp := env.sp) (m := env.m) (junk := env.junk) q
    exact ⟨a, b, fun path hpath x hx => fitsGrid_interpolate _ _ _ _ (hF path hpath x hx)⟩
  · cases I with
    | highPerf s => rfl
    | grid s =>
      refine ⟨rfl, ?_⟩
      cases s.points with
      | none => trivial
      | some p => exact refl p
    | scatter s => exact hI.elim
    | analytical s => exact hI.elim

end

/-! ## Which nodes keep their velocity -/

section exact
variable {K : Type} [Field K] [LinearOrder K] [IsStrictOrderedRing K] [FloorRing K]

/-- The grid the code assumes. -/
def assumed (nx ny : ℕ) (x0 dx y0 dy : K) : NDArray K :=
  ⟨[2, nx * ny], fun idx => if idx.getD 0 0 = 0 then x0 + ((idx.getD 1 0 % nx : ℕ) : K) * dx
    else y0 + ((idx.getD 1 0 / nx : ℕ) : K) * dy⟩

theorem reaches_of_axis {p : NDArray K} {N c n : ℕ} {x0 dx : K} (hn : 2 ≤ n) (hdx : 0 < dx)
    (h : AxisValues p N c n x0 dx) : Reaches p N c x0 (x0 + ((n - 1 : ℕ) : K) * dx) := by
  refine ⟨fun k hk => ?_, ?_, h.2 (n - 1) (by omega)⟩
  · obtain ⟨i, hi, e⟩ := h.1 k hk
    have h1 : (0 : K) ≤ i * dx := mul_nonneg (Nat.cast_nonneg i) hdx.le
    have h2 : (i : K) * dx ≤ ((n - 1 : ℕ) : K) * dx :=
      mul_le_mul_of_nonneg_right (by exact_mod_cast (by omega : i ≤ n - 1)) hdx.le
    rw [e]
    constructor <;> linarith
  · obtain ⟨k, hk, e⟩ := h.2 0 (by omega)
    exact ⟨k, hk, by simpa using e⟩

theorem sameExtent_of_reaches {p p' : NDArray K} {d N : ℕ} {lo hi : ℕ → K}
    (hp : p.shape = [d, N]) (hp' : p'.shape = [d, N]) (h : ∀ c < d, Reaches p N c (lo c) (hi c))
    (h' : ∀ c < d, Reaches p' N c (lo c) (hi c)) : SameExtent p p' := by
  have hv : ∀ c i, ValidIdx p.shape [c, i] ↔ c < d ∧ i < N := fun c i => by rw [hp]; simp
  refine ⟨hp'.trans hp.symm, fun c x => ?_, fun c x => ?_⟩
  · simp only [hv]
    by_cases hc : c < d
    · have key : ∀ {q : NDArray K}, Reaches q N c (lo c) (hi c) →
          ((∀ i, c < d ∧ i < N → x ≤ q.get [c, i]) ↔ x ≤ lo c) := by
        rintro q ⟨a, ⟨k, hk, e⟩, -⟩
        exact ⟨fun h => e ▸ h k ⟨hc, hk⟩, fun h i hi => h.trans (a i hi.2).1⟩
      rw [key (h c hc), key (h' c hc)]
    · exact ⟨fun _ i hi => (hc hi.1).elim, fun _ i hi => (hc hi.1).elim⟩
  · simp only [hv]
    by_cases hc : c < d
    · have key : ∀ {q : NDArray K}, Reaches q N c (lo c) (hi c) →
          ((∀ i, c < d ∧ i < N → q.get [c, i] ≤ x) ↔ hi c ≤ x) := by
        rintro q ⟨a, -, ⟨k, hk, e⟩⟩
        exact ⟨fun h => e ▸ h k ⟨hc, hk⟩, fun h i hi => (a i hi.2).2.trans h⟩
      rw [key (h c hc), key (h' c hc)]
    · exact ⟨fun _ i hi => (hc hi.1).elim, fun _ i hi => (hc hi.1).elim⟩

/-- Coordinates of an `nx × ny` grid that reach from `(x0, y0)` over `nx - 1` and `ny - 1` spacings
`dx`, `dy`. -/
structure Listed (nx ny : ℕ) (x0 dx y0 dy : K) (p : NDArray K) : Prop where
  hnx : 2 ≤ nx
  hny : 2 ≤ ny
  lnx : (nx : ℤ) < intLim
  lny : (ny : ℤ) < intLim
  hdx : 0 < dx
  hdy : 0 < dy
  hp : p.shape = [2, nx * ny]
  hx : Reaches p (nx * ny) 0 x0 (x0 + ((nx - 1 : ℕ) : K) * dx)
  hy : Reaches p (nx * ny) 1 y0 (y0 + ((ny - 1 : ℕ) : K) * dy)

theorem assumed_grid {nx ny : ℕ} {x0 dx y0 dy : K} {p : NDArray K} (g : Listed nx ny x0 dx y0 dy p)
    {v : NDArray K} (hv : v.shape = [2, nx * ny]) :
    Grid2 nx ny x0 dx y0 dy v (assumed nx ny x0 dx y0 dy) := by
  have hnx := g.hnx
  have hny := g.hny
  refine ⟨g.hnx, g.hny, g.lnx, g.lny, g.hdx, g.hdy, rfl, hv, ⟨?_, ?_⟩, ⟨?_, ?_⟩⟩
  · exact fun k hk => ⟨k % nx, Nat.mod_lt _ (by omega), rfl⟩
  · refine fun i hi => ⟨i, ?_, ?_⟩
    · calc i < nx := hi
        _ ≤ nx * ny := Nat.le_mul_of_pos_right _ (by omega)
    · simp [assumed, Nat.mod_eq_of_lt hi]
  · exact fun k hk => ⟨k / nx, Nat.div_lt_of_lt_mul hk, rfl⟩
  · refine fun j hj => ⟨nx * j, Nat.mul_lt_mul_of_pos_left hj (by omega), ?_⟩
    simp [assumed, Nat.mul_div_cancel_left j (by omega : 0 < nx)]

/-- `update(v, p)` followed by a query: the value is taken from the assumed grid. -/
theorem listed_value {m : CMachine K} (hm : ExactTarget m) (junk : List ℕ → K) {nx ny : ℕ}
    {x0 dx y0 dy : K} {p : NDArray K} (g : Listed nx ny x0 dx y0 dy p) {v : NDArray K}
    (hv : v.shape = [2, nx * ny]) {s : HighPerf K} (hs : s.gridShape = [nx, ny]) {q : NDArray K}
    {n : ℕ} (hq : q.shape = [n, 2]) (hsafe : SafeQueries2 q n x0 dx y0 dy) :
    ∃ s' out, s.update v (some p) = (s', none) ∧ (s'.interpolate m junk q).2 = .ok out ∧
      ∀ r < n, ∀ c < 2, out.get [r, c] = cellValue2 nx ny (fun i j => v.get [c, i + nx * j])
        ((q.get [r, 0] - x0) / dx) ((q.get [r, 1] - y0) / dy) := by
  have g' := assumed_grid g hv
  obtain ⟨s1, x, y, hu, -, hx, hy, -, -, -, fx, fy⟩ := highPerf_update_2d g' hs
  have hse : SameExtent (assumed nx ny x0 dx y0 dy) p :=
    sameExtent_of_reaches (N := nx * ny) (lo := fun c => if c = 0 then x0 else y0)
      (hi := fun c => if c = 0 then x0 + ((nx - 1 : ℕ) : K) * dx else y0 + ((ny - 1 : ℕ) : K) * dy)
      rfl g.hp
      (fun c hc => by
        obtain rfl | rfl : c = 0 ∨ c = 1 := by omega
        · exact reaches_of_axis g.hnx g.hdx g'.hx
        · exact reaches_of_axis g.hny g.hdy g'.hy)
      (fun c hc => by
        obtain rfl | rfl : c = 0 ∨ c = 1 := by omega
        · exact g.hx
        · exact g.hy)
  obtain ⟨h1, h2⟩ := highPerf_update_extent (s := s) s.points v (p := some (assumed nx ny x0 dx y0 dy))
    (p' := some p) hse (fun z hz => by cases hz; exact ⟨_, by rw [hs]; rfl⟩)
  rw [hu] at h1 h2
  obtain ⟨out, ho, -, hval⟩ := highPerf_interpolate_2d (s := (s.update v (some p)).1) hm junk
    (f := fun c i j => v.get [c, i + nx * j]) (by rw [h2]; exact hx) (by rw [h2]; exact hy) fx fy
    g.hdx.ne' g.hdy.ne' g.lnx g.lny hq hsafe
  exact ⟨(s.update v (some p)).1, out, Prod.ext rfl h1, ho, hval⟩

theorem listed_safe {nx ny : ℕ} {x0 dx y0 dy : K} {p : NDArray K} (g : Listed nx ny x0 dx y0 dy p)
    {k : ℕ} (hk : k < nx * ny) : SafeQueries2 (pointOf p 2 k) 1 x0 dx y0 dy := by
  have key : ∀ {n : ℕ} {z0 dz z : K}, 2 ≤ n → (n : ℤ) < intLim → 0 < dz → z0 ≤ z →
      z ≤ z0 + ((n - 1 : ℕ) : K) * dz → SafeCoord ((z - z0) / dz) := by
    intro n z0 dz z hn hl hd h0 h1
    have a0 : 0 ≤ (z - z0) / dz := div_nonneg (by linarith) hd.le
    have a1 : (z - z0) / dz ≤ ((n - 1 : ℕ) : K) := by
      rw [div_le_iff₀ hd]
      linarith
    have f0 : 0 ≤ ⌊(z - z0) / dz⌋ := Int.floor_nonneg.2 a0
    have f1 : ⌊(z - z0) / dz⌋ ≤ ((n - 1 : ℕ) : ℤ) := by
      have := Int.floor_le ((z - z0) / dz)
      have : ((⌊(z - z0) / dz⌋ : ℤ) : K) ≤ (((n - 1 : ℕ) : ℤ) : K) := by
        push_cast
        linarith
      exact_mod_cast this
    have : 0 < intLim := by decide
    constructor <;> omega
  intro r hr
  exact ⟨key g.hnx g.lnx g.hdx (g.hx.1 k hk).1 (g.hx.1 k hk).2,
    key g.hny g.lny g.hdy (g.hy.1 k hk).1 (g.hy.1 k hk).2⟩

theorem weight_one {x y : K} (hx : 0 ≤ x) (hx1 : x < 1) (hy : 0 ≤ y) (hy1 : y < 1) :
    ((1 - y) * (1 - x) = 1 → x = 0 ∧ y = 0) ∧ (1 - y) * x ≠ 1 ∧ y * (1 - x) ≠ 1 ∧ y * x ≠ 1 := by
  refine ⟨fun h => ⟨?_, ?_⟩, fun h => ?_, fun h => ?_, fun h => ?_⟩ <;> nlinarith

/-- **C96, which nodes keep their velocity.**  Data point `k` of a grid, not on the last lines.  The
fast interpolator returns at its position the velocity listed for it, for all velocities, if and only
if its position is the one that a uniform grid with ascending axes and `x` running fastest gives it. -/
theorem C96_node_iff_2d {m : CMachine K} (hm : ExactTarget m) (junk : List ℕ → K) {nx ny : ℕ}
    {x0 dx y0 dy : K} {p : NDArray K} (g : Listed nx ny x0 dx y0 dy p) (s : HighPerf K)
    (hs : s.gridShape = [nx, ny]) {k : ℕ} (hk : k < nx * ny)
    (hkx : p.get [0, k] < x0 + ((nx - 1 : ℕ) : K) * dx)
    (hky : p.get [1, k] < y0 + ((ny - 1 : ℕ) : K) * dy) :
    (∀ v : NDArray K, v.shape = [2, nx * ny] → ∃ s' out, s.update v (some p) = (s', none) ∧
      (s'.interpolate m junk (pointOf p 2 k)).2 = .ok out ∧ ∀ c < 2, out.get [0, c] = v.get [c, k]) ↔
    p.get [0, k] = x0 + ((k % nx : ℕ) : K) * dx ∧ p.get [1, k] = y0 + ((k / nx : ℕ) : K) * dy := by
  have hdx := g.hdx
  have hdy := g.hdy
  have hnx := g.hnx
  have hny := g.hny
  have inc : ∀ {n : ℕ} {z0 dz z : K}, 2 ≤ n → 0 < dz → z0 ≤ z → z < z0 + ((n - 1 : ℕ) : K) * dz →
      InCells n ((z - z0) / dz) := by
    intro n z0 dz z hn hd h0 h1
    refine ⟨div_nonneg (by linarith) hd.le, ?_⟩
    have : (z - z0) / dz < ((n - 1 : ℕ) : K) := by
      rw [div_lt_iff₀ hd]
      linarith
    rw [Nat.cast_sub (by omega)] at this
    push_cast at this
    linarith
  have iX : InCells nx ((p.get [0, k] - x0) / dx) := inc hnx hdx (g.hx.1 k hk).1 hkx
  have iY : InCells ny ((p.get [1, k] - y0) / dy) := inc hny hdy (g.hy.1 k hk).1 hky
  constructor
  · intro h
    obtain ⟨v, hvd⟩ : ∃ v : NDArray K, v = ⟨[2, nx * ny], fun idx => if idx.getD 1 0 = k then 1 else 0⟩ :=
      ⟨_, rfl⟩
    have hv : v.shape = [2, nx * ny] := by rw [hvd]
    obtain ⟨s1, o1, u1, q1, h1⟩ := h v hv
    obtain ⟨s2, o2, u2, q2, h2⟩ := listed_value hm junk g hv hs (q := pointOf p 2 k) rfl
      (listed_safe g hk)
    rw [u1] at u2
    cases u2
    rw [q1] at q2
    cases q2
    have e := h2 0 (by omega) 0 (by omega)
    rw [h1 0 (by omega)] at e
    have hg : ∀ c i, v.get [c, i] = if i = k then 1 else 0 := by
      intro c i
      rw [hvd]
      simp
    simp only [hg, if_true, pointOf, List.getD_cons_succ, List.getD_cons_zero] at e
    unfold cellValue2 at e
    rw [if_pos ⟨iX, iY⟩] at e
    obtain ⟨fX, aX⟩ := inCells_cell iX
    obtain ⟨fY, aY⟩ := inCells_cell iY
    have ex := Int.floor_le ((p.get [0, k] - x0) / dx)
    have ex' := Int.lt_floor_add_one ((p.get [0, k] - x0) / dx)
    have ey := Int.floor_le ((p.get [1, k] - y0) / dy)
    have ey' := Int.lt_floor_add_one ((p.get [1, k] - y0) / dy)
    rw [fX] at ex ex'
    rw [fY] at ey ey'
    simp only [Int.cast_natCast] at ex ex' ey ey'
    have hxe : p.get [0, k] = x0 + (p.get [0, k] - x0) / dx * dx := by
      rw [div_mul_cancel₀ _ hdx.ne']; ring
    have hye : p.get [1, k] = y0 + (p.get [1, k] - y0) / dy * dy := by
      rw [div_mul_cancel₀ _ hdy.ne']; ring
    generalize (p.get [0, k] - x0) / dx = X at *
    generalize (p.get [1, k] - y0) / dy = Y at *
    generalize cellOf X = a at *
    generalize cellOf Y = b at *
    obtain ⟨w1, w2, w3, w4⟩ := weight_one (x := X - a) (y := Y - b) (by linarith) (by linarith)
      (by linarith) (by linarith)
    have hmul : nx * (b + 1) = nx * b + nx := by ring
    simp only [lerp] at e
    by_cases c1 : a + nx * b = k
    · have c2 : ¬ a + 1 + nx * b = k := by omega
      have c3 : ¬ a + nx * (b + 1) = k := by omega
      have c4 : ¬ a + 1 + nx * (b + 1) = k := by omega
      rw [if_pos c1, if_neg c2, if_neg c3, if_neg c4] at e
      obtain ⟨hX, hY⟩ := w1 (by linear_combination -e)
      have hm : k % nx = a := by
        rw [← c1, Nat.add_mul_mod_self_left, Nat.mod_eq_of_lt (by omega)]
      have hd : k / nx = b := by
        rw [← c1, Nat.add_mul_div_left _ _ (by omega), Nat.div_eq_of_lt (by omega)]
        omega
      rw [hm, hd]
      refine ⟨?_, ?_⟩
      · rw [hxe, show X = a by linarith]
      · rw [hye, show Y = b by linarith]
    exfalso
    rw [if_neg c1] at e
    by_cases c2 : a + 1 + nx * b = k
    · have c3 : ¬ a + nx * (b + 1) = k := by omega
      have c4 : ¬ a + 1 + nx * (b + 1) = k := by omega
      rw [if_pos c2, if_neg c3, if_neg c4] at e
      exact w2 (by linear_combination -e)
    rw [if_neg c2] at e
    by_cases c3 : a + nx * (b + 1) = k
    · have c4 : ¬ a + 1 + nx * (b + 1) = k := by omega
      rw [if_pos c3, if_neg c4] at e
      exact w3 (by linear_combination -e)
    rw [if_neg c3] at e
    by_cases c4 : a + 1 + nx * (b + 1) = k
    · rw [if_pos c4] at e
      exact w4 (by linear_combination -e)
    rw [if_neg c4] at e
    simp at e
  · rintro ⟨e0, e1⟩ v hv
    obtain ⟨s', out, hu, ho, hval⟩ := listed_value hm junk g hv hs (q := pointOf p 2 k) rfl
      (listed_safe g hk)
    refine ⟨s', out, hu, ho, fun c hc => ?_⟩
    rw [hval 0 (by omega) c hc]
    simp only [pointOf, List.getD_cons_succ, List.getD_cons_zero]
    rw [e0, node_index hdx] at iX
    rw [e1, node_index hdy] at iY
    rw [e0, e1, node_index hdx, node_index hdy, cellValue2_node (inCells_nat.1 iX) (inCells_nat.1 iY),
      Nat.mod_add_div]

/-- **C96 is false of the code (descending axis).**  If the data list `x` from the largest to the
smallest value, every node off the last lines gets the velocity of the mirrored node. -/
theorem C96_descending_fails {m : CMachine K} (hm : ExactTarget m) (junk : List ℕ → K) {nx ny : ℕ}
    {x0 dx y0 dy : K} {p v : NDArray K} (g : Listed nx ny x0 dx y0 dy p)
    (hd : ∀ i < nx, ∀ j < ny, p.get [0, i + nx * j] = x0 + ((nx - 1 - i : ℕ) : K) * dx ∧
      p.get [1, i + nx * j] = y0 + (j : K) * dy)
    (hv : v.shape = [2, nx * ny]) (s : HighPerf K) (hs : s.gridShape = [nx, ny]) {i j : ℕ}
    (h0 : 0 < i) (hi : i < nx) (hj : j + 1 < ny) :
    ∃ s' out, s.update v (some p) = (s', none) ∧
      (s'.interpolate m junk (pointOf p 2 (i + nx * j))).2 = .ok out ∧
      ∀ c < 2, out.get [0, c] = v.get [c, (nx - 1 - i) + nx * j] := by
  have hk : i + nx * j < nx * ny := by
    calc i + nx * j < nx + nx * j := by omega
      _ = nx * (j + 1) := by ring
      _ ≤ nx * ny := Nat.mul_le_mul_left _ (by omega)
  obtain ⟨e0, e1⟩ := hd i hi j (by omega)
  obtain ⟨s', out, hu, ho, hval⟩ := listed_value hm junk g hv hs (q := pointOf p 2 (i + nx * j)) rfl
    (listed_safe g hk)
  refine ⟨s', out, hu, ho, fun c hc => ?_⟩
  rw [hval 0 (by omega) c hc]
  simp only [pointOf, List.getD_cons_succ, List.getD_cons_zero]
  rw [e0, e1, node_index g.hdx, node_index g.hdy, cellValue2_node (by omega) hj]

end exact

/-! ## Examples -/

/-- A 3 × 3 grid with the columns at `-4`, `3`, `4`. -/
def exStretched : NDArray ℚ := ⟨[2, 9], fun idx =>
  if idx.getD 0 0 = 0 then [-4, 3, 4].getD (idx.getD 1 0 % 3) 0 else -4 + ((idx.getD 1 0 / 3 : ℕ) : ℚ) * 4⟩

/-- The velocity `(x, 0)` on it. -/
def exStretchedV : NDArray ℚ := ⟨[2, 9], fun idx =>
  if idx.getD 0 0 = 0 then exStretched.get [0, idx.getD 1 0] else 0⟩

theorem exStretched_listed : Listed 3 3 (-4) 4 (-4) 4 exStretched := by
  refine ⟨by norm_num, by norm_num, by decide, by decide, by norm_num, by norm_num, rfl,
    ⟨?_, ?_, ?_⟩, ⟨?_, ?_, ?_⟩⟩ <;> decide +kernel

/-- **C96 is false of the code (stretched grid).**  The columns of a grid are at `-4`, `3`, `4`, the
velocity is `(x, 0)`.  At the data point `(3, -4)`, whose velocity is listed as `3`, the interpolator
returns `15/4`. -/
theorem C96_stretched_fails :
    exStretched.get [0, 1] = 3 ∧ exStretchedV.get [0, 1] = 3 ∧
    ((((HighPerf.fresh [3, 3]).update exStretchedV (some exStretched)).1.interpolate
      (isoCpp Int.floor Int.cast) (fun _ => 0) (pointOf exStretched 2 1)).2.toOption.map
        fun o => o.get [0, 0]) = some (15 / 4) := by
  refine ⟨rfl, rfl, by decide +kernel⟩

/-- `C96_node_iff_2d` is not vacuous: data point 1 of the stretched grid is off its assumed position,
so there are velocities for which it is not reproduced. -/
example : ¬ ∀ v : NDArray ℚ, v.shape = [2, 3 * 3] → ∃ s' out,
    (HighPerf.fresh [3, 3]).update v (some exStretched) = (s', none) ∧
    (s'.interpolate (isoCpp Int.floor Int.cast) (fun _ => 0) (pointOf exStretched 2 1)).2 = .ok out ∧
    ∀ c < 2, out.get [0, c] = v.get [c, 1] := by
  rw [C96_node_iff_2d (Or.inl rfl) _ exStretched_listed _ rfl (by norm_num) (by decide +kernel)
    (by decide +kernel)]
  decide +kernel

/-- A 3 × 3 grid listed with `x` descending. -/
def exDescending : NDArray ℚ := ⟨[2, 9], fun idx =>
  if idx.getD 0 0 = 0 then ((3 - 1 - idx.getD 1 0 % 3 : ℕ) : ℚ) * 4 else ((idx.getD 1 0 / 3 : ℕ) : ℚ) * 4⟩

example : ∃ s' out, (HighPerf.fresh [3, 3]).update exStretchedV (some exDescending) = (s', none) ∧
    (s'.interpolate (isoCpp Int.floor Int.cast) (fun _ => 0) (pointOf exDescending 2 2)).2 = .ok out ∧
    ∀ c < 2, out.get [0, c] = exStretchedV.get [c, 0] :=
  C96_descending_fails (nx := 3) (ny := 3) (x0 := 0) (dx := 4) (y0 := 0) (dy := 4) (i := 2) (j := 0)
    (Or.inl rfl) _
    ⟨by norm_num, by norm_num, by decide, by decide, by norm_num, by norm_num, rfl,
      ⟨by decide +kernel, by decide +kernel, by decide +kernel⟩,
      ⟨by decide +kernel, by decide +kernel, by decide +kernel⟩⟩
    (by decide +kernel) rfl _ rfl (by norm_num) (by norm_num) (by norm_num)

/-- The example files with other columns. -/
def exFilesStretched : MatFS ℚ := fun path =>
  if path = "c" then some fun key =>
    if key = "coordinate_x" then some (exRow [-4, 3, 4, -4, 3, 4, -4, 3, 4])
    else if key = "coordinate_y" then some (exRow [-4, -4, -4, 0, 0, 0, 4, 4, 4])
    else none
  else exFiles path

/-- `C96_extent_only` is not vacuous: the run on the stretched coordinates gives the same field. -/
example : let S : Solver ℚ := ⟨.file ⟨["v", "w"], ["c", "d"], "p", 1, "v", false⟩,
      .highPerf (HighPerf.fresh [3, 3]), Integ.fresh .euler⟩
    (S.run { exFileEnv with fs := exFilesStretched } false none).result =
      (S.run exFileEnv false none).result ∧
    (S.run exFileEnv false none).result.toOption.join = some [6, 1] := by
  have same : ∀ path, path ≠ "c" → exFilesStretched path = exFiles path := fun path h => by
    simp [exFilesStretched, h]
  have hcd : ∀ path, path ∈ ["c", "d"] → path = "c" ∨ path = "d" := by simp
  refine ⟨(C96_extent_only exFileEnv exFilesStretched ⟨["v", "w"], ["c", "d"], "p", 1, "v", false⟩
    (I := .highPerf (HighPerf.fresh [3, 3])) trivial ?_ rfl ?_ ?_ _ false none).1,
    by decide +kernel⟩
  · intro path
    by_cases h : path = "c"
    · subst h
      rfl
    · unfold readVelocity loadmat
      rw [same path h]
      rfl
  · intro path h
    rcases hcd path h with rfl | rfl
    · show Py.Rel SameExtent (.ok _) (.ok _)
      refine .ok (sameExtent_of_reaches (N := 9) (lo := fun _ => -4) (hi := fun _ => 4) rfl rfl ?_ ?_)
      · unfold Reaches
        decide +kernel
      · unfold Reaches
        decide +kernel
    · exact Py.Rel.refl (fun p => ⟨rfl, fun _ _ => Iff.rfl, fun _ _ => Iff.rfl⟩) _
  · intro path h p hp
    have hs : (readCoordinate exFileEnv.fs path).toOption.map (fun p => p.shape) = some [2, 9] := by
      rcases hcd path h with rfl | rfl <;> decide +kernel
    rw [hp] at hs
    exact ⟨9, Option.some.inj hs⟩

end Verif
