import Verif.Props.Run64x3
import Verif.Props.Grid64
import Verif.Props.GridError
import Verif.Lemmas.Grid64x3

/-!
# C113: a gridded 3-D run in binary64

As C87, for three dimensions: index coordinates, cell search and trilinear kernel are rounded as well.
Grids with as many nodes in `x` as in `y`: for others the interpolator exchanges the two directions
(C30).
-/

namespace Verif

open Matrix Set

/-! ## Specification -/

/-- The snapshots of the source sample `v` up to `ν` at the times `t0, t0 + h, ...` at the nodes,
listed in the default order of `numpy.meshgrid`: `z` fastest, then `x`, then `y`; the coordinates are
handed out in every step. -/
structure Samples64x3 (fs : MatFS Fl) (s : FileSource Fl) (v : ℝ → (Fin 3 → ℝ) → Fin 3 → ℝ) (t0 : ℝ)
    (m nz : ℕ) (xs ys zs : ℕ → Fl) (dx dy dz ζ ν : ℝ) : Prop where
  fresh : s.reuseCoordinates = false
  x : Nodes64 m xs dx ζ
  y : Nodes64 m ys dy ζ
  z : Nodes64 nz zs dz ζ
  lim : (m : ℤ) * nz < intLim
  data : ∀ j < s.snapshotFiles.length, ∃ V P, s.Listed fs j V P ∧
    V.shape = [3, m * m * nz] ∧ P.shape = [3, m * m * nz] ∧
    (∀ a < m, ∀ b < m, ∀ e < nz, P.get [0, (b * m + a) * nz + e] = xs a ∧
      P.get [1, (b * m + a) * nz + e] = ys b ∧ P.get [2, (b * m + a) * nz + e] = zs e) ∧
    ∀ a < m, ∀ b < m, ∀ e < nz, ∀ c : Fin 3,
      |(V.get [c, (b * m + a) * nz + e]).re -
        v (t0 + j * s.timestep.re) ![(xs a).re, (ys b).re, (zs e).re] c| ≤ ν

/-- The box of the grid. -/
def Box64 (m nz : ℕ) (xs ys zs : ℕ → Fl) : Set (Fin 3 → ℝ) :=
  {z | (xs 0).re ≤ z 0 ∧ z 0 ≤ (xs (m - 1)).re ∧ (ys 0).re ≤ z 1 ∧ z 1 ≤ (ys (m - 1)).re ∧
    (zs 0).re ≤ z 2 ∧ z 2 ≤ (zs (nz - 1)).re}

/-! ## The interpolator -/

/-- The velocity handed out for the nodal values `f`. -/
def trilinear64 (m nz : ℕ) (xs ys zs : ℕ → Fl) (f : ℕ → ℕ → ℕ → ℕ → Fl) (z : Fin 3 → Fl) (c : Fin 3) :
    Fl :=
  let i := ⌊(coord64 m xs (z 0)).val⌋.toNat
  let j := ⌊(coord64 m ys (z 1)).val⌋.toNat
  let k := ⌊(coord64 nz zs (z 2)).val⌋.toNat
  trilin (fun a b e => f c (i + a) (j + b) (k + e)) (coord64 m xs (z 0) - ((i : ℤ) : Fl))
    (coord64 m ys (z 1) - ((j : ℤ) : Fl)) (coord64 nz zs (z 2) - ((k : ℤ) : Fl))

theorem mul64 {m : CMachine Fl} (hm : Target64 m) {Y Z : ℕ} (h : (Y : ℤ) * Z < intLim) :
    m.mul Y Z = .ok ((Y : ℤ) * Z) := by
  rcases hm with rfl | rfl
  · exact mul_iso h
  · exact mul_x86 h

theorem trilin_congr {K : Type} [Zero K] [One K] [Add K] [Sub K] [Mul K] {f g : ℕ → ℕ → ℕ → K}
    (h : ∀ a ≤ 1, ∀ b ≤ 1, ∀ c ≤ 1, f a b c = g a b c) (x y z : K) :
    trilin f x y z = trilin g x y z := by
  unfold trilin
  rw [h 0 (by omega) 0 (by omega) 0 (by omega), h 1 (by omega) 0 (by omega) 0 (by omega),
    h 0 (by omega) 1 (by omega) 0 (by omega), h 1 (by omega) 1 (by omega) 0 (by omega),
    h 0 (by omega) 0 (by omega) 1 (by omega), h 1 (by omega) 0 (by omega) 1 (by omega),
    h 0 (by omega) 1 (by omega) 1 (by omega), h 1 (by omega) 1 (by omega) 1 (by omega)]

/-- One call of one object. -/
theorem value64x3 {M : CMachine Fl} (hM : Target64 M) {m nz : ℕ} {xs ys zs : ℕ → Fl}
    {dx dy dz ζ : ℝ} (hx : Nodes64 m xs dx ζ) (hy : Nodes64 m ys dy ζ) (hz : Nodes64 nz zs dz ζ)
    (hl : (m : ℤ) * nz < intLim) {v : NDArray Fl} (hv : v.shape = [m, m, nz])
    {f : ℕ → ℕ → ℕ → ℕ → Fl} {c : Fin 3}
    (hf : ∀ i j k, i < m → j < m → k < nz → v.get [i, j, k] = f c i j k)
    {z : Fin 3 → Fl} (z0 : OnAxis64 m xs dx (z 0).re) (z1 : OnAxis64 m ys dy (z 1).re)
    (z2 : OnAxis64 nz zs dz (z 2).re) :
    interp3dAt M v m m nz ((⟨xs 0, some (step64 m xs)⟩ : Axis Fl).index (z 0))
      ((⟨ys 0, some (step64 m ys)⟩ : Axis Fl).index (z 1))
      ((⟨zs 0, some (step64 nz zs)⟩ : Axis Fl).index (z 2)) =
      .ok (trilinear64 m nz xs ys zs f z c) := by
  obtain ⟨a1, i, a2, a3, -⟩ := hx.cell z0
  obtain ⟨b1, j, b2, b3, -⟩ := hy.cell z1
  obtain ⟨c1, k, c2, c3, -⟩ := hz.cell z2
  simp only [Axis.index, if_neg a1, if_neg b1, if_neg c1]
  change interp3dAt M v m m nz (some (coord64 m xs (z 0))) (some (coord64 m ys (z 1)))
    (some (coord64 nz zs (z 2))) = _
  rw [interp3dAt_in hv hx.lim hy.lim hz.lim (mul64 hM hl) (conv64 hM hx.lim a2 a3)
    (conv64 hM hy.lim b2 b3) (conv64 hM hz.lim c2 c3) a3 b3 c3]
  unfold trilinear64
  simp only [a2, b2, c2, Int.toNat_natCast, ofInt64 hM]
  rw [trilin_congr fun a ha b hb e he => hf _ _ _ (by omega) (by omega) (by omega)]

/-- The interpolator after the update of step `j`. -/
theorem samples_updated_64x3 {env : Env Fl Val64} (hm : Target64 env.m) {s : FileSource Fl}
    {v : ℝ → (Fin 3 → ℝ) → Fin 3 → ℝ} {t0 : ℝ} {m nz : ℕ} {xs ys zs : ℕ → Fl}
    {dx dy dz ζ ν : ℝ} (hd : Samples64x3 env.fs s v t0 m nz xs ys zs dx dy dz ζ ν) :
    ∃ f : ℕ → ℕ → ℕ → ℕ → ℕ → Fl, ∀ j < s.snapshotFiles.length,
      (∀ a < m, ∀ b < m, ∀ e < nz, ∀ c : Fin 3,
        |(f j c a b e).re -
          v (t0 + j * s.timestep.re) ![(xs a).re, (ys b).re, (zs e).re] c| ≤ ν) ∧
      ((Source.file s).updated env (.highPerf (HighPerf.fresh [m, m, nz])) (j + 1)).2 = none ∧
      ∀ R, PointwiseOn {z | OnAxis64 m xs dx (z 0).re ∧ OnAxis64 m ys dy (z 1).re ∧
          OnAxis64 nz zs dz (z 2).re} R
        (((Source.file s).updated env (.highPerf (HighPerf.fresh [m, m, nz]))
          (j + 1)).1.velocity env) (trilinear64 m nz xs ys zs (f j)) := by
  have hm2 := hd.x.two
  have hz2 := hd.z.two
  have upd : ∀ (s' : HighPerf Fl) (V P : NDArray Fl), s'.gridShape = [m, m, nz] →
      V.shape = [3, m * m * nz] → P.shape = [3, m * m * nz] →
      (∀ a < m, ∀ b < m, ∀ e < nz, P.get [0, (b * m + a) * nz + e] = xs a ∧
        P.get [1, (b * m + a) * nz + e] = ys b ∧ P.get [2, (b * m + a) * nz + e] = zs e) →
      ∃ (s2 : HighPerf Fl) (it : Fin 3 → Interp Fl), s'.update V (some P) = (s2, none) ∧
        s2.gridShape = [m, m, nz] ∧ s2.ix = some (it 0) ∧ s2.iy = some (it 1) ∧
        s2.iz = some (it 2) ∧ s2.uLen = s'.uLen ∧
        ∀ c : Fin 3, (it c).axes = [⟨xs 0, some (step64 m xs)⟩, ⟨ys 0, some (step64 m ys)⟩,
            ⟨zs 0, some (step64 nz zs)⟩] ∧ (it c).v.shape = [m, m, nz] ∧
          ∀ i j k, i < m → j < m → k < nz →
            (it c).v.get [i, j, k] = V.get [c.1, (j * m + i) * nz + k] := by
    intro s' V P hg hV hP hlist
    have split : ∀ q < m * m * nz, ∃ a < m, ∃ b < m, ∃ c < nz, (b * m + a) * nz + c = q := by
      intro q hq
      have hz : 0 < nz := by omega
      have h1 : q / nz < m * m := (Nat.div_lt_iff_lt_mul hz).2 hq
      refine ⟨q / nz % m, Nat.mod_lt _ (by omega), q / nz / m, Nat.div_lt_of_lt_mul h1, q % nz,
        Nat.mod_lt _ hz, ?_⟩
      rw [Nat.div_add_mod', Nat.div_add_mod']
    obtain ⟨it, b1, b2⟩ := build_axes_3d hP hV
      (hd.x.axis (fun q hq => by
          obtain ⟨a, ha, b, hb, e, he, rfl⟩ := split q hq
          exact ⟨a, ha, (hlist a ha b hb e he).1⟩)
        fun a ha => ⟨_, flat_lt3 ha (b := 0) (by omega) (c := 0) (by omega),
          (hlist a ha 0 (by omega) 0 (by omega)).1⟩)
      (hd.y.axis (fun q hq => by
          obtain ⟨a, ha, b, hb, e, he, rfl⟩ := split q hq
          exact ⟨b, hb, (hlist a ha b hb e he).2.1⟩)
        fun b hb => ⟨_, flat_lt3 (a := 0) (by omega) hb (c := 0) (by omega),
          (hlist 0 (by omega) b hb 0 (by omega)).2.1⟩)
      (hd.z.axis (fun q hq => by
          obtain ⟨a, ha, b, hb, e, he, rfl⟩ := split q hq
          exact ⟨e, he, (hlist a ha b hb e he).2.2⟩)
        fun e he => ⟨_, flat_lt3 (a := 0) (by omega) (b := 0) (by omega) he,
          (hlist 0 (by omega) 0 (by omega) e he).2.2⟩)
    unfold HighPerf.update HighPerf.initialize
    simp only [hg, b1]
    exact ⟨_, it, rfl, rfl, rfl, rfl, rfl, rfl, b2⟩
  have dataOf : ∀ i V P, s.Listed env.fs i V P → s.dataForStep env.fs i = .ok (V, some P) := by
    rintro i V P ⟨⟨f, f1, f2⟩, ⟨g, g1, g2⟩⟩
    unfold FileSource.dataForStep
    simp [f1, f2, g1, g2, hd.fresh]
  have shape : ∀ i ≤ s.snapshotFiles.length, ∃ s' : HighPerf Fl, s'.gridShape = [m, m, nz] ∧
      s'.uLen = none ∧
      (Source.file s).updated env (.highPerf (HighPerf.fresh [m, m, nz])) i =
        (.highPerf s', none) := by
    intro i
    induction i with
    | zero => exact fun _ => ⟨_, rfl, rfl, rfl⟩
    | succ i ih =>
      intro hi
      obtain ⟨s', h1, h3, h2⟩ := ih (by omega)
      obtain ⟨V, P, a1, a2, a3, a4, -⟩ := hd.data i (by omega)
      obtain ⟨s2, it, b1, b2, -, -, -, b3, -⟩ := upd s' V P h1 a2 a3 a4
      refine ⟨s2, b2, b3.trans h3, ?_⟩
      simp only [Source.updated, h2, Source.updateInterp, dataOf i V P a1, AnyInterp.update, b1]
  have : Nonempty (NDArray Fl) := ⟨⟨[], fun _ => 0⟩⟩
  choose! V P a1 a2 a3 a4 a5 using hd.data
  refine ⟨fun j c a b e => (V j).get [c, (b * m + a) * nz + e], fun j hj => ?_⟩
  obtain ⟨s', h1, h3, h2⟩ := shape j hj.le
  obtain ⟨s2, it, b1, -, b3, b4, b5, b6, b7⟩ :=
    upd s' (V j) (P j) h1 (a2 j hj) (a3 j hj) (a4 j hj)
  have hu : (Source.file s).updated env (.highPerf (HighPerf.fresh [m, m, nz])) (j + 1) =
      (.highPerf s2, none) := by
    simp only [Source.updated, h2, Source.updateInterp, dataOf j _ _ (a1 j hj), AnyInterp.update, b1]
  rw [hu]
  refine ⟨a5 j hj, rfl, fun R pos hp hS => ?_⟩
  obtain ⟨out, o1, o2, o3⟩ := highPerf_calls_3d (m := env.m) env.junk b3 b4 b5 hp
    (by intro h; rw [b6, h3] at h; cases h)
    (u := fun c r => trilinear64 m nz xs ys zs (fun c a b e => (V j).get [c, (b * m + a) * nz + e])
      (rowOf pos 3 r) c)
    (fun c => interp_call_3d (b7 c).1 (b7 c).2.1 fun r hr =>
      value64x3 hm hd.x hd.y hd.z hd.lim (b7 c).2.1
        (f := fun c a b e => (V j).get [c, (b * m + a) * nz + e]) (c := c) (b7 c).2.2
        (z := rowOf pos 3 r) (hS r hr).1 (hS r hr).2.1 (hS r hr).2.2)
  exact ⟨out, o1, o2, fun r hr => funext fun c => o3 r hr c⟩

theorem trilinear64_error {v : (Fin 3 → ℝ) → Fin 3 → ℝ} {m nz : ℕ} {xs ys zs : ℕ → Fl}
    {dx dy dz ζ ν L B : ℝ} (hx : Nodes64 m xs dx ζ) (hy : Nodes64 m ys dy ζ)
    (hz : Nodes64 nz zs dz ζ) (hL0 : 0 ≤ L)
    (hL : ∀ w ∈ Box64 m nz xs ys zs, ∀ w' ∈ Box64 m nz xs ys zs, ‖v w - v w'‖ ≤ L * ‖w - w'‖)
    {f : ℕ → ℕ → ℕ → ℕ → Fl}
    (hf : ∀ a < m, ∀ b < m, ∀ e < nz, ∀ c : Fin 3,
      |(f c a b e).re - v ![(xs a).re, (ys b).re, (zs e).re] c| ≤ ν)
    {y : Fin 3 → ℝ} (hyR : y ∈ Box64 m nz xs ys zs) (hB : ‖v y‖ ≤ B) {z : Fin 3 → Fl}
    (z0 : OnAxis64 m xs dx (z 0).re) (z1 : OnAxis64 m ys dy (z 1).re)
    (z2 : OnAxis64 nz zs dz (z 2).re) :
    ‖reVec (trilinear64 m nz xs ys zs f z) - v y‖ ≤
      (1 + 2 ^ (-47 : ℤ)) * (ν + L * ((1 + 2 ^ (-19 : ℤ)) * max (max dx dy) dz + ζ)) +
        2 ^ (-47 : ℤ) * B + 2 ^ (-1069 : ℤ) + (1 + 2 ^ (-47 : ℤ)) * L * ‖reVec z - y‖ := by
  obtain ⟨-, i, a1, a2, a3, a4, a5⟩ := hx.cell z0
  obtain ⟨-, j, b1, b2, b3, b4, b5⟩ := hy.cell z1
  obtain ⟨-, k, c1, c2, c3, c4, c5⟩ := hz.cell z2
  set p := coord64 m xs (z 0) with hp
  set q := coord64 m ys (z 1) with hq
  set s := coord64 nz zs (z 2) with hs
  set M := (1 + 2 ^ (-19 : ℤ)) * max (max dx dy) dz + ζ with hM
  have hd : 0 < dz := lt_of_lt_of_le (by positivity) hz.normal
  have hm2 := hx.two
  have hz2 := hz.two
  have hζ : 0 ≤ ζ := (abs_nonneg _).trans (hx.uniform 0 (by omega))
  have hM0 : 0 ≤ M := by
    have : 0 < max (max dx dy) dz := lt_max_of_lt_right hd
    positivity
  have hν : 0 ≤ ν := (abs_nonneg _).trans (hf 0 (by omega) 0 (by omega) 0 (by omega) 0)
  have hB0 : 0 ≤ B := (norm_nonneg _).trans hB
  have node : ∀ a b e, a < m → b < m → e < nz → |p.re - a| ≤ 1 → |q.re - b| ≤ 1 → |s.re - e| ≤ 1 →
      ∀ c : Fin 3, |(f c a b e).re - v y c| ≤ ν + L * (M + ‖reVec z - y‖) := by
    intro a b e ha hb he h1 h2 h3 c
    have n1 := hx.near ha a5 h1
    have n2 := hy.near hb b5 h2
    have n3 := hz.near he c5 h3
    set w : Fin 3 → ℝ := ![(xs a).re, (ys b).re, (zs e).re] with hw
    have hwR : w ∈ Box64 m nz xs ys zs :=
      ⟨(hx.between a ha).1, (hx.between a ha).2, (hy.between b hb).1, (hy.between b hb).2,
        (hz.between e he).1, (hz.between e he).2⟩
    have hwz : ‖w - reVec z‖ ≤ M := by
      rw [pi_norm_le_iff_of_nonneg hM0]
      intro c
      fin_cases c
      · refine n1.trans (add_le_add_left ?_ ζ)
        exact mul_le_mul_of_nonneg_left ((le_max_left _ _).trans (le_max_left _ _)) (by positivity)
      · refine n2.trans (add_le_add_left ?_ ζ)
        exact mul_le_mul_of_nonneg_left ((le_max_right _ _).trans (le_max_left _ _)) (by positivity)
      · refine n3.trans (add_le_add_left ?_ ζ)
        exact mul_le_mul_of_nonneg_left (le_max_right _ _) (by positivity)
    have hwy : ‖w - y‖ ≤ M + ‖reVec z - y‖ := by
      have := norm_add_le (w - reVec z) (reVec z - y)
      rw [sub_add_sub_cancel] at this
      linarith
    have h3 := (norm_le_pi_norm (v w - v y) c).trans ((hL w hwR y hyR).trans
      (mul_le_mul_of_nonneg_left hwy hL0))
    have h4 := abs_sub_le (f c a b e).re (v w c) (v y c)
    have h5 := hf a ha b hb e he c
    have h6 : |v w c - v y c| ≤ L * (M + ‖reVec z - y‖) := h3
    linarith
  have near : ∀ (t : ℝ) (n : ℕ), (n : ℝ) ≤ t → t < n + 1 → ∀ a ≤ 1, |t - ((n + a : ℕ) : ℝ)| ≤ 1 := by
    intro t n h1 h2 a ha
    have : (a : ℝ) ≤ 1 := by exact_mod_cast ha
    have h0 : (0 : ℝ) ≤ a := by positivity
    push_cast
    rw [abs_le]
    constructor <;> linarith
  have hzn := norm_nonneg (reVec z - y)
  rw [pi_norm_le_iff_of_nonneg (by positivity)]
  intro c
  have key := trilin64 (f := fun a b e => f c (i + a) (j + b) (k + e)) (w := v y c)
    (D := ν + L * (M + ‖reVec z - y‖))
    (a := p.re - i) (b := q.re - j) (c := s.re - k) (by linarith) (by linarith) (by linarith)
    (by linarith) (by linarith) (by linarith)
    (frac64 hx.lim a2 a3 a4) (frac64 hy.lim b2 b3 b4) (frac64 hz.lim c2 c3 c4)
    (fun a ha b hb e he => node _ _ _ (by omega) (by omega) (by omega) (near _ _ a3 a4 a ha)
      (near _ _ b3 b4 b hb) (near _ _ c3 c4 e he) c)
  have e : reVec (trilinear64 m nz xs ys zs f z) c =
      (trilin (fun a b e => f c (i + a) (j + b) (k + e)) (p - ((i : ℤ) : Fl)) (q - ((j : ℤ) : Fl))
        (s - ((k : ℤ) : Fl))).re := by
    unfold reVec trilinear64
    simp only [← hp, ← hq, ← hs, a1, b1, c1, Int.toNat_natCast]
  show |reVec (trilinear64 m nz xs ys zs f z) c - v y c| ≤ _
  rw [e]
  refine key.trans ?_
  have hw : |v y c| ≤ B := (norm_le_pi_norm (v y) c).trans hB
  have hu := mul_le_mul_of_nonneg_left hw uR_pos.le
  have u1 : 64 * uR = 2 ^ (-47 : ℤ) := by unfold uR; norm_num
  have u2 : 64 * ηR = 2 ^ (-1069 : ℤ) := by
    unfold ηR
    rw [show (64 : ℝ) = 2 ^ (6 : ℤ) by norm_num, ← zpow_add₀ (by norm_num)]
    norm_num
  rw [← u1, ← u2]
  nlinarith

/-! ## The theorem -/

/-- **C113 (gridded files, 3-D, binary64).**  The velocities are samples of `v`, each with an error
of at most `ν`, on a grid whose nodes are within `ζ` of equally spaced ones; trajectories stay in
the grid, away from its last planes.  Then C112 holds with
`ε = (1 + 2^-47) (ν + L ((1 + 2^-19) max(dx, dy, dz) + ζ)) + 2^-47 B + 2^-1069` and the Lipschitz
constant `(1 + 2^-47) L`. -/
theorem C113_gridded_3d {env : Env Fl Val64} {l : Libm} {κ : ℝ} {la : Linalg} {μ : ℝ}
    (he : Env64x3 env l la) (hc : Target64 env.m) (hm : l.Accurate κ) (hκ0 : 0 ≤ κ)
    (hκ : κ ≤ 1 / 100) (ha : la.Accurate μ) (hμ0 : 0 ≤ μ) (hμ : μ ≤ 1 / 10 ^ 6) (queue : Bool)
    (k : Kind) {v : ℝ → (Fin 3 → ℝ) → Fin 3 → ℝ} {t0 L L' ε B M r W ρ : ℝ} {s : FileSource Fl}
    {m nz : ℕ} {xs ys zs : ℕ → Fl} {dx dy dz ζ ν : ℝ}
    (hd : Samples64x3 env.fs s v t0 m nz xs ys zs dx dy dz ζ ν) {n : ℕ}
    (hn : s.snapshotFiles.length = n) (hn2 : 2 ≤ n) {h : Fl} (hh : s.timestep = h)
    (hh0 : 2 ^ (-500 : ℤ) ≤ |h.re|) (hT : ((n : ℝ) - 1) * |h.re| ≤ 2 ^ 999) (hr : 0 ≤ r)
    (hL0 : 0 ≤ L) (hL' : L' = (1 + 2 ^ (-47 : ℤ)) * L)
    (hε : ε = (1 + 2 ^ (-47 : ℤ)) * (ν + L * ((1 + 2 ^ (-19 : ℤ)) * max (max dx dy) dz + ζ)) +
      2 ^ (-47 : ℤ) * B + 2 ^ (-1069 : ℤ))
    (hρ : ρ = stepRounding W (B + ε + L' * r) |h.re|)
    (small : SmallSteps (effError ε L' ρ h.re) L' B M h.re n r) {N : ℕ} {seed : NDArray Fl}
    (hs : seed.shape = [6 * N, 3]) {P : Particles Fl} (hp : mkParticles seed = .ok P)
    (hP : readSeedParticles env.fs s.particleFile = .ok P) (X : ℕ → Fin 6 → ℝ → Fin 3 → ℝ)
    (hX : ∀ i < N, ∀ b, Along v t0 h.re n B M (X i b) ∧
      X i b t0 = reVec (groupOf seed 6 N 3 i b) ∧
      ∀ t ∈ uIcc t0 (t0 + n * h.re), ‖X i b t‖ + r ≤ W)
    (hL : ∀ j < n, ∀ w ∈ Box64 m nz xs ys zs, ∀ w' ∈ Box64 m nz xs ys zs,
      ‖v (t0 + j * h.re) w - v (t0 + j * h.re) w'‖ ≤ L * ‖w - w'‖)
    (hin : ∀ i < N, ∀ b, ∀ j < n, ∀ z : Fin 3 → ℝ, ‖z - X i b (t0 + j * h.re)‖ ≤ r →
      OnAxis64 m xs dx (z 0) ∧ OnAxis64 m ys dy (z 1) ∧ OnAxis64 nz zs dz (z 2))
    (Δx Δy Δz : ℕ → ℝ)
    (hΔ : ∀ i < N, Δx i = (groupOf seed 6 N 3 i 1 0).re - (groupOf seed 6 N 3 i 0 0).re ∧
      Δy i = (groupOf seed 6 N 3 i 2 1).re - (groupOf seed 6 N 3 i 3 1).re ∧
      Δz i = (groupOf seed 6 N 3 i 4 2).re - (groupOf seed 6 N 3 i 5 2).re ∧
      2 ^ (-500 : ℤ) ≤ |Δx i| ∧ 2 ^ (-500 : ℤ) ≤ |Δy i| ∧ 2 ^ (-500 : ℤ) ≤ |Δz i|)
    (D : ℕ → Matrix (Fin 3) (Fin 3) ℝ)
    (hD : ∀ i < N, centralDiff3 (fun b => X i b (t0 + n * h.re))
      (fun b => reVec (groupOf seed 6 N 3 i b)) = .ok (D i))
    (σ b : ℕ → ℝ) (hb : ∀ i, b i = 62 / 10 * posError (effError ε L' ρ h.re) L' B M h.re n *
      (1 / |Δx i| + 1 / |Δy i| + 1 / |Δz i|) + 2 ^ (-53 : ℤ) * (1 + 36 * σ i))
    (hσ : ∀ i < N, IsMaxStretch (D i) (σ i) ∧ b i + 2 ^ (-200 : ℤ) ≤ σ i) :
    ∃ Λ : ℕ → Val64, ((⟨.file s, .highPerf (HighPerf.fresh [m, m, nz]), .fresh k⟩ :
        Solver Fl).run env queue none).result = .ok (some ((List.range N).map Λ)) ∧
      ∀ i < N, (Λ i).Within (1 / (((n : ℝ) - 1) * |h.re|) * Real.log (σ i))
        (1 / (((n : ℝ) - 1) * |h.re|) * (12 * μ + 2 ^ (-46 : ℤ) +
          102 / 100 * (b i / (σ i - b i)) + (κ + 2 ^ (-50 : ℤ)) * |Real.log (σ i)|)) := by
  obtain ⟨f, hf⟩ := samples_updated_64x3 hc hd
  have hm2 := hd.x.two
  have hz2 := hd.z.two
  have hν : 0 ≤ ν := (abs_nonneg _).trans ((hf 0 (by omega)).1 0 (by omega) 0 (by omega) 0
    (by omega) 0)
  have hζ : 0 ≤ ζ := (abs_nonneg _).trans (hd.x.uniform 0 (by omega))
  have hdz : 0 < max (max dx dy) dz := lt_max_of_lt_right (lt_of_lt_of_le (by positivity) hd.z.normal)
  have hε0 : 0 ≤ ε := by
    have := small.speed
    rw [hε]
    positivity
  have hX0 : ∀ i < N, ∀ b, ∀ j < n, X i b (t0 + j * h.re) ∈ Box64 m nz xs ys zs := by
    intro i hi b j hj
    obtain ⟨⟨a1, a2⟩, ⟨a3, a4⟩, a5, a6⟩ :=
      hin i hi b j hj _ (by rw [sub_self, norm_zero]; exact hr)
    have p1 : 0 ≤ (2 : ℝ) ^ (-50 : ℤ) * m * dx :=
      mul_nonneg (by positivity) (le_trans (by positivity) hd.x.normal)
    have p2 : 0 ≤ (2 : ℝ) ^ (-50 : ℤ) * m * dy :=
      mul_nonneg (by positivity) (le_trans (by positivity) hd.y.normal)
    have p3 : 0 ≤ (2 : ℝ) ^ (-50 : ℤ) * nz * dz :=
      mul_nonneg (by positivity) (le_trans (by positivity) hd.z.normal)
    exact ⟨a1, by linarith, a3, by linarith, a5, by linarith⟩
  refine C112_binary64_3d (src := .file s) he hm hκ0 hκ ha hμ0 hμ queue k hn hn2 hh hh0 hT hε0 hr hρ
    small hs hp hP X hX (I0 := .highPerf (HighPerf.fresh [m, m, nz])) rfl rfl
    (fun i hi => (hf i (by omega)).2.1) (fun j => trilinear64 m nz xs ys zs (f j)) _
    (fun j hj => (hf j (by omega)).2.2 (6 * N))
    (fun i hi b j hj z hz => ⟨hin i hi b j hj _ hz, ?_⟩) Δx Δy Δz hΔ D hD σ b hb hσ
  have hf' := (hf j (by omega)).1
  rw [hh] at hf'
  rw [hε, hL']
  obtain ⟨q0, q1, q2⟩ := hin i hi b j hj _ hz
  exact trilinear64_error hd.x hd.y hd.z hL0 (hL j hj) hf' (hX0 i hi b j hj)
    ((hX i hi b).1.speed _ (mem_times hj.le)) q0 q1 q2

end Verif
